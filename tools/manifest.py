"""Write MANIFEST.json: theorem names are collected from lean/Verif/Props/*.lean
(theorems named Cnn_...), statuses and notes from tools/notes.json."""
import glob
import json
import os
import re

root = os.path.dirname(os.path.dirname(os.path.abspath(__file__)))
props = [json.loads(l) for l in open(os.path.join(root, "properties.jsonl")) if l.strip()]
notes = json.load(open(os.path.join(root, "tools", "notes.json")))
thms = {}
for f in sorted(glob.glob(os.path.join(root, "lean/Verif/Props/*.lean"))):
    ns = []
    for line in open(f):
        m = re.match(r"namespace (\S+)", line)
        if m:
            ns.append(m.group(1))
        m = re.match(r"end (\S+)", line)
        if m and ns and ns[-1] == m.group(1):
            ns.pop()
        m = re.match(r"(?:private |protected )?theorem (C\d+)(_\S+)", line)
        if m:
            thms.setdefault(m.group(1), []).append(".".join(ns + [m.group(1) + m.group(2)]))
claims = []
for p in props:
    i = p["id"]
    n = notes.get(i, {})
    if i in thms or n.get("status") == "not_applicable":
        claims.append({"property": i, "status": n.get("status", "proved"),
                       "theorems": thms.get(i, []), "note": n.get("note", "")})
json.dump({"claims": claims}, open(os.path.join(root, "MANIFEST.json"), "w"), indent=1)
print(len(claims), "claims;", "missing:", [p["id"] for p in props if p["id"] not in thms])
