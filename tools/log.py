#!/usr/bin/env python3
"""Append mutation results (output of mutate.py) to seeded/LOG.jsonl.

usage: log.py OUT.jsonl [TIGHTENED.json]   (TIGHTENED: {"definition": ["theorem", ...]} for survivors that led to stronger theorems)
"""
import json, os, sys
root = os.path.dirname(os.path.dirname(os.path.abspath(__file__)))
tight = json.load(open(sys.argv[2])) if len(sys.argv) > 2 else {}
with open(os.path.join(root, 'seeded', 'LOG.jsonl'), 'a') as f:
    for l in open(sys.argv[1]):
        d = json.loads(l)
        if any(x.startswith('Model.') for x in d['failed']):
            continue
        t = tight.get(d['definition'], []) if d['survived'] else []
        e = {"definition": d['definition'], "edit": d['edit'], "claim_broken": d['claim'], "theorems_failed": d['failed'], "theorems_tightened": t}
        if d['survived']:
            e['note'] = d.get('note', tight.get(d['definition'] + '!note', 'survived'))
        f.write(json.dumps(e, ensure_ascii=False) + '\n')
