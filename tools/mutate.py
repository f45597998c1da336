#!/usr/bin/env python3
"""Mutation tests of the theorems.

usage: mutate.py LIST.json [OUT.jsonl]

LIST.json is a list of {"file", "definition", "old", "new", "nth" (default 0), "claim", "build": [modules]}.  For each entry the edit is made in a
scratch copy (/tmp/mut, or $MUT_DST) of lean/, the modules are built, and one line {"definition", "edit", "claim", "failed", "blocked", "survived"} is
written to OUT (default /tmp/mut_out.jsonl).  The scratch copy is restored afterwards.
"""
import json, os, re, subprocess, sys
SRC = '/verif/lean'
DST = os.environ.get('MUT_DST', '/tmp/mut')

def sync():
    os.makedirs(DST, exist_ok=True)
    subprocess.run(['rsync', '-a', '--delete', SRC + '/', DST + '/'], check=True) if subprocess.run(['which', 'rsync'], capture_output=True).returncode == 0 \
        else subprocess.run(f'rm -rf {DST}; cp -a {SRC} {DST}', shell=True, check=True)

def enclosing(path, line):
    name = None
    for i, l in enumerate(open(path), 1):
        if i > line: break
        m = re.match(r'\s*(?:@\[[^\]]*\]\s*)?(?:private |protected |noncomputable )*(theorem|lemma|def|example|instance|abbrev)\s*([^\s:({\[]*)', l)
        if m: name = m.group(2) if m.group(1) != 'example' else f'example@{i}'
    return name

def run(m):
    p = os.path.join(DST, m['file'])
    src = open(os.path.join(SRC, m['file'])).read()
    parts = src.split(m['old'])
    n = m.get('nth', 0)
    assert len(parts) > n + 1, ('not found', m['file'], m['old'])
    new = m['old'].join(parts[:n + 1]) + m['new'] + m['old'].join(parts[n + 1:])
    open(p, 'w').write(new)
    try:
        r = subprocess.run(['lake', 'build'] + m['build'], cwd=DST, capture_output=True, text=True, timeout=m.get('timeout', 1500))
        out = r.stdout + r.stderr
    except subprocess.TimeoutExpired as e:
        out = (e.stdout or b'').decode() if isinstance(e.stdout, bytes) else (e.stdout or '')
        out += '\nTIMEOUT'
        subprocess.run(f'pkill -f "lean.*{DST[1:]}/" ', shell=True)
    failed = []
    for f, l in re.findall(r'error: (?:\./)?(Verif/[A-Za-z0-9/]+\.lean):(\d+):\d+', out):
        nm = enclosing(os.path.join(DST, f), int(l))
        t = f"{f[6:-5].replace('/', '.')}.{nm}"
        if t not in failed: failed.append(t)
    if 'TIMEOUT' in out: failed.append('TIMEOUT')
    open(p, 'w').write(src)
    return failed, out

if __name__ == '__main__':
    L = json.load(open(sys.argv[1]))
    out = sys.argv[2] if len(sys.argv) > 2 else '/tmp/mut_out.jsonl'
    if '--nosync' not in sys.argv: sync()
    for m in L:
        failed, o = run(m)
        modelerr = [f for f in failed if f.startswith('Model.')]
        d = {"definition": m['definition'], "edit": f"{m['old'].strip()} -> {m['new'].strip()}" if len(m['old']) < 400 else m.get('desc', ''), "claim": m['claim'], "failed": failed,
             "survived": not failed, "ill_typed": bool(modelerr)}
        open(out, 'a').write(json.dumps(d, ensure_ascii=False) + '\n')
        print(m['definition'], '|', m['new'].strip()[-80:], '|', failed if failed else 'SURVIVED', flush=True)
