#!/usr/bin/env python3
"""Random single edits of model definitions, as input of mutate.py.

usage: genmut.py SEED PER OUT.json FILE[:DEF,DEF...]=MODULE,MODULE ... [--new]

For each definition of lean/Verif/FILE.lean (all of them, or those named) PER edits are drawn: a sign, a constant, a comparison, a swapped pair of
arguments, another spin or block, a dropped update.  With --new definitions already in seeded/LOG.jsonl are left out.
"""
import json, random, re, sys
ROOT = '/verif'
ID = r"[A-Za-z_][A-Za-z0-9_'.]*"

def defs(lines):
    """(name, first line of the body, end)"""
    out, i, n = [], 0, len(lines)
    while i < n:
        m = re.match(r'(?:@\[[^\]]*\]\s*)?(?:private |protected |noncomputable )*(?:def|abbrev|instance)\s+([^\s:({\[]+)', lines[i])
        if m:
            j = i + 1
            while j < n and (lines[j].startswith(' ') or lines[j].startswith('|')): j += 1
            out.append((m.group(1), i, j)); i = j
        else: i += 1
    return out

SWAP = [('Ia', 'Ib'), ('ha', 'hb'), ('na', 'nb'), ('pa', 'pb'), ('noa', 'nob'), ('nva', 'nvb'), ('keta', 'ketb'), ('braa', 'brab'), ('ket', 'bra'), ('no', 'nv'), ('min', 'max'),
        ('minus', 'plus'), ('o1', 'o2'), ('v1', 'v2'), ('i1', 'i2'), ('.oo', '.vv'), ('.ov', '.vo'), ('.oovv', '.vvoo'), ('.vovo', '.voov'), ('.ovvo', '.vovo'), ('Fa', 'Fb'), ('T2aa', 'T2bb'),
        ('T2aa', 'T2ab'), ('L2aa', 'L2ab'), ('true', 'false'), ('tr0132', 'tr1032'), ('some', 'none'), ('fst', 'snd'), ('inl', 'inr'), ('.a', '.b'), ('T1', 'L1'), ('T2', 'L2'), ('div', 'mod'),
        ('sin', 'cos'), ('exp', 'log'), ('fermi', 'vfermi'), ('soa', 'sob'), ('sva', 'svb'), ('oa', 'ob'), ('va', 'vb'), ('aa', 'bb'), ('ac', 'bc')]

def edits(ls, a, b):
    """candidate (line, new line) pairs of the body"""
    res, body = [], False
    bound = set()
    for k in range(a, b):
        l = ls[k]
        if l.strip().startswith('--') or l.strip().startswith('/-'): continue
        s = 0
        if not body:
            p = l.find(':=')
            if p < 0:
                if l.strip().startswith('|'): p = l.find('=>'); body = True
                else: continue
            body, s = True, p + 2
        seg = l[s:]
        def put(kind, t):
            if t != seg: res.append((kind, k, l[:s] + t))
        for m in re.finditer(r' ([+-]) ', seg): put('sign', seg[:m.start(1)] + ('-' if m.group(1) == '+' else '+') + seg[m.end(1):])
        for m in re.finditer(r"(?<![\w.'])([012])(?![\w.'])", seg):
            for c in '012':
                if c != m.group(1): put('const', seg[:m.start()] + c + seg[m.end():])
        for x, y in [('<', '≤'), ('≤', '<'), ('>', '≥'), ('≥', '>'), ('≠', '='), ('∧', '∨'), ('∨', '∧'), ('&&', '||'), ('||', '&&'), ('==', '!='), ('!=', '==')]:
            for m in re.finditer(f' {re.escape(x)} ', seg): put('cmp', seg[:m.start()] + f' {y} ' + seg[m.end():])
        for x, y in SWAP + [(y, x) for x, y in SWAP]:
            pat = re.escape(x) if x.startswith('.') else r'(?<![\w.])' + re.escape(x)
            for m in re.finditer(pat + r"(?![\w'])", seg): put('name', seg[:m.start()] + y + seg[m.end():])
        KW = {'let', 'fun', 'if', 'then', 'else', 'do', 'return', 'match', 'with', 'pure', 'in', 'for', 'have', 'by', '_'}
        for m in re.finditer(r"(?=(?<![\w.'])(" + ID + r"|\)) (" + ID + r") (" + ID + r")(?=[ )\],]|$))", seg):
            if not KW & set(m.groups()) and m.group(2) != m.group(3): put('swap', seg[:m.start(2)] + m.group(3) + ' ' + m.group(2) + seg[m.end(3):])
        m = re.match(r'\s*let (\w+) (?::=|←) ', l)
        if m and m.group(1) in bound and l.count('(') == l.count(')') and re.search(r'(?<!\w)' + m.group(1) + r'(?!\w)', l[m.end():]):
            res.append(('drop', k, re.match(r'\s*', l).group(0) + '-- dropped'))
        if m: bound.add(m.group(1))
    return res

if __name__ == '__main__':
    random.seed(int(sys.argv[1])); per = int(sys.argv[2]); out = sys.argv[3]
    new = '--new' in sys.argv
    seen = {json.loads(l)['definition'].split(' ')[0].split('.')[-1] for l in open(ROOT + '/seeded/LOG.jsonl')} if new else set()
    L = []
    for spec in sys.argv[4:]:
        if spec.startswith('--'): continue
        fs, mods = spec.split('=')
        f, _, only = fs.partition(':')
        path = f'Verif/{f}.lean'
        src = open(f'{ROOT}/lean/{path}').read(); lines = src.split('\n')
        for name, a, b in defs(lines):
            if only and name not in only.split(','): continue
            if name.split('.')[-1] in seen: continue
            es = edits(lines, a, b)
            random.shuffle(es)
            kinds, pick = set(), []
            for e in es:
                if e[0] not in kinds: kinds.add(e[0]); pick.append(e)
            pick += [e for e in es if e not in pick]
            for kind, k, t in pick[:per]:
                old = lines[k]
                pos = sum(len(x) + 1 for x in lines[:k])
                # occurrences of the text of the line before it, as mutate.py counts them
                nth = len(src[:pos].split(old)) - 1
                if src.split(old)[:nth + 1] and old.join(src.split(old)[:nth + 1]) != src[:pos]: continue
                L.append(dict(file=path, definition=name, old=old, new=t, nth=nth, claim='', kind=kind, build=['Verif.' + x for x in mods.split(',')]))
    json.dump(L, open(out, 'w'), ensure_ascii=False)
    print(len(L))
