"""Signatures of the public coupled-cluster routines, for gen_num.py and gen_rot.py."""
import re, glob
root = '/verif/lean/Verif/'
prog = open(root + 'Model/HeapProg.lean').read()
shallow = {}
for f in glob.glob(root + 'Model/CC*.lean'):
    for m in re.finditer(r'\ndef (\w+) (\([^\n]*\)) ?:\s*([^\n]*?) :=\n', open(f).read()):
        shallow[m.group(1)] = (m.group(2), m.group(3))
fields = {'OneE': None, 'TwoE': None}
lam = re.search(r'structure LambdaInt.*?where\n(.*?)\n\n', open(root + 'Model/CCGL.lean').read(), re.S).group(1)
LAM = dict(re.findall(r'(\w+) : (.*)', lam))
KIND = {'O': 0, 'V': 1, 'Oa': 0, 'Va': 1, 'Ob': 2, 'Vb': 3}

def params(text):
    out, d, cur = [], 0, ''
    for c in text:
        if c == '(':
            d += 1
            if d == 1: cur = ''; continue
        if c == ')':
            d -= 1
            if d == 0:
                n, t = cur.split(' : ', 1); out.append((n, t)); continue
        if d: cur += c
    return out

def split(t):
    """components of a product type with their projections"""
    t = t.strip()
    def strip(t):
        t = t.strip()
        while t.startswith('('):
            d = 0
            for i, c in enumerate(t):
                d += (c == '(') - (c == ')')
                if d == 0: break
            if i == len(t) - 1: t = t[1:-1].strip()
            else: break
        return t
    t = strip(t)
    d = 0
    for i, c in enumerate(t):
        d += (c == '(') - (c == ')')
        if c == '×' and d == 0:
            return [('.1' + p, s) for p, s in split(t[:i])] + [('.2' + p, s) for p, s in split(t[i+1:])]
    return [('', t)]

def axes(t):
    w = [x.strip() for x in t.split('→')]
    assert w[-1] == 'K', t
    return [KIND[x] for x in w[:-1]]

def blockaxes(ty, f):
    w = ty.split()
    if w[0] == 'LambdaInt': return axes(LAM[f])
    if w[0] == 'TwoEFull':
        o1, v1, o2, v2 = [KIND[x] for x in w[1:5]]
        ix = [(o1, v1), (o2, v2), (o1, v1), (o2, v2)]
    else:
        ix = [(KIND[w[1]], KIND[w[2]])] * 4
    return [ix[k][c == 'v'] for k, c in enumerate(f)]

def routines():
    """name, parameters of the model, its result type, arguments of the program as (parameter, axes, term), returned names"""
    for m in re.finditer(r'\(`(\w+)`\)\.  Names: (.*?)\. -/\ndef (\w+) : Fun where\n  params := \[(.*?)\].*?\n  ret := \[(.*?)\]\n', prog, re.S):
        fn = m.group(1)
        if fn.startswith('_'): continue
        names = dict((int(a.split()[0]), a.split()[1]) for a in m.group(2).split(', '))
        if fn == 'lambda_int':
            sh = re.search(r'\ndef lambda_int (\(.*\)) : LambdaInt', open(root + 'Model/CCGL.lean').read()).group(1)
            P, res = params(sh), None
        else:
            P, res = params(shallow[fn][0]), shallow[fn][1]
        ptype = dict(P)
        args = []
        for x in m.group(4).split(', '):
            r, _, f = names[int(x)].partition('.')
            t = ptype[r]
            if f and f.isdigit():
                pr, ty = split(t)[int(f)]
                args.append((r, axes(ty), r + pr))
            elif f: args.append((r, blockaxes(t, f), f'{r}.{f}'))
            else: args.append((r, axes(t), r))
        yield fn, P, res, args, [names[int(x.strip('.var '))] for x in m.group(5).split(', ')] if res is None else None
