#!/usr/bin/env python3
"""Writes lean/Verif/Props/RotG.lean, RotU.lean, RotR.lean: the public routines of cc_equations.py and cc_energy.py commute with changes of
the orbital basis.  The check of Props/Rotate.lean is run on the programs of Model/HeapProg.lean by the kernel; the statements are about
the definitions of Model/CC*.lean."""
from numlib import *
CH = 'ovpq'

def rot(ty, term):
    """the argument or result of this type in the new basis"""
    w = ty.split()
    if w[0] == 'LambdaInt': return f'({term}.rot o v)'
    if w[0] in ('OneE', 'TwoE'): return f'({term}.rot {" ".join(CH[KIND[x]] for x in w[1:3])})'
    if w[0] == 'TwoEFull': return f'({term}.rot {" ".join(CH[KIND[x]] for x in w[1:5])})'
    cs = split(ty)
    if len(cs) > 1:
        return tree(ty, lambda pr, t: rot(t, term + pr))
    ax = axes(strip(ty))
    if not ax: return term
    return f'(rot{len(ax)} {" ".join(CH[k] for k in ax)} {term})'

def strip(t):
    t = t.strip()
    while t.startswith('('):
        d = 0
        for i, c in enumerate(t):
            d += (c == '(') - (c == ')')
            if d == 0: break
        if i == len(t) - 1: t = t[1:-1].strip()
        else: break
    return t

def tree(ty, leaf, pr='', mk=lambda a, b: f'({a}, {b})'):
    t = strip(ty)
    d = 0
    for i, c in enumerate(t):
        d += (c == '(') - (c == ')')
        if c == '×' and d == 0:
            return mk(tree(t[:i], leaf, pr + '.1', mk), tree(t[i+1:], leaf, pr + '.2', mk))
    return leaf(pr, t)

RING = {'.IToovv': 'true', '.IToovv2': 'false'}  # intermediates with indices of bras and kets in another order

def item(s, ax, term):
    for f in RING:
        if s == 's' and term.endswith(f): return f'sring {RING[f]} {" ".join(map(str, ax))} {term}'
    if not ax: return f'{s}num {term}'
    return f'{s}{"two" if len(ax) == 2 else "four"} {" ".join(map(str, ax))} {term}'

files = {'G': [], 'U': [], 'R': []}
for fn, P, res, args, rets in routines():
    fam = 'U' if fn[0] == 'u' else 'R' if fn[0] == 'r' else 'G'
    ptype = dict(P)
    typ = lambda t: re.sub(r'\b(Oa|Va|Ob|Vb|O|V)\b', lambda m: 'OVPQ'[KIND[m.group(1)]], t)
    new = {n: rot(t, n) for n, t in P}
    call = f'(CC.{fn} ' + ' '.join(n for n, _ in P) + ')'
    call2 = f'(CC.{fn} ' + ' '.join(new[n] for n, _ in P) + ')'
    as_ = [item('s', ax, term) for _, ax, term in args]
    bs = []
    for r, ax, term in args:
        if term == r: bs.append(item('t', ax, new[r]))
        elif re.match(re.escape(r) + r'(\.[12])+$', term):
            bs.append(item('t', ax, f'(rot{len(ax)} {" ".join(CH[k] for k in ax)} {term})'))
        else: bs.append(item('t', ax, new[r] + term[len(r):]))
    if res is None: rs = [('.' + x.split('.')[1], axes(LAM[x.split('.')[1]])) for x in rets]
    else: rs = [(pr, axes(ty)) for pr, ty in split(res)]
    cs = [item('s', ax, call + pr) for pr, ax in rs]
    ds = [item('t', ax, call2 + pr) for pr, ax in rs]
    hs = [f'h{k}' for k in range(len(rs))]
    ext = lambda h, ax, f='': f'((rot_{ {0: "num", 2: "two", 4: "sorts" if "." + f in RING else "four"}[len(ax)]} _ _ _).1 {h})'
    if res is None:
        rhs = f'{call}.rot o v'
        pf = f'exact LambdaInt.ext ' + ' '.join(ext(hs[[r[0] for r in rs].index('.' + f)], axes(LAM[f]), f) for f in LAM)
    else:
        rhs = tree(res, lambda pr, t: rot(t, call + pr))
        it = iter(zip(hs, rs))
        def leaf(pr, t):
            h, r = next(it)
            return ext(h, r[1])
        pf = 'exact ' + tree(res, leaf, mk=lambda a, b: f'(Prod.ext {a} {b})')
    chs = 'o v p q' if fam == 'U' else 'o v o v'
    cb = '(o : Change O O\' K) (v : Change V V\' K)' + (' (p : Change P P\' K) (q : Change Q Q\' K)' if fam == 'U' else '')
    bind = ' '.join(f'({n} : {typ(t)})' for n, t in P)
    kind = lambda ax, term: 'num' if not ax else 'two' if len(ax) == 2 else 'sorts' if any(term.endswith(f) for f in RING) else 'four'
    argpf = '(by\n' + ''.join(f'      refine .cons ((rot_{kind(ax, term)} _ _ _).2 rfl) ?_\n' for _, ax, term in args) + '      exact .nil)'
    J = lambda l: '[' + ', '.join(l) + ']'
    fams = 'O V P Q' if fam == 'U' else 'O V O V'
    files[fam].append(f'''theorem sorted_{fn} {bind} :
    Prog.{fn}.nrun (sorted (X := fam {fams})) {J(as_)} =
      .ok {J(cs)} := by krfl

theorem C55_{fn} {cb} {bind} :
    CC.{fn} {' '.join(new[n] for n, _ in P)} =
      {rhs} := by
  have h := rotates (chg {chs}) Prog.{fn}
    (bs := {J(bs)})
    (ds := {J(ds)})
    (sorted_{fn} {' '.join(n for n, _ in P)}) (by krfl) {argpf}
  {f'have h0 := rotRes1 h' if len(rs) == 1 else f"obtain ⟨{', '.join(hs)}⟩ := rotRes{len(rs)} h"}
  {pf}
''')
DOC = {'G': 'spin-orbital', 'U': 'unrestricted', 'R': 'restricted'}
IMP = {'G': ['CCEnergy', 'CCGT', 'CCGL', 'CCGRdm'], 'U': ['CCEnergy', 'CCUT', 'CCUL', 'CCURdm'], 'R': ['CCEnergy', 'CCRT', 'CCRL', 'CCRRdm']}
def lamrot(f, t):
    if '.' + f not in RING: return f'  {f} := rot{len(axes(t))} {" ".join(CH[k] for k in axes(t))} W.{f}'
    b = RING['.' + f] == 'true'
    fac = ' * '.join(f'{CH[k]}.bra {x} {y}' if (n in (0, 3)) == b else f'{CH[k]}.ket {y} {x}' for n, (k, x, y) in enumerate(zip(axes(t), 'ijab', 'xyzw')))
    return f'  {f} := fun i j a b => ∑ x, ∑ y, ∑ z, ∑ w, {fac} * W.{f} x y z w'
lam = '\n'.join(lamrot(f, t) for f, t in LAM.items())
LAMROT = f'''/-- The precomputed intermediates in the new basis. -/
def _root_.CC.LambdaInt.rot (o : Change O O' K) (v : Change V V' K) (W : LambdaInt O V K) : LambdaInt O' V' K where
{lam}

attribute [ext] LambdaInt

'''
for k, v in files.items():
    open(root + f'Props/Rot{k}.lean', 'w').write('import Verif.Props.RotRun\nimport Verif.Model.HeapProg\n' + ''.join(f'import Verif.Model.{x}\n' for x in IMP[k]) + f'''/-!
# C55: the {DOC[k]} routines and changes of the orbital basis

Generated by `tools/gen_rot.py`.  The result of a routine called with integrals and amplitudes in a new basis is the result in the old basis,
transformed.
-/

set_option linter.unusedVariables false
set_option linter.unusedSectionVars false

namespace Heap
open CC
variable {{O V P Q O' V' P' Q' K : Type}} [Field K] [Fintype O] [Fintype V] [Fintype P] [Fintype Q]
variable [Fintype O'] [Fintype V'] [Fintype P'] [Fintype Q'] [DecidableEq O] [DecidableEq V] [DecidableEq P] [DecidableEq Q]

''' + (LAMROT if k == 'G' else '') + '\n'.join(v) + '\nend Heap\n')
