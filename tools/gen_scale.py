#!/usr/bin/env python3
"""Writes lean/Verif/Props/ScaleCC.lean (C63: homogeneity and homomorphisms) and LinearCC.lean (C64: linearity) for the public routines of
cc_equations.py and cc_energy.py, from the statements of C53 in Props/Num{G,U,R}.lean."""
import re
from numlib import *
d = root + 'Props'
BOOL = {'i', 't', 'l', 'c', 'p'}

def binders(s):
    out, depth, start = [], 0, 0
    for k, ch in enumerate(s):
        if ch in '({':
            if depth == 0: start = k
            depth += 1
        elif ch in ')}':
            depth -= 1
            if depth == 0: out.append((s[start], s[start + 1:k]))
    return out

def strip(t):
    t = t.strip()
    while t.startswith('('):
        dp = 0
        for i, c in enumerate(t):
            dp += (c == '(') - (c == ')')
            if dp == 0: break
        if i == len(t) - 1: t = t[1:-1].strip()
        else: break
    return t

def tree(ty, leaf, pr='', mk=lambda a, b: f'({a}, {b})'):
    t = strip(ty)
    dp = 0
    for i, c in enumerate(t):
        dp += (c == '(') - (c == ')')
        if c == '×' and dp == 0:
            return mk(tree(t[:i], leaf, pr + '.1', mk), tree(t[i+1:], leaf, pr + '.2', mk))
    return leaf(pr, t)

rank = lambda t: t.count('→')
res = {fn: (r, rets) for fn, P, r, args, rets in routines()}
hamil = lambda nm, ty: ty.split()[0] in ('OneE', 'TwoE', 'TwoEFull', 'LambdaInt') or nm[0] in 'fIeF' and nm != 'fac'
scale, linear = [], []
for x in 'GUR':
    src = open(f'{d}/Num{x}.lean').read()
    for m in re.finditer(r'theorem C53_(\w+) (.*) :\n    Computes (\w+)\n(.*)\n(.*) :=\n', src):
        name, bs, f, ds, es = m.groups()
        bools, hyps, data = [], 0, []
        for br, b in binders(bs):
            if br == '{': bools += b.split(' : ')[0].split()
            elif re.match(r'h\w+ : \w = true', b): hyps += 1
            else: data.append(tuple(b.split(' : ', 1)))
        w = 0 if 'rdm' in name else 1
        ws = []
        for a in ds.strip()[1:-1].split(', '):
            nm = a.split()[-1].split('.')[0]
            ws.append(1 if hamil(nm, dict(data)[nm]) else 0)
        n_es = es.count('.two') + es.count('.four') + es.count('.num')
        bo = ' '.join(f'({b} := true)' for b in bools)
        hy = ' (fun _ => rfl)' * hyps
        ho = '(fun hh => nomatch hh)'
        r, rets = res[name]
        call = f'CC.{name} ' + ' '.join(nm for nm, _ in data)
        bind = ' '.join(f'({nm} : {ty})' for nm, ty in data)
        def img(nm, ty, term=None):
            term = term or nm
            if ty.split()[0] in ('OneE', 'TwoE', 'TwoEFull', 'LambdaInt'): return f'({term}.sc s σ)'
            if '×' in ty: return tree(ty, lambda pr, t: img(nm, t, term + pr))
            k = rank(ty)
            return (f'(sc{k} s σ {term})' if hamil(nm, ty) else f'(hom{k} σ {term})') if k else f'(σ {term})'
        new = ' '.join(img(nm, ty) for nm, ty in data)
        kinds = re.findall(r'\.(two|four|num) ', es)
        leaf = lambda pr, t: (f'(sc{rank(t)} s σ ({call}){pr})' if w else f'(hom{rank(t)} σ ({call}){pr})') if rank(t) else (f's * σ (({call}){pr})' if w else f'σ (({call}){pr})')
        hs = [f'h{k}' for k in range(n_es)]
        if r is None:
            rhs = f'({call}).sc s σ'
            names = [q.split('.')[1] for q in rets]
            pf = 'exact lam_ext ' + ' '.join(f'(dsc_{kinds[names.index(g)]}.1 {hs[names.index(g)]})' for g in LAM)
        else:
            rhs = tree(r, leaf)
            it = iter(zip(hs, kinds))
            def lf(pr, t):
                h, k = next(it)
                return f'(dsc_{k}.1 {h})'
            pf = 'exact ' + tree(r, lf, mk=lambda a, b: f'(Prod.ext {a} {b})')
        inv = ''.join(f'  obtain ⟨h{k}, h⟩ := h.inv\n' for k in range(n_es))
        scale.append(f'''theorem C63_{name} {bind} :
    CC.{name} {new} = {rhs} := by
  have h := scales (σ := σ) (s := {'s' if w else '1'}) (ws := {ws}) (us := {[w] * n_es}) (C53_{name} (n := n) {bo}{hy} {' '.join(nm for nm, _ in data)})
    (C53_{name} (n := n) {bo}{hy} {new}) rfl rfl (by krfl) rfl (by scargs)
{inv}  {pf}
''')
        if not w: continue
        two = lambda nm: "'".join([nm, '']) if hamil(nm, dict(data)[nm]) else nm
        bind = ' '.join(f"({nm} {nm}' : {ty})" if hamil(nm, ty) else f'({nm} : {ty})' for nm, ty in data)
        call2 = f'CC.{name} ' + ' '.join(two(nm) for nm, _ in data)
        def lin(nm, ty):
            if not hamil(nm, ty): return nm
            if ty.split()[0] in ('OneE', 'TwoE', 'TwoEFull', 'LambdaInt'): return f"({nm}.lin x y {nm}')"
            assert '×' not in ty
            return f"(lin{rank(ty)} x y {nm} {nm}')"
        new = ' '.join(lin(nm, ty) for nm, ty in data)
        if r is None:
            rhs = f'({call}).lin x y ({call2})'
        else:
            rhs = tree(r, lambda pr, t: f'lin{rank(t)} x y ({call}){pr} ({call2}){pr}' if rank(t) else f'x * ({call}){pr} + y * ({call2}){pr}')
        c53 = lambda a: f'(C53_{name} (n := n) {bo}{hy} {a})'
        linear.append(f'''theorem C64_{name} {bind} :
    CC.{name} {new} = {rhs} := by
  have h := linear (x := x) (y := y) (ws := {ws}) (us := {[w] * n_es}) {c53(' '.join(nm for nm, _ in data))}
    {c53(' '.join(two(nm) for nm, _ in data))}
    {c53(new)} rfl rfl rfl (by krfl) (by lintys) (by lintys) (by linargs)
{inv}  {pf.replace('dsc_', 'dlin_')}
''')
lamsc = '\n'.join(f'  {f} := sc{len(axes(t))} s σ W.{f}' for f, t in LAM.items())
lamext = ' '.join(f'(_ : A.{f} = B.{f})' for f in LAM)
ones = ['oo', 'ov', 'vo', 'vv']
blocks = lambda st: re.findall(r'\n  (\w{4}) :', re.search(r'structure ' + st + r' .*?where(.*?)\n\n', open(root + 'Model/Blocks.lean').read(), re.S).group(1))
sc = lambda fs, k, v: '\n'.join(f'  {f} := sc{k} s σ {v}.{f}' for f in fs)
open(d + '/ScaleCC.lean', 'w').write(f'''import Verif.Props.Scale
import Verif.Props.NumU
import Verif.Props.NumR
/-!
# C63: homogeneity in the Hamiltonian and homomorphisms of the numbers, routine by routine

Generated by `tools/gen_scale.py`.
-/

set_option linter.unusedVariables false

namespace Heap
open CC
variable {{n : ℕ → ℕ}} {{K L : Type}} [Field K] [Field L] (σ : K →+* L) (s : L)

section
variable {{A B C D : Type}}
/-- The elements are mapped by the homomorphism. -/
def hom2 (f : A → B → K) : A → B → L := fun i j => σ (f i j)
def hom4 (f : A → B → C → D → K) : A → B → C → D → L := fun i j a b => σ (f i j a b)
/-- The elements are mapped and multiplied by `s`. -/
def sc2 (f : A → B → K) : A → B → L := fun i j => s * σ (f i j)
def sc4 (f : A → B → C → D → K) : A → B → C → D → L := fun i j a b => s * σ (f i j a b)

def _root_.CC.OneE.sc (F : OneE A B K) : OneE A B L where
{sc(ones, 2, 'F')}

def _root_.CC.TwoE.sc (I : TwoE A B K) : TwoE A B L where
{sc(blocks('TwoE'), 4, 'I')}

def _root_.CC.TwoEFull.sc (I : TwoEFull A B C D K) : TwoEFull A B C D L where
{sc(blocks('TwoEFull'), 4, 'I')}

def _root_.CC.LambdaInt.sc (W : LambdaInt A B K) : LambdaInt A B L where
{lamsc}

theorem lam_ext {{A B : LambdaInt C D K}} {lamext} : A = B := by
  obtain ⟨⟩ := A
  obtain ⟨⟩ := B
  simp_all
end

macro "scargs" : tactic => `(tactic| repeat first
  | exact .nil
  | refine .cons (dsc_four.2 rfl) ?_
  | refine .cons (dsc_two.2 rfl) ?_
  | refine .cons (dsc_num.2 rfl) ?_)

''' .replace('def _root_.CC.OneE.sc (F', 'def _root_.CC.OneE.sc (s : L) (σ : K →+* L) (F').replace('def _root_.CC.TwoE.sc (I', 'def _root_.CC.TwoE.sc (s : L) (σ : K →+* L) (I').replace('def _root_.CC.TwoEFull.sc (I', 'def _root_.CC.TwoEFull.sc (s : L) (σ : K →+* L) (I').replace('def _root_.CC.LambdaInt.sc (W', 'def _root_.CC.LambdaInt.sc (s : L) (σ : K →+* L) (W').replace('def sc2 (f', 'def sc2 (s : L) (σ : K →+* L) (f').replace('def sc4 (f', 'def sc4 (s : L) (σ : K →+* L) (f')
 + '\n'.join(scale) + '\nend Heap\n')

lin = lambda fs, k, a: '\n'.join(f"  {f} := lin{k} x y {a}.{f} {a}'.{f}" for f in fs)
lamlin = '\n'.join(f"  {f} := lin{len(axes(t))} x y W.{f} W'.{f}" for f, t in LAM.items())
open(d + '/LinearCC.lean', 'w').write(f'''import Verif.Props.Linear
import Verif.Props.ScaleCC
/-!
# C64: linearity in the Hamiltonian, routine by routine

Generated by `tools/gen_scale.py`.
-/

set_option linter.unusedVariables false

namespace Heap
open CC
variable {{n : ℕ → ℕ}} {{K : Type}} [Field K] (x y : K)

section
variable {{A B C D : Type}}
/-- `x f + y g`. -/
def lin2 (f g : A → B → K) : A → B → K := fun i j => x * f i j + y * g i j
def lin4 (f g : A → B → C → D → K) : A → B → C → D → K := fun i j a b => x * f i j a b + y * g i j a b

def _root_.CC.OneE.lin (x y : K) (F F' : OneE A B K) : OneE A B K where
{lin(ones, 2, 'F')}

def _root_.CC.TwoE.lin (x y : K) (I I' : TwoE A B K) : TwoE A B K where
{lin(blocks('TwoE'), 4, 'I')}

def _root_.CC.TwoEFull.lin (x y : K) (I I' : TwoEFull A B C D K) : TwoEFull A B C D K where
{lin(blocks('TwoEFull'), 4, 'I')}

def _root_.CC.LambdaInt.lin (x y : K) (W W' : LambdaInt A B K) : LambdaInt A B K where
{lamlin}
end

macro "lintys" : tactic => `(tactic| simp only [List.map_cons, List.map_nil, Desc.ty])

macro "linargs" : tactic => `(tactic| repeat first
  | exact .nil
  | refine .cons (dlin_four.2 rfl) ?_
  | refine .cons (dlin_two.2 rfl) ?_
  | refine .cons (dlin_same _) ?_)

''' + '\n'.join(linear) + '\nend Heap\n')
