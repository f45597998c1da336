#!/usr/bin/env python3
"""Writes lean/Verif/Props/SymCC.lean: the public routines of cc_equations.py and cc_energy.py with arrays as results keep selection rules.
The check of Props/Rotate.lean on the programs of Model/HeapProg.lean is that of Props/Rot*.lean (`sorted_*`)."""
from numlib import *
CH = 'ovpq'
RING = {'.IToovv': 'obeys_ring1', '.IToovv2': 'obeys_ring2'}

def allowed(ax, term):
    return f'Allowed{len(ax)} {" ".join(CH[k] for k in ax)} {term}'

def kind(ax, term):
    for f in RING:
        if term.endswith(f): return RING[f]
    return {2: 'obeys_two', 4: 'obeys_four'}[len(ax)]

out = []
n = 0
for fn, P, res, args, rets in routines():
    u = fn[0] == 'u'
    typ = lambda t: re.sub(r'\b(Oa|Va|Ob|Vb|O|V)\b', lambda m: 'OVPQ'[KIND[m.group(1)]], t)
    call = f'(CC.{fn} ' + ' '.join(n for n, _ in P) + ')'
    if res is None: rs = [('.' + x.split('.')[1], axes(LAM[x.split('.')[1]])) for x in rets]
    else: rs = [(pr, axes(ty)) for pr, ty in split(res)]
    if not any(ax for _, ax in rs): continue
    n += 1
    hyps, hyp = [], {}
    for x, t in P:
        w = t.split()
        if w[0] in ('OneE', 'TwoE', 'TwoEFull', 'LambdaInt'):
            hyps.append(f'(h{x} : {x}.Allowed {" ".join(CH[KIND[y]] for y in w[1:-1])})')
            hyp[x] = None
        else:
            cs = split(t)
            for k, (pr, ty) in enumerate(cs):
                ax = axes(ty)
                h = f'h{x}' + (str(k + 1) if len(cs) > 1 else '')
                hyp[x + pr] = h
                if ax: hyps.append(f'({h} : {allowed(ax, x + pr)})')
    proofs = []
    for r, ax, term in args:
        if term in hyp and hyp[term]: h = hyp[term]
        else:
            assert r in hyp and hyp[r] is None, (fn, r, term)
            h = f'h{r}{term[len(r):]}'
        proofs.append(f'(obeys_num _ _)' if not ax else f'(({kind(ax, term)} _ _).2 {h})')
    degs = 'degs o v p q' if u else 'degs o v o v'
    labels = '(o : O → A) (v : V → A)' + (' (p : P → A) (q : Q → A)' if u else '')
    bind = ' '.join(f'({x} : {typ(t)})' for x, t in P)
    if res is None:
        concl = f'{call}.Allowed o v'
        order = [[r[0] for r in rs].index('.' + f) for f in LAM]
    else:
        order = [k for k, (pr, ax) in enumerate(rs) if ax]
        concl = ' ∧ '.join(allowed(rs[k][1], call + rs[k][0]) for k in order)
    m = len(rs)
    parts = [f'(({kind(rs[k][1], rs[k][0])} ({degs}) _).1 (h _ (by {"simp" if m == 1 else "iterate " + str(k) + " apply List.mem_cons_of_mem" if k else "skip"}; {"" if m == 1 else "exact List.mem_cons_self"})))' for k in order]
    def mem(k):
        t = 'List.mem_cons_self'
        for _ in range(k): t = f'(.tail _ {t})' if t.startswith('(') else f'(.tail _ {t})'
        return t
    parts = [f'({kind(rs[k][1], rs[k][0])} ({degs}) _).1 (h _ {mem(k)})' for k in order]
    pf = parts[0] if len(parts) == 1 else '⟨' + ',\n    '.join(parts) + '⟩'
    out.append(f'''theorem C69_{fn} {labels} {bind}
    {' '.join(hyps)} :
    {concl} := by
  have h := obeys_run ({degs}) Prog.{fn} (sorted_{fn} {' '.join(x for x, _ in P)})
    (by simpa only [List.forall_mem_cons, List.not_mem_nil, false_imp_iff, implies_true, and_true] using
      {'⟨' + ', '.join(proofs) + '⟩' if len(proofs) > 1 else proofs[0]})
  exact {pf}
''')
open(root + 'Props/SymCC.lean', 'w').write('''import Verif.Props.Grade
import Verif.Props.RotG
import Verif.Props.RotU
import Verif.Props.RotR
/-!
# C69: the routines and selection rules

Generated by `tools/gen_sym.py`.  If the integrals and amplitudes vanish where the labels of the orbitals forbid it, so do the results.
-/

set_option linter.unusedVariables false
set_option linter.unusedSectionVars false

namespace Heap
open CC
variable {O V P Q K A : Type} [Field K] [AddCommGroup A] [Fintype O] [Fintype V] [Fintype P] [Fintype Q]
variable [DecidableEq O] [DecidableEq V] [DecidableEq P] [DecidableEq Q]

''' + '\n'.join(out) + '\nend Heap\n')
print(n)
