#!/usr/bin/env python3
"""Writes lean/Verif/Props/NumG.lean, NumU.lean, NumR.lean: what the public routines of cc_equations.py and cc_energy.py compute on arrays.

For every routine of Model/HeapProg.lean (transcribed from the Python syntax tree by gen_heap.py) the theorem says that it computes the
tensors of the definition of the same name in Model/CC*.lean (transcribed by gen_cc.py).  The axes of the arguments are read off the types
of that definition; the groups of arguments (integrals i, amplitudes t, multipliers l, numbers c) off the names."""
from numlib import *

def group(n):
    if n[0] in 'Tt' and n != 'tfac': return 't'
    if n[0] == 'L': return 'l'
    if n == 'tfac': return 'c'
    if n == 'intor': return 'p'
    return 'i'

def desc(g, ax, term):
    k = ' '.join(map(str, ax))
    if not ax: return f'.num {g} {term}'
    return f'.{"two" if len(ax) == 2 else "four"} {g} {k} {term}'

def typ(t):
    return re.sub(r'\b(Oa|Va|Ob|Vb|O|V)\b', lambda m: f'(Fin (n {KIND[m.group(1)]}))', t)

files = {'G': [], 'U': [], 'R': []}
for fn, P, res, args, rets in routines():
    ds, used = [], []
    for r, ax, term in args:
        g = group(r)
        if g not in used: used.append(g)
        ds.append(desc(g, ax, term))
    used.sort()
    call = f'CC.{fn} ' + ' '.join(n for n, _ in P)
    energy, rdm, lmb = 'energy' in fn, 'rdm' in fn, 'lambda' in fn
    if energy: rc, hyp, bad = '(i || t)', [], []
    elif fn == 'lambda_int': rc, hyp, bad = '(i || t)', [], []
    elif rdm:
        rc = '(' + ' || '.join(u for u in 'tlc' if u in used) + ')'
        first = fn in ('ccsd_2rdm_abij', 'ccsd_1rdm_ai_opt', 'ccsd_2rdm_abij_opt', 'uccsd_1rdm_ai', 'rccsd_1rdm_ai', 'uccsd_2rdm_abij', 'rccsd_2rdm_abij')
        hyp, bad = [], []
        if first:
            hyp = [('hl', 'l = true → ' + ('(t || c) = true' if 'c' in used else 't = true'))]
            bad = [dict(l='true', t='false', c='false')]
    elif lmb:
        rc, hyp, bad = 'i', [('ht', 't = true → i = true'), ('hl', 'l = true → i = true')], [dict(i='false', t='true'), dict(i='false', l='true')]
        if 'p' in used:
            hyp.append(('hp', 'p = true → i = true')); bad.append(dict(i='false', p='true'))
    else: rc, hyp, bad = 'i', [('ht', 't = true → i = true')], [dict(i='false', t='true')]
    if res is None: es = [desc(rc, axes(LAM[x.split('.')[1]]), f"({call}).{x.split('.')[1]}") for x in rets]
    else: es = [desc(rc, axes(ty), f'({call}){pr}') for pr, ty in split(res)]
    bind = ' '.join(f'({n} : {typ(t)})' for n, t in P)
    hb = ''.join(f' ({h} : {s})' for h, s in hyp)
    fam = 'U' if fn[0] == 'u' else 'R' if fn[0] == 'r' else 'G'
    cs = ' <;> '.join(f'cases {u}' for u in used)
    alt = ''.join(f' | exact absurd ({h} rfl) Bool.false_ne_true' for h, _ in hyp)
    pf = f'{cs} <;> first{alt} | krfl' if alt else f'{cs} <;> krfl'
    files[fam].append(f'''theorem C53_{fn} {{{' '.join(used)} : Bool}}{hb} {bind} :
    Computes {fn}
      [{', '.join(ds)}]
      [{', '.join(es)}] :=
  computes C42_{fn} (by {pf}) (by krfl)
''')
    for k, b in enumerate(bad):
        ds2 = []
        for d in ds:
            w = d.split(' ', 2)
            ds2.append(' '.join([w[0], b.get(w[1], w[1])] + w[2:]))
        free = [u for u in used if u not in b]
        cs = ' <;> '.join(f'cases {u}' for u in ['w'] + free)
        fb = f' {{{" ".join(free)} : Bool}}' if free else ''
        nm = fn + ('' if len(bad) == 1 else '_' + [u for u in b if b[u] == 'true'][0])
        files[fam].append(f'''theorem C54_{nm}{fb} {bind} :
    RaisesCast {fn}
      [{', '.join(ds2)}] :=
  raisesCast fun w => by {cs} <;> krfl
''')
DOC = {'G': 'spin-orbital', 'U': 'unrestricted', 'R': 'restricted'}
IMP = {'G': ['CCEnergy', 'CCGT', 'CCGL', 'CCGRdm'], 'U': ['CCEnergy', 'CCUT', 'CCUL', 'CCURdm'], 'R': ['CCEnergy', 'CCRT', 'CCRL', 'CCRRdm']}
for k, v in files.items():
    open(root + f'Props/Num{k}.lean', 'w').write('import Verif.Props.NumRun\nimport Verif.Props.HeapCC\n' + ''.join(f'import Verif.Model.{x}\n' for x in IMP[k]) + f'''/-!
# C53, C54: the {DOC[k]} routines on arrays

Generated by `tools/gen_num.py`.  C53: called with arrays of the documented shapes, of any extents, the routine raises nothing and returns
the tensors of the model of the same name.  The Booleans say which groups of arguments are complex: `i` integrals, `t` amplitudes,
`l` multipliers, `c` the number `tfac`, `p` precomputed intermediates.  C54: the other combinations raise `UFuncTypeError`.
-/

set_option linter.unusedVariables false

namespace Heap
open Prog CC
variable {{n : ℕ → ℕ}} {{K : Type}} [Field K]

'''.replace('{{', '{').replace('}}', '}') + '\n'.join(v) + '\nend Heap\n')
