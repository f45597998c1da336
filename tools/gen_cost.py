"""Write Props/CostCC.lean (C89 for each coupled-cluster routine) from the statements of C53 in Props/Num{G,U,R}.lean.

The polynomials are those Lean computes from the programs of Model/HeapProg.lean; the file states them, the kernel checks them."""
import re, subprocess, sys

root = sys.argv[1]  # the directory lean/
ITEM = re.compile(r'\.(num|two|four) (\([^()]*\)|\w) ((?:\d )*)')
R = []
for x in 'GUR':
    src = open(f'{root}/Verif/Props/Num{x}.lean').read()
    for m in re.finditer(r'theorem C53_(\w+) (.*) :\n    Computes (\w+)\n(.*)\n(.*) :=\n  computes \w+ \(by (.*)\) \(by krfl\)', src):
        name, bs, f, ds, es, pf = m.groups()
        bools = re.search(r'\{([\w ]+) : Bool\}', bs).group(1)
        hyps = re.findall(r'\(h\w : [^()]*(?:\([^()]*\)[^()]*)?\)', bs)
        tys = [(g, [int(k) for k in ks.split()]) for kind, g, ks in ITEM.findall(ds)]
        R.append((x, name, f, bools, hyps, tys, pf))

def ty(g, ks): return f'{ks}'

ev = 'import Verif.Props.Cost\nimport Verif.Model.HeapProg\nopen Heap Prog\n'
for x, name, f, bools, hyps, tys, pf in R:
    ev += f'''#eval IO.println (repr <| (loopsOf {f} [{', '.join(ty('false', k) for g, k in tys)}]).map fun s => (s.foldl (fun m e => max m e.loop.length) 0, s.foldl (fun m e => match e.new with | some l => max m l.length | none => m) 0, flopsP s, allocatedP s))
'''
open('/tmp/costeval.lean', 'w').write(ev)
out = subprocess.run(['lake', 'env', 'lean', '/tmp/costeval.lean'], cwd=root, capture_output=True, text=True).stdout
out = re.sub(r'\s+', ' ', out)
vals = [eval(v) for v in re.findall(r'some (\(.*?\]\))(?= some| *$)', out)]
assert len(vals) == len(R), (len(vals), len(R), out[:2000])

def mono(ks, c):
    t = []
    for k in sorted(set(ks)):
        e = ks.count(k)
        t.append(f'n {k}' + (f' ^ {e}' if e > 1 else ''))
    return ' * '.join(([str(c)] if c != 1 or not t else []) + t)

def poly(p):
    q = sorted(p, key=lambda t: (-len(t[0]), t[0]))
    return ' + '.join(mono(*t) for t in q) or '0'

G = {'G': [], 'U': [], 'R': []}
for (x, name, f, bools, hyps, tys, pf), (d, r, p, q) in zip(R, vals):
    G[x].append(f'''theorem C89_{name} : Costs {f}
    [{', '.join(ty(g, k) for g, k in tys)}]
    (fun n => {poly(p)})
    (fun n => {poly(q)}) {d} {r} :=
  costs (p := {p}) (q := {q}) (by krfl)
    (fun n => by poly_at) (fun n => by poly_at)
''')
DOC = {'G': 'spin-orbital', 'U': 'unrestricted', 'R': 'restricted'}
KINDS = {'G': '`n 0` occupied and `n 1` virtual orbitals', 'R': '`n 0` occupied and `n 1` virtual orbitals',
         'U': '`n 0` occupied and `n 1` virtual orbitals of spin alpha, `n 2` and `n 3` of spin beta'}
for x in 'GUR':
    open(f'{root}/Verif/Props/Cost{x}.lean', 'w').write(f'''import Verif.Props.Cost
import Verif.Props.NumRun
import Verif.Model.HeapProg
import Mathlib.Tactic.Ring
/-!
# C89: the work of the {DOC[x]} routines

Generated by `tools/gen_cost.py`; the shapes are those of C53, with {KINDS[x]}.  The first polynomial counts arithmetic operations, the
second the elements of the arrays made; the last numbers are the most loops in a nest and the most axes of an array made.
-/

set_option linter.unusedVariables false

namespace Heap
open Prog

local macro "poly_at" : tactic => `(tactic| (simp only [Poly.at, List.map_cons, List.map_nil, List.sum_cons, List.sum_nil, List.prod_cons, List.prod_nil]; try ring))

''' + '\n'.join(G[x]) + '\nend Heap\n')
