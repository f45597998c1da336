"""Write Props/RoundCC.lean and Props/OverflowCC.lean (C60 and C105 for each coupled-cluster routine) from the statements of C53 in Props/Num{G,U,R}.lean."""
import re, sys

d = sys.argv[1]
out = ['''import Verif.Props.RoundRun
import Verif.Props.NumU
import Verif.Props.NumR
import Mathlib.Analysis.Complex.Basic
/-!
# C60: rounding errors of each routine

Generated by `tools/gen_round.py`; the arguments and results are those of C53.
-/

set_option linter.unusedVariables false

namespace Heap
open Prog CC
variable {n : ℕ → ℕ} {K : Type} [RCLike K]
''']

over = ['''import Verif.Props.Overflow
import Verif.Props.NumU
import Verif.Props.NumR
/-!
# C105: range of each routine

Generated by `tools/gen_round.py`; the arguments and results are those of C53.
-/

set_option linter.unusedVariables false

namespace Heap
open Prog CC
variable {n : ℕ → ℕ} {K : Type} [RCLike K]
''']

def binders(s):
    names, depth, start = [], 0, 0
    for k, ch in enumerate(s):
        if ch in '({':
            if depth == 0:
                start = k
            depth += 1
        elif ch in ')}':
            depth -= 1
            if depth == 0 and s[start] == '(':
                names += s[start + 1:k].split(' : ')[0].split()
    return names

for x in 'GUR':
    src = open(f'{d}/Num{x}.lean').read()
    for m in re.finditer(r'theorem C53_(\w+) (.*) :\n    Computes (\w+)\n(.*)\n(.*) :=\n', src):
        name, bs, f, ds, es = m.groups()
        out.append(f'theorem C60_{name} {bs} :\n    Stable {f}\n{ds}\n{es} :=\n'
                   f'  C60_stable (C53_{name} {" ".join(binders(bs))}) C42_{f} rfl\n')
        over.append(f'theorem C105_{name} {bs} :\n    InRange {f}\n{ds}\n{es} :=\n'
                    f'  C105_in_range (C53_{name} {" ".join(binders(bs))}) C42_{f} rfl\n')
out.append('''/-- Two occupied and three virtual orbitals, complex integrals, real amplitudes; the memory, the arithmetic and the errors of the arguments are arbitrary. -/
example (F : OneE (Fin 2) (Fin 3) ℂ) (I : TwoE (Fin 2) (Fin 3) ℂ) (T1 : Fin 3 → Fin 2 → ℂ) (T2 : Fin 3 → Fin 3 → Fin 2 → Fin 2 → ℂ) :
    Stable (n := fun k => k + 2) ccsd_stanton
      [.two true 0 0 F.oo, .two true 0 1 F.ov, .two true 1 0 F.vo, .two true 1 1 F.vv, .four true 0 0 0 0 I.oooo, .four true 0 0 0 1 I.ooov, .four true 0 0 1 1 I.oovv, .four true 1 0 0 0 I.vooo, .four true 1 0 1 0 I.vovo, .four true 1 0 1 1 I.vovv, .four true 1 1 0 0 I.vvoo, .four true 1 1 1 0 I.vvvo, .four true 1 1 1 1 I.vvvv, .two false 1 0 T1, .four false 1 1 0 0 T2]
      [.two true 1 0 (CC.ccsd_stanton F I T1 T2).1, .four true 1 1 0 0 (CC.ccsd_stanton F I T1 T2).2] :=
  C60_ccsd_stanton (n := fun k => k + 2) (fun h => absurd h (by decide)) F I T1 T2

/-- The constant for `cc_energy` serves an arithmetic that really rounds, at every roundoff and without errors of the arguments. -/
example (t1 : Fin 3 → Fin 2 → ℝ) (t2 : Fin 3 → Fin 3 → Fin 2 → Fin 2 → ℝ) (f : Fin 2 → Fin 3 → ℝ) (eri : Fin 2 → Fin 2 → Fin 3 → Fin 3 → ℝ) :
    ∃ C, 0 ≤ C ∧ ∀ (u : ℝ) (h0 : 0 ≤ u) (h1 : u ≤ 1), (inflate h0 h1 : Rounding ℝ u 0 (szSum 0)).op .add 1 1 = 2 + 2 * u ∧
      ∃ b : Arr ℝ, cc_energy.nrun (rounded (inflate h0 h1) true id)
        ([.two false 1 0 t1, .four false 1 1 0 0 t2, .two false 0 1 f, .four false 0 0 1 1 eri].map (Desc.arr (n := fun k => k + 2))) = .ok [b] ∧
      b.shape = [] ∧ |b.val [] - CC.cc_energy t1 t2 f eri| ≤ C * u := by
  obtain ⟨C, hC, h⟩ := C60_cc_energy (n := fun k => k + 2) (i := false) (t := false) t1 t2 f eri id (fun _ _ => le_rfl) 0 le_rfl _ (sz_mono le_rfl)
    0 le_rfl
  refine ⟨C, hC, fun u h0 h1 => ⟨by simp [inflate, ltr, opVal]; ring, ?_⟩⟩
  obtain ⟨rs, M, h2, -, -, -, -, h3⟩ := h u h0 h1 (inflate h0 h1) ⟨false, [], fun _ => 0⟩ (fun _ a _ => a)
    ⟨4, fun l => ((([.two false 1 0 t1, .four false 1 1 0 0 t2, .two false 0 1 f, .four false 0 0 1 1 eri].map
      (Desc.arr (n := fun k => k + 2)))[l]?).getD ⟨false, [], fun _ => 0⟩)⟩ [(0, []), (1, []), (2, []), (3, [])] rfl (by simp) (by
      refine .cons ⟨rfl, rfl, fun idx _ => ?_⟩ (.cons ⟨rfl, rfl, fun idx _ => ?_⟩ (.cons ⟨rfl, rfl, fun idx _ => ?_⟩ (.cons ⟨rfl, rfl, fun idx _ => ?_⟩ .nil)))
      all_goals exact (by rw [zero_mul]; exact le_of_eq (by rw [norm_eq_zero]; exact sub_self _)))
  match rs, h3 with
  | [r], .cons h3 .nil => exact ⟨_, h2, h3.2.1, h3.2.2 [] (by rw [h3.2.1]; exact .nil)⟩
''')
out.append('end Heap\n')
open(f'{d}/RoundCC.lean', 'w').write('\n'.join(out))
over.append('end Heap\n')
open(f'{d}/OverflowCC.lean', 'w').write('\n'.join(over))
