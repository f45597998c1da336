/-
The unit tests of cqcpy/tests that need no external program, as propositions: "all assertions of the test hold".

The random numbers a test draws are parameters, in the order drawn; so are the sizes, which the tests fix.  The numbers are real numbers, so what is
modelled is the assertion without rounding; `thresh` is the threshold of the assertion.  Arrays are those of Model/Util and Model/SpinFin; `r2`, `r4`, `f1`, `f2`, `f3`
cut them to their extents where they are passed to cc_equations.py, and `e2`, `e4` go back.
-/
import Verif.Model.Util
import Verif.Props.Num
import Verif.Model.CCGL
import Verif.Model.CCRT
import Verif.Model.CCRL
import Verif.Model.CCRRdm
import Verif.Model.CCEnergy
import Verif.Model.Ft

noncomputable section
namespace CC.Tests

open CC CC.Num

/-- a two-dimensional array -/
abbrev M := ℕ → ℕ → ℝ
/-- a four-dimensional array -/
abbrev T := ℕ → ℕ → ℕ → ℕ → ℝ

/-- `numpy.linalg.norm` of a two-dimensional array: the square root of the sum of the squares of all elements -/
def norm2 {P Q : Type} [Fintype P] [Fintype Q] (X : P → Q → ℝ) : ℝ := √(∑ x, ∑ y, X x y ^ 2)

/-- `numpy.linalg.norm` of an array with more axes (which NumPy flattens) -/
def norm4 {P Q R S : Type} [Fintype P] [Fintype Q] [Fintype R] [Fintype S] (X : P → Q → R → S → ℝ) : ℝ :=
  √(∑ x, ∑ y, ∑ z, ∑ w, X x y z w ^ 2)

/-- `x / y < t` for NumPy numbers with `0 ≤ x`: if `y` is zero the quotient is `nan` or `inf`, which is not smaller than anything. -/
def quotLt (x y t : ℝ) : Prop := y ≠ 0 ∧ x / y < t

/-- `numpy.sqrt(X.size)` -/
def rootSize (ns : List ℕ) : ℝ := √(ns.prod : ℕ)

/-- The attributes of a `two_e_blocks_full` object, if none is `None`. -/
def full (R : BlocksFull ℝ) : Option (TwoEFull ℕ ℕ ℕ ℕ ℝ) := do
  return { vvvv := ← R.vvvv, vvvo := ← R.vvvo, vvov := ← R.vvov, vovv := ← R.vovv, ovvv := ← R.ovvv, vvoo := ← R.vvoo, vovo := ← R.vovo,
           ovvo := ← R.ovvo, voov := ← R.voov, ovov := ← R.ovov, oovv := ← R.oovv, vooo := ← R.vooo, ovoo := ← R.ovoo, oovo := ← R.oovo,
           ooov := ← R.ooov, oooo := ← R.oooo }

/-- The attributes of a `two_e_blocks` object, if none is `None`. -/
def nine (R : BlocksFull ℝ) : Option (TwoE ℕ ℕ ℝ) := do
  return { vvvv := ← R.vvvv, vvvo := ← R.vvvo, vovv := ← R.vovv, vvoo := ← R.vvoo, vovo := ← R.vovo, oovv := ← R.oovv, vooo := ← R.vooo,
           ooov := ← R.ooov, oooo := ← R.oooo }

/-- `Iabab = test_utils.make_random_Ifull_gen(noa, nva, nob, nvb, noa, nva, nob, nvb)` raises nothing and returns these blocks. -/
def Mixed (noa nva nob nvb : ℕ) (Itot : T) (Iab : TwoEFull ℕ ℕ ℕ ℕ ℝ) : Prop :=
  ∃ R, make_random_Ifull_gen noa nva nob nvb noa nva nob nvb Itot = .ok R ∧ full R = some Iab

/-- `I = ov_blocks.make_two_e_blocks_full(Itot, no, nv, no, nv, no, nv, no, nv)` for an array of extents `no + nv` -/
def FullBlocks (no nv : ℕ) (Itot : T) (I : TwoEFull ℕ ℕ ℕ ℕ ℝ) : Prop :=
  ∃ R, make_two_e_blocks_full Itot (no + nv) (no + nv) (no + nv) (no + nv) no nv no nv no nv no nv = .ok R ∧ full R = some I

/-- `I = ov_blocks.make_two_e_blocks(Itot, no, nv, no, nv, no, nv, no, nv)` -/
def NineBlocks (no nv : ℕ) (Itot : T) (I : TwoE ℕ ℕ ℝ) : Prop :=
  ∃ R, make_two_e_blocks Itot (no + nv) (no + nv) (no + nv) (no + nv) no nv no nv no nv no nv = .ok R ∧ nine R = some I

/-! ## test_cc_ampl.py -/

/-- `test_ccsd_stanton`, tests/test_cc_ampl.py:17-33 -/
def test_ccsd_stanton (no nv : ℕ) (t1 : M) (t2 : T) (foo fov fvv : M) (itot : T) (thresh : ℝ) : Prop :=
  let (T1old, T2old) := make_random_T t1 t2
  let (F, I) := make_random_integrals no nv foo fov fvv itot
  let (T1sim, T2sim) := ccsd_simple (f1 no nv F) (f2 no nv I) (r2 nv no T1old) (r4 nv nv no no T2old)
  let (T1stn, T2stn) := ccsd_stanton (f1 no nv F) (f2 no nv I) (r2 nv no T1old) (r4 nv nv no no T2old)
  let D1 := norm2 (T1sim - T1stn)
  let D2 := norm4 (T2sim - T2stn)
  D1 < thresh ∧ D2 < thresh

/-- `test_ccd`, tests/test_cc_ampl.py:35-48; `numpy.zeros((nv, no))` replaces the drawn singles. -/
def test_ccd (no nv : ℕ) (t1 : M) (t2 : T) (foo fov fvv : M) (itot : T) (thresh : ℝ) : Prop :=
  let (_, T2old) := make_random_T t1 t2
  let (F, I) := make_random_integrals no nv foo fov fvv itot
  let T1old : M := fun _ _ => 0
  let T2 := ccd_simple (f1 no nv F) (f2 no nv I) (r4 nv nv no no T2old)
  let (_, T2sd) := ccsd_simple (f1 no nv F) (f2 no nv I) (r2 nv no T1old) (r4 nv nv no no T2old)
  let D := norm4 (T2 - T2sd)
  D < thresh

/-- `test_ccd_stanton`, tests/test_cc_ampl.py:50-62 -/
def test_ccd_stanton (no nv : ℕ) (t1 : M) (t2 : T) (foo fov fvv : M) (itot : T) (thresh : ℝ) : Prop :=
  let (_, T2old) := make_random_T t1 t2
  let (F, I) := make_random_integrals no nv foo fov fvv itot
  let T2 := ccd_simple (f1 no nv F) (f2 no nv I) (r4 nv nv no no T2old)
  let T2sd := ccd_stanton (f1 no nv F) (f2 no nv I) (r4 nv nv no no T2old)
  let D := norm4 (T2 - T2sd)
  D < thresh

/-- `test_ucc_energy`, tests/test_cc_ampl.py:64-95 -/
def test_ucc_energy (noa nva nob nvb : ℕ) (foa fova fva fob fovb fvb : M) (ia ib iab : T) (ta tb : M) (taa tbb tab : T) (thresh : ℝ) : Prop :=
  let Faa := make_random_F foa fova fva
  let Fbb := make_random_F fob fovb fvb
  let Ia := make_random_I_anti noa nva ia
  let Ib := make_random_I_anti nob nvb ib
  ∃ Iabab, Mixed noa nva nob nvb iab Iabab ∧
  let I := Num.int_to_spin2 Ia Ib Iabab noa nva nob nvb
  let F := Num.F_to_spin Faa Fbb noa nva nob nvb
  let (T1a, T1b) := make_random_T1_spatial ta tb
  let (T2aa, T2ab, T2bb) := make_random_T2_spatial taa tbb tab
  let T1 := Num.T1_to_spin T1a T1b noa nva nob nvb
  let T2 := Num.T2_to_spin T2aa T2ab T2bb noa nva nob nvb
  let E_ref := cc_energy (r2 (nva + nvb) (noa + nob) T1) (r4 (nva + nvb) (nva + nvb) (noa + nob) (noa + nob) T2)
    (f1 (noa + nob) (nva + nvb) F).ov (f2 (noa + nob) (nva + nvb) I).oovv
  let E_out := ucc_energy (r2 nva noa T1a, r2 nvb nob T1b) (r4 nva nva noa noa T2aa, r4 nva nvb noa nob T2ab, r4 nvb nvb nob nob T2bb)
    (f1 noa nva Faa).ov (f1 nob nvb Fbb).ov (f2 noa nva Ia).oovv (f2 nob nvb Ib).oovv (f3 noa nva nob nvb Iabab).oovv
  |E_ref - E_out| < thresh

/-- `test_uccsd`, tests/test_cc_ampl.py:97-140 -/
def test_uccsd (noa nva nob nvb : ℕ) (foa fova fva fob fovb fvb : M) (ia ib iab : T) (ta tb : M) (taa tbb tab : T) (thresh : ℝ) : Prop :=
  let Faa := make_random_F foa fova fva
  let Fbb := make_random_F fob fovb fvb
  let Ia := make_random_I_anti noa nva ia
  let Ib := make_random_I_anti nob nvb ib
  ∃ I_abab, Mixed noa nva nob nvb iab I_abab ∧
  let I := Num.int_to_spin2 Ia Ib I_abab noa nva nob nvb
  let F := Num.F_to_spin Faa Fbb noa nva nob nvb
  let (T1a, T1b) := make_random_T1_spatial ta tb
  let (T2aa, T2ab, T2bb) := make_random_T2_spatial taa tbb tab
  let T1 := Num.T1_to_spin T1a T1b noa nva nob nvb
  let T2 := Num.T2_to_spin T2aa T2ab T2bb noa nva nob nvb
  let (S1ref, S2ref) := ccsd_stanton (f1 (noa + nob) (nva + nvb) F) (f2 (noa + nob) (nva + nvb) I)
    (r2 (nva + nvb) (noa + nob) T1) (r4 (nva + nvb) (nva + nvb) (noa + nob) (noa + nob) T2)
  let (S1, S2) := uccsd_stanton (f1 noa nva Faa) (f1 nob nvb Fbb) (f2 noa nva Ia) (f2 nob nvb Ib) (f3 noa nva nob nvb I_abab)
    (r2 nva noa T1a, r2 nvb nob T1b) (r4 nva nva noa noa T2aa, r4 nva nvb noa nob T2ab, r4 nvb nvb nob nob T2bb)
  let (S1a, S1b) := S1
  let (S2aa, S2ab, S2bb) := S2
  let S1 := Num.T1_to_spin (e2 S1a) (e2 S1b) noa nva nob nvb
  let S2 := Num.T2_to_spin (e4 S2aa) (e4 S2ab) (e4 S2bb) noa nva nob nvb
  quotLt (norm2 (r2 (nva + nvb) (noa + nob) S1 - S1ref)) (rootSize [nva + nvb, noa + nob]) thresh ∧
  quotLt (norm4 (r4 (nva + nvb) (nva + nvb) (noa + nob) (noa + nob) S2 - S2ref)) (rootSize [nva + nvb, nva + nvb, noa + nob, noa + nob]) thresh

/-- `test_rcc_energy`, tests/test_cc_ampl.py:142-164 -/
def test_rcc_energy (no nv : ℕ) (foo fov fvv : M) (itot : T) (t1 : M) (t2 : T) (thresh : ℝ) : Prop :=
  let F := make_random_F foo fov fvv
  let Itot := itot + tr1032 itot
  ∃ I, FullBlocks no nv Itot I ∧
  let Ianti := I.oovv - tr0132 I.oovv
  let T1 := t1
  let T2 := t2 + tr1032 t2
  let T2aa := T2 - tr0132 T2
  let E_ref := ucc_energy (r2 nv no T1, r2 nv no T1) (r4 nv nv no no T2aa, r4 nv nv no no T2, r4 nv nv no no T2aa)
    (f1 no nv F).ov (f1 no nv F).ov (r4 no no nv nv Ianti) (r4 no no nv nv Ianti) (r4 no no nv nv I.oovv)
  let E_out := rcc_energy (r2 nv no T1) (r4 nv nv no no T2) (f1 no nv F).ov (r4 no no nv nv I.oovv)
  |E_ref - E_out| < thresh

/-- `test_rccsd`, tests/test_cc_ampl.py:166-199 -/
def test_rccsd (no nv : ℕ) (foo fov fvv : M) (itot : T) (t1 : M) (t2 : T) (thresh : ℝ) : Prop :=
  let F := make_random_F foo fov fvv
  let Itot := itot + tr1032 itot
  let Ianti := Itot - tr0132 Itot
  ∃ I, FullBlocks no nv Itot I ∧ ∃ Ia, NineBlocks no nv Ianti Ia ∧
  let T1 := t1
  let T2 := t2 + tr1032 t2
  let T2aa := T2 - tr0132 T2
  let (uS1, uS2) := uccsd_stanton (f1 no nv F) (f1 no nv F) (f2 no nv Ia) (f2 no nv Ia) (f3 no nv no nv I)
    (r2 nv no T1, r2 nv no T1) (r4 nv nv no no T2aa, r4 nv nv no no T2, r4 nv nv no no T2aa)
  let ref1 := uS1.1
  let ref2 := uS2.2.1
  let (rS1, rS2) := rccsd_stanton (f1 no nv F) (f3 no nv no nv I) (r2 nv no T1) (r4 nv nv no no T2)
  quotLt (norm2 (ref1 - rS1)) (norm2 ref1) thresh ∧ quotLt (norm4 (ref2 - rS2)) (norm4 ref2) thresh

/-! ## test_lambda_equations.py -/

/-- `test_lambda_ccsd_opt`, tests/test_lambda_equations.py:15-34 (`test_ccsd_opt`) -/
def test_lambda_ccsd_opt (no nv : ℕ) (t1 : M) (t2 : T) (l1 : M) (l2 : T) (foo fov fvv : M) (itot : T) (thresh : ℝ) : Prop :=
  let (T1old, T2old) := make_random_T t1 t2
  let (L1old, L2old) := make_random_L l1 l2
  let (F, I) := make_random_integrals no nv foo fov fvv itot
  let (L1sim, L2sim) := ccsd_lambda_simple (f1 no nv F) (f2 no nv I) (r2 no nv L1old) (r4 no no nv nv L2old) (r2 nv no T1old) (r4 nv nv no no T2old)
  let (L1opt, L2opt) := ccsd_lambda_opt (f1 no nv F) (f2 no nv I) (r2 no nv L1old) (r4 no no nv nv L2old) (r2 nv no T1old) (r4 nv nv no no T2old)
  let D1 := norm2 (L1sim - L1opt)
  let D2 := norm4 (L2sim - L2opt)
  D1 < thresh ∧ D2 < thresh

/-- `test_lambda_ccsd_stanton`, tests/test_lambda_equations.py:36-55 (`test_ccsd_stanton`) -/
def test_lambda_ccsd_stanton (no nv : ℕ) (t1 : M) (t2 : T) (l1 : M) (l2 : T) (foo fov fvv : M) (itot : T) (thresh : ℝ) : Prop :=
  let (T1old, T2old) := make_random_T t1 t2
  let (L1old, L2old) := make_random_L l1 l2
  let (F, I) := make_random_integrals no nv foo fov fvv itot
  let (L1sim, L2sim) := ccsd_lambda_simple (f1 no nv F) (f2 no nv I) (r2 no nv L1old) (r4 no no nv nv L2old) (r2 nv no T1old) (r4 nv nv no no T2old)
  let (L1opt, L2opt) := ccsd_lambda_stanton (f1 no nv F) (f2 no nv I) (r2 no nv L1old) (r4 no no nv nv L2old) (r2 nv no T1old) (r4 nv nv no no T2old)
  let D1 := norm2 (L1sim - L1opt)
  let D2 := norm4 (L2sim - L2opt)
  D1 < thresh ∧ D2 < thresh

/-- `test_lambda_ccsd_opt_int`, tests/test_lambda_equations.py:57-77 (`test_ccsd_opt_int`) -/
def test_lambda_ccsd_opt_int (no nv : ℕ) (t1 : M) (t2 : T) (l1 : M) (l2 : T) (foo fov fvv : M) (itot : T) (thresh : ℝ) : Prop :=
  let (T1old, T2old) := make_random_T t1 t2
  let (L1old, L2old) := make_random_L l1 l2
  let (F, I) := make_random_integrals no nv foo fov fvv itot
  let intor := lambda_int (f1 no nv F) (f2 no nv I) (r2 nv no T1old) (r4 nv nv no no T2old)
  let (L1sim, L2sim) := ccsd_lambda_simple (f1 no nv F) (f2 no nv I) (r2 no nv L1old) (r4 no no nv nv L2old) (r2 nv no T1old) (r4 nv nv no no T2old)
  let (L1opt, L2opt) := ccsd_lambda_opt_int (f1 no nv F) (f2 no nv I) (r2 no nv L1old) (r4 no no nv nv L2old) (r2 nv no T1old) (r4 nv nv no no T2old) intor
  let D1 := norm2 (L1sim - L1opt)
  let D2 := norm4 (L2sim - L2opt)
  D1 < thresh ∧ D2 < thresh

/-- `test_ccd`, tests/test_lambda_equations.py:79-94 -/
def test_lambda_ccd (no nv : ℕ) (t1 : M) (t2 : T) (l1 : M) (l2 : T) (foo fov fvv : M) (itot : T) (thresh : ℝ) : Prop :=
  let (_, T2old) := make_random_T t1 t2
  let (_, L2old) := make_random_L l1 l2
  let (F, I) := make_random_integrals no nv foo fov fvv itot
  let T1old : M := fun _ _ => 0
  let L1old : M := fun _ _ => 0
  let L2 := ccd_lambda_simple (f1 no nv F) (f2 no nv I) (r4 no no nv nv L2old) (r4 nv nv no no T2old)
  let (_, L2t) := ccsd_lambda_simple (f1 no nv F) (f2 no nv I) (r2 no nv L1old) (r4 no no nv nv L2old) (r2 nv no T1old) (r4 nv nv no no T2old)
  let D := norm4 (L2 - L2t)
  D < thresh

/-- `test_uccsd_lambda`, tests/test_lambda_equations.py:96-150 -/
def test_uccsd_lambda (noa nva nob nvb : ℕ) (foa fova fva fob fovb fvb : M) (ia ib iab : T) (ta tb : M) (taa tbb tab : T) (la lb : M) (laa lbb lab : T)
    (thresh : ℝ) : Prop :=
  let Fa := make_random_F foa fova fva
  let Fb := make_random_F fob fovb fvb
  let Ia := make_random_I_anti noa nva ia
  let Ib := make_random_I_anti nob nvb ib
  ∃ Iabab, Mixed noa nva nob nvb iab Iabab ∧
  let I := Num.int_to_spin2 Ia Ib Iabab noa nva nob nvb
  let F := Num.F_to_spin Fa Fb noa nva nob nvb
  let (T1a, T1b) := make_random_T1_spatial ta tb
  let (T2aa, T2ab, T2bb) := make_random_T2_spatial taa tbb tab
  let T1 := Num.T1_to_spin T1a T1b noa nva nob nvb
  let T2 := Num.T2_to_spin T2aa T2ab T2bb noa nva nob nvb
  let (L1aold, L1bold) := make_random_T1_spatial la lb
  let (L2aaold, L2abold, L2bbold) := make_random_T2_spatial laa lbb lab
  let L1old := Num.T1_to_spin L1aold L1bold nva noa nvb nob
  let L2old := Num.T2_to_spin L2aaold L2abold L2bbold nva noa nvb nob
  let (L1_ref, L2_ref) := ccsd_lambda_opt (f1 (noa + nob) (nva + nvb) F) (f2 (noa + nob) (nva + nvb) I)
    (r2 (noa + nob) (nva + nvb) L1old) (r4 (noa + nob) (noa + nob) (nva + nvb) (nva + nvb) L2old)
    (r2 (nva + nvb) (noa + nob) T1) (r4 (nva + nvb) (nva + nvb) (noa + nob) (noa + nob) T2)
  let (M1, M2) := uccsd_lambda_opt (f1 noa nva Fa) (f1 nob nvb Fb) (f2 noa nva Ia) (f2 nob nvb Ib) (f3 noa nva nob nvb Iabab)
    (r2 noa nva L1aold, r2 nob nvb L1bold) (r4 noa noa nva nva L2aaold, r4 noa nob nva nvb L2abold, r4 nob nob nvb nvb L2bbold)
    (r2 nva noa T1a, r2 nvb nob T1b) (r4 nva nva noa noa T2aa, r4 nva nvb noa nob T2ab, r4 nvb nvb nob nob T2bb)
  let (L1a, L1b) := M1
  let (L2aa, L2ab, L2bb) := M2
  let L1 := Num.T1_to_spin (e2 L1a) (e2 L1b) nva noa nvb nob
  let L2 := Num.T2_to_spin (e4 L2aa) (e4 L2ab) (e4 L2bb) nva noa nvb nob
  quotLt (norm2 (r2 (noa + nob) (nva + nvb) L1 - L1_ref)) (rootSize [noa + nob, nva + nvb]) thresh ∧
  quotLt (norm4 (r4 (noa + nob) (noa + nob) (nva + nvb) (nva + nvb) L2 - L2_ref)) (rootSize [noa + nob, noa + nob, nva + nvb, nva + nvb]) thresh

/-- `test_rccsd_lambda`, tests/test_lambda_equations.py:152-192 -/
def test_rccsd_lambda (no nv : ℕ) (foo fov fvv : M) (itot : T) (t1 : M) (t2 : T) (l1 : M) (l2 : T) (thresh : ℝ) : Prop :=
  let F := make_random_F foo fov fvv
  let Itot := itot + tr1032 itot
  let Ianti := Itot - tr0132 Itot
  ∃ I, FullBlocks no nv Itot I ∧ ∃ Ia, NineBlocks no nv Ianti Ia ∧
  let T1 := t1
  let T2 := t2 + tr1032 t2
  let L1 := l1
  let L2 := l2 + tr1032 l2
  let T2aa := T2 - tr0132 T2
  let L2aa := L2 - tr0132 L2
  let (M1, M2) := uccsd_lambda_opt (f1 no nv F) (f1 no nv F) (f2 no nv Ia) (f2 no nv Ia) (f3 no nv no nv I)
    (r2 no nv L1, r2 no nv L1) (r4 no no nv nv L2aa, r4 no no nv nv L2, r4 no no nv nv L2aa)
    (r2 nv no T1, r2 nv no T1) (r4 nv nv no no T2aa, r4 nv nv no no T2, r4 nv nv no no T2aa)
  let (rL1, rL2) := rccsd_lambda_opt (f1 no nv F) (f3 no nv no nv I) (r2 no nv L1) (r4 no no nv nv L2) (r2 nv no T1) (r4 nv nv no no T2)
  let ref1 := M1.1
  let ref2 := M2.2.1
  quotLt (norm2 (ref1 - rL1)) (norm2 ref1) thresh ∧ quotLt (norm4 (ref2 - rL2)) (norm4 ref2) thresh

/-! ## test_cc_rdm.py -/

/-- `test_1rdm_opt`, tests/test_cc_rdm.py:13-33; the default `tfac=1.0` is passed explicitly. -/
def test_1rdm_opt (no nv : ℕ) (t1 : M) (t2 : T) (l1 : M) (l2 : T) (thresh : ℝ) : Prop :=
  let (T1, T2) := make_random_T t1 t2
  let (L1, L2) := make_random_L l1 l2
  let (T1, T2, L1, L2) := (r2 nv no T1, r4 nv nv no no T2, r2 no nv L1, r4 no no nv nv L2)
  quotLt (norm2 (ccsd_1rdm_ba T1 T2 L1 L2 - ccsd_1rdm_ba_opt T1 T2 L1 L2)) (rootSize [nv, nv]) thresh ∧
  quotLt (norm2 (ccsd_1rdm_ji T1 T2 L1 L2 - ccsd_1rdm_ji_opt T1 T2 L1 L2)) (rootSize [no, no]) thresh ∧
  quotLt (norm2 (ccsd_1rdm_ai T1 T2 L1 L2 1 - ccsd_1rdm_ai_opt T1 T2 L1 L2 1)) (rootSize [nv, no]) thresh

/-- `test_2rdm_opt`, tests/test_cc_rdm.py:35-76 -/
def test_2rdm_opt (no nv : ℕ) (t1 : M) (t2 : T) (l1 : M) (l2 : T) (thresh : ℝ) : Prop :=
  let (T1, T2) := make_random_T t1 t2
  let (L1, L2) := make_random_L l1 l2
  let (T1, T2, L1, L2) := (r2 nv no T1, r4 nv nv no no T2, r2 no nv L1, r4 no no nv nv L2)
  quotLt (norm4 (ccsd_2rdm_cdab T1 T2 L1 L2 - ccsd_2rdm_cdab_opt T1 T2 L1 L2)) (rootSize [nv, nv, nv, nv]) thresh ∧
  quotLt (norm4 (ccsd_2rdm_bcai T1 T2 L1 L2 - ccsd_2rdm_bcai_opt T1 T2 L1 L2)) (rootSize [nv, nv, nv, no]) thresh ∧
  quotLt (norm4 (ccsd_2rdm_bjai T1 T2 L1 L2 - ccsd_2rdm_bjai_opt T1 T2 L1 L2)) (rootSize [nv, no, nv, no]) thresh ∧
  quotLt (norm4 (ccsd_2rdm_abij T1 T2 L1 L2 1 - ccsd_2rdm_abij_opt T1 T2 L1 L2 1)) (rootSize [nv, nv, no, no]) thresh ∧
  quotLt (norm4 (ccsd_2rdm_kaij T1 T2 L1 L2 - ccsd_2rdm_kaij_opt T1 T2 L1 L2)) (rootSize [no, nv, no, no]) thresh ∧
  quotLt (norm4 (ccsd_2rdm_klij T1 T2 L1 L2 - ccsd_2rdm_klij_opt T1 T2 L1 L2)) (rootSize [no, no, no, no]) thresh

/-- `numpy.einsum('pq,qp->', P, A)` -/
def ein2 {P Q : Type} [Fintype P] [Fintype Q] (X : P → Q → ℝ) (A : Q → P → ℝ) : ℝ := ∑ p, ∑ q, X p q * A q p

/-- `numpy.einsum('pqrs,rspq->', P, A)` -/
def ein4 {P Q R S : Type} [Fintype P] [Fintype Q] [Fintype R] [Fintype S] (X : P → Q → R → S → ℝ) (A : R → S → P → Q → ℝ) : ℝ :=
  ∑ p, ∑ q, ∑ r, ∑ s, X p q r s * A r s p q

/-- `test_u1rdm`, tests/test_cc_rdm.py:78-144 -/
def test_u1rdm (noa nva nob nvb : ℕ) (foa fova fva fob fovb fvb : M) (ta tb : M) (taa tbb tab : T) (la lb : M) (laa lbb lab : T) (thresh : ℝ) : Prop :=
  let Aa := make_random_F foa fova fva
  let Ab := make_random_F fob fovb fvb
  let Atot := f1 (noa + nob) (nva + nvb) (Num.F_to_spin Aa Ab noa nva nob nvb)
  let (Aa, Ab) := (f1 noa nva Aa, f1 nob nvb Ab)
  let (T1a, T1b) := make_random_T1_spatial ta tb
  let (T2aa, T2ab, T2bb) := make_random_T2_spatial taa tbb tab
  let (L1a, L1b) := make_random_T1_spatial la lb
  let (L2aa, L2ab, L2bb) := make_random_T2_spatial laa lbb lab
  let T1 := r2 (nva + nvb) (noa + nob) (Num.T1_to_spin T1a T1b noa nva nob nvb)
  let L1 := r2 (noa + nob) (nva + nvb) (Num.T1_to_spin L1a L1b nva noa nvb nob)
  let T2 := r4 (nva + nvb) (nva + nvb) (noa + nob) (noa + nob) (Num.T2_to_spin T2aa T2ab T2bb noa nva nob nvb)
  let L2 := r4 (noa + nob) (noa + nob) (nva + nvb) (nva + nvb) (Num.T2_to_spin L2aa L2ab L2bb nva noa nvb nob)
  let (T1a, T1b, T2aa, T2ab, T2bb) := (r2 nva noa T1a, r2 nvb nob T1b, r4 nva nva noa noa T2aa, r4 nva nvb noa nob T2ab, r4 nvb nvb nob nob T2bb)
  let (L1a, L1b, L2aa, L2ab, L2bb) := (r2 noa nva L1a, r2 nob nvb L1b, r4 noa noa nva nva L2aa, r4 noa nob nva nvb L2ab, r4 nob nob nvb nvb L2bb)
  let pia := L1
  let pba := ccsd_1rdm_ba_opt T1 T2 L1 L2
  let pji := ccsd_1rdm_ji_opt T1 T2 L1 L2
  let pai := ccsd_1rdm_ai_opt T1 T2 L1 L2 1
  let (pba_a, pba_b) := uccsd_1rdm_ba T1a T1b T2aa T2ab T2bb L1a L1b L2aa L2ab L2bb
  let (pji_a, pji_b) := uccsd_1rdm_ji T1a T1b T2aa T2ab T2bb L1a L1b L2aa L2ab L2bb
  let (pai_a, pai_b) := uccsd_1rdm_ai T1a T1b T2aa T2ab T2bb L1a L1b L2aa L2ab L2bb 1
  quotLt |ein2 L1a Aa.vo + ein2 L1b Ab.vo - ein2 pia Atot.vo| |ein2 pia Atot.vo| thresh ∧
  quotLt |ein2 pba_a Aa.vv + ein2 pba_b Ab.vv - ein2 pba Atot.vv| |ein2 pba Atot.vv| thresh ∧
  quotLt |ein2 pji_a Aa.oo + ein2 pji_b Ab.oo - ein2 pji Atot.oo| |ein2 pji Atot.oo| thresh ∧
  quotLt |ein2 pai_a Aa.ov + ein2 pai_b Ab.ov - ein2 pai Atot.ov| |ein2 pai Atot.ov| thresh

/-- `test_u2rdm`, tests/test_cc_rdm.py:146-283.  Where a contraction string of the test permutes the axes of the mixed-spin block, so does the function here. -/
def test_u2rdm (noa nva nob nvb : ℕ) (ia ib iab : T) (ta tb : M) (taa tbb tab : T) (la lb : M) (laa lbb lab : T) (thresh : ℝ) : Prop :=
  let Aa := make_random_I_anti noa nva ia
  let Ab := make_random_I_anti nob nvb ib
  ∃ Aab, Mixed noa nva nob nvb iab Aab ∧
  let Atot := f2 (noa + nob) (nva + nvb) (Num.int_to_spin2 Aa Ab Aab noa nva nob nvb)
  let (Aa, Ab, Aab) := (f2 noa nva Aa, f2 nob nvb Ab, f3 noa nva nob nvb Aab)
  let (T1a, T1b) := make_random_T1_spatial ta tb
  let (T2aa, T2ab, T2bb) := make_random_T2_spatial taa tbb tab
  let (L1a, L1b) := make_random_T1_spatial la lb
  let (L2aa, L2ab, L2bb) := make_random_T2_spatial laa lbb lab
  let T1 := r2 (nva + nvb) (noa + nob) (Num.T1_to_spin T1a T1b noa nva nob nvb)
  let L1 := r2 (noa + nob) (nva + nvb) (Num.T1_to_spin L1a L1b nva noa nvb nob)
  let T2 := r4 (nva + nvb) (nva + nvb) (noa + nob) (noa + nob) (Num.T2_to_spin T2aa T2ab T2bb noa nva nob nvb)
  let L2 := r4 (noa + nob) (noa + nob) (nva + nvb) (nva + nvb) (Num.T2_to_spin L2aa L2ab L2bb nva noa nvb nob)
  let (T1a, T1b, T2aa, T2ab, T2bb) := (r2 nva noa T1a, r2 nvb nob T1b, r4 nva nva noa noa T2aa, r4 nva nvb noa nob T2ab, r4 nvb nvb nob nob T2bb)
  let (L1a, L1b, L2aa, L2ab, L2bb) := (r2 noa nva L1a, r2 nob nvb L1b, r4 noa noa nva nva L2aa, r4 noa nob nva nvb L2ab, r4 nob nob nvb nvb L2bb)
  let (Pciab_u, PCIAB_u, PcIaB_u, PCiAb_u) := uccsd_2rdm_ciab T1a T1b T2aa T2ab T2bb L1a L1b L2aa L2ab L2bb
  let (Pjkai_u, PJKAI_u, PjKaI_u, PJkAi_u) := uccsd_2rdm_jkai T1a T1b T2aa T2ab T2bb L1a L1b L2aa L2ab L2bb
  let (Pcdab_u, PCDAB_u, PcDaB_u) := uccsd_2rdm_cdab T1a T1b T2aa T2ab T2bb L1a L1b L2aa L2ab L2bb
  let (Pbjai_u, PBJAI_u, PbJaI_u, PbJAi_u, PBjaI_u, PBjAi_u) := uccsd_2rdm_bjai T1a T1b T2aa T2ab T2bb L1a L1b L2aa L2ab L2bb
  let (Pklij_u, PKLIJ_u, PkLiJ_u) := uccsd_2rdm_klij T1a T1b T2aa T2ab T2bb L1a L1b L2aa L2ab L2bb
  let (Pbcai_u, PBCAI_u, PbCaI_u, PBcAi_u) := uccsd_2rdm_bcai T1a T1b T2aa T2ab T2bb L1a L1b L2aa L2ab L2bb
  let (Pkaij_u, PKAIJ_u, PkAiJ_u, PKaIj_u) := uccsd_2rdm_kaij T1a T1b T2aa T2ab T2bb L1a L1b L2aa L2ab L2bb
  let (Pabij_u, PABIJ_u, PaBiJ_u) := uccsd_2rdm_abij T1a T1b T2aa T2ab T2bb L1a L1b L2aa L2ab L2bb 1
  let near (out ref : ℝ) : Prop := quotLt |out - ref| |ref + 0.001| thresh
  near (ein4 L2aa Aa.vvoo + ein4 L2bb Ab.vvoo + 4 * ein4 L2ab Aab.vvoo)
    (ein4 (L2) Atot.vvoo) ∧
  near (ein4 Pciab_u Aa.vvvo + ein4 PCIAB_u Ab.vvvo + 2 * ein4 PcIaB_u Aab.vvvo + 2 * ein4 PCiAb_u (fun p q r s => Aab.vvov q p s r))
    (ein4 (ccsd_2rdm_ciab T1 T2 L1 L2) Atot.vvvo) ∧
  near (ein4 Pjkai_u Aa.vooo + ein4 PJKAI_u Ab.vooo + 2 * ein4 PjKaI_u Aab.vooo + 2 * ein4 PJkAi_u (fun p q r s => Aab.ovoo q p s r))
    (ein4 (ccsd_2rdm_jkai T1 T2 L1 L2) Atot.vooo) ∧
  near (ein4 Pcdab_u Aa.vvvv + ein4 PCDAB_u Ab.vvvv + 4 * ein4 PcDaB_u Aab.vvvv)
    (ein4 (ccsd_2rdm_cdab T1 T2 L1 L2) Atot.vvvv) ∧
  near (ein4 Pbjai_u Aa.vovo + ein4 PbJaI_u Aab.vovo - ein4 PbJAi_u (fun p q r s => Aab.ovvo q p r s) - ein4 PBjaI_u (fun p q r s => Aab.voov p q s r)
    + ein4 PBjAi_u (fun p q r s => Aab.ovov q p s r) + ein4 PBJAI_u Ab.vovo)
    (ein4 (ccsd_2rdm_bjai T1 T2 L1 L2) Atot.vovo) ∧
  near (ein4 Pklij_u Aa.oooo + ein4 PKLIJ_u Ab.oooo + 4 * ein4 PkLiJ_u Aab.oooo)
    (ein4 (ccsd_2rdm_klij T1 T2 L1 L2) Atot.oooo) ∧
  near (ein4 Pbcai_u Aa.vovv + 2 * ein4 PbCaI_u Aab.vovv + 2 * ein4 PBcAi_u (fun p q r s => Aab.ovvv q p s r) + ein4 PBCAI_u Ab.vovv)
    (ein4 (ccsd_2rdm_bcai T1 T2 L1 L2) Atot.vovv) ∧
  near (ein4 Pkaij_u Aa.ooov + 2 * ein4 PkAiJ_u Aab.ooov + 2 * ein4 PKaIj_u (fun p q r s => Aab.oovo q p s r) + ein4 PKAIJ_u Ab.ooov)
    (ein4 (ccsd_2rdm_kaij T1 T2 L1 L2) Atot.ooov) ∧
  near (ein4 Pabij_u Aa.oovv + ein4 PABIJ_u Ab.oovv + 4 * ein4 PaBiJ_u Aab.oovv)
    (ein4 (ccsd_2rdm_abij T1 T2 L1 L2 1) Atot.oovv)

/-- `test_r1rdm`, tests/test_cc_rdm.py:285-328 -/
def test_r1rdm (no nv : ℕ) (t1 : M) (t2 : T) (l1 : M) (l2 : T) (thresh : ℝ) : Prop :=
  let T2 := t2 + tr1032 t2
  let L2 := l2 + tr1032 l2
  let T2aa := T2 - tr0132 T2
  let L2aa := L2 - tr0132 L2
  let (T1, T2, T2aa, L1, L2, L2aa) := (r2 nv no t1, r4 nv nv no no T2, r4 nv nv no no T2aa, r2 no nv l1, r4 no no nv nv L2, r4 no no nv nv L2aa)
  let (pba_a, _) := uccsd_1rdm_ba T1 T1 T2aa T2 T2aa L1 L1 L2aa L2 L2aa
  let (pji_a, _) := uccsd_1rdm_ji T1 T1 T2aa T2 T2aa L1 L1 L2aa L2 L2aa
  let (pai_a, _) := uccsd_1rdm_ai T1 T1 T2aa T2 T2aa L1 L1 L2aa L2 L2aa 1
  let pba := rccsd_1rdm_ba T1 T2 L1 L2 1
  let pji := rccsd_1rdm_ji T1 T2 L1 L2 1
  let pai := rccsd_1rdm_ai T1 T2 L1 L2 1
  quotLt (norm2 (L1 - L1)) (rootSize [no, nv]) thresh ∧
  quotLt (norm2 (pba_a - pba)) (rootSize [nv, nv]) thresh ∧
  quotLt (norm2 (pji_a - pji)) (rootSize [no, no]) thresh ∧
  quotLt (norm2 (pai_a - pai)) (rootSize [nv, no]) thresh

/-- `test_r2rdm`, tests/test_cc_rdm.py:330-422 -/
def test_r2rdm (no nv : ℕ) (t1 : M) (t2 : T) (l1 : M) (l2 : T) (thresh : ℝ) : Prop :=
  let T2 := t2 + tr1032 t2
  let L2 := l2 + tr1032 l2
  let T2aa := T2 - tr0132 T2
  let L2aa := L2 - tr0132 L2
  let (T1, T2, T2aa, L1, L2, L2aa) := (r2 nv no t1, r4 nv nv no no T2, r4 nv nv no no T2aa, r2 no nv l1, r4 no no nv nv L2, r4 no no nv nv L2aa)
  let (_, _, PcIaB_u, _) := uccsd_2rdm_ciab T1 T1 T2aa T2 T2aa L1 L1 L2aa L2 L2aa
  let (_, _, PjKaI_u, _) := uccsd_2rdm_jkai T1 T1 T2aa T2 T2aa L1 L1 L2aa L2 L2aa
  let (_, _, PcDaB_u) := uccsd_2rdm_cdab T1 T1 T2aa T2 T2aa L1 L1 L2aa L2 L2aa
  let (_, _, PbJaI_u, PbJAi_u, _, _) := uccsd_2rdm_bjai T1 T1 T2aa T2 T2aa L1 L1 L2aa L2 L2aa
  let (_, _, PkLiJ_u) := uccsd_2rdm_klij T1 T1 T2aa T2 T2aa L1 L1 L2aa L2 L2aa
  let (_, _, PbCaI_u, _) := uccsd_2rdm_bcai T1 T1 T2aa T2 T2aa L1 L1 L2aa L2 L2aa
  let (_, _, PkAiJ_u, _) := uccsd_2rdm_kaij T1 T1 T2aa T2 T2aa L1 L1 L2aa L2 L2aa
  let (_, _, PaBiJ_u) := uccsd_2rdm_abij T1 T1 T2aa T2 T2aa L1 L1 L2aa L2 L2aa 1
  quotLt (norm4 (L2 - L2)) (rootSize [no, no, nv, nv]) thresh ∧
  quotLt (norm4 (rccsd_2rdm_ciab T1 T2 L1 L2 - PcIaB_u)) (rootSize [nv, no, nv, nv]) thresh ∧
  quotLt (norm4 (rccsd_2rdm_jkai T1 T2 L1 L2 - PjKaI_u)) (rootSize [no, no, nv, no]) thresh ∧
  quotLt (norm4 (rccsd_2rdm_cdab T1 T2 L1 L2 - PcDaB_u)) (rootSize [nv, nv, nv, nv]) thresh ∧
  quotLt (norm4 (rccsd_2rdm_bjai T1 T2 L1 L2 - PbJaI_u)) (rootSize [nv, no, nv, no]) thresh ∧
  quotLt (norm4 (rccsd_2rdm_bjia T1 T2 L1 L2 + fun b j i a => PbJAi_u b j a i)) (rootSize [nv, no, nv, no]) thresh ∧
  quotLt (norm4 (rccsd_2rdm_klij T1 T2 L1 L2 - PkLiJ_u)) (rootSize [no, no, no, no]) thresh ∧
  quotLt (norm4 (rccsd_2rdm_bcai T1 T2 L1 L2 - PbCaI_u)) (rootSize [nv, nv, nv, no]) thresh ∧
  quotLt (norm4 (rccsd_2rdm_kaij T1 T2 L1 L2 - PkAiJ_u)) (rootSize [no, nv, no, no]) thresh ∧
  quotLt (norm4 (rccsd_2rdm_abij T1 T2 L1 L2 - PaBiJ_u)) (rootSize [nv, nv, no, no]) thresh

/-! ## test_spin_utils.py -/

/-- `X[p:, ...]`-style slices: `sl4 l1 l2 l3 l4` starts the axes at these positions; the extents are those of the `Fin` types of the result. -/
def sl4 (l1 l2 l3 l4 : ℕ) (p q r s : ℕ) (X : T) : Fin p → Fin q → Fin r → Fin s → ℝ := fun x y z w => X (l1 + x) (l2 + y) (l3 + z) (l4 + w)

/-- the same for two axes -/
def sl2 (l1 l2 : ℕ) (p q : ℕ) (X : M) : Fin p → Fin q → ℝ := fun x y => X (l1 + x) (l2 + y)

/-- The assertions of `test_F_sym`, tests/test_spin_utils.py:20-38.  The last one repeats `F.vo` under the message "Fvv", with the column slice of `F.vv`:
`F.vo[:nva, nva:]` has `noa + nob - nva` columns. -/
def checks_F_sym (noa nva nob nvb : ℕ) (F : OneE ℕ ℕ ℝ) (thresh : ℝ) : Prop :=
  norm2 (sl2 0 noa noa nob F.oo) < thresh ∧
  norm2 (sl2 0 nva noa nvb F.ov) < thresh ∧
  norm2 (sl2 0 noa nva nob F.vo) < thresh ∧
  norm2 (sl2 0 nva nva (noa + nob - nva) F.vo) < thresh

/-- `test_F_sym`, tests/test_spin_utils.py:12-38 -/
def test_F_sym (noa nva nob nvb : ℕ) (foa fova fva fob fovb fvb : M) (thresh : ℝ) : Prop :=
  let Faa := make_random_F foa fova fva
  let Fbb := make_random_F fob fovb fvb
  let F := Num.F_to_spin Faa Fbb noa nva nob nvb
  checks_F_sym noa nva nob nvb F thresh

/-- `test_I_sym`, tests/test_spin_utils.py:40-70 -/
def test_I_sym (noa nva nob nvb : ℕ) (ia ib iab : T) (thresh : ℝ) : Prop :=
  let I_aaaa := make_random_Ifull noa nva ia
  let I_bbbb := make_random_Ifull nob nvb ib
  ∃ I_abab, Mixed noa nva nob nvb iab I_abab ∧
  let I := Num.int_to_spin I_aaaa I_bbbb I_abab noa nva nob nvb
  norm4 (sl4 noa 0 0 0 nob noa noa noa I.oooo) < thresh ∧
  norm4 (sl4 noa 0 0 0 nob noa noa nva I.ooov) < thresh ∧
  norm4 (sl4 nva 0 0 0 nvb noa nva noa I.vovo) < thresh ∧
  norm4 (sl4 nva 0 0 0 nvb nva nva nva I.vvvv) < thresh

/-- `test_I`, tests/test_spin_utils.py:72-256: 34 differences of blocks.  The sizes are passed to `int_to_spatial` in its own order. -/
def test_I (noa nva nob nvb : ℕ) (ia ib iab : T) (thresh : ℝ) : Prop :=
  let Ia_ref := make_random_I noa nva ia
  let Ib_ref := make_random_I nob nvb ib
  ∃ Iabab_ref, Mixed noa nva nob nvb iab Iabab_ref ∧
  let I := Num.int_to_spin2 Ia_ref Ib_ref Iabab_ref noa nva nob nvb
  let (Ia, Ib, Iabab) := Num.int_to_spatial I noa nob nva nvb
  norm4 (r4 nva nva nva nva (Ia.vvvv - Ia_ref.vvvv)) < thresh ∧
  norm4 (r4 nva nva nva noa (Ia.vvvo - Ia_ref.vvvo)) < thresh ∧
  norm4 (r4 nva noa nva nva (Ia.vovv - Ia_ref.vovv)) < thresh ∧
  norm4 (r4 nva nva noa noa (Ia.vvoo - Ia_ref.vvoo)) < thresh ∧
  norm4 (r4 nva noa nva noa (Ia.vovo - Ia_ref.vovo)) < thresh ∧
  norm4 (r4 noa noa nva nva (Ia.oovv - Ia_ref.oovv)) < thresh ∧
  norm4 (r4 nva noa noa noa (Ia.vooo - Ia_ref.vooo)) < thresh ∧
  norm4 (r4 noa noa noa nva (Ia.ooov - Ia_ref.ooov)) < thresh ∧
  norm4 (r4 noa noa noa noa (Ia.oooo - Ia_ref.oooo)) < thresh ∧
  norm4 (r4 nvb nvb nvb nvb (Ib.vvvv - Ib_ref.vvvv)) < thresh ∧
  norm4 (r4 nvb nvb nvb nob (Ib.vvvo - Ib_ref.vvvo)) < thresh ∧
  norm4 (r4 nvb nob nvb nvb (Ib.vovv - Ib_ref.vovv)) < thresh ∧
  norm4 (r4 nvb nvb nob nob (Ib.vvoo - Ib_ref.vvoo)) < thresh ∧
  norm4 (r4 nvb nob nvb nob (Ib.vovo - Ib_ref.vovo)) < thresh ∧
  norm4 (r4 nob nob nvb nvb (Ib.oovv - Ib_ref.oovv)) < thresh ∧
  norm4 (r4 nvb nob nob nob (Ib.vooo - Ib_ref.vooo)) < thresh ∧
  norm4 (r4 nob nob nob nvb (Ib.ooov - Ib_ref.ooov)) < thresh ∧
  norm4 (r4 nob nob nob nob (Ib.oooo - Ib_ref.oooo)) < thresh ∧
  norm4 (r4 nva nvb nva nvb (Iabab.vvvv - Iabab_ref.vvvv)) < thresh ∧
  norm4 (r4 nva nvb nva nob (Iabab.vvvo - Iabab_ref.vvvo)) < thresh ∧
  norm4 (r4 nva nvb noa nvb (Iabab.vvov - Iabab_ref.vvov)) < thresh ∧
  norm4 (r4 nva nob nva nvb (Iabab.vovv - Iabab_ref.vovv)) < thresh ∧
  norm4 (r4 noa nvb nva nvb (Iabab.ovvv - Iabab_ref.ovvv)) < thresh ∧
  norm4 (r4 nva nvb noa nob (Iabab.vvoo - Iabab_ref.vvoo)) < thresh ∧
  norm4 (r4 nva nob nva nob (Iabab.vovo - Iabab_ref.vovo)) < thresh ∧
  norm4 (r4 nva nob noa nvb (Iabab.voov - Iabab_ref.voov)) < thresh ∧
  norm4 (r4 noa nvb noa nvb (Iabab.ovov - Iabab_ref.ovov)) < thresh ∧
  norm4 (r4 noa nvb nva nob (Iabab.ovvo - Iabab_ref.ovvo)) < thresh ∧
  norm4 (r4 noa nob nva nvb (Iabab.oovv - Iabab_ref.oovv)) < thresh ∧
  norm4 (r4 nva nob noa nob (Iabab.vooo - Iabab_ref.vooo)) < thresh ∧
  norm4 (r4 noa nvb noa nob (Iabab.ovoo - Iabab_ref.ovoo)) < thresh ∧
  norm4 (r4 noa nob noa nvb (Iabab.ooov - Iabab_ref.ooov)) < thresh ∧
  norm4 (r4 noa nob nva nob (Iabab.oovo - Iabab_ref.oovo)) < thresh ∧
  norm4 (r4 noa nob noa nob (Iabab.oooo - Iabab_ref.oooo)) < thresh

/-- `numpy.linalg.norm(z < thresh)` as the condition of `assertTrue`: the norm of the array of truth values is not zero, that is, some element is true. -/
def normOfLt4 {P Q R S : Type} (z : P → Q → R → S → ℝ) (thresh : ℝ) : Prop := ∃ x y u w, z x y u w < thresh

/-- the same for two axes -/
def normOfLt2 {P Q : Type} (z : P → Q → ℝ) (thresh : ℝ) : Prop := ∃ x y, z x y < thresh

/-- The assertions of `test_T`, tests/test_spin_utils.py:350-357, about the arrays `T1out`, `T2out` computed.  The parenthesis of `norm` closes after the
comparison: what is asserted is the norm of an array of truth values. -/
def checks_T (no nv : ℕ) (T1ref : M) (T2ref : T) (T1out : M) (T2out : T) (thresh : ℝ) : Prop :=
  normOfLt4 (r4 nv nv no no (T2out - T2ref)) thresh ∧ normOfLt2 (r2 nv no (T1out - T1ref)) thresh

/-- What the assertions of `test_T` would say with the comparison outside the norm. -/
def meant_T (no nv : ℕ) (T1ref : M) (T2ref : T) (T1out : M) (T2out : T) (thresh : ℝ) : Prop :=
  norm4 (r4 nv nv no no (T2out - T2ref)) < thresh ∧ norm2 (r2 nv no (T1out - T1ref)) < thresh

/-- The arrays `T1ref, T2ref, T1out, T2out` of `test_T`, tests/test_spin_utils.py:338-349 -/
def arrays_T (noa nva nob nvb : ℕ) (t1 : M) (t2 : T) : M × T × M × T :=
  let (T1ref, T2ref) := make_random_T t1 t2
  let (Taa, Tab, Tbb) := Num.T2_to_spatial T2ref noa nva nob nvb
  let (Ta, Tb) := Num.T1_to_spatial T1ref noa nva nob nvb
  let T2out := Num.T2_to_spin Taa Tab Tbb noa nva nob nvb
  let T1out := Num.T1_to_spin Ta Tb noa nva nob nvb
  (T1ref, T2ref, T1out, T2out)

/-- `test_T`, tests/test_spin_utils.py:338-357 -/
def test_T (noa nva nob nvb : ℕ) (t1 : M) (t2 : T) (thresh : ℝ) : Prop :=
  let (T1ref, T2ref, T1out, T2out) := arrays_T noa nva nob nvb t1 t2
  checks_T (noa + nob) (nva + nvb) T1ref T2ref T1out T2out thresh

/-! ## test_test.py -/

/-- `test_Isym`, tests/test_test.py:13-22 -/
def test_Isym (n : ℕ) (i : T) (thresh : ℝ) : Prop :=
  let I := make_random_Itot i
  norm4 (r4 n n n n (I - tr1032 I)) < thresh ∧ norm4 (r4 n n n n (I - tr3210 I)) < thresh ∧ norm4 (r4 n n n n (I - tr2301 I)) < thresh

/-- `test_int_sym`, tests/test_test.py:24-84 -/
def test_int_sym (no nv : ℕ) (foo fov fvv : M) (itot : T) (thresh : ℝ) : Prop :=
  let (F, I) := make_random_integrals no nv foo fov fvv itot
  norm2 (r2 no no (F.oo - tr10 F.oo)) < thresh ∧
  norm2 (r2 nv nv (F.vv - tr10 F.vv)) < thresh ∧
  norm2 (r2 no nv (F.ov - tr10 F.vo)) < thresh ∧
  norm4 (r4 nv nv nv nv (I.vvvv + tr0132 I.vvvv)) < thresh ∧
  norm4 (r4 nv nv nv nv (I.vvvv + tr1023 I.vvvv)) < thresh ∧
  norm4 (r4 nv nv nv nv (I.vvvv - tr1032 I.vvvv)) < thresh ∧
  norm4 (r4 nv nv nv no (I.vvvo + tr1023 I.vvvo)) < thresh ∧
  norm4 (r4 nv no nv nv (I.vovv + tr0132 I.vovv)) < thresh ∧
  norm4 (r4 nv nv no no (I.vvoo + tr0132 I.vvoo)) < thresh ∧
  norm4 (r4 nv nv no no (I.vvoo + tr1023 I.vvoo)) < thresh ∧
  norm4 (r4 no no nv nv (I.oovv + tr0132 I.oovv)) < thresh ∧
  norm4 (r4 no no nv nv (I.oovv + tr1023 I.oovv)) < thresh ∧
  norm4 (r4 no no no nv (I.ooov + tr1023 I.ooov)) < thresh ∧
  norm4 (r4 no no no no (I.oooo + tr0132 I.oooo)) < thresh ∧
  norm4 (r4 no no no no (I.oooo + tr1023 I.oooo)) < thresh ∧
  norm4 (r4 no no no no (I.oooo - tr1032 I.oooo)) < thresh

/-- `test_Tsym`, tests/test_test.py:86-98 -/
def test_Tsym (no nv : ℕ) (t1 : M) (t2 : T) (thresh : ℝ) : Prop :=
  let (_, T2) := make_random_T t1 t2
  norm4 (r4 nv nv no no (T2 + tr0132 T2)) < thresh ∧ norm4 (r4 nv nv no no (T2 + tr1023 T2)) < thresh ∧ norm4 (r4 nv nv no no (T2 - tr1032 T2)) < thresh

/-- `test_Lsym`, tests/test_test.py:100-112 -/
def test_Lsym (no nv : ℕ) (l1 : M) (l2 : T) (thresh : ℝ) : Prop :=
  let (_, L2) := make_random_L l1 l2
  norm4 (r4 no no nv nv (L2 + tr0132 L2)) < thresh ∧ norm4 (r4 no no nv nv (L2 + tr1023 L2)) < thresh ∧ norm4 (r4 no no nv nv (L2 - tr1032 L2)) < thresh

/-- `test_ft_D_sym`, tests/test_test.py:114-125 -/
def test_ft_D_sym (n p q m : ℕ) (en e1 e2' en' : ℕ → ℝ) (thresh : ℝ) : Prop :=
  let (D1, D2) := make_random_ft_D en
  let D2' := make_random_ft_D2 e1 e2'
  let D1' := make_random_ft_D1 en'
  norm2 (r2 n n (D1 + tr10 D1)) < thresh ∧ norm4 (r4 n n n n (D2 - tr1032 D2)) < thresh ∧
  norm4 (r4 p q p q (D2' + tr2301 D2')) < thresh ∧ norm2 (r2 m m (D1' + tr10 D1')) < thresh

/-- `test_ft_int_sym`, tests/test_test.py:127-141 -/
def test_ft_int_sym (n : ℕ) (f : M) (i : T) (thresh : ℝ) : Prop :=
  let (F, I) := make_random_ft_integrals f i
  norm4 (r4 n n n n (I + tr0132 I)) < thresh ∧ norm4 (r4 n n n n (I + tr1023 I)) < thresh ∧ norm4 (r4 n n n n (I - tr1032 I)) < thresh ∧
  norm2 (r2 n n (F - tr10 F)) < thresh

/-- `numpy.linalg.norm` of an array with five axes, the first of extent `ng` -/
def norm5 (ng n : ℕ) (X : ℕ → T) : ℝ := √(∑ g : Fin ng, ∑ x : Fin n, ∑ y : Fin n, ∑ z : Fin n, ∑ w : Fin n, X g x y z w ^ 2)

/-- `test_ft_Tsym`, tests/test_test.py:143-168, without the two assertions on the shapes of `T1a`, `T1b` -/
def test_ft_Tsym (ng n mg m : ℕ) (t1 : ℕ → M) (t2 taa tbb tab : ℕ → T) (thresh : ℝ) : Prop :=
  let (_, T2) := make_random_ft_T t1 t2
  let (T2aa, _, T2bb) := make_random_ft_T2_spatial taa tbb tab
  norm5 ng n (fun g => T2 g + tr0132 (T2 g)) < thresh ∧ norm5 ng n (fun g => T2 g + tr1023 (T2 g)) < thresh ∧ norm5 ng n (fun g => T2 g - tr1032 (T2 g)) < thresh ∧
  norm5 mg m (fun g => T2aa g + tr0132 (T2aa g)) < thresh ∧ norm5 mg m (fun g => T2bb g + tr1023 (T2bb g)) < thresh ∧
  norm5 mg m (fun g => T2aa g + tr1023 (T2aa g)) < thresh ∧ norm5 mg m (fun g => T2bb g + tr0132 (T2bb g)) < thresh

/-! ## test_utils.py, test_ft_utils.py -/

/-- `test_D1`, tests/test_utils.py:32-43: the reference is filled by a double loop over the indices. -/
def test_D1 (no nv : ℕ) (eo ev : ℕ → ℝ) (thresh : ℝ) : Prop :=
  let D1ref : M := fun a i => ev a - eo i
  let D1out := D1 ev eo
  norm2 (r2 nv no (D1ref - D1out)) < thresh

/-- `test_D2`, tests/test_utils.py:45-58 -/
def test_D2 (no nv : ℕ) (eo ev : ℕ → ℝ) (thresh : ℝ) : Prop :=
  let D2ref : T := fun a b i j => ev a + ev b - eo i - eo j
  let D2out := D2 ev eo
  norm4 (r4 nv nv no no (D2ref - D2out)) < thresh

/-- `test_vector`, tests/test_ft_utils.py:96-110 -/
def test_vector (beta mu : ℝ) (es : Ft.Vec) (thresh : ℝ) : Prop :=
  let out := Ft.ff beta es mu
  let ref := fun i => Ft.fermi_function beta (es.val i) mu
  let out' := Ft.ffv beta es mu
  let ref' := fun i => Ft.vfermi_function beta (es.val i) mu
  √(∑ i : Fin es.len, (ref i - out.val i) ^ 2) < thresh ∧ √(∑ i : Fin es.len, (ref' i - out'.val i) ^ 2) < thresh

end CC.Tests
