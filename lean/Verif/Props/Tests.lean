import Verif.Model.Tests
import Verif.Props.GT
import Verif.Props.GL
import Verif.Props.GRdm
import Verif.Props.RT
import Verif.Props.RL
import Verif.Props.RRdm
import Verif.Props.Util
import Verif.Props.Ft
/-!
# C82: the unit tests, for all sizes and all random draws

The assertions of `cqcpy/tests` are about one set of sizes and one set of random numbers per run.  Here each is proved for
all sizes and all draws, in exact arithmetic and for every positive threshold; where the test divides by a reference value the
exact condition under which it passes is given.  Three assertions turn out to say less than their messages.
-/
set_option linter.unusedVariables false
set_option linter.unusedSimpArgs false
noncomputable section
namespace CC.Tests
open CC CC.Num Verif.Tensor

/-! ## Norms -/

theorem norm2_nonneg {P Q : Type} [Fintype P] [Fintype Q] (X : P → Q → ℝ) : 0 ≤ norm2 X := Real.sqrt_nonneg _

theorem norm4_nonneg {P Q R S : Type} [Fintype P] [Fintype Q] [Fintype R] [Fintype S] (X : P → Q → R → S → ℝ) : 0 ≤ norm4 X :=
  Real.sqrt_nonneg _

theorem le_norm2 {P Q : Type} [Fintype P] [Fintype Q] (X : P → Q → ℝ) (x : P) (y : Q) : |X x y| ≤ norm2 X := by
  refine Real.abs_le_sqrt ?_
  refine le_trans ?_ (Finset.single_le_sum (f := fun x => ∑ y, X x y ^ 2) (fun _ _ => Finset.sum_nonneg fun _ _ => sq_nonneg _) (Finset.mem_univ x))
  exact Finset.single_le_sum (f := fun y => X x y ^ 2) (fun _ _ => sq_nonneg _) (Finset.mem_univ y)

theorem le_norm4 {P Q R S : Type} [Fintype P] [Fintype Q] [Fintype R] [Fintype S] (X : P → Q → R → S → ℝ) (x : P) (y : Q) (z : R) (w : S) :
    |X x y z w| ≤ norm4 X := by
  refine Real.abs_le_sqrt ?_
  refine le_trans ?_ (Finset.single_le_sum (f := fun x => ∑ y, ∑ z, ∑ w, X x y z w ^ 2)
    (fun _ _ => Finset.sum_nonneg fun _ _ => Finset.sum_nonneg fun _ _ => Finset.sum_nonneg fun _ _ => sq_nonneg _) (Finset.mem_univ x))
  refine le_trans ?_ (Finset.single_le_sum (f := fun y => ∑ z, ∑ w, X x y z w ^ 2)
    (fun _ _ => Finset.sum_nonneg fun _ _ => Finset.sum_nonneg fun _ _ => sq_nonneg _) (Finset.mem_univ y))
  refine le_trans ?_ (Finset.single_le_sum (f := fun z => ∑ w, X x y z w ^ 2)
    (fun _ _ => Finset.sum_nonneg fun _ _ => sq_nonneg _) (Finset.mem_univ z))
  exact Finset.single_le_sum (f := fun w => X x y z w ^ 2) (fun _ _ => sq_nonneg _) (Finset.mem_univ w)

theorem norm2_zero {P Q : Type} [Fintype P] [Fintype Q] {X : P → Q → ℝ} (h : X = 0) : norm2 X = 0 := by
  subst h; simp [norm2]

theorem norm4_zero {P Q R S : Type} [Fintype P] [Fintype Q] [Fintype R] [Fintype S] {X : P → Q → R → S → ℝ} (h : X = 0) : norm4 X = 0 := by
  subst h; simp [norm4]

/-- C82: an array norm is zero exactly when every element is. -/
theorem C82_norm2 {P Q : Type} [Fintype P] [Fintype Q] (X : P → Q → ℝ) : norm2 X = 0 ↔ X = 0 := by
  refine ⟨fun h => ?_, norm2_zero⟩
  funext x y
  exact abs_eq_zero.mp (le_antisymm (h ▸ le_norm2 X x y) (abs_nonneg _))

/-- C82: the same for four axes. -/
theorem C82_norm4 {P Q R S : Type} [Fintype P] [Fintype Q] [Fintype R] [Fintype S] (X : P → Q → R → S → ℝ) : norm4 X = 0 ↔ X = 0 := by
  refine ⟨fun h => ?_, norm4_zero⟩
  funext x y z w
  exact abs_eq_zero.mp (le_antisymm (h ▸ le_norm4 X x y z w) (abs_nonneg _))

theorem n2 {P Q : Type} [Fintype P] [Fintype Q] {X Y : P → Q → ℝ} {t : ℝ} (ht : 0 < t) (h : X = Y) : norm2 (X - Y) < t := by
  rwa [norm2_zero (sub_eq_zero.mpr h)]

theorem n4 {P Q R S : Type} [Fintype P] [Fintype Q] [Fintype R] [Fintype S] {X Y : P → Q → R → S → ℝ} {t : ℝ} (ht : 0 < t) (h : X = Y) :
    norm4 (X - Y) < t := by
  rwa [norm4_zero (sub_eq_zero.mpr h)]

theorem q0 {y t : ℝ} (ht : 0 < t) : quotLt 0 y t ↔ y ≠ 0 := by simp [quotLt, ht]

theorem q2 {P Q : Type} [Fintype P] [Fintype Q] {X Y : P → Q → ℝ} {y t : ℝ} (ht : 0 < t) (h : X = Y) : quotLt (norm2 (X - Y)) y t ↔ y ≠ 0 := by
  rw [norm2_zero (sub_eq_zero.mpr h), q0 ht]

theorem q4 {P Q R S : Type} [Fintype P] [Fintype Q] [Fintype R] [Fintype S] {X Y : P → Q → R → S → ℝ} {y t : ℝ} (ht : 0 < t) (h : X = Y) :
    quotLt (norm4 (X - Y)) y t ↔ y ≠ 0 := by
  rw [norm4_zero (sub_eq_zero.mpr h), q0 ht]

theorem qp {P Q R S : Type} [Fintype P] [Fintype Q] [Fintype R] [Fintype S] {X Y : P → Q → R → S → ℝ} {y t : ℝ} (ht : 0 < t) (h : X = -Y) :
    quotLt (norm4 (X + Y)) y t ↔ y ≠ 0 := by
  rw [norm4_zero (by rw [h, neg_add_cancel]), q0 ht]

theorem qa {x y z t : ℝ} (ht : 0 < t) (h : x = y) : quotLt (|x - y|) z t ↔ z ≠ 0 := by rw [h, sub_self, abs_zero, q0 ht]

theorem root_ne (ns : List ℕ) : rootSize ns ≠ 0 ↔ ∀ n ∈ ns, n ≠ 0 := by
  rw [rootSize, ne_eq, Real.sqrt_eq_zero (Nat.cast_nonneg _), Nat.cast_eq_zero, List.prod_eq_zero_iff]
  exact ⟨fun h n hn h0 => h (h0 ▸ hn), fun h h0 => h 0 h0 rfl⟩

/-! ## Blocks of a drawn array -/

/-- the sixteen slices of an array -/
def slices (noa nva nob nvb : ℕ) (A : T) : TwoEFull ℕ ℕ ℕ ℕ ℝ :=
  let (na, nb) := (noa + nva, nob + nvb)
  { vvvv := getSl4 noa na nob nb noa na nob nb A, vvvo := getSl4 noa na nob nb noa na 0 nob A, vvov := getSl4 noa na nob nb 0 noa nob nb A,
    vovv := getSl4 noa na 0 nob noa na nob nb A, ovvv := getSl4 0 noa nob nb noa na nob nb A, vvoo := getSl4 noa na nob nb 0 noa 0 nob A,
    vovo := getSl4 noa na 0 nob noa na 0 nob A, ovvo := getSl4 0 noa nob nb noa na 0 nob A, voov := getSl4 noa na 0 nob 0 noa nob nb A,
    ovov := getSl4 0 noa nob nb 0 noa nob nb A, oovv := getSl4 0 noa 0 nob noa na nob nb A, vooo := getSl4 noa na 0 nob 0 noa 0 nob A,
    ovoo := getSl4 0 noa nob nb 0 noa 0 nob A, oovo := getSl4 0 noa 0 nob noa na 0 nob A, ooov := getSl4 0 noa 0 nob 0 noa nob nb A,
    oooo := getSl4 0 noa 0 nob 0 noa 0 nob A }

/-- the nine slices of an array -/
def slices9 (no nv : ℕ) (A : T) : TwoE ℕ ℕ ℝ :=
  let B := slices no nv no nv A
  { vvvv := B.vvvv, vvvo := B.vvvo, vovv := B.vovv, vvoo := B.vvoo, vovo := B.vovo, oovv := B.oovv, vooo := B.vooo, ooov := B.ooov, oooo := B.oooo }

theorem mixed_iff (noa nva nob nvb : ℕ) (A : T) (I : TwoEFull ℕ ℕ ℕ ℕ ℝ) : Mixed noa nva nob nvb A I ↔ I = slices noa nva nob nvb A := by
  simp only [Mixed, make_random_Ifull_gen, make_two_e_blocks_full, ne_eq, not_true_eq_false, if_false, Except.ok.injEq, exists_eq_left']
  exact ⟨fun h => (Option.some.inj h).symm, fun h => congrArg some h.symm⟩

theorem fullBlocks_iff (no nv : ℕ) (A : T) (I : TwoEFull ℕ ℕ ℕ ℕ ℝ) : FullBlocks no nv A I ↔ I = slices no nv no nv A :=
  mixed_iff no nv no nv A I

theorem nineBlocks_iff (no nv : ℕ) (A : T) (I : TwoE ℕ ℕ ℝ) : NineBlocks no nv A I ↔ I = slices9 no nv A := by
  simp only [NineBlocks, make_two_e_blocks, ne_eq, not_true_eq_false, if_false, Except.ok.injEq, exists_eq_left']
  exact ⟨fun h => (Option.some.inj h).symm, fun h => congrArg some h.symm⟩

theorem ex_mixed {noa nva nob nvb : ℕ} {A : T} (p : TwoEFull ℕ ℕ ℕ ℕ ℝ → Prop) :
    (∃ I, Mixed noa nva nob nvb A I ∧ p I) ↔ p (slices noa nva nob nvb A) := by simp only [mixed_iff, exists_eq_left]

theorem ex_full {no nv : ℕ} {A : T} (p : TwoEFull ℕ ℕ ℕ ℕ ℝ → Prop) :
    (∃ I, FullBlocks no nv A I ∧ p I) ↔ p (slices no nv no nv A) := by simp only [fullBlocks_iff, exists_eq_left]

theorem ex_nine {no nv : ℕ} {A : T} (p : TwoE ℕ ℕ ℝ → Prop) :
    (∃ I, NineBlocks no nv A I ∧ p I) ↔ p (slices9 no nv A) := by simp only [nineBlocks_iff, exists_eq_left]

theorem slices_ext (noa nva nob nvb : ℕ) (A : T) : ExtFull noa nva nob nvb (slices noa nva nob nvb A) := by
  constructor <;> (intro x y z w hh; exact if_neg (by omega))

theorem slices_pair (no nv : ℕ) (A : T) (hA : ∀ x y z w, A y x w z = A x y z w) : PairI (f3 no nv no nv (slices no nv no nv A)) := by
  constructor <;> intro x y z w <;> simp only [TwoEFull.map, slices, getSl4] <;>
    rw [if_pos (by omega), if_pos (by omega)] <;> exact (hA _ _ _ _).symm

theorem slices_asym (no nv : ℕ) (A : T) : f2 no nv (slices9 no nv (A - tr0132 A)) = asymI (f3 no nv no nv (slices no nv no nv A)) := by
  refine (TwoE.mk.injEq ..).mpr ⟨?_, ?_, ?_, ?_, ?_, ?_, ?_, ?_, ?_⟩ <;> funext x y z w <;>
    simp only [TwoEFull.map, TwoE.map, slices9, slices, getSl4, asymI] <;>
    rw [if_pos (by omega), if_pos (by omega), if_pos (by omega)] <;> rfl

/-! ## Cutting symmetric arrays -/

theorem cut_anti {n m : ℕ} {A : T} (h : AntiN A) : Anti (r4 n n m m A) :=
  ⟨fun x y z w => h.a12 _ _ _ _, fun x y z w => h.a34 _ _ _ _⟩

theorem cut_antiI {no nv : ℕ} {I : TwoE ℕ ℕ ℝ} (h : AntiI I) : AntiI (f2 no nv I) := by
  constructor <;> intro x y z w <;> first
    | exact h.vvvv12 _ _ _ _
    | exact h.vvvv34 _ _ _ _
    | exact h.vvvo12 _ _ _ _
    | exact h.vovv34 _ _ _ _
    | exact h.vvoo12 _ _ _ _
    | exact h.vvoo34 _ _ _ _
    | exact h.oovv12 _ _ _ _
    | exact h.oovv34 _ _ _ _
    | exact h.vooo34 _ _ _ _
    | exact h.ooov12 _ _ _ _
    | exact h.oooo12 _ _ _ _
    | exact h.oooo34 _ _ _ _

theorem anti_draw (no nv : ℕ) (A : T) : AntiI (f2 no nv (make_random_I_anti no nv A)) := cut_antiI (C27_I_anti no nv A).1

theorem T_draw (n m : ℕ) (t1 : M) (t2 : T) : Anti (r4 n n m m (make_random_T t1 t2).2) := cut_anti (C27_T t1 t2).2

theorem L_draw (n m : ℕ) (t1 : M) (t2 : T) : Anti (r4 n n m m (make_random_L t1 t2).2) := cut_anti (C27_L t1 t2).2

theorem Ta_draw (n m : ℕ) (a b c : T) : Anti (r4 n n m m (make_random_T2_spatial a b c).1) := cut_anti (C27_T2_spatial a b c).1

theorem Tb_draw (n m : ℕ) (a b c : T) : Anti (r4 n n m m (make_random_T2_spatial a b c).2.2) := cut_anti (C27_T2_spatial a b c).2.2

/-- assembled doubles are antisymmetric on their extents -/
theorem spin_anti (noa nva nob nvb : ℕ) (a b c : T) : Anti (r4 (nva + nvb) (nva + nvb) (noa + nob) (noa + nob)
    (Num.T2_to_spin (make_random_T2_spatial a b c).1 (make_random_T2_spatial a b c).2.1 (make_random_T2_spatial a b c).2.2 noa nva nob nvb)) :=
  cut_anti (C21_T2_to_spin_anti _ _ _ _ _ _ _ (C27_T2_spatial a b c).1 (C27_T2_spatial a b c).2.2)

variable {thresh : ℝ}

attribute [local irreducible] uccsd_stanton rccsd_stanton uccsd_lambda_opt rccsd_lambda_opt

/-! ## test_cc_ampl.py -/

/-- C82: `test_ccsd_stanton` passes. -/
theorem C82_ccsd_stanton (ht : 0 < thresh) (no nv : ℕ) (t1 : M) (t2 : T) (foo fov fvv : M) (itot : T) :
    test_ccsd_stanton no nv t1 t2 foo fov fvv itot thresh := by
  have h := C01_ccsd_stanton_eq_simple (f1 no nv (make_random_F foo fov fvv)) (f2 no nv (make_random_I_anti no nv itot)) (anti_draw no nv itot)
    (r2 nv no t1) (r4 nv nv no no (make_random_T t1 t2).2) (T_draw nv no t1 t2)
  exact ⟨n2 ht (congrArg Prod.fst h).symm, n4 ht (congrArg Prod.snd h).symm⟩

/-- C82: `test_ccd` passes. -/
theorem C82_ccd (ht : 0 < thresh) (no nv : ℕ) (t1 : M) (t2 : T) (foo fov fvv : M) (itot : T) :
    test_ccd no nv t1 t2 foo fov fvv itot thresh :=
  n4 ht (C02_ccsd_simple_T1_zero (f1 no nv (make_random_F foo fov fvv)) (f2 no nv (make_random_I_anti no nv itot)) (r4 nv nv no no (make_random_T t1 t2).2)).symm

/-- C82: `test_ccd_stanton` passes. -/
theorem C82_ccd_stanton (ht : 0 < thresh) (no nv : ℕ) (t1 : M) (t2 : T) (foo fov fvv : M) (itot : T) :
    test_ccd_stanton no nv t1 t2 foo fov fvv itot thresh :=
  n4 ht (C02_ccd_stanton_eq_simple _ _ (anti_draw no nv itot) _ (T_draw nv no t1 t2)).symm

/-- C82: `test_ucc_energy` passes, for any numbers of orbitals of either spin. -/
theorem C82_ucc_energy (ht : 0 < thresh) (noa nva nob nvb : ℕ) (foa fova fva fob fovb fvb : M) (ia ib iab : T) (ta tb : M) (taa tbb tab : T) :
    test_ucc_energy noa nva nob nvb foa fova fva fob fovb fvb ia ib iab ta tb taa tbb tab thresh := by
  refine ⟨_, (mixed_iff ..).mpr rfl, ?_⟩
  have h := C12_ucc_energy_numeric noa nva nob nvb (make_random_F foa fova fva) (make_random_F fob fovb fvb) (make_random_I_anti noa nva ia)
    (make_random_I_anti nob nvb ib) (slices noa nva nob nvb iab) ta tb (make_random_T2_spatial taa tbb tab).1 (make_random_T2_spatial taa tbb tab).2.1
    (make_random_T2_spatial taa tbb tab).2.2
  exact lt_of_eq_of_lt (abs_eq_zero.mpr (sub_eq_zero.mpr h)) ht

/-- C82: `test_uccsd` passes exactly if there is at least one occupied and one virtual spin orbital (otherwise it divides by zero). -/
theorem C82_uccsd (ht : 0 < thresh) (noa nva nob nvb : ℕ) (foa fova fva fob fovb fvb : M) (ia ib iab : T) (ta tb : M) (taa tbb tab : T) :
    test_uccsd noa nva nob nvb foa fova fva fob fovb fvb ia ib iab ta tb taa tbb tab thresh ↔ noa + nob ≠ 0 ∧ nva + nvb ≠ 0 := by
  have h := C13_uccsd_numeric noa nva nob nvb (make_random_F foa fova fva) (make_random_F fob fovb fvb) (make_random_I_anti noa nva ia)
    (make_random_I_anti nob nvb ib) (slices noa nva nob nvb iab) ta tb (make_random_T2_spatial taa tbb tab).1 (make_random_T2_spatial taa tbb tab).2.1
    (make_random_T2_spatial taa tbb tab).2.2 (anti_draw noa nva ia) (anti_draw nob nvb ib) (Ta_draw nva noa taa tbb tab) (Tb_draw nvb nob taa tbb tab)
  rw [← C01_ccsd_stanton_eq_simple _ _ (cut_antiI (C22_int_to_spin2_anti _ _ _ _ _ _ _ (C27_I_anti noa nva ia).1 (C27_I_anti nob nvb ib).1)) _ _
    (spin_anti ..)] at h
  refine (ex_mixed _).trans ((and_congr (q2 ht (congrArg Prod.fst h).symm) (q4 ht (congrArg Prod.snd h).symm)).trans ?_)
  simp only [root_ne, List.mem_cons, List.not_mem_nil, or_false, forall_eq_or_imp, forall_eq]
  tauto

/-- the shape of the data of the closed-shell tests -/
theorem pair_draw (n m : ℕ) (t : T) : PairSym (r4 n n m m (t + tr1032 t)) := by
  intro x y z w; simp only [r4, tr1032, Pi.add_apply]; ring

theorem full_draw (no nv : ℕ) (t : T) : PairI (f3 no nv no nv (slices no nv no nv (t + tr1032 t))) :=
  slices_pair no nv _ fun x y z w => by simp only [tr1032, Pi.add_apply]; ring

/-- C82: `test_rcc_energy` passes. -/
theorem C82_rcc_energy (ht : 0 < thresh) (no nv : ℕ) (foo fov fvv : M) (itot : T) (t1 : M) (t2 : T) :
    test_rcc_energy no nv foo fov fvv itot t1 t2 thresh := by
  refine ⟨_, (fullBlocks_iff ..).mpr rfl, ?_⟩
  have h := C12_rcc_energy (r2 nv no t1) (r4 nv nv no no (t2 + tr1032 t2)) (f1 no nv (make_random_F foo fov fvv)).ov
    (f3 no nv no nv (slices no nv no nv (itot + tr1032 itot))).oovv (fun p q r s => ((full_draw no nv itot).oovv p q r s).symm) (pair_draw nv no t2)
  exact lt_of_eq_of_lt (abs_eq_zero.mpr (sub_eq_zero.mpr h)) ht

theorem rccsd_core (ht : 0 < thresh) {O V : Type} [Fintype O] [Fintype V] [DecidableEq O] [DecidableEq V] (F : OneE O V ℝ) (I : TwoEFull O V O V ℝ) (T1 : V → O → ℝ) (T2 : V → V → O → O → ℝ)
    (hI : PairI I) (hT : PairSym T2) :
    (quotLt (norm2 ((uccsd_stanton F F (asymI I) (asymI I) I (T1, T1) (asym2 T2, T2, asym2 T2)).1.1 - (rccsd_stanton F I T1 T2).1))
        (norm2 (uccsd_stanton F F (asymI I) (asymI I) I (T1, T1) (asym2 T2, T2, asym2 T2)).1.1) thresh ∧
      quotLt (norm4 ((uccsd_stanton F F (asymI I) (asymI I) I (T1, T1) (asym2 T2, T2, asym2 T2)).2.2.1 - (rccsd_stanton F I T1 T2).2))
        (norm4 (uccsd_stanton F F (asymI I) (asymI I) I (T1, T1) (asym2 T2, T2, asym2 T2)).2.2.1) thresh) ↔
      (rccsd_stanton F I T1 T2).1 ≠ 0 ∧ (rccsd_stanton F I T1 T2).2 ≠ 0 := by
  rw [C14_rccsd F I T1 T2 hI hT, q2 ht rfl, q4 ht rfl, ne_eq, C82_norm2, ne_eq, C82_norm4]

/-- C82: `test_rccsd` passes exactly if neither of the two arrays it divides by the norm of is zero. -/
theorem C82_rccsd (ht : 0 < thresh) (no nv : ℕ) (foo fov fvv : M) (itot : T) (t1 : M) (t2 : T) :
    test_rccsd no nv foo fov fvv itot t1 t2 thresh ↔
      ∀ I, FullBlocks no nv (itot + tr1032 itot) I →
        (rccsd_stanton (f1 no nv (make_random_F foo fov fvv)) (f3 no nv no nv I) (r2 nv no t1) (r4 nv nv no no (t2 + tr1032 t2))).1 ≠ 0 ∧
        (rccsd_stanton (f1 no nv (make_random_F foo fov fvv)) (f3 no nv no nv I) (r2 nv no t1) (r4 nv nv no no (t2 + tr1032 t2))).2 ≠ 0 := by
  simp only [fullBlocks_iff, forall_eq]
  refine (ex_full _).trans ((ex_nine _).trans ?_)
  rw [← rccsd_core ht _ _ _ _ (full_draw no nv itot) (pair_draw nv no t2), ← slices_asym]
  rfl

/-! ## test_lambda_equations.py -/

section
variable (ht : 0 < thresh) (no nv : ℕ) (t1 : M) (t2 : T) (l1 : M) (l2 : T) (foo fov fvv : M) (itot : T)
include ht

/-- C82: `test_ccsd_opt` passes. -/
theorem C82_lambda_ccsd_opt : test_lambda_ccsd_opt no nv t1 t2 l1 l2 foo fov fvv itot thresh := by
  have h := C05_opt_eq_simple (f1 no nv (make_random_F foo fov fvv)) _ (anti_draw no nv itot) (r2 no nv l1) _ (L_draw no nv l1 l2) (r2 nv no t1) _ (T_draw nv no t1 t2)
  exact ⟨n2 ht (congrArg Prod.fst h).symm, n4 ht (congrArg Prod.snd h).symm⟩

/-- C82: `test_ccsd_stanton` (multipliers) passes. -/
theorem C82_lambda_ccsd_stanton : test_lambda_ccsd_stanton no nv t1 t2 l1 l2 foo fov fvv itot thresh := by
  have h := C05_stanton_eq_simple (f1 no nv (make_random_F foo fov fvv)) _ (anti_draw no nv itot) (r2 no nv l1) _ (L_draw no nv l1 l2) (r2 nv no t1) _ (T_draw nv no t1 t2)
  exact ⟨n2 ht (congrArg Prod.fst h).symm, n4 ht (congrArg Prod.snd h).symm⟩

/-- C82: `test_ccsd_opt_int` passes. -/
theorem C82_lambda_ccsd_opt_int : test_lambda_ccsd_opt_int no nv t1 t2 l1 l2 foo fov fvv itot thresh := by
  have h := C05_opt_int_eq_simple (f1 no nv (make_random_F foo fov fvv)) _ (anti_draw no nv itot) (r2 no nv l1) _ (L_draw no nv l1 l2) (r2 nv no t1) _ (T_draw nv no t1 t2)
  exact ⟨n2 ht (congrArg Prod.fst h).symm, n4 ht (congrArg Prod.snd h).symm⟩

/-- C82: `test_ccd` (multipliers) passes. -/
theorem C82_lambda_ccd : test_lambda_ccd no nv t1 t2 l1 l2 foo fov fvv itot thresh :=
  n4 ht (C07_ccd_lambda (f1 no nv (make_random_F foo fov fvv)) (f2 no nv (make_random_I_anti no nv itot)) (r4 no no nv nv (make_random_L l1 l2).2)
    (r4 nv nv no no (make_random_T t1 t2).2)).symm
end

/-- C82: `test_uccsd_lambda` passes exactly if there is at least one occupied and one virtual spin orbital. -/
theorem C82_uccsd_lambda (ht : 0 < thresh) (noa nva nob nvb : ℕ) (foa fova fva fob fovb fvb : M) (ia ib iab : T) (ta tb : M) (taa tbb tab : T)
    (la lb : M) (laa lbb lab : T) :
    test_uccsd_lambda noa nva nob nvb foa fova fva fob fovb fvb ia ib iab ta tb taa tbb tab la lb laa lbb lab thresh ↔ noa + nob ≠ 0 ∧ nva + nvb ≠ 0 := by
  have h := C15_uccsd_lambda_numeric noa nva nob nvb (make_random_F foa fova fva) (make_random_F fob fovb fvb) (make_random_I_anti noa nva ia)
    (make_random_I_anti nob nvb ib) (slices noa nva nob nvb iab) ta tb la lb (make_random_T2_spatial taa tbb tab).1 (make_random_T2_spatial taa tbb tab).2.1
    (make_random_T2_spatial taa tbb tab).2.2 (make_random_T2_spatial laa lbb lab).1 (make_random_T2_spatial laa lbb lab).2.1 (make_random_T2_spatial laa lbb lab).2.2
    (anti_draw noa nva ia) (anti_draw nob nvb ib) (Ta_draw nva noa taa tbb tab) (Tb_draw nvb nob taa tbb tab) (Ta_draw noa nva laa lbb lab) (Tb_draw nob nvb laa lbb lab)
  rw [← C05_opt_eq_simple _ _ (cut_antiI (C22_int_to_spin2_anti _ _ _ _ _ _ _ (C27_I_anti noa nva ia).1 (C27_I_anti nob nvb ib).1)) _ _ (spin_anti ..) _ _
    (spin_anti ..)] at h
  refine (ex_mixed _).trans ((and_congr (q2 ht (congrArg Prod.fst h).symm) (q4 ht (congrArg Prod.snd h).symm)).trans ?_)
  simp only [root_ne, List.mem_cons, List.not_mem_nil, or_false, forall_eq_or_imp, forall_eq]
  tauto

theorem rccsd_lambda_core (ht : 0 < thresh) {O V : Type} [Fintype O] [Fintype V] [DecidableEq O] [DecidableEq V] (F : OneE O V ℝ) (I : TwoEFull O V O V ℝ)
    (L1 : O → V → ℝ) (L2 : O → O → V → V → ℝ) (T1 : V → O → ℝ) (T2 : V → V → O → O → ℝ) (hI : PairI I) (hL : PairSym L2) (hT : PairSym T2) :
    (quotLt (norm2 ((uccsd_lambda_opt F F (asymI I) (asymI I) I (L1, L1) (asym2 L2, L2, asym2 L2) (T1, T1) (asym2 T2, T2, asym2 T2)).1.1 - (rccsd_lambda_opt F I L1 L2 T1 T2).1))
        (norm2 (uccsd_lambda_opt F F (asymI I) (asymI I) I (L1, L1) (asym2 L2, L2, asym2 L2) (T1, T1) (asym2 T2, T2, asym2 T2)).1.1) thresh ∧
      quotLt (norm4 ((uccsd_lambda_opt F F (asymI I) (asymI I) I (L1, L1) (asym2 L2, L2, asym2 L2) (T1, T1) (asym2 T2, T2, asym2 T2)).2.2.1 - (rccsd_lambda_opt F I L1 L2 T1 T2).2))
        (norm4 (uccsd_lambda_opt F F (asymI I) (asymI I) I (L1, L1) (asym2 L2, L2, asym2 L2) (T1, T1) (asym2 T2, T2, asym2 T2)).2.2.1) thresh) ↔ (rccsd_lambda_opt F I L1 L2 T1 T2).1 ≠ 0 ∧ (rccsd_lambda_opt F I L1 L2 T1 T2).2 ≠ 0 := by
  rw [C16_rccsd_lambda F I L1 L2 T1 T2 hI hL hT, q2 ht rfl, q4 ht rfl, ne_eq, C82_norm2, ne_eq, C82_norm4]

/-- C82: `test_rccsd_lambda` passes exactly if neither of the two arrays it divides by the norm of is zero. -/
theorem C82_rccsd_lambda (ht : 0 < thresh) (no nv : ℕ) (foo fov fvv : M) (itot : T) (t1 : M) (t2 : T) (l1 : M) (l2 : T) :
    test_rccsd_lambda no nv foo fov fvv itot t1 t2 l1 l2 thresh ↔
      ∀ I, FullBlocks no nv (itot + tr1032 itot) I →
        (rccsd_lambda_opt (f1 no nv (make_random_F foo fov fvv)) (f3 no nv no nv I) (r2 no nv l1) (r4 no no nv nv (l2 + tr1032 l2)) (r2 nv no t1)
          (r4 nv nv no no (t2 + tr1032 t2))).1 ≠ 0 ∧
        (rccsd_lambda_opt (f1 no nv (make_random_F foo fov fvv)) (f3 no nv no nv I) (r2 no nv l1) (r4 no no nv nv (l2 + tr1032 l2)) (r2 nv no t1)
          (r4 nv nv no no (t2 + tr1032 t2))).2 ≠ 0 := by
  simp only [fullBlocks_iff, forall_eq]
  refine (ex_full _).trans ((ex_nine _).trans ?_)
  rw [← rccsd_lambda_core ht _ _ _ _ _ _ (full_draw no nv itot) (pair_draw no nv l2) (pair_draw nv no t2), ← slices_asym]
  rfl

/-! ## test_cc_rdm.py -/

section
variable (ht : 0 < thresh) (no nv : ℕ) (t1 : M) (t2 : T) (l1 : M) (l2 : T)
include ht

/-- C82: `test_1rdm_opt` passes exactly if there are occupied and virtual orbitals. -/
theorem C82_1rdm_opt : test_1rdm_opt no nv t1 t2 l1 l2 thresh ↔ no ≠ 0 ∧ nv ≠ 0 := by
  have hT := T_draw nv no t1 t2
  have hL := L_draw no nv l1 l2
  refine (and_congr (q2 ht ?_) (and_congr (q2 ht ?_) (q2 ht ?_))).trans ?_
  · rw [C09_1rdm_ba]
  · rw [C09_1rdm_ji]
  · exact (C09_1rdm_ai _ _ hT _ _ hL _).symm
  · simp only [root_ne, List.mem_cons, List.not_mem_nil, or_false, forall_eq_or_imp, forall_eq]
    tauto

/-- C82: `test_2rdm_opt` passes exactly if there are occupied and virtual orbitals. -/
theorem C82_2rdm_opt : test_2rdm_opt no nv t1 t2 l1 l2 thresh ↔ no ≠ 0 ∧ nv ≠ 0 := by
  have hT := T_draw nv no t1 t2
  have hL := L_draw no nv l1 l2
  refine (and_congr (q4 ht ?_) (and_congr (q4 ht ?_) (and_congr (q4 ht ?_) (and_congr (q4 ht ?_) (and_congr (q4 ht ?_) (q4 ht ?_)))))).trans ?_
  · exact (C09_2rdm_cdab _ _ hT _ _ hL).symm
  · exact (C09_2rdm_bcai _ _ hT _ _ hL).symm
  · exact (C09_2rdm_bjai _ _ hT _ _ hL).symm
  · exact (C09_2rdm_abij _ _ hT _ _ hL _).symm
  · exact (C09_2rdm_kaij _ _ hT _ _ hL).symm
  · exact (C09_2rdm_klij _ _ hT _ _ hL).symm
  · simp only [root_ne, List.mem_cons, List.not_mem_nil, or_false, forall_eq_or_imp, forall_eq]
    tauto

/-- C82: `test_r1rdm` passes exactly if there are occupied and virtual orbitals. -/
theorem C82_r1rdm : test_r1rdm no nv t1 t2 l1 l2 thresh ↔ no ≠ 0 ∧ nv ≠ 0 := by
  have hT := pair_draw nv no t2
  have hL := pair_draw no nv l2
  refine (and_congr (q2 ht rfl) (and_congr (q2 ht ?_) (and_congr (q2 ht ?_) (q2 ht ?_)))).trans ?_
  · exact congrArg Prod.fst (C19_1rdm_ba (r2 nv no t1) _ (r2 no nv l1) _ 1 hL hT)
  · exact congrArg Prod.fst (C19_1rdm_ji (r2 nv no t1) _ (r2 no nv l1) _ 1 hL hT)
  · exact congrArg Prod.fst (C19_1rdm_ai (r2 nv no t1) _ (r2 no nv l1) _ 1 hL hT)
  · simp only [root_ne, List.mem_cons, List.not_mem_nil, or_false, forall_eq_or_imp, forall_eq]
    tauto

/-- C82: `test_r2rdm` passes exactly if there are occupied and virtual orbitals. -/
theorem C82_r2rdm : test_r2rdm no nv t1 t2 l1 l2 thresh ↔ no ≠ 0 ∧ nv ≠ 0 := by
  have hT := pair_draw nv no t2
  have hL := pair_draw no nv l2
  refine (and_congr (q4 ht rfl) (and_congr (q4 ht ?_) (and_congr (q4 ht ?_) (and_congr (q4 ht ?_) (and_congr (q4 ht ?_) (and_congr (qp ht ?_)
    (and_congr (q4 ht ?_) (and_congr (q4 ht ?_) (and_congr (q4 ht ?_) (q4 ht ?_)))))))))).trans ?_
  · exact (congrArg (fun p => p.2.2.1) (C19_2rdm_ciab (r2 nv no t1) _ (r2 no nv l1) _ hL hT)).symm
  · exact (congrArg (fun p => p.2.2.1) (C19_2rdm_jkai (r2 nv no t1) _ (r2 no nv l1) _ hL hT)).symm
  · exact (congrArg (fun p => p.2.2) (C19_2rdm_cdab (r2 nv no t1) _ (r2 no nv l1) _ hL hT)).symm
  · exact (congrArg (fun p => p.2.2.1) (C19_2rdm_bjai (r2 nv no t1) _ (r2 no nv l1) _ hL hT)).symm
  · have h := congrArg (fun p => p.2.2.2.1) (C19_2rdm_bjai (r2 nv no t1) _ (r2 no nv l1) _ hL hT)
    funext b j i a
    exact (neg_eq_iff_eq_neg.mpr (congrFun (congrFun (congrFun (congrFun h b) j) a) i)).symm
  · exact (congrArg (fun p => p.2.2) (C19_2rdm_klij (r2 nv no t1) _ (r2 no nv l1) _ hL hT)).symm
  · exact (congrArg (fun p => p.2.2.1) (C19_2rdm_bcai (r2 nv no t1) _ (r2 no nv l1) _ hL hT)).symm
  · exact (congrArg (fun p => p.2.2.1) (C19_2rdm_kaij (r2 nv no t1) _ (r2 no nv l1) _ hL hT)).symm
  · exact (congrArg (fun p => p.2.2) (C19_2rdm_abij (r2 nv no t1) _ (r2 no nv l1) _ hL hT)).symm
  · simp only [root_ne, List.mem_cons, List.not_mem_nil, or_false, forall_eq_or_imp, forall_eq]
    tauto
end

/-! ### Contractions of spin-blocked arrays -/

section
variable {P Q R S P' Q' R' S' : Type} [Fintype P] [Fintype Q] [Fintype R] [Fintype S] [Fintype P'] [Fintype Q'] [Fintype R'] [Fintype S']

/-- a contraction does not depend on how the indices are named -/
theorem ein2_map (e : P' ≃ P) (g : Q' ≃ Q) (X : P → Q → ℝ) (A : Q → P → ℝ) : ein2 (map2 e g X) (map2 g e A) = ein2 X A := by
  refine Fintype.sum_equiv e _ _ fun _ => ?_
  exact Fintype.sum_equiv g _ _ fun _ => rfl

theorem ein4_map (e : P' ≃ P) (g : Q' ≃ Q) (h : R' ≃ R) (k : S' ≃ S) (X : P → Q → R → S → ℝ) (A : R → S → P → Q → ℝ) :
    ein4 (map4 e g h k X) (map4 h k e g A) = ein4 X A := by
  refine Fintype.sum_equiv e _ _ fun _ => ?_
  refine Fintype.sum_equiv g _ _ fun _ => ?_
  refine Fintype.sum_equiv h _ _ fun _ => ?_
  exact Fintype.sum_equiv k _ _ fun _ => rfl

theorem ein2_blk (A : P → Q → ℝ) (B : P' → Q' → ℝ) (X : Q → P → ℝ) (Y : Q' → P' → ℝ) : ein2 (blk2 A B) (blk2 X Y) = ein2 A X + ein2 B Y := by
  simp only [ein2, Fintype.sum_sum_type, blk2, zero_mul, mul_zero, Finset.sum_const_zero, add_zero, zero_add]

theorem ein4_block (a : P → Q → R → S → ℝ) (b : P' → Q' → R' → S' → ℝ) (c : P → Q' → R → S' → ℝ) (d : P' → Q → R' → S → ℝ) (e : P → Q' → R' → S → ℝ)
    (f : P' → Q → R → S' → ℝ) (A : R → S → P → Q → ℝ) (B : R' → S' → P' → Q' → ℝ) (C : R → S' → P → Q' → ℝ) (D : R' → S → P' → Q → ℝ)
    (E : R → S' → P' → Q → ℝ) (F : R' → S → P → Q' → ℝ) :
    ein4 (CC.int_to_spin_block a b c d e f) (CC.int_to_spin_block A B C D E F) = ein4 a A + ein4 b B + ein4 c C + ein4 d D + ein4 e F + ein4 f E := by
  simp only [ein4, Fintype.sum_sum_type, CC.int_to_spin_block, zero_mul, mul_zero, Finset.sum_const_zero, add_zero, zero_add, Finset.sum_add_distrib]
  ring

theorem ein4_ket (X : P → Q → R → S → ℝ) (Y : R → S → P → Q → ℝ) : ein4 (fun x y z w => -X x y w z) (fun p q r s => -Y q p r s) = ein4 X Y := by
  simp only [ein4, neg_mul_neg]
  exact Finset.sum_congr rfl fun x _ => Finset.sum_congr rfl fun y _ => Finset.sum_comm

theorem ein4_bra (X : P → Q → R → S → ℝ) (Y : R → S → P → Q → ℝ) : ein4 (fun x y z w => -X y x z w) (fun p q r s => -Y p q s r) = ein4 X Y := by
  simp only [ein4, neg_mul_neg]
  exact Finset.sum_comm

theorem ein4_both (X : P → Q → R → S → ℝ) (Y : R → S → P → Q → ℝ) : ein4 (fun x y z w => X y x w z) (fun p q r s => Y q p s r) = ein4 X Y := by
  simp only [ein4]
  rw [Finset.sum_comm]
  exact Finset.sum_congr rfl fun x _ => Finset.sum_congr rfl fun y _ => Finset.sum_comm

theorem ein4_neg (X : P → Q → R → S → ℝ) (Y : R → S → P → Q → ℝ) : ein4 X (fun p q r s => -Y p q r s) = -ein4 X Y := by
  simp only [ein4, mul_neg, Finset.sum_neg_distrib]

omit [Fintype P] [Fintype R] [Fintype P'] [Fintype R'] in
theorem T2_block (aa : P → P → R → R → ℝ) (ab : P → P' → R → R' → ℝ) (bb : P' → P' → R' → R' → ℝ) :
    CC.T2_to_spin aa ab bb = CC.int_to_spin_block aa bb ab (fun x y z w => ab y x w z) (fun x y z w => -ab x y w z) (fun x y z w => -ab y x z w) := by
  funext x y z w
  rcases x with x | x <;> rcases y with y | y <;> rcases z with z | z <;> rcases w with w | w <;> rfl
end

/-- two arrays with the spin blocks of an antisymmetric one -/
theorem ein_anti {P R P' R' : Type} [Fintype P] [Fintype R] [Fintype P'] [Fintype R'] (a : P → P → R → R → ℝ) (b : P' → P' → R' → R' → ℝ)
    (c : P → P' → R → R' → ℝ) (A : R → R → P → P → ℝ) (B : R' → R' → P' → P' → ℝ) (C : R → R' → P → P' → ℝ) :
    ein4 (CC.int_to_spin_block a b c (fun x y z w => c y x w z) (fun x y z w => -c x y w z) (fun x y z w => -c y x z w))
      (CC.int_to_spin_block A B C (fun x y z w => C y x w z) (fun x y z w => -C x y w z) (fun x y z w => -C y x z w))
    = ein4 a A + ein4 b B + 4 * ein4 c C := by
  rw [ein4_block, ein4_both c C, ein4_ket, ein4_bra]; ring

/-- two arrays whose blocks with exchanged spins come from an exchange in the last pair of the first -/
theorem ein_last {P Q R P' Q' R' : Type} [Fintype P] [Fintype Q] [Fintype R] [Fintype P'] [Fintype Q'] [Fintype R'] (a : P → Q → R → R → ℝ)
    (b : P' → Q' → R' → R' → ℝ) (c : P → Q' → R → R' → ℝ) (d : P' → Q → R' → R → ℝ) (A : R → R → P → Q → ℝ) (B : R' → R' → P' → Q' → ℝ)
    (C : R → R' → P → Q' → ℝ) (D : R' → R → P' → Q → ℝ) :
    ein4 (CC.int_to_spin_block a b c d (fun x y z w => -c x y w z) (fun x y z w => -d x y w z))
      (CC.int_to_spin_block A B C D (fun x y z w => -D y x z w) (fun x y z w => -C y x z w))
    = ein4 a A + ein4 b B + 2 * ein4 c C + 2 * ein4 d D := by
  rw [ein4_block, ein4_ket, ein4_ket]; ring

/-- the same with the exchange in the first pair of the first -/
theorem ein_first {P R S P' R' S' : Type} [Fintype P] [Fintype R] [Fintype S] [Fintype P'] [Fintype R'] [Fintype S'] (a : P → P → R → S → ℝ)
    (b : P' → P' → R' → S' → ℝ) (c : P → P' → R → S' → ℝ) (d : P' → P → R' → S → ℝ) (A : R → S → P → P → ℝ) (B : R' → S' → P' → P' → ℝ)
    (C : R → S' → P → P' → ℝ) (D : R' → S → P' → P → ℝ) :
    ein4 (CC.int_to_spin_block a b c d (fun x y z w => -d y x z w) (fun x y z w => -c y x z w))
      (CC.int_to_spin_block A B C D (fun x y z w => -C x y w z) (fun x y z w => -D x y w z))
    = ein4 a A + ein4 b B + 2 * ein4 c C + 2 * ein4 d D := by
  rw [ein4_block, ein4_bra, ein4_bra]; ring

/-- two arrays with six independent blocks -/
theorem ein_six {P Q R S P' Q' R' S' : Type} [Fintype P] [Fintype Q] [Fintype R] [Fintype S] [Fintype P'] [Fintype Q'] [Fintype R'] [Fintype S']
    (a : P → Q → R → S → ℝ) (b : P' → Q' → R' → S' → ℝ) (c : P → Q' → R → S' → ℝ) (d : P' → Q → R' → S → ℝ) (e : P → Q' → R' → S → ℝ)
    (f : P' → Q → R → S' → ℝ) (A : R → S → P → Q → ℝ) (B : R' → S' → P' → Q' → ℝ) (C : R → S' → P → Q' → ℝ) (D : R' → S → P' → Q → ℝ)
    (E : R → S' → P' → Q → ℝ) (F : R' → S → P → Q' → ℝ) :
    ein4 (CC.int_to_spin_block a b c d e f) (CC.int_to_spin_block A B C D (fun x y z w => -E x y z w) (fun x y z w => -F x y z w))
    = ein4 a A + ein4 c C - ein4 e F - ein4 f E + ein4 d D + ein4 b B := by
  rw [ein4_block, ein4_neg, ein4_neg]; ring

section
variable (noa nva nob nvb : ℕ) (Aa Ab : TwoE ℕ ℕ ℝ) (Aab : TwoEFull ℕ ℕ ℕ ℕ ℝ) (Fa Fb : OneE ℕ ℕ ℝ) (T1a T1b : M) (T2aa T2ab T2bb : T) (L1a L1b : M) (L2aa L2ab L2bb : T)
  (hTa : Anti (r4 nva nva noa noa T2aa)) (hTb : Anti (r4 nvb nvb nob nob T2bb)) (hLa : Anti (r4 noa noa nva nva L2aa)) (hLb : Anti (r4 nob nob nvb nvb L2bb))

/-- assembled singles -/
abbrev gT1 := r2 (nva + nvb) (noa + nob) (Num.T1_to_spin T1a T1b noa nva nob nvb)
/-- assembled doubles -/
abbrev gT2 := r4 (nva + nvb) (nva + nvb) (noa + nob) (noa + nob) (Num.T2_to_spin T2aa T2ab T2bb noa nva nob nvb)
/-- assembled integrals -/
abbrev gA := f2 (noa + nob) (nva + nvb) (Num.int_to_spin2 Aa Ab Aab noa nva nob nvb)
/-- assembled one-body operator -/
abbrev gF := f1 (noa + nob) (nva + nvb) (Num.F_to_spin Fa Fb noa nva nob nvb)

include hTa hTb hLa hLb

theorem u_cdab : ein4 (uccsd_2rdm_cdab (r2 nva noa T1a) (r2 nvb nob T1b) (r4 nva nva noa noa T2aa) (r4 nva nvb noa nob T2ab) (r4 nvb nvb nob nob T2bb)
      (r2 noa nva L1a) (r2 nob nvb L1b) (r4 noa noa nva nva L2aa) (r4 noa nob nva nvb L2ab) (r4 nob nob nvb nvb L2bb)).1 (f2 noa nva Aa).vvvv + ein4 (uccsd_2rdm_cdab (r2 nva noa T1a) (r2 nvb nob T1b) (r4 nva nva noa noa T2aa) (r4 nva nvb noa nob T2ab) (r4 nvb nvb nob nob T2bb)
      (r2 noa nva L1a) (r2 nob nvb L1b) (r4 noa noa nva nva L2aa) (r4 noa nob nva nvb L2ab) (r4 nob nob nvb nvb L2bb)).2.1 (f2 nob nvb Ab).vvvv + 4 * ein4 (uccsd_2rdm_cdab (r2 nva noa T1a) (r2 nvb nob T1b) (r4 nva nva noa noa T2aa) (r4 nva nvb noa nob T2ab) (r4 nvb nvb nob nob T2bb)
      (r2 noa nva L1a) (r2 nob nvb L1b) (r4 noa noa nva nva L2aa) (r4 noa nob nva nvb L2ab) (r4 nob nob nvb nvb L2bb)).2.2 (f3 noa nva nob nvb Aab).vvvv
    = ein4 (ccsd_2rdm_cdab (gT1 noa nva nob nvb T1a T1b) (gT2 noa nva nob nvb T2aa T2ab T2bb) (gT1 nva noa nvb nob L1a L1b) (gT2 nva noa nvb nob L2aa L2ab L2bb)) (gA noa nva nob nvb Aa Ab Aab).vvvv := by
  rw [gT1, gT2, gT1, gT2, gA, T1_dec, T2_dec, T1_dec, T2_dec, I_dec, ccsd_2rdm_cdab_map, C18_cdab _ _ _ _ _ _ _ _ _ _ hTa hTb hLa hLb]
  exact (ein_anti ..).symm.trans (ein4_map ..).symm

theorem u_klij : ein4 (uccsd_2rdm_klij (r2 nva noa T1a) (r2 nvb nob T1b) (r4 nva nva noa noa T2aa) (r4 nva nvb noa nob T2ab) (r4 nvb nvb nob nob T2bb)
      (r2 noa nva L1a) (r2 nob nvb L1b) (r4 noa noa nva nva L2aa) (r4 noa nob nva nvb L2ab) (r4 nob nob nvb nvb L2bb)).1 (f2 noa nva Aa).oooo + ein4 (uccsd_2rdm_klij (r2 nva noa T1a) (r2 nvb nob T1b) (r4 nva nva noa noa T2aa) (r4 nva nvb noa nob T2ab) (r4 nvb nvb nob nob T2bb)
      (r2 noa nva L1a) (r2 nob nvb L1b) (r4 noa noa nva nva L2aa) (r4 noa nob nva nvb L2ab) (r4 nob nob nvb nvb L2bb)).2.1 (f2 nob nvb Ab).oooo + 4 * ein4 (uccsd_2rdm_klij (r2 nva noa T1a) (r2 nvb nob T1b) (r4 nva nva noa noa T2aa) (r4 nva nvb noa nob T2ab) (r4 nvb nvb nob nob T2bb)
      (r2 noa nva L1a) (r2 nob nvb L1b) (r4 noa noa nva nva L2aa) (r4 noa nob nva nvb L2ab) (r4 nob nob nvb nvb L2bb)).2.2 (f3 noa nva nob nvb Aab).oooo
    = ein4 (ccsd_2rdm_klij (gT1 noa nva nob nvb T1a T1b) (gT2 noa nva nob nvb T2aa T2ab T2bb) (gT1 nva noa nvb nob L1a L1b) (gT2 nva noa nvb nob L2aa L2ab L2bb)) (gA noa nva nob nvb Aa Ab Aab).oooo := by
  rw [gT1, gT2, gT1, gT2, gA, T1_dec, T2_dec, T1_dec, T2_dec, I_dec, ccsd_2rdm_klij_map, C18_klij _ _ _ _ _ _ _ _ _ _ hTa hTb hLa hLb]
  exact (ein_anti ..).symm.trans (ein4_map ..).symm

theorem u_abij : ein4 (uccsd_2rdm_abij (r2 nva noa T1a) (r2 nvb nob T1b) (r4 nva nva noa noa T2aa) (r4 nva nvb noa nob T2ab) (r4 nvb nvb nob nob T2bb)
      (r2 noa nva L1a) (r2 nob nvb L1b) (r4 noa noa nva nva L2aa) (r4 noa nob nva nvb L2ab) (r4 nob nob nvb nvb L2bb) 1).1 (f2 noa nva Aa).oovv + ein4 (uccsd_2rdm_abij (r2 nva noa T1a) (r2 nvb nob T1b) (r4 nva nva noa noa T2aa) (r4 nva nvb noa nob T2ab) (r4 nvb nvb nob nob T2bb)
      (r2 noa nva L1a) (r2 nob nvb L1b) (r4 noa noa nva nva L2aa) (r4 noa nob nva nvb L2ab) (r4 nob nob nvb nvb L2bb) 1).2.1 (f2 nob nvb Ab).oovv + 4 * ein4 (uccsd_2rdm_abij (r2 nva noa T1a) (r2 nvb nob T1b) (r4 nva nva noa noa T2aa) (r4 nva nvb noa nob T2ab) (r4 nvb nvb nob nob T2bb)
      (r2 noa nva L1a) (r2 nob nvb L1b) (r4 noa noa nva nva L2aa) (r4 noa nob nva nvb L2ab) (r4 nob nob nvb nvb L2bb) 1).2.2 (f3 noa nva nob nvb Aab).oovv
    = ein4 (ccsd_2rdm_abij (gT1 noa nva nob nvb T1a T1b) (gT2 noa nva nob nvb T2aa T2ab T2bb) (gT1 nva noa nvb nob L1a L1b) (gT2 nva noa nvb nob L2aa L2ab L2bb) 1) (gA noa nva nob nvb Aa Ab Aab).oovv := by
  rw [gT1, gT2, gT1, gT2, gA, T1_dec, T2_dec, T1_dec, T2_dec, I_dec, ccsd_2rdm_abij_map, C18_abij _ _ _ _ _ _ _ _ _ _ _ hTa hTb hLa hLb, T2_block]
  exact (ein_anti ..).symm.trans (ein4_map ..).symm

omit hTa hTb hLa hLb in
theorem u_ijab : ein4 (r4 noa noa nva nva L2aa) (f2 noa nva Aa).vvoo + ein4 (r4 nob nob nvb nvb L2bb) (f2 nob nvb Ab).vvoo + 4 * ein4 (r4 noa nob nva nvb L2ab) (f3 noa nva nob nvb Aab).vvoo
    = ein4 (gT2 nva noa nvb nob L2aa L2ab L2bb) (gA noa nva nob nvb Aa Ab Aab).vvoo := by
  rw [gT2, gA, T2_dec, I_dec, T2_block]
  exact (ein_anti ..).symm.trans (ein4_map ..).symm

theorem u_ciab : ein4 (uccsd_2rdm_ciab (r2 nva noa T1a) (r2 nvb nob T1b) (r4 nva nva noa noa T2aa) (r4 nva nvb noa nob T2ab) (r4 nvb nvb nob nob T2bb)
      (r2 noa nva L1a) (r2 nob nvb L1b) (r4 noa noa nva nva L2aa) (r4 noa nob nva nvb L2ab) (r4 nob nob nvb nvb L2bb)).1 (f2 noa nva Aa).vvvo + ein4 (uccsd_2rdm_ciab (r2 nva noa T1a) (r2 nvb nob T1b) (r4 nva nva noa noa T2aa) (r4 nva nvb noa nob T2ab) (r4 nvb nvb nob nob T2bb)
      (r2 noa nva L1a) (r2 nob nvb L1b) (r4 noa noa nva nva L2aa) (r4 noa nob nva nvb L2ab) (r4 nob nob nvb nvb L2bb)).2.1 (f2 nob nvb Ab).vvvo + 2 * ein4 (uccsd_2rdm_ciab (r2 nva noa T1a) (r2 nvb nob T1b) (r4 nva nva noa noa T2aa) (r4 nva nvb noa nob T2ab) (r4 nvb nvb nob nob T2bb)
      (r2 noa nva L1a) (r2 nob nvb L1b) (r4 noa noa nva nva L2aa) (r4 noa nob nva nvb L2ab) (r4 nob nob nvb nvb L2bb)).2.2.1 (f3 noa nva nob nvb Aab).vvvo + 2 * ein4 (uccsd_2rdm_ciab (r2 nva noa T1a) (r2 nvb nob T1b) (r4 nva nva noa noa T2aa) (r4 nva nvb noa nob T2ab) (r4 nvb nvb nob nob T2bb)
      (r2 noa nva L1a) (r2 nob nvb L1b) (r4 noa noa nva nva L2aa) (r4 noa nob nva nvb L2ab) (r4 nob nob nvb nvb L2bb)).2.2.2 (fun p q r s => (f3 noa nva nob nvb Aab).vvov q p s r)
    = ein4 (ccsd_2rdm_ciab (gT1 noa nva nob nvb T1a T1b) (gT2 noa nva nob nvb T2aa T2ab T2bb) (gT1 nva noa nvb nob L1a L1b) (gT2 nva noa nvb nob L2aa L2ab L2bb)) (gA noa nva nob nvb Aa Ab Aab).vvvo := by
  rw [gT1, gT2, gT1, gT2, gA, T1_dec, T2_dec, T1_dec, T2_dec, I_dec, ccsd_2rdm_ciab_map, C18_ciab _ _ _ _ _ _ _ _ _ _ hTa hTb hLa hLb]
  exact (ein_last ..).symm.trans (ein4_map ..).symm

theorem u_jkai : ein4 (uccsd_2rdm_jkai (r2 nva noa T1a) (r2 nvb nob T1b) (r4 nva nva noa noa T2aa) (r4 nva nvb noa nob T2ab) (r4 nvb nvb nob nob T2bb)
      (r2 noa nva L1a) (r2 nob nvb L1b) (r4 noa noa nva nva L2aa) (r4 noa nob nva nvb L2ab) (r4 nob nob nvb nvb L2bb)).1 (f2 noa nva Aa).vooo + ein4 (uccsd_2rdm_jkai (r2 nva noa T1a) (r2 nvb nob T1b) (r4 nva nva noa noa T2aa) (r4 nva nvb noa nob T2ab) (r4 nvb nvb nob nob T2bb)
      (r2 noa nva L1a) (r2 nob nvb L1b) (r4 noa noa nva nva L2aa) (r4 noa nob nva nvb L2ab) (r4 nob nob nvb nvb L2bb)).2.1 (f2 nob nvb Ab).vooo + 2 * ein4 (uccsd_2rdm_jkai (r2 nva noa T1a) (r2 nvb nob T1b) (r4 nva nva noa noa T2aa) (r4 nva nvb noa nob T2ab) (r4 nvb nvb nob nob T2bb)
      (r2 noa nva L1a) (r2 nob nvb L1b) (r4 noa noa nva nva L2aa) (r4 noa nob nva nvb L2ab) (r4 nob nob nvb nvb L2bb)).2.2.1 (f3 noa nva nob nvb Aab).vooo + 2 * ein4 (uccsd_2rdm_jkai (r2 nva noa T1a) (r2 nvb nob T1b) (r4 nva nva noa noa T2aa) (r4 nva nvb noa nob T2ab) (r4 nvb nvb nob nob T2bb)
      (r2 noa nva L1a) (r2 nob nvb L1b) (r4 noa noa nva nva L2aa) (r4 noa nob nva nvb L2ab) (r4 nob nob nvb nvb L2bb)).2.2.2 (fun p q r s => (f3 noa nva nob nvb Aab).ovoo q p s r)
    = ein4 (ccsd_2rdm_jkai (gT1 noa nva nob nvb T1a T1b) (gT2 noa nva nob nvb T2aa T2ab T2bb) (gT1 nva noa nvb nob L1a L1b) (gT2 nva noa nvb nob L2aa L2ab L2bb)) (gA noa nva nob nvb Aa Ab Aab).vooo := by
  rw [gT1, gT2, gT1, gT2, gA, T1_dec, T2_dec, T1_dec, T2_dec, I_dec, ccsd_2rdm_jkai_map, C18_jkai _ _ _ _ _ _ _ _ _ _ hTa hTb hLa hLb]
  exact (ein_first ..).symm.trans (ein4_map ..).symm

theorem u_bcai : ein4 (uccsd_2rdm_bcai (r2 nva noa T1a) (r2 nvb nob T1b) (r4 nva nva noa noa T2aa) (r4 nva nvb noa nob T2ab) (r4 nvb nvb nob nob T2bb)
      (r2 noa nva L1a) (r2 nob nvb L1b) (r4 noa noa nva nva L2aa) (r4 noa nob nva nvb L2ab) (r4 nob nob nvb nvb L2bb)).1 (f2 noa nva Aa).vovv + 2 * ein4 (uccsd_2rdm_bcai (r2 nva noa T1a) (r2 nvb nob T1b) (r4 nva nva noa noa T2aa) (r4 nva nvb noa nob T2ab) (r4 nvb nvb nob nob T2bb)
      (r2 noa nva L1a) (r2 nob nvb L1b) (r4 noa noa nva nva L2aa) (r4 noa nob nva nvb L2ab) (r4 nob nob nvb nvb L2bb)).2.2.1 (f3 noa nva nob nvb Aab).vovv + 2 * ein4 (uccsd_2rdm_bcai (r2 nva noa T1a) (r2 nvb nob T1b) (r4 nva nva noa noa T2aa) (r4 nva nvb noa nob T2ab) (r4 nvb nvb nob nob T2bb)
      (r2 noa nva L1a) (r2 nob nvb L1b) (r4 noa noa nva nva L2aa) (r4 noa nob nva nvb L2ab) (r4 nob nob nvb nvb L2bb)).2.2.2 (fun p q r s => (f3 noa nva nob nvb Aab).ovvv q p s r) + ein4 (uccsd_2rdm_bcai (r2 nva noa T1a) (r2 nvb nob T1b) (r4 nva nva noa noa T2aa) (r4 nva nvb noa nob T2ab) (r4 nvb nvb nob nob T2bb)
      (r2 noa nva L1a) (r2 nob nvb L1b) (r4 noa noa nva nva L2aa) (r4 noa nob nva nvb L2ab) (r4 nob nob nvb nvb L2bb)).2.1 (f2 nob nvb Ab).vovv
    = ein4 (ccsd_2rdm_bcai (gT1 noa nva nob nvb T1a T1b) (gT2 noa nva nob nvb T2aa T2ab T2bb) (gT1 nva noa nvb nob L1a L1b) (gT2 nva noa nvb nob L2aa L2ab L2bb)) (gA noa nva nob nvb Aa Ab Aab).vovv := by
  rw [gT1, gT2, gT1, gT2, gA, T1_dec, T2_dec, T1_dec, T2_dec, I_dec, ccsd_2rdm_bcai_map, C18_bcai _ _ _ _ _ _ _ _ _ _ hTa hTb hLa hLb]
  refine Eq.trans (b := ein4 (uccsd_2rdm_bcai (r2 nva noa T1a) (r2 nvb nob T1b) (r4 nva nva noa noa T2aa) (r4 nva nvb noa nob T2ab) (r4 nvb nvb nob nob T2bb)
      (r2 noa nva L1a) (r2 nob nvb L1b) (r4 noa noa nva nva L2aa) (r4 noa nob nva nvb L2ab) (r4 nob nob nvb nvb L2bb)).1 (f2 noa nva Aa).vovv + ein4 (uccsd_2rdm_bcai (r2 nva noa T1a) (r2 nvb nob T1b) (r4 nva nva noa noa T2aa) (r4 nva nvb noa nob T2ab) (r4 nvb nvb nob nob T2bb)
      (r2 noa nva L1a) (r2 nob nvb L1b) (r4 noa noa nva nva L2aa) (r4 noa nob nva nvb L2ab) (r4 nob nob nvb nvb L2bb)).2.1 (f2 nob nvb Ab).vovv + 2 * ein4 (uccsd_2rdm_bcai (r2 nva noa T1a) (r2 nvb nob T1b) (r4 nva nva noa noa T2aa) (r4 nva nvb noa nob T2ab) (r4 nvb nvb nob nob T2bb)
      (r2 noa nva L1a) (r2 nob nvb L1b) (r4 noa noa nva nva L2aa) (r4 noa nob nva nvb L2ab) (r4 nob nob nvb nvb L2bb)).2.2.1 (f3 noa nva nob nvb Aab).vovv + 2 * ein4 (uccsd_2rdm_bcai (r2 nva noa T1a) (r2 nvb nob T1b) (r4 nva nva noa noa T2aa) (r4 nva nvb noa nob T2ab) (r4 nvb nvb nob nob T2bb)
      (r2 noa nva L1a) (r2 nob nvb L1b) (r4 noa noa nva nva L2aa) (r4 noa nob nva nvb L2ab) (r4 nob nob nvb nvb L2bb)).2.2.2 (fun p q r s => (f3 noa nva nob nvb Aab).ovvv q p s r)) (by ring) ?_
  exact (ein_first ..).symm.trans (ein4_map ..).symm

theorem u_kaij : ein4 (uccsd_2rdm_kaij (r2 nva noa T1a) (r2 nvb nob T1b) (r4 nva nva noa noa T2aa) (r4 nva nvb noa nob T2ab) (r4 nvb nvb nob nob T2bb)
      (r2 noa nva L1a) (r2 nob nvb L1b) (r4 noa noa nva nva L2aa) (r4 noa nob nva nvb L2ab) (r4 nob nob nvb nvb L2bb)).1 (f2 noa nva Aa).ooov + 2 * ein4 (uccsd_2rdm_kaij (r2 nva noa T1a) (r2 nvb nob T1b) (r4 nva nva noa noa T2aa) (r4 nva nvb noa nob T2ab) (r4 nvb nvb nob nob T2bb)
      (r2 noa nva L1a) (r2 nob nvb L1b) (r4 noa noa nva nva L2aa) (r4 noa nob nva nvb L2ab) (r4 nob nob nvb nvb L2bb)).2.2.1 (f3 noa nva nob nvb Aab).ooov + 2 * ein4 (uccsd_2rdm_kaij (r2 nva noa T1a) (r2 nvb nob T1b) (r4 nva nva noa noa T2aa) (r4 nva nvb noa nob T2ab) (r4 nvb nvb nob nob T2bb)
      (r2 noa nva L1a) (r2 nob nvb L1b) (r4 noa noa nva nva L2aa) (r4 noa nob nva nvb L2ab) (r4 nob nob nvb nvb L2bb)).2.2.2 (fun p q r s => (f3 noa nva nob nvb Aab).oovo q p s r) + ein4 (uccsd_2rdm_kaij (r2 nva noa T1a) (r2 nvb nob T1b) (r4 nva nva noa noa T2aa) (r4 nva nvb noa nob T2ab) (r4 nvb nvb nob nob T2bb)
      (r2 noa nva L1a) (r2 nob nvb L1b) (r4 noa noa nva nva L2aa) (r4 noa nob nva nvb L2ab) (r4 nob nob nvb nvb L2bb)).2.1 (f2 nob nvb Ab).ooov
    = ein4 (ccsd_2rdm_kaij (gT1 noa nva nob nvb T1a T1b) (gT2 noa nva nob nvb T2aa T2ab T2bb) (gT1 nva noa nvb nob L1a L1b) (gT2 nva noa nvb nob L2aa L2ab L2bb)) (gA noa nva nob nvb Aa Ab Aab).ooov := by
  rw [gT1, gT2, gT1, gT2, gA, T1_dec, T2_dec, T1_dec, T2_dec, I_dec, ccsd_2rdm_kaij_map, C18_kaij _ _ _ _ _ _ _ _ _ _ hTa hTb hLa hLb]
  refine Eq.trans (b := ein4 (uccsd_2rdm_kaij (r2 nva noa T1a) (r2 nvb nob T1b) (r4 nva nva noa noa T2aa) (r4 nva nvb noa nob T2ab) (r4 nvb nvb nob nob T2bb)
      (r2 noa nva L1a) (r2 nob nvb L1b) (r4 noa noa nva nva L2aa) (r4 noa nob nva nvb L2ab) (r4 nob nob nvb nvb L2bb)).1 (f2 noa nva Aa).ooov + ein4 (uccsd_2rdm_kaij (r2 nva noa T1a) (r2 nvb nob T1b) (r4 nva nva noa noa T2aa) (r4 nva nvb noa nob T2ab) (r4 nvb nvb nob nob T2bb)
      (r2 noa nva L1a) (r2 nob nvb L1b) (r4 noa noa nva nva L2aa) (r4 noa nob nva nvb L2ab) (r4 nob nob nvb nvb L2bb)).2.1 (f2 nob nvb Ab).ooov + 2 * ein4 (uccsd_2rdm_kaij (r2 nva noa T1a) (r2 nvb nob T1b) (r4 nva nva noa noa T2aa) (r4 nva nvb noa nob T2ab) (r4 nvb nvb nob nob T2bb)
      (r2 noa nva L1a) (r2 nob nvb L1b) (r4 noa noa nva nva L2aa) (r4 noa nob nva nvb L2ab) (r4 nob nob nvb nvb L2bb)).2.2.1 (f3 noa nva nob nvb Aab).ooov + 2 * ein4 (uccsd_2rdm_kaij (r2 nva noa T1a) (r2 nvb nob T1b) (r4 nva nva noa noa T2aa) (r4 nva nvb noa nob T2ab) (r4 nvb nvb nob nob T2bb)
      (r2 noa nva L1a) (r2 nob nvb L1b) (r4 noa noa nva nva L2aa) (r4 noa nob nva nvb L2ab) (r4 nob nob nvb nvb L2bb)).2.2.2 (fun p q r s => (f3 noa nva nob nvb Aab).oovo q p s r)) (by ring) ?_
  exact (ein_last ..).symm.trans (ein4_map ..).symm

theorem u_bjai : ein4 (uccsd_2rdm_bjai (r2 nva noa T1a) (r2 nvb nob T1b) (r4 nva nva noa noa T2aa) (r4 nva nvb noa nob T2ab) (r4 nvb nvb nob nob T2bb)
      (r2 noa nva L1a) (r2 nob nvb L1b) (r4 noa noa nva nva L2aa) (r4 noa nob nva nvb L2ab) (r4 nob nob nvb nvb L2bb)).1 (f2 noa nva Aa).vovo + ein4 (uccsd_2rdm_bjai (r2 nva noa T1a) (r2 nvb nob T1b) (r4 nva nva noa noa T2aa) (r4 nva nvb noa nob T2ab) (r4 nvb nvb nob nob T2bb)
      (r2 noa nva L1a) (r2 nob nvb L1b) (r4 noa noa nva nva L2aa) (r4 noa nob nva nvb L2ab) (r4 nob nob nvb nvb L2bb)).2.2.1 (f3 noa nva nob nvb Aab).vovo - ein4 (uccsd_2rdm_bjai (r2 nva noa T1a) (r2 nvb nob T1b) (r4 nva nva noa noa T2aa) (r4 nva nvb noa nob T2ab) (r4 nvb nvb nob nob T2bb)
      (r2 noa nva L1a) (r2 nob nvb L1b) (r4 noa noa nva nva L2aa) (r4 noa nob nva nvb L2ab) (r4 nob nob nvb nvb L2bb)).2.2.2.1 (fun p q r s => (f3 noa nva nob nvb Aab).ovvo q p r s) - ein4 (uccsd_2rdm_bjai (r2 nva noa T1a) (r2 nvb nob T1b) (r4 nva nva noa noa T2aa) (r4 nva nvb noa nob T2ab) (r4 nvb nvb nob nob T2bb)
      (r2 noa nva L1a) (r2 nob nvb L1b) (r4 noa noa nva nva L2aa) (r4 noa nob nva nvb L2ab) (r4 nob nob nvb nvb L2bb)).2.2.2.2.1 (fun p q r s => (f3 noa nva nob nvb Aab).voov p q s r)
    + ein4 (uccsd_2rdm_bjai (r2 nva noa T1a) (r2 nvb nob T1b) (r4 nva nva noa noa T2aa) (r4 nva nvb noa nob T2ab) (r4 nvb nvb nob nob T2bb)
      (r2 noa nva L1a) (r2 nob nvb L1b) (r4 noa noa nva nva L2aa) (r4 noa nob nva nvb L2ab) (r4 nob nob nvb nvb L2bb)).2.2.2.2.2 (fun p q r s => (f3 noa nva nob nvb Aab).ovov q p s r) + ein4 (uccsd_2rdm_bjai (r2 nva noa T1a) (r2 nvb nob T1b) (r4 nva nva noa noa T2aa) (r4 nva nvb noa nob T2ab) (r4 nvb nvb nob nob T2bb)
      (r2 noa nva L1a) (r2 nob nvb L1b) (r4 noa noa nva nva L2aa) (r4 noa nob nva nvb L2ab) (r4 nob nob nvb nvb L2bb)).2.1 (f2 nob nvb Ab).vovo
    = ein4 (ccsd_2rdm_bjai (gT1 noa nva nob nvb T1a T1b) (gT2 noa nva nob nvb T2aa T2ab T2bb) (gT1 nva noa nvb nob L1a L1b) (gT2 nva noa nvb nob L2aa L2ab L2bb)) (gA noa nva nob nvb Aa Ab Aab).vovo := by
  rw [gT1, gT2, gT1, gT2, gA, T1_dec, T2_dec, T1_dec, T2_dec, I_dec, ccsd_2rdm_bjai_map, C18_bjai _ _ _ _ _ _ _ _ _ _ hTa hTb hLa hLb]
  exact (ein_six ..).symm.trans (ein4_map ..).symm

theorem u1_ba : ein2 (uccsd_1rdm_ba (r2 nva noa T1a) (r2 nvb nob T1b) (r4 nva nva noa noa T2aa) (r4 nva nvb noa nob T2ab) (r4 nvb nvb nob nob T2bb)
      (r2 noa nva L1a) (r2 nob nvb L1b) (r4 noa noa nva nva L2aa) (r4 noa nob nva nvb L2ab) (r4 nob nob nvb nvb L2bb)).1 (f1 noa nva Fa).vv + ein2 (uccsd_1rdm_ba (r2 nva noa T1a) (r2 nvb nob T1b) (r4 nva nva noa noa T2aa) (r4 nva nvb noa nob T2ab) (r4 nvb nvb nob nob T2bb)
      (r2 noa nva L1a) (r2 nob nvb L1b) (r4 noa noa nva nva L2aa) (r4 noa nob nva nvb L2ab) (r4 nob nob nvb nvb L2bb)).2 (f1 nob nvb Fb).vv
    = ein2 (ccsd_1rdm_ba_opt (gT1 noa nva nob nvb T1a T1b) (gT2 noa nva nob nvb T2aa T2ab T2bb) (gT1 nva noa nvb nob L1a L1b) (gT2 nva noa nvb nob L2aa L2ab L2bb)) (gF noa nva nob nvb Fa Fb).vv := by
  rw [C09_1rdm_ba]
  rw [gT1, gT2, gT1, gT2, gF, T1_dec, T2_dec, T1_dec, T2_dec, F_dec, ccsd_1rdm_ba_map, C17_ba _ _ _ _ _ _ _ _ _ _ hTa hTb hLa hLb]
  exact (ein2_blk ..).symm.trans (ein2_map ..).symm

theorem u1_ji : ein2 (uccsd_1rdm_ji (r2 nva noa T1a) (r2 nvb nob T1b) (r4 nva nva noa noa T2aa) (r4 nva nvb noa nob T2ab) (r4 nvb nvb nob nob T2bb)
      (r2 noa nva L1a) (r2 nob nvb L1b) (r4 noa noa nva nva L2aa) (r4 noa nob nva nvb L2ab) (r4 nob nob nvb nvb L2bb)).1 (f1 noa nva Fa).oo + ein2 (uccsd_1rdm_ji (r2 nva noa T1a) (r2 nvb nob T1b) (r4 nva nva noa noa T2aa) (r4 nva nvb noa nob T2ab) (r4 nvb nvb nob nob T2bb)
      (r2 noa nva L1a) (r2 nob nvb L1b) (r4 noa noa nva nva L2aa) (r4 noa nob nva nvb L2ab) (r4 nob nob nvb nvb L2bb)).2 (f1 nob nvb Fb).oo
    = ein2 (ccsd_1rdm_ji_opt (gT1 noa nva nob nvb T1a T1b) (gT2 noa nva nob nvb T2aa T2ab T2bb) (gT1 nva noa nvb nob L1a L1b) (gT2 nva noa nvb nob L2aa L2ab L2bb)) (gF noa nva nob nvb Fa Fb).oo := by
  rw [C09_1rdm_ji]
  rw [gT1, gT2, gT1, gT2, gF, T1_dec, T2_dec, T1_dec, T2_dec, F_dec, ccsd_1rdm_ji_map, C17_ji _ _ _ _ _ _ _ _ _ _ hTa hTb hLa hLb]
  exact (ein2_blk ..).symm.trans (ein2_map ..).symm

theorem u1_ai (hT : Anti (gT2 noa nva nob nvb T2aa T2ab T2bb)) (hL : Anti (gT2 nva noa nvb nob L2aa L2ab L2bb)) : ein2 (uccsd_1rdm_ai (r2 nva noa T1a) (r2 nvb nob T1b) (r4 nva nva noa noa T2aa) (r4 nva nvb noa nob T2ab) (r4 nvb nvb nob nob T2bb)
      (r2 noa nva L1a) (r2 nob nvb L1b) (r4 noa noa nva nva L2aa) (r4 noa nob nva nvb L2ab) (r4 nob nob nvb nvb L2bb) 1).1 (f1 noa nva Fa).ov + ein2 (uccsd_1rdm_ai (r2 nva noa T1a) (r2 nvb nob T1b) (r4 nva nva noa noa T2aa) (r4 nva nvb noa nob T2ab) (r4 nvb nvb nob nob T2bb)
      (r2 noa nva L1a) (r2 nob nvb L1b) (r4 noa noa nva nva L2aa) (r4 noa nob nva nvb L2ab) (r4 nob nob nvb nvb L2bb) 1).2 (f1 nob nvb Fb).ov
    = ein2 (ccsd_1rdm_ai_opt (gT1 noa nva nob nvb T1a T1b) (gT2 noa nva nob nvb T2aa T2ab T2bb) (gT1 nva noa nvb nob L1a L1b) (gT2 nva noa nvb nob L2aa L2ab L2bb) 1) (gF noa nva nob nvb Fa Fb).ov := by
  rw [C09_1rdm_ai _ _ hT _ _ hL]
  rw [gT1, gT2, gT1, gT2, gF, T1_dec, T2_dec, T1_dec, T2_dec, F_dec, ccsd_1rdm_ai_map, C17_ai _ _ _ _ _ _ _ _ _ _ _ hTa hTb hLa hLb]
  exact (ein2_blk ..).symm.trans (ein2_map ..).symm

omit hTa hTb hLa hLb in
theorem u1_ia : ein2 (r2 noa nva L1a) (f1 noa nva Fa).vo + ein2 (r2 nob nvb L1b) (f1 nob nvb Fb).vo
    = ein2 (gT1 nva noa nvb nob L1a L1b) (gF noa nva nob nvb Fa Fb).vo := by
  rw [gT1, gF, T1_dec, F_dec]
  exact (ein2_blk ..).symm.trans (ein2_map ..).symm

end

/-- C82: `test_u1rdm` passes exactly if none of the four contractions it divides by is zero. -/
theorem C82_u1rdm (ht : 0 < thresh) (noa nva nob nvb : ℕ) (foa fova fva fob fovb fvb : M) (ta tb : M) (taa tbb tab : T) (la lb : M) (laa lbb lab : T) :
    test_u1rdm noa nva nob nvb foa fova fva fob fovb fvb ta tb taa tbb tab la lb laa lbb lab thresh ↔
      let X := make_random_T2_spatial taa tbb tab
      let Y := make_random_T2_spatial laa lbb lab
      let A := gF noa nva nob nvb (make_random_F foa fova fva) (make_random_F fob fovb fvb)
      let T1 := gT1 noa nva nob nvb ta tb
      let L1 := gT1 nva noa nvb nob la lb
      let T2 := gT2 noa nva nob nvb X.1 X.2.1 X.2.2
      let L2 := gT2 nva noa nvb nob Y.1 Y.2.1 Y.2.2
      ein2 L1 A.vo ≠ 0 ∧ ein2 (ccsd_1rdm_ba T1 T2 L1 L2) A.vv ≠ 0 ∧ ein2 (ccsd_1rdm_ji T1 T2 L1 L2) A.oo ≠ 0 ∧ ein2 (ccsd_1rdm_ai T1 T2 L1 L2 1) A.ov ≠ 0 := by
  have h1 := u1_ia noa nva nob nvb (make_random_F foa fova fva) (make_random_F fob fovb fvb) la lb
  have h2 := u1_ba noa nva nob nvb (make_random_F foa fova fva) (make_random_F fob fovb fvb) ta tb _ (make_random_T2_spatial taa tbb tab).2.1 _ la lb _ (make_random_T2_spatial laa lbb lab).2.1 _ (Ta_draw nva noa taa tbb tab) (Tb_draw nvb nob taa tbb tab)
    (Ta_draw noa nva laa lbb lab) (Tb_draw nob nvb laa lbb lab)
  have h3 := u1_ji noa nva nob nvb (make_random_F foa fova fva) (make_random_F fob fovb fvb) ta tb _ (make_random_T2_spatial taa tbb tab).2.1 _ la lb _ (make_random_T2_spatial laa lbb lab).2.1 _ (Ta_draw nva noa taa tbb tab) (Tb_draw nvb nob taa tbb tab)
    (Ta_draw noa nva laa lbb lab) (Tb_draw nob nvb laa lbb lab)
  have h4 := u1_ai noa nva nob nvb (make_random_F foa fova fva) (make_random_F fob fovb fvb) ta tb _ (make_random_T2_spatial taa tbb tab).2.1 _ la lb _ (make_random_T2_spatial laa lbb lab).2.1 _ (Ta_draw nva noa taa tbb tab) (Tb_draw nvb nob taa tbb tab)
    (Ta_draw noa nva laa lbb lab) (Tb_draw nob nvb laa lbb lab) (spin_anti ..) (spin_anti ..)
  refine (and_congr (qa ht h1) (and_congr (qa ht h2) (and_congr (qa ht h3) (qa ht h4)))).trans ?_
  simp only [ne_eq, abs_eq_zero]
  have hai := C09_1rdm_ai (gT1 noa nva nob nvb ta tb) _ (spin_anti noa nva nob nvb taa tbb tab) (gT1 nva noa nvb nob la lb) _ (spin_anti nva noa nvb nob laa lbb lab) 1
  exact and_congr Iff.rfl (and_congr Iff.rfl (and_congr Iff.rfl (not_congr (iff_of_eq (congrArg (fun P => ein2 P _ = 0) hai)))))

/-- C82: `test_u2rdm` passes exactly if none of the nine contractions it compares with is -0.001. -/
theorem C82_u2rdm (ht : 0 < thresh) (noa nva nob nvb : ℕ) (ia ib iab : T) (ta tb : M) (taa tbb tab : T) (la lb : M) (laa lbb lab : T) :
    test_u2rdm noa nva nob nvb ia ib iab ta tb taa tbb tab la lb laa lbb lab thresh ↔
      ∀ Aab, Mixed noa nva nob nvb iab Aab →
      let X := make_random_T2_spatial taa tbb tab
      let Y := make_random_T2_spatial laa lbb lab
      let A := gA noa nva nob nvb (make_random_I_anti noa nva ia) (make_random_I_anti nob nvb ib) Aab
      let T1 := gT1 noa nva nob nvb ta tb
      let L1 := gT1 nva noa nvb nob la lb
      let T2 := gT2 noa nva nob nvb X.1 X.2.1 X.2.2
      let L2 := gT2 nva noa nvb nob Y.1 Y.2.1 Y.2.2
      ∀ x ∈ [ein4 L2 A.vvoo, ein4 (ccsd_2rdm_ciab T1 T2 L1 L2) A.vvvo, ein4 (ccsd_2rdm_jkai T1 T2 L1 L2) A.vooo, ein4 (ccsd_2rdm_cdab T1 T2 L1 L2) A.vvvv,
        ein4 (ccsd_2rdm_bjai T1 T2 L1 L2) A.vovo, ein4 (ccsd_2rdm_klij T1 T2 L1 L2) A.oooo, ein4 (ccsd_2rdm_bcai T1 T2 L1 L2) A.vovv,
        ein4 (ccsd_2rdm_kaij T1 T2 L1 L2) A.ooov, ein4 (ccsd_2rdm_abij T1 T2 L1 L2 1) A.oovv], x ≠ -0.001 := by
  have key : ∀ {out ref : ℝ}, out = ref → (quotLt (|out - ref|) (|ref + 0.001|) thresh ↔ ref ≠ -0.001) := fun {out ref} h => by
    rw [h, sub_self, abs_zero, q0 ht, ne_eq, abs_eq_zero, add_eq_zero_iff_eq_neg]
  have hTa := Ta_draw nva noa taa tbb tab
  have hTb := Tb_draw nvb nob taa tbb tab
  have hLa := Ta_draw noa nva laa lbb lab
  have hLb := Tb_draw nob nvb laa lbb lab
  simp only [mixed_iff, forall_eq]
  refine (ex_mixed _).trans ?_
  simp only [List.forall_mem_cons, List.not_mem_nil, false_imp_iff, implies_true, and_true]
  exact and_congr (key (u_ijab noa nva nob nvb _ _ _ _ (make_random_T2_spatial laa lbb lab).2.1 _))
    (and_congr (key (u_ciab _ _ _ _ _ _ _ _ _ _ _ _ _ _ _ _ _ hTa hTb hLa hLb))
    (and_congr (key (u_jkai _ _ _ _ _ _ _ _ _ _ _ _ _ _ _ _ _ hTa hTb hLa hLb))
    (and_congr (key (u_cdab _ _ _ _ _ _ _ _ _ _ _ _ _ _ _ _ _ hTa hTb hLa hLb))
    (and_congr (key (u_bjai _ _ _ _ _ _ _ _ _ _ _ _ _ _ _ _ _ hTa hTb hLa hLb))
    (and_congr (key (u_klij _ _ _ _ _ _ _ _ _ _ _ _ _ _ _ _ _ hTa hTb hLa hLb))
    (and_congr (key (u_bcai _ _ _ _ _ _ _ _ _ _ _ _ _ _ _ _ _ hTa hTb hLa hLb))
    (and_congr (key (u_kaij _ _ _ _ _ _ _ _ _ _ _ _ _ _ _ _ _ hTa hTb hLa hLb))
      (key (u_abij _ _ _ _ _ _ _ _ _ _ _ _ _ _ _ _ _ hTa hTb hLa hLb)))))))))

/-! ## test_spin_utils.py -/

theorem z2 {P Q : Type} [Fintype P] [Fintype Q] {X : P → Q → ℝ} {t : ℝ} (ht : 0 < t) (h : ∀ x y, X x y = 0) : norm2 X < t := by
  rwa [norm2_zero (funext fun x => funext fun y => h x y)]

theorem z4 {P Q R S : Type} [Fintype P] [Fintype Q] [Fintype R] [Fintype S] {X : P → Q → R → S → ℝ} {t : ℝ} (ht : 0 < t) (h : ∀ x y z w, X x y z w = 0) :
    norm4 X < t := by
  rwa [norm4_zero (funext fun x => funext fun y => funext fun z => funext fun w => h x y z w)]

theorem z5 {ng n : ℕ} {X : ℕ → T} {t : ℝ} (ht : 0 < t) (h : ∀ g x y z w, X g x y z w = 0) : norm5 ng n X < t := by
  simpa [norm5, h] using ht

section
variable (ht : 0 < thresh)
include ht

/-- C82: `test_F_sym` passes if there are at least as many virtual as occupied alpha orbitals. -/
theorem C82_F_sym (noa nva nob nvb : ℕ) (foa fova fva fob fovb fvb : M) (hn : noa ≤ nva) :
    test_F_sym noa nva nob nvb foa fova fva fob fovb fvb thresh := by
  obtain ⟨_, hoo, hov, hvo, _⟩ := C20_F_mixed_zero (make_random_F foa fova fva) (make_random_F fob fovb fvb) noa nva nob nvb
  exact ⟨z2 ht fun x y => hoo _ _ (by omega), z2 ht fun x y => hov _ _ (by omega), z2 ht fun x y => hvo _ _ (by omega), z2 ht fun x y => hvo _ _ (by omega)⟩

omit ht in
/-- C82: with fewer virtual than occupied alpha orbitals `test_F_sym` fails on the correct `F_to_spin`, unless the elements it takes for mixed-spin ones
happen to be small. -/
theorem C82_F_sym_false_alarm (noa nva nob nvb : ℕ) (foa fova fva fob fovb fvb : M) (i a : ℕ) (ha : a < nva) (hi : nva ≤ i) (hi' : i < noa)
    (h : thresh ≤ |fova i a|) : ¬ test_F_sym noa nva nob nvb foa fova fva fob fovb fvb thresh := by
  rintro ⟨_, _, _, h4⟩
  have := lt_of_le_of_lt (le_norm2 _ ⟨a, ha⟩ ⟨i - nva, by omega⟩) h4
  have e : sl2 0 nva nva (noa + nob - nva) (Num.F_to_spin (make_random_F foa fova fva) (make_random_F fob fovb fvb) noa nva nob nvb).vo ⟨a, ha⟩ ⟨i - nva, by omega⟩
      = fova i a := by
    have h1 : nva + (i - nva) = i := by omega
    have h2 : ¬ nva ≤ a := by omega
    simp only [sl2, h1, zero_add, Num.F_to_spin, setSl2, make_random_F, tr10]
    simp [ha, hi', h2]
  rw [e] at this
  exact absurd h (not_le.mpr this)

omit ht in
/-- C82: no assertion of `test_F_sym` looks at `F.vv`: any array may stand there. -/
theorem C82_F_sym_vv (noa nva nob nvb : ℕ) (F : OneE ℕ ℕ ℝ) (W : M) :
    checks_F_sym noa nva nob nvb { F with vv := W } thresh ↔ checks_F_sym noa nva nob nvb F thresh := Iff.rfl

/-- C82: `test_I_sym` passes. -/
theorem C82_I_sym (noa nva nob nvb : ℕ) (ia ib iab : T) : test_I_sym noa nva nob nvb ia ib iab thresh := by
  refine ⟨_, (mixed_iff ..).mpr rfl, ?_⟩
  obtain ⟨hvvvv, _, _, _, hvovo, _, _, hooov, hoooo⟩ := C22_int_to_spin_elements (make_random_Ifull noa nva ia) (make_random_Ifull nob nvb ib)
    (slices noa nva nob nvb iab) noa nva nob nvb
  refine ⟨z4 ht fun x y z w => ?_, z4 ht fun x y z w => ?_, z4 ht fun x y z w => ?_, z4 ht fun x y z w => ?_⟩
  · rw [sl4, hoooo _ (by omega) _ (by omega) _ (by omega) _ (by omega)]; simp [Num.spin]
  · rw [sl4, hooov _ (by omega) _ (by omega) _ (by omega) _ (by omega)]; simp [Num.spin]
  · rw [sl4, hvovo _ (by omega) _ (by omega) _ (by omega) _ (by omega)]; simp [Num.spin]
  · rw [sl4, hvvvv _ (by omega) _ (by omega) _ (by omega) _ (by omega)]; simp [Num.spin]

omit ht in
theorem I_ext (no nv : ℕ) (A : T) : ExtTwo no nv (make_random_I no nv A) := by
  constructor <;> (intro x y z w hh; exact if_neg (by omega))

/-- C82: `test_I` passes. -/
theorem C82_I (noa nva nob nvb : ℕ) (ia ib iab : T) : test_I noa nva nob nvb ia ib iab thresh := by
  refine ⟨_, (mixed_iff ..).mpr rfl, ?_⟩
  intro I
  rw [C21_int_round_trip _ _ _ noa nva nob nvb (I_ext noa nva ia) (I_ext nob nvb ib) (slices_ext noa nva nob nvb iab)]
  refine ⟨?_, ?_, ?_, ?_, ?_, ?_, ?_, ?_, ?_, ?_, ?_, ?_, ?_, ?_, ?_, ?_, ?_, ?_, ?_, ?_, ?_, ?_, ?_, ?_, ?_, ?_, ?_, ?_, ?_, ?_, ?_, ?_, ?_, ?_⟩ <;>
    exact z4 ht fun x y z w => sub_self _

/-- C82: `test_T` passes for all draws, provided a spin with both occupied and virtual orbitals exists. -/
theorem C82_T (noa nva nob nvb : ℕ) (t1 : M) (t2 : T) (hn : noa ≠ 0 ∧ nva ≠ 0 ∨ nob ≠ 0 ∧ nvb ≠ 0) : test_T noa nva nob nvb t1 t2 thresh := by
  have hT := (C27_T t1 t2).2
  have hz : ∀ {A : T}, AntiN A → ∀ x z w, A x x z w = 0 := fun h x z w => by have := h.a12 x x z w; linarith
  have aux : ∀ a b : T, AntiN a → AntiN b → (a - b) 0 0 0 0 < thresh := fun a b ha hb => by
    show a 0 0 0 0 - b 0 0 0 0 < thresh
    rw [hz ha, hz hb, sub_zero]; exact ht
  refine ⟨⟨⟨0, by omega⟩, ⟨0, by omega⟩, ⟨0, by omega⟩, ⟨0, by omega⟩, ?_⟩, ?_⟩
  · refine aux _ _ (C21_T2_to_spin_anti _ _ _ _ _ _ _ ?_ ?_) hT <;> constructor <;> intro x y z w <;> simp only [Num.T2_to_spatial, getSl4] <;>
      split_ifs <;> first | exact hT.a12 _ _ _ _ | exact hT.a34 _ _ _ _ | omega | exact neg_zero.symm
  · rcases hn with hn | hn
    · refine ⟨⟨0, by omega⟩, ⟨0, by omega⟩, ?_⟩
      have : (0 < nva) ∧ 0 < noa := by omega
      have h2 : ¬ nva ≤ 0 := by omega
      simp [r2, arrays_T, Num.T1_to_spin, Num.T1_to_spatial, make_random_T, setSl2, getSl2, this, h2, ht]
    · refine ⟨⟨nva, by omega⟩, ⟨noa, by omega⟩, ?_⟩
      have : (0 < nvb) ∧ 0 < nob := by omega
      simp [r2, arrays_T, Num.T1_to_spin, Num.T1_to_spatial, make_random_T, setSl2, getSl2, this, ht]

/-- C82: what `test_T` asserts does not depend on the conversions being right: any antisymmetric doubles and any singles with one element not above the
reference pass, in particular arrays of zeros for the non-negative random numbers it draws. -/
theorem C82_T_weak (no nv : ℕ) (t1 : M) (t2 : T) (T1out : M) (T2out : T) (h2 : AntiN T2out) (a i : ℕ) (ha : a < nv) (hi : i < no) (h1 : T1out a i ≤ t1 a i) :
    checks_T no nv t1 (make_random_T t1 t2).2 T1out T2out thresh := by
  have hT := (C27_T t1 t2).2
  refine ⟨⟨⟨a, ha⟩, ⟨a, ha⟩, ⟨i, hi⟩, ⟨i, hi⟩, ?_⟩, ⟨⟨a, ha⟩, ⟨i, hi⟩, ?_⟩⟩
  · have e1 := h2.a12 a a i i
    have e2 := hT.a12 a a i i
    show T2out a a i i - (make_random_T t1 t2).2 a a i i < thresh
    linarith
  · show T1out a i - t1 a i < thresh
    linarith

omit ht in
/-- C82: the comparison `test_T` means to make is false for generic amplitudes: the mixed-spin elements are dropped on the way. -/
theorem C82_T_meant (noa nva nob nvb : ℕ) (t1 : M) (t2 : T) (a i : ℕ) (ha : a < nva) (hi : noa ≤ i) (hi' : i < noa + nob) (h : thresh ≤ |t1 a i|) :
    ¬ meant_T (noa + nob) (nva + nvb) (arrays_T noa nva nob nvb t1 t2).1 (arrays_T noa nva nob nvb t1 t2).2.1 (arrays_T noa nva nob nvb t1 t2).2.2.1
      (arrays_T noa nva nob nvb t1 t2).2.2.2 thresh := by
  rintro ⟨_, h2⟩
  have := lt_of_le_of_lt (le_norm2 _ ⟨a, by omega⟩ ⟨i, hi'⟩) h2
  have e : r2 (nva + nvb) (noa + nob) ((arrays_T noa nva nob nvb t1 t2).2.2.1 - (arrays_T noa nva nob nvb t1 t2).1) ⟨a, by omega⟩ ⟨i, hi'⟩ = -t1 a i := by
    have := (C20_T1_mixed_zero (Num.T1_to_spatial t1 noa nva nob nvb).1 (Num.T1_to_spatial t1 noa nva nob nvb).2 noa nva nob nvb).1 a i (by omega)
    show Num.T1_to_spin (Num.T1_to_spatial t1 noa nva nob nvb).1 (Num.T1_to_spatial t1 noa nva nob nvb).2 noa nva nob nvb a i - t1 a i = _
    rw [this, zero_sub]
  rw [e, abs_neg] at this
  exact absurd h (not_le.mpr this)

/-! ## test_test.py -/

/-- C82: `test_Isym` passes. -/
theorem C82_Isym (n : ℕ) (i : T) : test_Isym n i thresh := by
  refine ⟨z4 ht fun x y z w => ?_, z4 ht fun x y z w => ?_, z4 ht fun x y z w => ?_⟩
  · exact sub_eq_zero.mpr (C27_Itot i x y z w).1.symm
  · exact sub_eq_zero.mpr (C27_Itot i x y z w).2.2.symm
  · exact sub_eq_zero.mpr (C27_Itot i x y z w).2.1.symm

/-- C82: `test_int_sym` passes. -/
theorem C82_int_sym (no nv : ℕ) (foo fov fvv : M) (itot : T) : test_int_sym no nv foo fov fvv itot thresh := by
  have hF := C27_F foo fov fvv
  have h := (C27_I_anti no nv itot).1
  have s : ∀ {a b : ℝ}, b = -a → a + b = 0 := fun e => by rw [e]; ring
  refine ⟨z2 ht fun x y => sub_eq_zero.mpr (hF.1 _ _).symm, z2 ht fun x y => sub_eq_zero.mpr (hF.2.1 _ _).symm, z2 ht fun x y => sub_eq_zero.mpr (hF.2.2.1 _ _).symm,
    z4 ht fun x y z w => s (h.vvvv34 _ _ _ _), z4 ht fun x y z w => s (h.vvvv12 _ _ _ _), z4 ht fun x y z w => ?_, z4 ht fun x y z w => s (h.vvvo12 _ _ _ _),
    z4 ht fun x y z w => s (h.vovv34 _ _ _ _), z4 ht fun x y z w => s (h.vvoo34 _ _ _ _), z4 ht fun x y z w => s (h.vvoo12 _ _ _ _),
    z4 ht fun x y z w => s (h.oovv34 _ _ _ _), z4 ht fun x y z w => s (h.oovv12 _ _ _ _), z4 ht fun x y z w => s (h.ooov12 _ _ _ _),
    z4 ht fun x y z w => s (h.oooo34 _ _ _ _), z4 ht fun x y z w => s (h.oooo12 _ _ _ _), z4 ht fun x y z w => ?_⟩
  · show _ - _ = (0 : ℝ)
    exact sub_eq_zero.mpr (((h.vvvv12 _ _ _ _).trans (by rw [h.vvvv34 _ _ _ _, neg_neg])).symm)
  · show _ - _ = (0 : ℝ)
    exact sub_eq_zero.mpr (((h.oooo12 _ _ _ _).trans (by rw [h.oooo34 _ _ _ _, neg_neg])).symm)

omit ht in
theorem anti_zero {A : T} (h : AntiN A) (x y z w : ℕ) : (A + tr0132 A) x y z w = 0 ∧ (A + tr1023 A) x y z w = 0 ∧ (A - tr1032 A) x y z w = 0 := by
  have h1 := h.a12 x y z w
  have h2 := h.a34 x y z w
  have h3 := h.a34 y x z w
  simp only [tr0132, tr1023, tr1032, Pi.add_apply, Pi.sub_apply]
  refine ⟨?_, ?_, ?_⟩ <;> linarith

/-- C82: `test_Tsym` passes. -/
theorem C82_Tsym (no nv : ℕ) (t1 : M) (t2 : T) : test_Tsym no nv t1 t2 thresh :=
  have h := anti_zero (C27_T t1 t2).2
  ⟨z4 ht fun x y z w => (h _ _ _ _).1, z4 ht fun x y z w => (h _ _ _ _).2.1, z4 ht fun x y z w => (h _ _ _ _).2.2⟩

/-- C82: `test_Lsym` passes. -/
theorem C82_Lsym (no nv : ℕ) (l1 : M) (l2 : T) : test_Lsym no nv l1 l2 thresh :=
  have h := anti_zero (C27_L l1 l2).2
  ⟨z4 ht fun x y z w => (h _ _ _ _).1, z4 ht fun x y z w => (h _ _ _ _).2.1, z4 ht fun x y z w => (h _ _ _ _).2.2⟩

/-- C82: `test_ft_D_sym` passes. -/
theorem C82_ft_D_sym (n p q m : ℕ) (en e1 e2' en' : ℕ → ℝ) : test_ft_D_sym n p q m en e1 e2' en' thresh := by
  refine ⟨z2 ht fun x y => ?_, z4 ht fun x y z w => ?_, z4 ht fun x y z w => ?_, z2 ht fun x y => ?_⟩
  · simp only [r2, tr10, Pi.add_apply, make_random_ft_D, D1, D2]; ring
  · simp only [r4, tr1032, Pi.sub_apply, make_random_ft_D, D1, D2]; ring
  · simp only [r4, tr2301, Pi.add_apply, make_random_ft_D2, D2u]; ring
  · simp only [r2, tr10, Pi.add_apply, make_random_ft_D1, D1]; ring

/-- C82: `test_ft_int_sym` passes. -/
theorem C82_ft_int_sym (n : ℕ) (f : M) (i : T) : test_ft_int_sym n f i thresh := by
  have hf := C27_ft f i (fun _ => f) (fun _ => i) (fun _ => i) (fun _ => i) (fun _ => i) 0
  have h := anti_zero hf.2.1
  exact ⟨z4 ht fun x y z w => (h _ _ _ _).1, z4 ht fun x y z w => (h _ _ _ _).2.1, z4 ht fun x y z w => (h _ _ _ _).2.2,
    z2 ht fun x y => sub_eq_zero.mpr (hf.1 _ _).symm⟩

/-- C82: `test_ft_Tsym` passes. -/
theorem C82_ft_Tsym (ng n mg m : ℕ) (t1 : ℕ → M) (t2 taa tbb tab : ℕ → T) : test_ft_Tsym ng n mg m t1 t2 taa tbb tab thresh := by
  have hf := C27_ft (t1 0) (t2 0) t1 t2 taa tbb tab
  have h := fun g => anti_zero (hf g).2.2.1
  have ha := fun g => anti_zero (hf g).2.2.2.1
  have hb := fun g => anti_zero (hf g).2.2.2.2.1
  exact ⟨z5 ht fun g x y z w => (h g _ _ _ _).1, z5 ht fun g x y z w => (h g _ _ _ _).2.1, z5 ht fun g x y z w => (h g _ _ _ _).2.2,
    z5 ht fun g x y z w => (ha g _ _ _ _).1, z5 ht fun g x y z w => (hb g _ _ _ _).2.1, z5 ht fun g x y z w => (ha g _ _ _ _).2.1,
    z5 ht fun g x y z w => (hb g _ _ _ _).1⟩

/-! ## test_utils.py, test_ft_utils.py -/

/-- C82: `test_D1` passes. -/
theorem C82_D1 (no nv : ℕ) (eo ev : ℕ → ℝ) : test_D1 no nv eo ev thresh := z2 ht fun x y => sub_eq_zero.mpr rfl

/-- C82: `test_D2` passes. -/
theorem C82_D2 (no nv : ℕ) (eo ev : ℕ → ℝ) : test_D2 no nv eo ev thresh := z4 ht fun x y z w => sub_eq_zero.mpr rfl

/-- C82: `test_vector` passes, for all vectors of orbital energies. -/
theorem C82_vector (beta mu : ℝ) (es : Ft.Vec) : test_vector beta mu es thresh := by
  obtain ⟨_, _, h1, h2⟩ := Ft.C28_vectors beta mu es
  constructor
  · show √(∑ i : Fin es.len, (Ft.fermi_function beta (es.val i) mu - (Ft.ff beta es mu).val i) ^ 2) < thresh
    rw [Finset.sum_eq_zero fun i _ => by rw [h1 i i.2, sub_self, zero_pow two_ne_zero], Real.sqrt_zero]
    exact ht
  · show √(∑ i : Fin es.len, (Ft.vfermi_function beta (es.val i) mu - (Ft.ffv beta es mu).val i) ^ 2) < thresh
    rw [Finset.sum_eq_zero fun i _ => by rw [h2 i i.2, sub_self, zero_pow two_ne_zero], Real.sqrt_zero]
    exact ht

end

/-! ## Instances -/

/-- `test_uccsd` with unequal numbers of orbitals -/
example : test_uccsd 1 2 2 1 0 1 0 0 1 0 0 0 1 1 1 0 0 0 1 := (C82_uccsd one_pos ..).mpr (by omega)

/-- a false alarm of `test_F_sym`: two occupied, one virtual alpha orbital -/
example : ¬ test_F_sym 2 1 2 1 0 1 0 0 1 0 1 := C82_F_sym_false_alarm 2 1 2 1 0 1 0 0 1 0 1 0 (by omega) (by omega) (by omega) (by simp)

/-- arrays of zeros pass the assertions of `test_T` -/
example : checks_T 2 2 1 (make_random_T 1 0).2 0 0 1 :=
  C82_T_weak one_pos 2 2 1 0 0 0 ⟨fun _ _ _ _ => neg_zero.symm, fun _ _ _ _ => neg_zero.symm⟩ 0 0 (by omega) (by omega) zero_le_one

/-- and what is meant is false -/
example : ¬ meant_T 2 2 (arrays_T 1 1 1 1 1 0).1 (arrays_T 1 1 1 1 1 0).2.1 (arrays_T 1 1 1 1 1 0).2.2.1 (arrays_T 1 1 1 1 1 0).2.2.2 1 :=
  C82_T_meant 1 1 1 1 1 0 0 1 (by omega) (by omega) (by omega) (by simp)

/-- `test_u1rdm` fails if all numbers drawn are zero -/
example : ¬ test_u1rdm 1 1 1 1 0 0 0 0 0 0 0 0 0 0 0 0 0 0 0 0 1 := by
  rw [C82_u1rdm one_pos]
  rintro ⟨h, _⟩
  refine h ?_
  simp only [ein2]
  refine Finset.sum_eq_zero fun x _ => Finset.sum_eq_zero fun y _ => ?_
  rw [show gT1 1 1 1 1 (0 : M) 0 x y = 0 by simp [gT1, r2, Num.T1_to_spin, setSl2], zero_mul]

/-- and passes for others -/
example : test_u1rdm 1 1 0 0 1 1 1 0 0 0 1 0 0 0 0 2 0 0 0 0 1 := by
  rw [C82_u1rdm one_pos]
  refine ⟨?_, ?_, ?_, ?_⟩ <;>
    norm_num [ein2, gT1, gT2, gF, r2, r4, Num.T1_to_spin, Num.T2_to_spin, Num.F_to_spin, setSl2, setSl4, OneE.map, make_random_F, tr10, make_random_T2_spatial,
      ccsd_1rdm_ba, ccsd_1rdm_ji, ccsd_1rdm_ai, tr1023, tr0132, tr1032]

end CC.Tests
