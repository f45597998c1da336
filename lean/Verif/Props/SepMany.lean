import Verif.Props.SepU
import Verif.Props.RT
import Verif.Props.ResponseR
import Mathlib.Algebra.BigOperators.Fin
/-!
# C52: any number of subsystems

The orbitals of the combined system are pairs of a subsystem and an orbital of it.  Tensors of the combined system are zero unless all indices belong to the same
subsystem.
-/
set_option linter.unusedSectionVars false
set_option linter.unusedVariables false
namespace CC
open Verif.Tensor

namespace Many
open Classical

variable {K : Type} [Field K] {n : ℕ}

noncomputable section

def two {P Q : Fin n → Type} (A : ∀ k, P k → Q k → K) : (Σ k, P k) → (Σ k, Q k) → K :=
  fun x y => if h : x.1 = y.1 then A y.1 (h ▸ x.2) y.2 else 0

def four {P Q R S : Fin n → Type} (A : ∀ k, P k → Q k → R k → S k → K) : (Σ k, P k) → (Σ k, Q k) → (Σ k, R k) → (Σ k, S k) → K :=
  fun x y z w => if h : x.1 = w.1 ∧ y.1 = w.1 ∧ z.1 = w.1 then A w.1 (h.1 ▸ x.2) (h.2.1 ▸ y.2) (h.2.2 ▸ z.2) w.2 else 0

variable {O V : Fin n → Type}

def one (F : ∀ k, OneE (O k) (V k) K) : OneE (Σ k, O k) (Σ k, V k) K where
  oo := two fun k => (F k).oo
  ov := two fun k => (F k).ov
  vo := two fun k => (F k).vo
  vv := two fun k => (F k).vv

def int (I : ∀ k, TwoE (O k) (V k) K) : TwoE (Σ k, O k) (Σ k, V k) K where
  vvvv := four fun k => (I k).vvvv
  vvvo := four fun k => (I k).vvvo
  vovv := four fun k => (I k).vovv
  vvoo := four fun k => (I k).vvoo
  vovo := four fun k => (I k).vovo
  oovv := four fun k => (I k).oovv
  vooo := four fun k => (I k).vooo
  ooov := four fun k => (I k).ooov
  oooo := four fun k => (I k).oooo

variable {Oa Va Ob Vb : Fin n → Type}

def ab (I : ∀ k, TwoEFull (Oa k) (Va k) (Ob k) (Vb k) K) : TwoEFull (Σ k, Oa k) (Σ k, Va k) (Σ k, Ob k) (Σ k, Vb k) K where
  oooo := four fun k => (I k).oooo
  ooov := four fun k => (I k).ooov
  oovo := four fun k => (I k).oovo
  oovv := four fun k => (I k).oovv
  ovoo := four fun k => (I k).ovoo
  ovov := four fun k => (I k).ovov
  ovvo := four fun k => (I k).ovvo
  ovvv := four fun k => (I k).ovvv
  vooo := four fun k => (I k).vooo
  voov := four fun k => (I k).voov
  vovo := four fun k => (I k).vovo
  vovv := four fun k => (I k).vovv
  vvoo := four fun k => (I k).vvoo
  vvov := four fun k => (I k).vvov
  vvvo := four fun k => (I k).vvvo
  vvvv := four fun k => (I k).vvvv

/-! ### elements -/

/-- within a subsystem -/
theorem two_same {P Q : Fin n → Type} (A : ∀ k, P k → Q k → K) (k : Fin n) (x : P k) (y : Q k) : two A ⟨k, x⟩ ⟨k, y⟩ = A k x y := by
  simp [two]

/-- between subsystems -/
theorem two_other {P Q : Fin n → Type} (A : ∀ k, P k → Q k → K) {k l : Fin n} (h : k ≠ l) (x : P k) (y : Q l) : two A ⟨k, x⟩ ⟨l, y⟩ = 0 := by
  simp [two, h]

theorem four_same {P Q R S : Fin n → Type} (A : ∀ k, P k → Q k → R k → S k → K) (k : Fin n) (x : P k) (y : Q k) (z : R k) (w : S k) :
    four A ⟨k, x⟩ ⟨k, y⟩ ⟨k, z⟩ ⟨k, w⟩ = A k x y z w := by
  simp [four]

theorem four_other {P Q R S : Fin n → Type} (A : ∀ k, P k → Q k → R k → S k → K) (x : Σ k, P k) (y : Σ k, Q k) (z : Σ k, R k) (w : Σ k, S k)
    (h : ¬ (x.1 = w.1 ∧ y.1 = w.1 ∧ z.1 = w.1)) : four A x y z w = 0 := by
  simp only [four, dif_neg h]

/-! ### the first subsystem and the rest -/

/-- An orbital belongs to the first subsystem or to another. -/
def split {m : ℕ} (P : Fin (m + 1) → Type) : (Σ k, P k) ≃ P 0 ⊕ Σ k : Fin m, P k.succ where
  toFun := fun
    | ⟨⟨0, _⟩, x⟩ => .inl x
    | ⟨⟨k + 1, h⟩, x⟩ => .inr ⟨⟨k, Nat.lt_of_succ_lt_succ h⟩, x⟩
  invFun := fun
    | .inl x => ⟨0, x⟩
    | .inr ⟨k, x⟩ => ⟨k.succ, x⟩
  left_inv := by rintro ⟨⟨_ | k, h⟩, x⟩ <;> rfl
  right_inv := by rintro (x | ⟨k, x⟩) <;> rfl

theorem two_succ {m : ℕ} {P Q : Fin (m + 1) → Type} (A : ∀ k, P k → Q k → K) :
    two A = map2 (split P) (split Q) (Sep.two (A 0) (two fun k : Fin m => A k.succ)) := by
  funext x y
  obtain ⟨x, rfl⟩ := (split P).symm.surjective x
  obtain ⟨y, rfl⟩ := (split Q).symm.surjective y
  simp only [map2, Equiv.apply_symm_apply]
  rcases x with x | ⟨k, x⟩ <;> rcases y with y | ⟨l, y⟩
  · exact two_same A 0 x y
  · exact two_other A (Fin.succ_ne_zero l).symm x y
  · exact two_other A (Fin.succ_ne_zero k) x y
  · by_cases h : k = l
    · subst h
      exact (two_same A k.succ x y).trans (two_same (fun k : Fin m => A k.succ) k x y).symm
    · exact (two_other A (fun e => h (Fin.succ_injective _ e)) x y).trans (two_other (fun k : Fin m => A k.succ) h x y).symm

theorem four_succ {m : ℕ} {P Q R S : Fin (m + 1) → Type} (A : ∀ k, P k → Q k → R k → S k → K) :
    four A = map4 (split P) (split Q) (split R) (split S) (Sep.four (A 0) (four fun k : Fin m => A k.succ)) := by
  funext x y z w
  obtain ⟨x, rfl⟩ := (split P).symm.surjective x
  obtain ⟨y, rfl⟩ := (split Q).symm.surjective y
  obtain ⟨z, rfl⟩ := (split R).symm.surjective z
  obtain ⟨w, rfl⟩ := (split S).symm.surjective w
  simp only [map4, Equiv.apply_symm_apply]
  rcases x with x | ⟨k, x⟩ <;> rcases y with y | ⟨l, y⟩ <;> rcases z with z | ⟨i, z⟩ <;> rcases w with w | ⟨j, w⟩
  case inr.inr.inr.inr =>
    by_cases h : k = j ∧ l = j ∧ i = j
    · obtain ⟨rfl, rfl, rfl⟩ := h
      exact (four_same A _ x y z w).trans (four_same (fun k : Fin m => A k.succ) _ x y z w).symm
    · refine (four_other A _ _ _ _ fun e => h ?_).trans (four_other (fun k : Fin m => A k.succ) ⟨k, x⟩ ⟨l, y⟩ ⟨i, z⟩ ⟨j, w⟩ h).symm
      exact ⟨Fin.succ_injective _ e.1, Fin.succ_injective _ e.2.1, Fin.succ_injective _ e.2.2⟩
  case inl.inl.inl.inl => exact four_same A 0 x y z w
  all_goals
    refine four_other A _ _ _ _ fun e => ?_
    simp only [split, Equiv.coe_fn_symm_mk] at e
    obtain ⟨e1, e2, e3⟩ := e
    first
      | exact Fin.succ_ne_zero _ e1
      | exact Fin.succ_ne_zero _ e2
      | exact Fin.succ_ne_zero _ e3
      | exact Fin.succ_ne_zero _ e1.symm
      | exact Fin.succ_ne_zero _ e2.symm
      | exact Fin.succ_ne_zero _ e3.symm

theorem one_succ {m : ℕ} {O V : Fin (m + 1) → Type} (F : ∀ k, OneE (O k) (V k) K) :
    one F = (Sep.one (F 0) (one fun k : Fin m => F k.succ)).map (split O) (split V) := by
  simp only [one, Sep.one, OneE.map, OneE.mk.injEq]
  exact ⟨two_succ _, two_succ _, two_succ _, two_succ _⟩

theorem int_succ {m : ℕ} {O V : Fin (m + 1) → Type} (I : ∀ k, TwoE (O k) (V k) K) :
    int I = (Sep.int (I 0) (int fun k : Fin m => I k.succ)).map (split O) (split V) := by
  simp only [int, Sep.int, TwoE.map, TwoE.mk.injEq]
  exact ⟨four_succ _, four_succ _, four_succ _, four_succ _, four_succ _, four_succ _, four_succ _, four_succ _, four_succ _⟩

theorem anti12 {P R S : Fin n → Type} {A : ∀ k, P k → P k → R k → S k → K} (h : ∀ k, Anti12 (A k)) : Anti12 (four A) := by
  rintro ⟨k, x⟩ ⟨l, y⟩ ⟨i, z⟩ ⟨j, w⟩
  by_cases e : k = j ∧ l = j ∧ i = j
  · obtain ⟨rfl, rfl, rfl⟩ := e
    rw [four_same, four_same]; exact h _ _ _ _ _
  · rw [four_other A ⟨k, x⟩ ⟨l, y⟩ ⟨i, z⟩ ⟨j, w⟩ e, four_other A ⟨l, y⟩ ⟨k, x⟩ ⟨i, z⟩ ⟨j, w⟩ (fun e' => e ⟨e'.2.1, e'.1, e'.2.2⟩), neg_zero]

theorem anti34 {P R S : Fin n → Type} {A : ∀ k, P k → R k → S k → S k → K} (h : ∀ k, Anti34 (A k)) : Anti34 (four A) := by
  rintro ⟨k, x⟩ ⟨l, y⟩ ⟨i, z⟩ ⟨j, w⟩
  by_cases e : k = j ∧ l = j ∧ i = j
  · obtain ⟨rfl, rfl, rfl⟩ := e
    rw [four_same, four_same]; exact h _ _ _ _ _
  · rw [four_other A ⟨k, x⟩ ⟨l, y⟩ ⟨i, z⟩ ⟨j, w⟩ e, four_other A ⟨k, x⟩ ⟨l, y⟩ ⟨j, w⟩ ⟨i, z⟩, neg_zero]
    rintro ⟨e1, e2, e3⟩
    simp only at e1 e2 e3
    exact e ⟨e1.trans e3.symm, e2.trans e3.symm, e3.symm⟩

theorem anti {P Q : Fin n → Type} {A : ∀ k, P k → P k → Q k → Q k → K} (h : ∀ k, Anti (A k)) : Anti (four A) :=
  ⟨anti12 fun k => (h k).1, anti34 fun k => (h k).2⟩

theorem antiI {I : ∀ k, TwoE (O k) (V k) K} (h : ∀ k, AntiI (I k)) : AntiI (int I) where
  vvvv12 := anti12 fun k => (h k).vvvv12
  vvvv34 := anti34 fun k => (h k).vvvv34
  vvvo12 := anti12 fun k => (h k).vvvo12
  vovv34 := anti34 fun k => (h k).vovv34
  vvoo12 := anti12 fun k => (h k).vvoo12
  vvoo34 := anti34 fun k => (h k).vvoo34
  oovv12 := anti12 fun k => (h k).oovv12
  oovv34 := anti34 fun k => (h k).oovv34
  vooo34 := anti34 fun k => (h k).vooo34
  ooov12 := anti12 fun k => (h k).ooov12
  oooo12 := anti12 fun k => (h k).oooo12
  oooo34 := anti34 fun k => (h k).oooo34
end
end Many

variable {K : Type} [Field K] [CharZero K]

section
variable {n : ℕ} {O V : Fin n → Type} [∀ k, Fintype (O k)] [∀ k, Fintype (V k)] (F : ∀ k, OneE (O k) (V k) K) (I : ∀ k, TwoE (O k) (V k) K)
  (T1 : ∀ k, V k → O k → K) (T2 : ∀ k, V k → V k → O k → O k → K)

/-- C52: the energy of subsystems that do not interact is the sum of their energies. -/
theorem C52_many_energy :
    cc_energy (Many.two T1) (Many.four T2) (Many.one F).ov (Many.int I).oovv = ∑ k, cc_energy (T1 k) (T2 k) (F k).ov (I k).oovv := by
  induction n with
  | zero => simp [cc_energy, cc_energy_d, cc_energy_s1, cc_energy_s2]
  | succ m ih =>
    rw [Fin.sum_univ_succ, ← ih, ← C52_energy, Many.two_succ, Many.four_succ, Many.one_succ, Many.int_succ, OneE.map_ov, TwoE.map_oovv, cc_energy_map]

/-- C52: the CCSD equations of subsystems that do not interact are those of each. -/
theorem C52_many_ccsd_simple :
    ccsd_simple (Many.one F) (Many.int I) (Many.two T1) (Many.four T2)
    = (Many.two fun k => (ccsd_simple (F k) (I k) (T1 k) (T2 k)).1, Many.four fun k => (ccsd_simple (F k) (I k) (T1 k) (T2 k)).2) := by
  induction n with
  | zero => exact Prod.ext (funext fun x => x.1.elim0) (funext fun x => x.1.elim0)
  | succ m ih =>
    rw [Many.two_succ T1, Many.four_succ T2, Many.one_succ, Many.int_succ, ccsd_simple_map, C52_ccsd_simple, ih, Many.two_succ, Many.four_succ]

variable {F I T1 T2}

/-- C52 for the implementation with intermediates. -/
theorem C52_many_ccsd (hI : ∀ k, AntiI (I k)) (hT : ∀ k, Anti (T2 k)) :
    ccsd_stanton (Many.one F) (Many.int I) (Many.two T1) (Many.four T2)
    = (Many.two fun k => (ccsd_stanton (F k) (I k) (T1 k) (T2 k)).1, Many.four fun k => (ccsd_stanton (F k) (I k) (T1 k) (T2 k)).2) := by
  rw [C01_ccsd_stanton_eq_simple _ _ (Many.antiI hI) _ _ (Many.anti hT), C52_many_ccsd_simple]
  simp only [fun k => C01_ccsd_stanton_eq_simple (F k) (I k) (hI k) (T1 k) (T2 k) (hT k)]

theorem Many.two_zero {P Q : Fin n → Type} : (Many.two fun (k : Fin n) (_ : P k) (_ : Q k) => (0 : K)) = fun _ _ => 0 := by
  funext x y; unfold Many.two; split_ifs <;> rfl

theorem Many.four_zero {P Q R S : Fin n → Type} : (Many.four fun (k : Fin n) (_ : P k) (_ : Q k) (_ : R k) (_ : S k) => (0 : K)) = fun _ _ _ _ => 0 := by
  funext x y z w; unfold Many.four; split_ifs <;> rfl

/-- C52: amplitudes that solve the equations of every subsystem solve those of the combined system, whose energy is the sum. -/
theorem C52_many_solutions (hI : ∀ k, AntiI (I k)) (hT : ∀ k, Anti (T2 k))
    (h : ∀ k, ccsd_stanton (F k) (I k) (T1 k) (T2 k) = (fun _ _ => 0, fun _ _ _ _ => 0)) :
    ccsd_stanton (Many.one F) (Many.int I) (Many.two T1) (Many.four T2) = (fun _ _ => 0, fun _ _ _ _ => 0) ∧
    cc_energy (Many.two T1) (Many.four T2) (Many.one F).ov (Many.int I).oovv = ∑ k, cc_energy (T1 k) (T2 k) (F k).ov (I k).oovv := by
  refine ⟨?_, C52_many_energy F I T1 T2⟩
  rw [C52_many_ccsd hI hT]
  simp only [h, Many.two_zero, Many.four_zero]

/-- C52: the energy of `n` equal subsystems is `n` times the energy of one. -/
theorem C52_copies (n : ℕ) {O V : Type} [Fintype O] [Fintype V] (F : OneE O V K) (I : TwoE O V K) (T1 : V → O → K) (T2 : V → V → O → O → K) :
    cc_energy (Many.two fun _ : Fin n => T1) (Many.four fun _ => T2) (Many.one fun _ => F).ov (Many.int fun _ => I).oovv = n * cc_energy T1 T2 F.ov I.oovv := by
  rw [C52_many_energy (fun _ : Fin n => F) (fun _ => I) (fun _ => T1) (fun _ => T2)]
  simp

end

section unrestricted
variable {n : ℕ} {Oa Va Ob Vb : Fin n → Type}

namespace Many
/-- Spin orbitals ordered by spin and by subsystem. -/
def swap (A B : Fin n → Type) : (Σ k, A k) ⊕ (Σ k, B k) ≃ Σ k, A k ⊕ B k := (Equiv.sigmaSumDistrib A B).symm

theorem spin2 {P Q P' Q' : Fin n → Type} (A : ∀ k, P k → Q k → K) (B : ∀ k, P' k → Q' k → K) :
    blk2 (two A) (two B) = map2 (swap P P') (swap Q Q') (two fun k => blk2 (A k) (B k)) := by
  funext x y
  rcases x with ⟨k, x⟩ | ⟨k, x⟩ <;> rcases y with ⟨l, y⟩ | ⟨l, y⟩ <;> (
    by_cases h : k = l
    · subst h
      first
        | exact (two_same A k x y).trans (two_same (fun k => blk2 (A k) (B k)) k (.inl x) (.inl y)).symm
        | exact (two_same B k x y).trans (two_same (fun k => blk2 (A k) (B k)) k (.inr x) (.inr y)).symm
        | exact (two_same (fun k => blk2 (A k) (B k)) k (.inl x) (.inr y)).symm
        | exact (two_same (fun k => blk2 (A k) (B k)) k (.inr x) (.inl y)).symm
    · first
        | exact (two_other A h x y).trans (two_other (fun k => blk2 (A k) (B k)) h (.inl x) (.inl y)).symm
        | exact (two_other B h x y).trans (two_other (fun k => blk2 (A k) (B k)) h (.inr x) (.inr y)).symm
        | exact (two_other (fun k => blk2 (A k) (B k)) h (.inl x) (.inr y)).symm
        | exact (two_other (fun k => blk2 (A k) (B k)) h (.inr x) (.inl y)).symm)

theorem spin4 {P P' Q Q' R R' S S' : Fin n → Type} (A1 : ∀ k, P k → Q k → R k → S k → K) (A2 : ∀ k, P' k → Q' k → R' k → S' k → K)
    (A3 : ∀ k, P k → Q' k → R k → S' k → K) (A4 : ∀ k, P' k → Q k → R' k → S k → K) (A5 : ∀ k, P k → Q' k → R' k → S k → K)
    (A6 : ∀ k, P' k → Q k → R k → S' k → K) :
    int_to_spin_block (four A1) (four A2) (four A3) (four A4) (four A5) (four A6)
    = map4 (swap P P') (swap Q Q') (swap R R') (swap S S') (four fun k => int_to_spin_block (A1 k) (A2 k) (A3 k) (A4 k) (A5 k) (A6 k)) := by
  funext x y z w
  generalize hG : (fun k => int_to_spin_block (A1 k) (A2 k) (A3 k) (A4 k) (A5 k) (A6 k)) = G
  rcases x with ⟨k, x⟩ | ⟨k, x⟩ <;> rcases y with ⟨l, y⟩ | ⟨l, y⟩ <;> rcases z with ⟨i, z⟩ | ⟨i, z⟩ <;> rcases w with ⟨j, w⟩ | ⟨j, w⟩ <;> (
    by_cases h : k = j ∧ l = j ∧ i = j
    · obtain ⟨rfl, rfl, rfl⟩ := h
      refine Eq.trans ?_ (four_same G _ _ _ _ _).symm
      subst hG
      first
        | exact four_same _ _ _ _ _ _
        | rfl
    · refine Eq.trans ?_ (four_other G _ _ _ _ h).symm
      first
        | exact four_other _ _ _ _ _ h
        | rfl)

theorem four_1032 {P Q R S : Fin n → Type} (A : ∀ k, P k → Q k → R k → S k → K) :
    (fun x y z w => four A y x w z) = four fun k x y z w => A k y x w z := by
  funext ⟨l, y⟩ ⟨k, x⟩ ⟨j, w⟩ ⟨i, z⟩
  by_cases h : k = j ∧ l = j ∧ i = j
  · obtain ⟨rfl, rfl, rfl⟩ := h
    rw [four_same, four_same]
  · rw [four_other A, four_other]
    · rintro ⟨e1, e2, e3⟩; simp only at e1 e2 e3; exact h ⟨e2.trans e3.symm, e1.trans e3.symm, e3.symm⟩
    · rintro ⟨e1, e2, e3⟩; simp only at e1 e2 e3; exact h ⟨e1, e2, e3⟩

theorem four_0132 {P Q R S : Fin n → Type} (A : ∀ k, P k → Q k → R k → S k → K) :
    (fun x y z w => -four A x y w z) = four fun k x y z w => -A k x y w z := by
  funext ⟨k, x⟩ ⟨l, y⟩ ⟨j, w⟩ ⟨i, z⟩
  by_cases h : k = j ∧ l = j ∧ i = j
  · obtain ⟨rfl, rfl, rfl⟩ := h
    rw [four_same, four_same]
  · rw [four_other A, four_other, neg_zero]
    · rintro ⟨e1, e2, e3⟩; simp only at e1 e2 e3; exact h ⟨e1.trans e3.symm, e2.trans e3.symm, e3.symm⟩
    · rintro ⟨e1, e2, e3⟩; simp only at e1 e2 e3; exact h ⟨e1, e2, e3⟩

theorem four_1023 {P Q R S : Fin n → Type} (A : ∀ k, P k → Q k → R k → S k → K) :
    (fun x y z w => -four A y x z w) = four fun k x y z w => -A k y x z w := by
  funext ⟨l, y⟩ ⟨k, x⟩ ⟨i, z⟩ ⟨j, w⟩
  by_cases h : k = j ∧ l = j ∧ i = j
  · obtain ⟨rfl, rfl, rfl⟩ := h
    rw [four_same, four_same]
  · rw [four_other A, four_other, neg_zero]
    · rintro ⟨e1, e2, e3⟩; exact h ⟨e2, e1, e3⟩
    · rintro ⟨e1, e2, e3⟩; exact h ⟨e1, e2, e3⟩

end Many

theorem T2_to_spin_block {Oa Va Ob Vb : Type} (Taa : Va → Va → Oa → Oa → K) (Tab : Va → Vb → Oa → Ob → K) (Tbb : Vb → Vb → Ob → Ob → K) :
    T2_to_spin Taa Tab Tbb = int_to_spin_block Taa Tbb Tab (fun x y z w => Tab y x w z) (fun x y z w => -Tab x y w z) (fun x y z w => -Tab y x z w) := by
  funext x y z w
  rcases x with x | x <;> rcases y with y | y <;> rcases z with z | z <;> rcases w with w | w <;> rfl

variable (Fa : ∀ k, OneE (Oa k) (Va k) K) (Fb : ∀ k, OneE (Ob k) (Vb k) K) (Ia : ∀ k, TwoE (Oa k) (Va k) K) (Ib : ∀ k, TwoE (Ob k) (Vb k) K)
  (Iab : ∀ k, TwoEFull (Oa k) (Va k) (Ob k) (Vb k) K) (T1a : ∀ k, Va k → Oa k → K) (T1b : ∀ k, Vb k → Ob k → K)
  (T2aa : ∀ k, Va k → Va k → Oa k → Oa k → K) (T2ab : ∀ k, Va k → Vb k → Oa k → Ob k → K) (T2bb : ∀ k, Vb k → Vb k → Ob k → Ob k → K)

theorem many_F : F_to_spin (Many.one Fa) (Many.one Fb) = (Many.one fun k => F_to_spin (Fa k) (Fb k)).map (Many.swap ..) (Many.swap ..) := by
  simp only [F_to_spin, Many.one, OneE.map, OneE.mk.injEq]
  exact ⟨Many.spin2 .., Many.spin2 .., Many.spin2 .., Many.spin2 ..⟩

theorem many_T1 : T1_to_spin (Many.two T1a) (Many.two T1b) = map2 (Many.swap ..) (Many.swap ..) (Many.two fun k => T1_to_spin (T1a k) (T1b k)) :=
  Many.spin2 ..

theorem many_T2 : T2_to_spin (Many.four T2aa) (Many.four T2ab) (Many.four T2bb)
    = map4 (Many.swap ..) (Many.swap ..) (Many.swap ..) (Many.swap ..) (Many.four fun k => T2_to_spin (T2aa k) (T2ab k) (T2bb k)) := by
  simp only [T2_to_spin_block]
  rw [Many.four_1032, Many.four_0132, Many.four_1023]
  exact Many.spin4 ..

theorem many_I : int_to_spin2 (Many.int Ia) (Many.int Ib) (Many.ab Iab)
    = (Many.int fun k => int_to_spin2 (Ia k) (Ib k) (Iab k)).map (Many.swap ..) (Many.swap ..) := by
  simp only [int_to_spin2, Many.int, Many.ab, TwoE.map, TwoE.mk.injEq]
  refine ⟨?_, ?_, ?_, ?_, ?_, ?_, ?_, ?_, ?_⟩ <;>
  · rw [Many.four_1032, Many.four_0132, Many.four_1023]
    exact Many.spin4 ..

variable [∀ k, Fintype (Oa k)] [∀ k, Fintype (Va k)] [∀ k, Fintype (Ob k)] [∀ k, Fintype (Vb k)]

/-- C52: the unrestricted energy of subsystems that do not interact is the sum of their energies. -/
theorem C52_many_ucc_energy :
    ucc_energy (Many.two T1a, Many.two T1b) (Many.four T2aa, Many.four T2ab, Many.four T2bb) (Many.one Fa).ov (Many.one Fb).ov
      (Many.int Ia).oovv (Many.int Ib).oovv (Many.ab Iab).oovv
    = ∑ k, ucc_energy (T1a k, T1b k) (T2aa k, T2ab k, T2bb k) (Fa k).ov (Fb k).ov (Ia k).oovv (Ib k).oovv (Iab k).oovv := by
  have h := C12_ucc_energy (Many.one Fa) (Many.one Fb) (Many.int Ia) (Many.int Ib) (Many.ab Iab) (Many.two T1a) (Many.two T1b)
    (Many.four T2aa) (Many.four T2ab) (Many.four T2bb)
  rw [many_F, many_T1, many_T2, many_I, OneE.map_ov, TwoE.map_oovv, cc_energy_map, C52_many_energy] at h
  simp only [C12_ucc_energy] at h
  exact h.symm

variable {Fa Fb Ia Ib Iab T1a T1b T2aa T2ab T2bb}

/-- C52: the unrestricted CCSD equations of subsystems that do not interact are those of each. -/
theorem C52_many_uccsd (hIa : ∀ k, AntiI (Ia k)) (hIb : ∀ k, AntiI (Ib k)) (hTa : ∀ k, Anti (T2aa k)) (hTb : ∀ k, Anti (T2bb k)) :
    uccsd_stanton (Many.one Fa) (Many.one Fb) (Many.int Ia) (Many.int Ib) (Many.ab Iab) (Many.two T1a, Many.two T1b)
      (Many.four T2aa, Many.four T2ab, Many.four T2bb)
    = ((Many.two fun k => (uccsd_stanton (Fa k) (Fb k) (Ia k) (Ib k) (Iab k) (T1a k, T1b k) (T2aa k, T2ab k, T2bb k)).1.1,
        Many.two fun k => (uccsd_stanton (Fa k) (Fb k) (Ia k) (Ib k) (Iab k) (T1a k, T1b k) (T2aa k, T2ab k, T2bb k)).1.2),
       (Many.four fun k => (uccsd_stanton (Fa k) (Fb k) (Ia k) (Ib k) (Iab k) (T1a k, T1b k) (T2aa k, T2ab k, T2bb k)).2.1,
        Many.four fun k => (uccsd_stanton (Fa k) (Fb k) (Ia k) (Ib k) (Iab k) (T1a k, T1b k) (T2aa k, T2ab k, T2bb k)).2.2.1,
        Many.four fun k => (uccsd_stanton (Fa k) (Fb k) (Ia k) (Ib k) (Iab k) (T1a k, T1b k) (T2aa k, T2ab k, T2bb k)).2.2.2)) := by
  rw [← C13_uccsd_extract (Many.one Fa) (Many.one Fb) (Many.int Ia) (Many.int Ib) (Many.ab Iab) (Many.two T1a) (Many.two T1b)
    (Many.four T2aa) (Many.four T2ab) (Many.four T2bb) (Many.antiI hIa) (Many.antiI hIb) (Many.anti hTa) (Many.anti hTb), many_F, many_T1, many_T2, many_I,
    ccsd_simple_map, C52_many_ccsd_simple]
  simp only [fun k => C13_uccsd (Fa k) (Fb k) (Ia k) (Ib k) (Iab k) (T1a k) (T1b k) (T2aa k) (T2ab k) (T2bb k) (hIa k) (hIb k) (hTa k) (hTb k)]
  rw [← many_T1, ← many_T2]
  rfl

/-- C52: unrestricted amplitudes that solve the equations of every subsystem solve those of the combined system, whose energy is the sum. -/
theorem C52_many_u_solutions (hIa : ∀ k, AntiI (Ia k)) (hIb : ∀ k, AntiI (Ib k)) (hTa : ∀ k, Anti (T2aa k)) (hTb : ∀ k, Anti (T2bb k))
    (h : ∀ k, uccsd_stanton (Fa k) (Fb k) (Ia k) (Ib k) (Iab k) (T1a k, T1b k) (T2aa k, T2ab k, T2bb k)
      = ((fun _ _ => 0, fun _ _ => 0), (fun _ _ _ _ => 0, fun _ _ _ _ => 0, fun _ _ _ _ => 0))) :
    uccsd_stanton (Many.one Fa) (Many.one Fb) (Many.int Ia) (Many.int Ib) (Many.ab Iab) (Many.two T1a, Many.two T1b)
      (Many.four T2aa, Many.four T2ab, Many.four T2bb)
      = ((fun _ _ => 0, fun _ _ => 0), (fun _ _ _ _ => 0, fun _ _ _ _ => 0, fun _ _ _ _ => 0)) ∧
    ucc_energy (Many.two T1a, Many.two T1b) (Many.four T2aa, Many.four T2ab, Many.four T2bb) (Many.one Fa).ov (Many.one Fb).ov
      (Many.int Ia).oovv (Many.int Ib).oovv (Many.ab Iab).oovv
    = ∑ k, ucc_energy (T1a k, T1b k) (T2aa k, T2ab k, T2bb k) (Fa k).ov (Fb k).ov (Ia k).oovv (Ib k).oovv (Iab k).oovv := by
  refine ⟨?_, C52_many_ucc_energy Fa Fb Ia Ib Iab T1a T1b T2aa T2ab T2bb⟩
  rw [C52_many_uccsd hIa hIb hTa hTb]
  simp only [h, Many.two_zero, Many.four_zero]

end unrestricted
section restricted
variable {n : ℕ} {O V : Fin n → Type}

namespace Many
theorem four_exch {P Q R S : Fin n → Type} (A : ∀ k, P k → Q k → R k → S k → K) (B : ∀ k, P k → Q k → S k → R k → K) :
    (fun x y z w => four A x y z w - four B x y w z) = four fun k x y z w => A k x y z w - B k x y w z := by
  have := four_0132 B
  funext x y z w
  rw [sub_eq_add_neg, congrFun (congrFun (congrFun (congrFun this x) y) z) w]
  unfold four
  split_ifs
  · exact (sub_eq_add_neg _ _).symm
  · exact add_zero 0

theorem pair {P Q R S : Fin n → Type} {A : ∀ k, P k → Q k → R k → S k → K} {B : ∀ k, Q k → P k → S k → R k → K} (h : ∀ k x y z w, A k x y z w = B k y x w z)
    (x y z w) : four A x y z w = four B y x w z := by
  have := congrFun (congrFun (congrFun (congrFun (four_1032 B) x) y) z) w
  rw [this]
  congr 1
  funext k x y z w
  exact h k x y z w

theorem pairI {I : ∀ k, TwoEFull (O k) (V k) (O k) (V k) K} (h : ∀ k, PairI (I k)) : PairI (ab I) where
  oooo := pair fun k => (h k).oooo
  oovo := pair fun k => (h k).oovo
  oovv := pair fun k => (h k).oovv
  ovoo := pair fun k => (h k).ovoo
  ovov := pair fun k => (h k).ovov
  ovvo := pair fun k => (h k).ovvo
  ovvv := pair fun k => (h k).ovvv
  vvoo := pair fun k => (h k).vvoo
  vvov := pair fun k => (h k).vvov
  vvvv := pair fun k => (h k).vvvv

theorem asymI_ab (I : ∀ k, TwoEFull (O k) (V k) (O k) (V k) K) : asymI (ab I) = int fun k => asymI (I k) := by
  simp only [asymI, ab, int, TwoE.mk.injEq]
  exact ⟨four_exch .., four_exch .., four_exch .., four_exch .., four_exch .., four_exch .., four_exch .., four_exch .., four_exch ..⟩
end Many

variable [∀ k, Fintype (O k)] [∀ k, Fintype (V k)] {F : ∀ k, OneE (O k) (V k) K} {I : ∀ k, TwoEFull (O k) (V k) (O k) (V k) K}
  {T1 : ∀ k, V k → O k → K} {T2 : ∀ k, V k → V k → O k → O k → K}

/-- C52: the restricted CCSD equations of subsystems that do not interact are those of each, and the energies add. -/
theorem C52_many_rccsd (hI : ∀ k, PairI (I k)) (hT : ∀ k, PairSym (T2 k)) :
    rccsd_stanton (Many.one F) (Many.ab I) (Many.two T1) (Many.four T2)
      = (Many.two fun k => (rccsd_stanton (F k) (I k) (T1 k) (T2 k)).1, Many.four fun k => (rccsd_stanton (F k) (I k) (T1 k) (T2 k)).2) ∧
    rcc_energy (Many.two T1) (Many.four T2) (Many.one F).ov (Many.ab I).oovv = ∑ k, rcc_energy (T1 k) (T2 k) (F k).ov (I k).oovv := by
  have hp : PairSym (Many.four T2) := fun a b i j => Many.pair (A := T2) (B := T2) (fun k x y z w => (hT k y x w z)) b a j i
  have ha : asym2 (Many.four T2) = Many.four fun k => asym2 (T2 k) := Many.four_exch ..
  have hi : asym2 (Many.ab I).oovv = (Many.int fun k => asymI (I k)).oovv := Many.four_exch (fun k => (I k).oovv) fun k => (I k).oovv
  constructor
  · have h := C14_rccsd (Many.one F) (Many.ab I) (Many.two T1) (Many.four T2) (Many.pairI hI) hp
    rw [Many.asymI_ab, ha, C52_many_uccsd (fun k => asymI_anti (hI k)) (fun k => asymI_anti (hI k)) (fun k => asym2_anti (hT k)) (fun k => asym2_anti (hT k))] at h
    simp only [fun k => C14_rccsd (F k) (I k) (T1 k) (T2 k) (hI k) (hT k), Prod.mk.injEq] at h
    exact Prod.ext h.1.1.symm h.2.2.1.symm
  · rw [← C12_rcc_energy (Many.two T1) (Many.four T2) (Many.one F).ov (Many.ab I).oovv (fun a b i j => ((Many.pairI hI).oovv a b i j).symm) hp, ha, hi, C52_many_ucc_energy F F (fun k => asymI (I k)) (fun k => asymI (I k)) I T1 T1]
    exact Finset.sum_congr rfl fun k _ => C12_rcc_energy (T1 k) (T2 k) (F k).ov (I k).oovv (fun a b i j => ((hI k).oovv a b i j).symm) (hT k)

end restricted

/-- three equal subsystems -/
example : (∀ _ : Fin 3, AntiI I0 ∧ Anti T20) ∧
    cc_energy (Many.two fun _ : Fin 3 => T10) (Many.four fun _ => T20) (Many.one fun _ => F0).ov (Many.int fun _ => I0).oovv = 3 * cc_energy T10 T20 F0.ov I0.oovv ∧
    cc_energy T10 T20 F0.ov I0.oovv ≠ 0 :=
  ⟨fun _ => ⟨I0_anti, T20_anti⟩, C52_copies 3 F0 I0 T10 T20, by decide +kernel⟩

/-- a doubles residual of the third subsystem that does not vanish -/
example : (ccsd_stanton (Many.one fun _ : Fin 3 => F0) (Many.int fun _ => I0) (Many.two fun _ => T10) (Many.four fun _ => T20)).2 ⟨2, 0⟩ ⟨2, 1⟩ ⟨2, 0⟩ ⟨2, 1⟩ ≠ 0 := by
  rw [C52_many_ccsd (fun _ => I0_anti) fun _ => T20_anti]
  refine ne_of_eq_of_ne (Many.four_same (fun _ : Fin 3 => (ccsd_stanton F0 I0 T10 T20).2) 2 0 1 0 1) ?_
  decide +kernel

end CC
