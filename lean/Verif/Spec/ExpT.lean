import Verif.Spec.Fock
import Mathlib.RingTheory.Nilpotent.Exp
import Mathlib.Algebra.Algebra.Rat
import Mathlib.Tactic.NoncommRing
import Mathlib.Tactic.Module
/-!
# The exponential of an excitation operator

Excitation operators `a†_a a_i` from occupied to virtual orbitals commute and raise the number of virtual orbitals, so a cluster
operator is nilpotent and its exponential (Mathlib's `IsNilpotent.exp`) applied to a determinant is a finite sum.
-/
set_option linter.unusedSectionVars false
namespace Fock
variable {ι : Type} [LinearOrder ι] {K : Type} [Field K]

theorem neg_mul_end (A B : Module.End K (Finset ι → K)) : -A * B = -(A * B) := neg_mul A B

theorem mul_neg_end (A B : Module.End K (Finset ι → K)) : A * -B = -(A * B) := mul_neg A B

/-- The excitation operator `a†_a a_i`. -/
def E (i a : ι) : Module.End K (Finset ι → K) := cre a * ann i

theorem ann_cre_ne {p q : ι} (h : p ≠ q) : (ann p * cre q : Module.End K (Finset ι → K)) = -(cre q * ann p) := by
  have := ann_cre (K := K) p q
  rw [if_neg h] at this
  exact eq_neg_of_add_eq_zero_left this

theorem E_mul {i a j b : ι} (h : i ≠ b) : (E i a * E j b : Module.End K (Finset ι → K)) = cre a * cre b * ann j * ann i := by
  unfold E
  calc cre a * ann i * (cre b * ann j) = cre a * (ann i * cre b) * ann j := by simp only [mul_assoc]
    _ = - (cre a * cre b * (ann i * ann j)) := by rw [ann_cre_ne h, mul_neg_end, neg_mul_end]; simp only [mul_assoc]
    _ = cre a * cre b * ann j * ann i := by rw [ann_ann i j, mul_neg_end, neg_neg]; simp only [mul_assoc]

theorem E_comm {i a j b : ι} (h : i ≠ b) (h' : j ≠ a) : (E i a * E j b : Module.End K (Finset ι → K)) = E j b * E i a := by
  rw [E_mul h, E_mul h', cre_cre a b, mul_assoc, mul_assoc, neg_mul_end, ann_ann j i, mul_neg_end, neg_neg, mul_assoc]

theorem E_swap {i a j b : ι} (h : i ≠ b) (h' : i ≠ a) : (E i b * E j a : Module.End K (Finset ι → K)) = -(E i a * E j b) := by
  rw [E_mul h, E_mul h', cre_cre b a, neg_mul_end, neg_mul_end]

theorem E_swap' {i a j b : ι} (h : i ≠ b) (h' : j ≠ b) : (E j a * E i b : Module.End K (Finset ι → K)) = -(E i a * E j b) := by
  rw [E_mul h, E_mul h', mul_assoc, ann_ann i j, mul_neg_end, ← mul_assoc]

/-! ### the filtration by the number of virtual orbitals -/

/-- Vectors without components on determinants having fewer than `k` orbitals in `V`. -/
def Lev (V : Finset ι) (k : ℕ) (ψ : Finset ι → K) : Prop := ∀ S, (S ∩ V).card < k → ψ S = 0

variable {V : Finset ι}

theorem Lev.add {k : ℕ} {ψ φ : Finset ι → K} (h : Lev V k ψ) (h' : Lev V k φ) : Lev V k (ψ + φ) := fun S hS => by
  rw [Pi.add_apply, h S hS, h' S hS, add_zero]

theorem Lev.smul {k : ℕ} {ψ : Finset ι → K} (h : Lev V k ψ) (c : K) : Lev V k (c • ψ) := fun S hS => by
  rw [Pi.smul_apply, h S hS, smul_zero]

theorem Lev.zero (k : ℕ) : Lev (K := K) V k 0 := fun _ _ => rfl

theorem Lev.mono {k l : ℕ} (h : l ≤ k) {ψ : Finset ι → K} (hψ : Lev V k ψ) : Lev V l ψ := fun S hS => hψ S (by omega)

theorem Lev.all (ψ : Finset ι → K) : Lev V 0 ψ := fun _ hS => absurd hS (by omega)

theorem Lev.sum {α : Type} {s : Finset α} {k : ℕ} {ψ : α → Finset ι → K} (h : ∀ x ∈ s, Lev V k (ψ x)) :
    Lev V k (∑ x ∈ s, ψ x) := by
  classical
  induction s using Finset.induction_on with
  | empty => simpa using Lev.zero k
  | insert x s hx ih =>
    rw [Finset.sum_insert hx]
    exact (h x (by simp)).add (ih fun y hy => h y (by simp [hy]))

theorem Lev.top {k : ℕ} (hk : V.card < k) {ψ : Finset ι → K} (h : Lev V k ψ) : ψ = 0 := by
  funext S
  exact h S (lt_of_le_of_lt (Finset.card_le_card Finset.inter_subset_right) hk)

/-- `X` raises the number of orbitals in `V` by at least `m`. -/
def Raises (V : Finset ι) (m : ℕ) (X : Module.End K (Finset ι → K)) : Prop := ∀ k ψ, Lev V k ψ → Lev V (k + m) (X ψ)

theorem Raises.add {m : ℕ} {X Y : Module.End K (Finset ι → K)} (hX : Raises V m X) (hY : Raises V m Y) : Raises V m (X + Y) :=
  fun k ψ h => (hX k ψ h).add (hY k ψ h)

theorem Raises.smul {m : ℕ} {X : Module.End K (Finset ι → K)} (hX : Raises V m X) (c : K) : Raises V m (c • X) :=
  fun k ψ h => (hX k ψ h).smul c

theorem Raises.mono {m m' : ℕ} (hm : m' ≤ m) {X : Module.End K (Finset ι → K)} (hX : Raises V m X) : Raises V m' X :=
  fun k ψ h => (hX k ψ h).mono (by omega)

theorem Raises.sum {α : Type} {s : Finset α} {m : ℕ} {X : α → Module.End K (Finset ι → K)} (h : ∀ x ∈ s, Raises V m (X x)) :
    Raises V m (∑ x ∈ s, X x) := by
  intro k ψ hψ
  rw [LinearMap.sum_apply]
  exact Lev.sum fun x hx => h x hx k ψ hψ

theorem Raises.mul {m m' : ℕ} {X Y : Module.End K (Finset ι → K)} (hX : Raises V m X) (hY : Raises V m' Y) :
    Raises V (m + m') (X * Y) := fun k ψ h => by
  have := hX _ _ (hY k ψ h)
  exact this.mono (by omega)

theorem Raises.one : Raises V 0 (1 : Module.End K (Finset ι → K)) := fun _ _ h => h

theorem Raises.pow {m : ℕ} {X : Module.End K (Finset ι → K)} (hX : Raises V m X) (p : ℕ) : Raises V (p * m) (X ^ p) := by
  induction p with
  | zero => simpa using Raises.one
  | succ p ih => rw [pow_succ, Nat.succ_mul]; exact ih.mul hX

theorem Raises.E {i a : ι} (hi : i ∉ V) (ha : a ∈ V) : Raises V 1 (E i a : Module.End K (Finset ι → K)) := by
  intro k ψ h S hS
  rw [Fock.E, Module.End.mul_apply, cre_apply]
  split_ifs with haS
  · rw [ann_apply]
    split_ifs with hiS
    · simp
    · rw [h, mul_zero, mul_zero]
      rw [Finset.insert_inter_of_notMem hi, Finset.erase_inter, Finset.card_erase_of_mem (by simp [haS, ha])]
      have : 0 < (S ∩ V).card := Finset.card_pos.mpr ⟨a, by simp [haS, ha]⟩
      omega
  · rfl

theorem Raises.nilpotent {m : ℕ} (hm : 1 ≤ m) {X : Module.End K (Finset ι → K)} (hX : Raises V m X) : X ^ (V.card + 1) = 0 := by
  ext ψ S : 2
  have := (hX.mono hm).pow (V.card + 1) 0 ψ (Lev.all ψ)
  have := Lev.top (by omega) this
  rw [this]; rfl

theorem Raises.isNilpotent {m : ℕ} (hm : 1 ≤ m) {X : Module.End K (Finset ι → K)} (hX : Raises V m X) : IsNilpotent X :=
  ⟨_, hX.nilpotent hm⟩

/-! ### the exponential at low excitation -/

variable [CharZero K]

theorem rat_smul_end (q : ℚ) (X : Module.End K (Finset ι → K)) : q • X = (q : K) • X := by
  ext ψ S
  simp [Rat.smul_def]

/-- The coefficients of `exp T` at determinants with fewer than `k` orbitals in `V` come from its first `k` terms. -/
theorem exp_low {T : Module.End K (Finset ι → K)} (hT : Raises V 1 T) (ψ : Finset ι → K) {k : ℕ} {S : Finset ι}
    (hS : (S ∩ V).card < k) :
    IsNilpotent.exp T ψ S = ∑ p ∈ Finset.range k, ((p.factorial : K)⁻¹ • (T ^ p)) ψ S := by
  have hz : T ^ (V.card + 1 + k) = 0 := by rw [pow_add, hT.nilpotent (le_refl 1), zero_mul]
  rw [IsNilpotent.exp_eq_sum hz, Finset.sum_congr rfl fun p _ => rat_smul_end _ _, LinearMap.sum_apply, Finset.sum_apply]
  have : Finset.range k ⊆ Finset.range (V.card + 1 + k) := Finset.range_subset_range.mpr (by omega)
  rw [← Finset.sum_subset this]
  · refine Finset.sum_congr rfl fun p _ => ?_
    simp
  · intro p _ hp
    rw [Finset.mem_range, not_lt] at hp
    have := (hT.pow p 0 ψ (Lev.all ψ)) S (by omega)
    rw [LinearMap.smul_apply, Pi.smul_apply, this, smul_zero]

/-- Excitations of `T1 + T2` up to level one. -/
theorem exp_one {X Y : Module.End K (Finset ι → K)} (hX : Raises V 1 X) (hY : Raises V 2 Y) (ψ : Finset ι → K) {S : Finset ι}
    (hS : (S ∩ V).card ≤ 1) : IsNilpotent.exp (X + Y) ψ S = (1 + X) ψ S := by
  rw [exp_low (hX.add (hY.mono (by omega))) ψ (k := 2) (by omega)]
  have y := hY 0 ψ (Lev.all ψ) S (by omega)
  simp [Finset.sum_range_succ, y]

/-- Excitations of `T1 + T2` up to level two. -/
theorem exp_two {X Y : Module.End K (Finset ι → K)} (hX : Raises V 1 X) (hY : Raises V 2 Y) (hXY : X * Y = Y * X)
    (ψ : Finset ι → K) {S : Finset ι} (hS : (S ∩ V).card ≤ 2) :
    IsNilpotent.exp (X + Y) ψ S = (1 + X + (Y + (1 / 2 : K) • (X * X))) ψ S := by
  rw [exp_low (hX.add (hY.mono (by omega))) ψ (k := 3) (by omega)]
  have h1 := (hX.mul hY) 0 ψ (Lev.all ψ) S (by omega)
  have h2 := (hY.mul hY) 0 ψ (Lev.all ψ) S (by omega)
  have e : (X + Y) ^ 2 = X * X + 2 • (X * Y) + Y * Y := by
    rw [pow_two, mul_add, add_mul, add_mul, ← hXY]; abel
  simp only [Finset.sum_range_succ, Finset.sum_range_zero, pow_zero, pow_one, e, LinearMap.add_apply, LinearMap.smul_apply, Pi.add_apply,
    Pi.smul_apply, h1, h2, Nat.factorial]
  simp
  ring

/-- Excitations of `T1 + T2` up to level three. -/
theorem exp_three {X Y : Module.End K (Finset ι → K)} (hX : Raises V 1 X) (hY : Raises V 2 Y) (hXY : X * Y = Y * X)
    (ψ : Finset ι → K) {S : Finset ι} (hS : (S ∩ V).card ≤ 3) :
    IsNilpotent.exp (X + Y) ψ S =
      (1 + X + (Y + (1 / 2 : K) • (X * X)) + (X * Y + (1 / 6 : K) • (X * X * X))) ψ S := by
  rw [exp_low (hX.add (hY.mono (by omega))) ψ (k := 4) (by omega)]
  have h2 := (hY.mul hY) 0 ψ (Lev.all ψ) S (by omega)
  have h3 := ((hX.mul hX).mul hY) 0 ψ (Lev.all ψ) S (by omega)
  have h4 := ((hX.mul hY).mul hY) 0 ψ (Lev.all ψ) S (by omega)
  have h5 := ((hY.mul hY).mul hY) 0 ψ (Lev.all ψ) S (by omega)
  have e : (X + Y) ^ 2 = X * X + 2 • (X * Y) + Y * Y := by
    rw [pow_two, mul_add, add_mul, add_mul, ← hXY]; abel
  have e3 : (X + Y) ^ 3 = X * X * X + 3 • (X * X * Y) + 3 • (X * Y * Y) + Y * Y * Y := by
    have a1 : X * Y * X = X * X * Y := by rw [mul_assoc, ← hXY, ← mul_assoc]
    have a2 : Y * Y * X = X * Y * Y := by rw [mul_assoc, ← hXY, ← mul_assoc, ← hXY]
    rw [pow_succ, e]
    simp only [mul_add, add_mul, smul_mul_assoc, a1, a2]; abel
  simp only [Finset.sum_range_succ, Finset.sum_range_zero, pow_zero, pow_one, e, e3, LinearMap.add_apply, LinearMap.smul_apply,
    Pi.add_apply, Pi.smul_apply, h2, h3, h4, h5, Nat.factorial]
  simp
  ring

/-- Excitations of `T1 + T2` up to level four. -/
theorem exp_four {X Y : Module.End K (Finset ι → K)} (hX : Raises V 1 X) (hY : Raises V 2 Y) (hXY : X * Y = Y * X)
    (ψ : Finset ι → K) {S : Finset ι} (hS : (S ∩ V).card ≤ 4) :
    IsNilpotent.exp (X + Y) ψ S =
      (1 + X + (Y + (1 / 2 : K) • (X * X)) + (X * Y + (1 / 6 : K) • (X * X * X))
        + ((1 / 2 : K) • (Y * Y) + (1 / 2 : K) • (X * X * Y) + (1 / 24 : K) • (X * X * X * X))) ψ S := by
  rw [exp_low (hX.add (hY.mono (by omega))) ψ (k := 5) (by omega)]
  have h4 := ((hX.mul hY).mul hY) 0 ψ (Lev.all ψ) S (by omega)
  have h5 := ((hY.mul hY).mul hY) 0 ψ (Lev.all ψ) S (by omega)
  have h6 := (((hX.mul hX).mul hX).mul hY) 0 ψ (Lev.all ψ) S (by omega)
  have h7 := (((hX.mul hX).mul hY).mul hY) 0 ψ (Lev.all ψ) S (by omega)
  have h8 := (((hX.mul hY).mul hY).mul hY) 0 ψ (Lev.all ψ) S (by omega)
  have h9 := (((hY.mul hY).mul hY).mul hY) 0 ψ (Lev.all ψ) S (by omega)
  have a1 : X * Y * X = X * X * Y := by rw [mul_assoc, ← hXY, ← mul_assoc]
  have a2 : Y * Y * X = X * Y * Y := by rw [mul_assoc, ← hXY, ← mul_assoc, ← hXY]
  have e : (X + Y) ^ 2 = X * X + 2 • (X * Y) + Y * Y := by
    rw [pow_two, mul_add, add_mul, add_mul, ← hXY]; abel
  have e3 : (X + Y) ^ 3 = X * X * X + 3 • (X * X * Y) + 3 • (X * Y * Y) + Y * Y * Y := by
    rw [pow_succ, e]
    simp only [mul_add, add_mul, smul_mul_assoc, a1, a2]; abel
  have e4 : (X + Y) ^ 4 = X * X * X * X + 4 • (X * X * X * Y) + 6 • (X * X * Y * Y) + 4 • (X * Y * Y * Y) + Y * Y * Y * Y := by
    have b1 : X * X * Y * X = X * X * X * Y := by rw [mul_assoc X X Y, mul_assoc X, a1, ← mul_assoc, ← mul_assoc]
    have b2 : X * Y * Y * X = X * X * Y * Y := by rw [mul_assoc X Y Y, mul_assoc X, a2, ← mul_assoc, ← mul_assoc]
    have b3 : Y * Y * Y * X = X * Y * Y * Y := by rw [mul_assoc Y Y Y, mul_assoc Y, a2, ← mul_assoc, ← mul_assoc, hXY]
    rw [pow_succ, e3]
    simp only [mul_add, add_mul, smul_mul_assoc, b1, b2, b3]; abel
  simp only [Finset.sum_range_succ, Finset.sum_range_zero, pow_zero, pow_one, e, e3, e4, LinearMap.add_apply, LinearMap.smul_apply,
    Pi.add_apply, Pi.smul_apply, h4, h5, h6, h7, h8, h9, Nat.factorial]
  simp
  ring

end Fock
