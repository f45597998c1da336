import Mathlib.Algebra.Module.LinearMap.End
import Mathlib.Algebra.Module.Pi
import Mathlib.Algebra.BigOperators.Group.Finset.Basic
import Mathlib.Algebra.BigOperators.Ring.Finset
import Mathlib.Data.Fintype.Powerset
import Mathlib.Order.Interval.Finset.Defs
import Mathlib.Tactic.Ring
import Mathlib.Tactic.LinearCombination
/-!
# Second quantisation

Fock space over a linearly ordered type of spin orbitals: a vector assigns a coefficient to every determinant, and a
determinant is a finite set of orbitals.  `a†_p` and `a_p` carry the sign of the number of occupied orbitals before `p`.
This is textbook material, written without reference to the code; `CAR` proves the anticommutation relations, which
characterise these operators up to a change of phase conventions.
-/
namespace Fock
variable {ι : Type} [LinearOrder ι] {K : Type} [Field K]

/-- Number of orbitals of `S` before `p`. -/
def cnt (p : ι) (S : Finset ι) : ℕ := (S.filter (· < p)).card

/-- The phase `(-1)^(number of orbitals of S before p)`. -/
def sgn (K : Type) [Field K] (p : ι) (S : Finset ι) : K := (-1) ^ cnt p S

/-- annihilation operator `a_p` -/
def ann (p : ι) : Module.End K (Finset ι → K) where
  toFun ψ S := if p ∈ S then 0 else sgn K p S * ψ (insert p S)
  map_add' ψ φ := by funext S; simp only [Pi.add_apply]; split_ifs <;> ring
  map_smul' c ψ := by funext S; simp only [Pi.smul_apply, smul_eq_mul, RingHom.id_apply]; split_ifs <;> ring

/-- creation operator `a†_p` -/
def cre (p : ι) : Module.End K (Finset ι → K) where
  toFun ψ S := if p ∈ S then sgn K p (S.erase p) * ψ (S.erase p) else 0
  map_add' ψ φ := by funext S; simp only [Pi.add_apply]; split_ifs <;> ring
  map_smul' c ψ := by funext S; simp only [Pi.smul_apply, smul_eq_mul, RingHom.id_apply]; split_ifs <;> ring

/-- the basis vector of a determinant -/
def det (S : Finset ι) : Finset ι → K := Pi.single S 1

theorem ann_apply (p : ι) (ψ : Finset ι → K) (S : Finset ι) :
    ann p ψ S = if p ∈ S then 0 else sgn K p S * ψ (insert p S) := rfl
theorem cre_apply (p : ι) (ψ : Finset ι → K) (S : Finset ι) :
    cre p ψ S = if p ∈ S then sgn K p (S.erase p) * ψ (S.erase p) else 0 := rfl
theorem det_apply (S T : Finset ι) : det (K := K) S T = if T = S then 1 else 0 := by
  rw [det, Pi.single_apply]

/-! ## Phases -/

theorem cnt_insert {p q : ι} {S : Finset ι} (h : q ∉ S) : cnt p (insert q S) = cnt p S + if q < p then 1 else 0 := by
  unfold cnt
  rw [Finset.filter_insert]
  split_ifs with h1
  · rw [Finset.card_insert_of_notMem (fun hh => h (Finset.mem_filter.mp hh).1)]
  · rfl

theorem cnt_erase_self (p : ι) (S : Finset ι) : cnt p (S.erase p) = cnt p S := by
  unfold cnt
  congr 1
  ext x
  simp only [Finset.mem_filter, Finset.mem_erase]
  constructor
  · rintro ⟨⟨-, h⟩, h'⟩; exact ⟨h, h'⟩
  · rintro ⟨h, h'⟩; exact ⟨⟨h'.ne, h⟩, h'⟩

theorem cnt_insert_self (p : ι) (S : Finset ι) : cnt p (insert p S) = cnt p S := by
  unfold cnt
  congr 1
  ext x
  simp only [Finset.mem_filter, Finset.mem_insert]
  constructor
  · rintro ⟨h | h, h'⟩
    · exact absurd h h'.ne
    · exact ⟨h, h'⟩
  · rintro ⟨h, h'⟩; exact ⟨Or.inr h, h'⟩

theorem sgn_sq (p : ι) (S : Finset ι) : sgn K p S * sgn K p S = 1 := by
  unfold sgn; rw [← mul_pow]; simp

theorem sgn_insert {p q : ι} {S : Finset ι} (h : q ∉ S) :
    sgn K p (insert q S) = (if q < p then -1 else 1) * sgn K p S := by
  unfold sgn; rw [cnt_insert h, pow_add]; split_ifs <;> ring

theorem sgn_erase_self (p : ι) (S : Finset ι) : sgn K p (S.erase p) = sgn K p S := by
  unfold sgn; rw [cnt_erase_self]

theorem sgn_insert_self (p : ι) (S : Finset ι) : sgn K p (insert p S) = sgn K p S := by
  unfold sgn; rw [cnt_insert_self]

theorem sgn_erase {p q : ι} {S : Finset ι} (h : q ∈ S) :
    sgn K p (S.erase q) = (if q < p then -1 else 1) * sgn K p S := by
  have := sgn_insert (K := K) (p := p) (S := S.erase q) (Finset.notMem_erase q S)
  rw [Finset.insert_erase h] at this
  rw [this]; split_ifs <;> ring

/-! ## Anticommutation relations -/

theorem ann_ann (p q : ι) : (ann p * ann q : Module.End K (Finset ι → K)) = -(ann q * ann p) := by
  ext ψ S
  by_cases hpq : p = q
  · subst hpq; simp [Module.End.mul_apply, ann_apply]
  simp only [Module.End.mul_apply, ann_apply, LinearMap.neg_apply, Pi.neg_apply, Finset.mem_insert]
  by_cases hp : p ∈ S <;> by_cases hq : q ∈ S <;> simp [hp, hq, hpq, Ne.symm hpq, Finset.insert_comm]
  rw [sgn_insert hp, sgn_insert hq, Finset.insert_comm p q]
  rcases lt_trichotomy p q with h | h | h
  · simp [h, h.not_gt]; ring
  · exact absurd h hpq
  · simp [h, h.not_gt]; ring

theorem cre_cre (p q : ι) : (cre p * cre q : Module.End K (Finset ι → K)) = -(cre q * cre p) := by
  ext ψ S
  by_cases hpq : p = q
  · subst hpq; simp [Module.End.mul_apply, cre_apply]
  simp only [Module.End.mul_apply, cre_apply, LinearMap.neg_apply, Pi.neg_apply, Finset.mem_erase]
  by_cases hp : p ∈ S <;> by_cases hq : q ∈ S <;> simp [hp, hq, hpq, Ne.symm hpq]
  have hp' : p ∈ S.erase q := Finset.mem_erase.mpr ⟨hpq, hp⟩
  have hq' : q ∈ S.erase p := Finset.mem_erase.mpr ⟨Ne.symm hpq, hq⟩
  rw [Finset.erase_right_comm (a := p) (b := q), sgn_erase_self, sgn_erase_self (p := q), sgn_erase_self (p := p),
    Finset.erase_right_comm (a := q) (b := p), sgn_erase_self (p := q), sgn_erase hp, sgn_erase hq]
  rcases lt_trichotomy p q with h | h | h
  · simp [h, h.not_gt]; ring
  · exact absurd h hpq
  · simp [h, h.not_gt]; ring

theorem ann_cre (p q : ι) :
    (ann p * cre q + cre q * ann p : Module.End K (Finset ι → K)) = if p = q then 1 else 0 := by
  ext ψ S
  by_cases hpq : p = q
  · subst hpq
    simp only [Module.End.mul_apply, LinearMap.add_apply, Pi.add_apply, ann_apply, cre_apply, if_true, Module.End.one_apply,
      Finset.mem_insert, Finset.mem_erase]
    by_cases hp : p ∈ S
    · simp only [hp, if_true, ne_eq, not_true_eq_false, false_and, if_false, zero_add, Finset.insert_erase hp]
      rw [← mul_assoc, sgn_sq, one_mul]
    · simp only [hp, if_false, or_false, if_true, add_zero, Finset.erase_insert hp]
      rw [← mul_assoc, sgn_sq, one_mul]
  · rw [if_neg hpq]
    simp only [Module.End.mul_apply, LinearMap.add_apply, Pi.add_apply, ann_apply, cre_apply, LinearMap.zero_apply, Pi.zero_apply,
      Finset.mem_insert, Finset.mem_erase]
    by_cases hp : p ∈ S <;> by_cases hq : q ∈ S <;> simp [hp, hq, hpq, Ne.symm hpq]
    have hq' : q ∉ S.erase q := Finset.notMem_erase q S
    have e : (insert p S).erase q = insert p (S.erase q) := Finset.erase_insert_of_ne hpq
    rw [e, sgn_insert (fun h => hp (Finset.mem_erase.mp h).2), sgn_erase (p := p) hq]
    rcases lt_trichotomy p q with h | h | h
    · simp [h, h.not_gt]; ring
    · exact absurd h hpq
    · simp [h, h.not_gt]; ring

/-- The canonical anticommutation relations. -/
theorem CAR (p q : ι) :
    (ann p * ann q + ann q * ann p : Module.End K (Finset ι → K)) = 0 ∧
    (cre p * cre q + cre q * cre p : Module.End K (Finset ι → K)) = 0 ∧
    (ann p * cre q + cre q * ann p : Module.End K (Finset ι → K)) = if p = q then 1 else 0 := by
  refine ⟨?_, ?_, ann_cre p q⟩
  · rw [ann_ann, neg_add_cancel]
  · rw [cre_cre, neg_add_cancel]

/-- Matrix element between determinants. -/
def elt (X : Module.End K (Finset ι → K)) (bra ket : Finset ι) : K := X (det ket) bra

/-- `a†_p` is the adjoint of `a_p`. -/
theorem cre_adj (p : ι) (S T : Finset ι) : elt (K := K) (cre p) S T = elt (ann p) T S := by
  simp only [elt, cre_apply, ann_apply, det_apply]
  by_cases hS : p ∈ S <;> by_cases hT : p ∈ T <;> simp only [hS, hT, if_true, if_false]
  · have : S.erase p ≠ T := fun h => by rw [← h] at hT; exact Finset.notMem_erase p S hT
    rw [if_neg this, mul_zero]
  · by_cases h : S.erase p = T
    · subst h; rw [if_pos rfl, Finset.insert_erase hS, if_pos rfl]
    · have : insert p T ≠ S := fun hh => h (by rw [← hh, Finset.erase_insert hT])
      rw [if_neg h, if_neg this, mul_zero, mul_zero]
  · have : insert p T ≠ S := fun hh => hS (by rw [← hh]; exact Finset.mem_insert_self p T)
    rw [if_neg this, mul_zero]

/-- The Hamiltonian `Σ h_pq a†_p a_q + 1/2 Σ V_pqrs a†_p a†_q a_s a_r` over the finite set `U` of orbitals, with integrals in
physicists' order. -/
def ham (U : Finset ι) (h : ι → ι → K) (V : ι → ι → ι → ι → K) : Module.End K (Finset ι → K) :=
  (∑ p ∈ U, ∑ q ∈ U, h p q • (cre p * ann q))
    + (1 / 2 : K) • ∑ p ∈ U, ∑ q ∈ U, ∑ r ∈ U, ∑ s ∈ U, V p q r s • (cre p * cre q * ann s * ann r)

end Fock
