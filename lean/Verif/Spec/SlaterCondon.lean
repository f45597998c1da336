import Verif.Spec.Fock
import Mathlib.Algebra.CharZero.Defs
import Mathlib.Algebra.BigOperators.Pi
import Mathlib.Algebra.BigOperators.Group.Finset.Sigma
import Mathlib.Algebra.Module.Submodule.LinearMap
import Mathlib.Tactic.FieldSimp
/-!
# The Slater-Condon rules

Matrix elements of the second-quantised Hamiltonian between determinants with equal numbers of particles, for any finite
ordered set of spin orbitals.
-/
set_option linter.unusedSectionVars false
namespace Fock
variable {ι : Type} [LinearOrder ι] {K : Type} [Field K]

/-- number of orbitals of `S` strictly between `x` and `y` -/
def btw (S : Finset ι) (x y : ι) : ℕ := (S.filter fun z => min x y < z ∧ z < max x y).card

/-! ### elementary matrix elements -/

theorem elt_one (p q : ι) (bra ket : Finset ι) :
    elt (K := K) (cre p * ann q) bra ket =
      if p ∈ bra ∧ q ∈ ket ∧ bra.erase p = ket.erase q then sgn K p bra * sgn K q ket else 0 := by
  simp only [elt, Module.End.mul_apply, cre_apply, ann_apply, det_apply]
  by_cases hp : p ∈ bra
  · simp only [hp, if_true, true_and, sgn_erase_self]
    by_cases hq : q ∈ bra.erase p
    · have : ¬ (q ∈ ket ∧ bra.erase p = ket.erase q) := by
        rintro ⟨_, h⟩; rw [h] at hq; exact Finset.notMem_erase q ket hq
      simp [hq, this]
    · simp only [hq, if_false]
      by_cases h : insert q (bra.erase p) = ket
      · have h1 : q ∈ ket := h ▸ Finset.mem_insert_self _ _
        have h2 : bra.erase p = ket.erase q := by rw [← h, Finset.erase_insert hq]
        rw [if_pos h, if_pos ⟨h1, h2⟩, h2, sgn_erase_self, mul_one]
      · have : ¬ (q ∈ ket ∧ bra.erase p = ket.erase q) := by
          rintro ⟨h1, h2⟩; exact h (by rw [h2, Finset.insert_erase h1])
        simp [h, this]
  · simp [hp]

/-- coefficient of `a†_p a†_q a_s a_r` -/
def c2 (K : Type) [Field K] (bra ket : Finset ι) (p q r s : ι) : K :=
  if (p ∈ bra ∧ q ∈ bra.erase p) ∧ (r ∈ ket ∧ s ∈ ket.erase r) ∧ (bra.erase p).erase q = (ket.erase r).erase s then
    (sgn K p bra * sgn K q (bra.erase p)) * (sgn K r ket * sgn K s (ket.erase r)) else 0

theorem elt_two (p q r s : ι) (bra ket : Finset ι) :
    elt (K := K) (cre p * cre q * ann s * ann r) bra ket = c2 K bra ket p q r s := by
  simp only [elt, c2, Module.End.mul_apply, cre_apply, ann_apply, det_apply]
  by_cases hp : p ∈ bra ∧ q ∈ bra.erase p
  swap
  · have hr : ¬ ((p ∈ bra ∧ q ∈ bra.erase p) ∧ (r ∈ ket ∧ s ∈ ket.erase r) ∧
        (bra.erase p).erase q = (ket.erase r).erase s) := fun h => hp h.1
    rw [if_neg hr]
    by_cases h1 : p ∈ bra
    · have h2 : ¬ q ∈ bra.erase p := fun h => hp ⟨h1, h⟩
      rw [if_pos h1, if_neg h2, mul_zero]
    · rw [if_neg h1]
  rw [if_pos hp.1, if_pos hp.2, sgn_erase_self, sgn_erase_self]
  by_cases hs : s ∈ (bra.erase p).erase q
  · rw [if_pos hs, if_neg, mul_zero, mul_zero]
    rintro ⟨_, ⟨_, _⟩, h⟩; rw [h] at hs; exact Finset.notMem_erase _ _ hs
  rw [if_neg hs]
  by_cases hr : r ∈ insert s ((bra.erase p).erase q)
  · rw [if_pos hr, if_neg]
    · ring
    · rintro ⟨_, ⟨h1, h2⟩, h⟩; rw [h, Finset.insert_erase h2] at hr; exact Finset.notMem_erase _ _ hr
  rw [if_neg hr]
  by_cases h : insert r (insert s ((bra.erase p).erase q)) = ket
  · have h1 : r ∈ ket := h ▸ Finset.mem_insert_self _ _
    have h2 : ket.erase r = insert s ((bra.erase p).erase q) := by rw [← h, Finset.erase_insert hr]
    have h3 : s ∈ ket.erase r := h2 ▸ Finset.mem_insert_self _ _
    have h4 : (bra.erase p).erase q = (ket.erase r).erase s := by rw [h2, Finset.erase_insert hs]
    rw [if_pos h, if_pos ⟨hp, ⟨h1, h3⟩, h4⟩, ← h2, h4, sgn_erase_self, sgn_erase_self]
    ring
  · rw [if_neg h, if_neg]
    · ring
    · rintro ⟨_, ⟨h1, h2⟩, hh⟩
      exact h (by rw [hh, Finset.insert_erase h2, Finset.insert_erase h1])

theorem sgn_swap {p q : ι} {S : Finset ι} (hp : p ∈ S) (hq : q ∈ S) (h : p ≠ q) :
    sgn K p S * sgn K q (S.erase p) = -(sgn K q S * sgn K p (S.erase q)) := by
  rw [sgn_erase hp, sgn_erase hq]
  rcases lt_trichotomy p q with h | h | h
  · simp [h, h.not_gt]; ring
  · exact absurd h ‹p ≠ q›
  · simp [h, h.not_gt]; ring

theorem c2_swap_bra (bra ket : Finset ι) (p q r s : ι) : c2 K bra ket q p r s = -c2 K bra ket p q r s := by
  unfold c2
  by_cases h : p ∈ bra ∧ q ∈ bra.erase p
  · have hq : q ≠ p ∧ q ∈ bra := Finset.mem_erase.mp h.2
    have h' : q ∈ bra ∧ p ∈ bra.erase q := ⟨hq.2, Finset.mem_erase.mpr ⟨hq.1.symm, h.1⟩⟩
    have e : (bra.erase q).erase p = (bra.erase p).erase q := Finset.erase_right_comm
    simp only [h, h', e, true_and]
    split_ifs
    · rw [sgn_swap h.1 hq.2 hq.1.symm]; ring
    · ring
  · have h' : ¬ (q ∈ bra ∧ p ∈ bra.erase q) := by
      rintro ⟨h1, h2⟩; have := Finset.mem_erase.mp h2; exact h ⟨this.2, Finset.mem_erase.mpr ⟨this.1.symm, h1⟩⟩
    rw [if_neg (fun hh => h' hh.1), if_neg (fun hh => h hh.1), neg_zero]

theorem c2_symm (bra ket : Finset ι) (p q r s : ι) : c2 K bra ket p q r s = c2 K ket bra r s p q := by
  unfold c2
  by_cases h : (p ∈ bra ∧ q ∈ bra.erase p) ∧ (r ∈ ket ∧ s ∈ ket.erase r) ∧ (bra.erase p).erase q = (ket.erase r).erase s
  · rw [if_pos h, if_pos ⟨h.2.1, h.1, h.2.2.symm⟩, mul_comm]
  · rw [if_neg h, if_neg (fun h' => h ⟨h'.2.1, h'.1, h'.2.2.symm⟩)]

theorem c2_swap_ket (bra ket : Finset ι) (p q r s : ι) : c2 K bra ket p q s r = -c2 K bra ket p q r s := by
  rw [c2_symm, c2_swap_bra, ← c2_symm]

/-- The matrix element of the Hamiltonian as an explicit sum. -/
theorem elt_ham (U : Finset ι) (h : ι → ι → K) (V : ι → ι → ι → ι → K) (bra ket : Finset ι) :
    elt (ham U h V) bra ket =
      (∑ p ∈ U, ∑ q ∈ U, h p q * (if p ∈ bra ∧ q ∈ ket ∧ bra.erase p = ket.erase q then sgn K p bra * sgn K q ket else 0))
      + 1 / 2 * ∑ p ∈ U, ∑ q ∈ U, ∑ r ∈ U, ∑ s ∈ U, V p q r s * c2 K bra ket p q r s := by
  have e1 : ∀ p q, (cre p * ann q : Module.End K (Finset ι → K)) (det ket) bra
      = if p ∈ bra ∧ q ∈ ket ∧ bra.erase p = ket.erase q then sgn K p bra * sgn K q ket else 0 := fun p q => elt_one p q bra ket
  have e2 : ∀ p q r s, (cre p * cre q * ann s * ann r : Module.End K (Finset ι → K)) (det ket) bra = c2 K bra ket p q r s :=
    fun p q r s => elt_two p q r s bra ket
  simp only [elt, ham, LinearMap.add_apply, Pi.add_apply, LinearMap.sum_apply, Finset.sum_apply, LinearMap.smul_apply,
    Pi.smul_apply, smul_eq_mul, e1, e2]

/-! ### sums with few non-zero terms -/

theorem sum2_diag {U : Finset ι} (f : ι → ι → K) {v w : ι} (mv : v ∈ U) (mw : w ∈ U) (hf : ∀ p q, f p q ≠ 0 → p = v ∧ q = w) : ∑ p ∈ U, ∑ q ∈ U, f p q = f v w := by
  rw [Finset.sum_eq_single v, Finset.sum_eq_single w]
  · intro q _ hq; by_contra h; exact hq (hf _ _ h).2
  · exact fun hh => absurd mw hh
  · intro p _ hp
    refine Finset.sum_eq_zero fun q _ => ?_
    by_contra h; exact hp (hf _ _ h).1
  · exact fun hh => absurd mv hh

theorem sum2_pair {U : Finset ι} (f : ι → ι → K) {v w : ι} (mv : v ∈ U) (mw : w ∈ U) (hvw : v ≠ w) (hf : ∀ p q, f p q ≠ 0 → (p = v ∧ q = w) ∨ (p = w ∧ q = v)) :
    ∑ p ∈ U, ∑ q ∈ U, f p q = f v w + f w v := by
  have h0 : ∀ p q, ¬ ((p = v ∧ q = w) ∨ (p = w ∧ q = v)) → f p q = 0 := fun p q h => by
    by_contra hh; exact h (hf p q hh)
  have e : ∀ p q, f p q = (if p = v ∧ q = w then f v w else 0) + (if p = w ∧ q = v then f w v else 0) := by
    intro p q
    by_cases h1 : p = v ∧ q = w
    · obtain ⟨rfl, rfl⟩ := h1
      rw [if_pos ⟨rfl, rfl⟩, if_neg (fun h => hvw h.1), add_zero]
    · by_cases h2 : p = w ∧ q = v
      · obtain ⟨rfl, rfl⟩ := h2
        rw [if_neg h1, if_pos ⟨rfl, rfl⟩, zero_add]
      · rw [if_neg h1, if_neg h2, h0 p q (fun h => h.elim h1 h2), add_zero]
  rw [Finset.sum_congr rfl fun p _ => Finset.sum_congr rfl fun q _ => e p q]
  simp only [Finset.sum_add_distrib, ite_and]
  simp [Finset.sum_ite_irrel, mv, mw]

/-! ### the rules -/

variable [CharZero K] (U : Finset ι) (h : ι → ι → K) (V : ι → ι → ι → ι → K)

omit [CharZero K] in
/-- membership facts of a pair condition -/
theorem c2_ne {bra ket : Finset ι} {p q r s : ι} (hc : c2 K bra ket p q r s ≠ 0) :
    p ∈ bra ∧ q ∈ bra ∧ q ≠ p ∧ r ∈ ket ∧ s ∈ ket ∧ s ≠ r ∧ (bra.erase p).erase q = (ket.erase r).erase s := by
  unfold c2 at hc
  by_cases hh : (p ∈ bra ∧ q ∈ bra.erase p) ∧ (r ∈ ket ∧ s ∈ ket.erase r) ∧ (bra.erase p).erase q = (ket.erase r).erase s
  · obtain ⟨⟨h1, h2⟩, ⟨h3, h4⟩, h5⟩ := hh
    rw [Finset.mem_erase] at h2 h4
    exact ⟨h1, h2.2, h2.1, h3, h4.2, h4.1, h5⟩
  · rw [if_neg hh] at hc; exact absurd rfl hc

omit [CharZero K] in
/-- an orbital of the bra missing in the ket is among the created ones -/
theorem c2_created {bra ket : Finset ι} {p q r s v : ι} (hc : c2 K bra ket p q r s ≠ 0) (h1 : v ∈ bra) (h2 : v ∉ ket) :
    v = p ∨ v = q := by
  obtain ⟨-, -, -, -, -, -, e⟩ := c2_ne hc
  by_contra hh
  rw [not_or] at hh
  have : v ∈ (bra.erase p).erase q := by simp [hh.1, hh.2, h1]
  rw [e] at this
  simp [h2] at this

omit [CharZero K] in
theorem c2_annihilated {bra ket : Finset ι} {p q r s o : ι} (hc : c2 K bra ket p q r s ≠ 0) (h1 : o ∈ ket) (h2 : o ∉ bra) :
    o = r ∨ o = s := by
  rw [c2_symm] at hc; exact c2_created hc h1 h2

/-- Diagonal elements. -/
theorem slater_diag {S : Finset ι} (hS : S ⊆ U) :
    elt (ham U h V) S S = (∑ i ∈ S, h i i) + 1 / 2 * ∑ i ∈ S, ∑ j ∈ S, (V i j i j - V i j j i) := by
  rw [elt_ham]
  congr 1
  · rw [← Finset.sum_filter_add_sum_filter_not U (· ∈ S)]
    rw [Finset.sum_eq_zero (s := U.filter (¬ · ∈ S)), add_zero]
    · have : U.filter (· ∈ S) = S := by
        ext x; simp only [Finset.mem_filter]; exact ⟨fun hh => hh.2, fun hh => ⟨hS hh, hh⟩⟩
      rw [this]
      refine Finset.sum_congr rfl fun p hp => ?_
      rw [Finset.sum_eq_single p]
      · rw [if_pos ⟨hp, hp, rfl⟩, sgn_sq, mul_one]
      · intro q _ hq
        rw [if_neg, mul_zero]
        rintro ⟨_, h2, h3⟩
        have : q ∈ S.erase p := Finset.mem_erase.mpr ⟨hq, h2⟩
        rw [h3] at this; exact Finset.notMem_erase _ _ this
      · exact fun hh => absurd (hS hp) hh
    · intro p hp
      refine Finset.sum_eq_zero fun q _ => ?_
      rw [if_neg, mul_zero]
      exact fun hh => (Finset.mem_filter.mp hp).2 hh.1
  · congr 1
    have key : ∀ p q, ∑ r ∈ U, ∑ s ∈ U, V p q r s * c2 K S S p q r s
        = if p ∈ S ∧ q ∈ S then V p q p q - V p q q p else 0 := by
      intro p q
      by_cases hpq : p = q
      · subst hpq
        rw [Finset.sum_eq_zero]
        · split_ifs <;> ring
        · intro r _; refine Finset.sum_eq_zero fun s _ => ?_
          by_contra hh; have := c2_ne (right_ne_zero_of_mul hh); exact this.2.2.1 rfl
      · by_cases hm : p ∈ S ∧ q ∈ S
        · rw [if_pos hm, sum2_pair _ (hS hm.1) (hS hm.2) hpq]
          · rw [c2_swap_ket (r := p) (s := q)]
            have : c2 K S S p q p q = 1 := by
              have hq : q ∈ S.erase p := Finset.mem_erase.mpr ⟨Ne.symm hpq, hm.2⟩
              rw [c2, if_pos ⟨⟨hm.1, hq⟩, ⟨hm.1, hq⟩, rfl⟩]
              linear_combination (sgn K q (S.erase p) * sgn K q (S.erase p)) * sgn_sq (K := K) p S + sgn_sq (K := K) q (S.erase p)
            rw [this]; ring
          · intro r s hrs
            have hc := right_ne_zero_of_mul hrs
            obtain ⟨h1, h2, h3, h4, h5, h6, e⟩ := c2_ne hc
            have hr : r = p ∨ r = q := by
              by_contra hh; rw [not_or] at hh
              have : r ∈ (S.erase p).erase q := by simp [hh.1, hh.2, h4]
              rw [e] at this; simp at this
            have hs : s = p ∨ s = q := by
              by_contra hh; rw [not_or] at hh
              have : s ∈ (S.erase p).erase q := by simp [hh.1, hh.2, h5]
              rw [e] at this; simp at this
            rcases hr with rfl | rfl <;> rcases hs with rfl | rfl <;> simp_all
        · rw [if_neg hm]
          refine Finset.sum_eq_zero fun r _ => Finset.sum_eq_zero fun s _ => ?_
          by_contra hh; have := c2_ne (right_ne_zero_of_mul hh); exact hm ⟨this.1, this.2.1⟩
    simp only [key]
    rw [← Finset.sum_filter_add_sum_filter_not U (· ∈ S)]
    rw [Finset.sum_eq_zero (s := U.filter (¬ · ∈ S)), add_zero]
    · have e : U.filter (· ∈ S) = S := by
        ext x; simp only [Finset.mem_filter]; exact ⟨fun hh => hh.2, fun hh => ⟨hS hh, hh⟩⟩
      rw [e]
      refine Finset.sum_congr rfl fun p hp => ?_
      simp only [hp, true_and]
      rw [← Finset.sum_filter, e]
    · intro p hp
      refine Finset.sum_eq_zero fun q _ => if_neg fun hh => (Finset.mem_filter.mp hp).2 hh.1

/-- `ΣΣ f` when one of the two indices must be `v`. -/
theorem sum2_one {U : Finset ι} (f : ι → ι → K) {v : ι} (mv : v ∈ U) (hv : f v v = 0) (hf : ∀ p q, f p q ≠ 0 → v = p ∨ v = q) :
    ∑ p ∈ U, ∑ q ∈ U, f p q = (∑ q ∈ U, f v q) + ∑ p ∈ U, f p v := by
  have e : ∀ p q, f p q = (if p = v then f v q else 0) + (if q = v then f p v else 0) := by
    intro p q
    by_cases h1 : p = v
    · subst h1
      by_cases h2 : q = p
      · subst h2; simp [hv]
      · simp [h2]
    · by_cases h2 : q = v
      · subst h2; simp [h1]
      · rw [if_neg h1, if_neg h2, add_zero]
        by_contra hh
        exact (hf p q hh).elim (fun h => h1 h.symm) (fun h => h2 h.symm)
  rw [Finset.sum_congr rfl fun p _ => Finset.sum_congr rfl fun q _ => e p q]
  simp [Finset.sum_add_distrib, Finset.sum_ite_irrel, mv]

omit [CharZero K] in
theorem sgn_btw {x y : ι} {C : Finset ι} (hx : x ∉ C) (hy : y ∉ C) : sgn K x C * sgn K y C = (-1) ^ btw C x y := by
  wlog hxy : x ≤ y generalizing x y
  · have := this hy hx (le_of_not_ge hxy)
    rw [mul_comm, this, btw, btw, min_comm, max_comm]
  have e : cnt y C = cnt x C + btw C x y := by
    unfold cnt btw
    rw [min_eq_left hxy, max_eq_right hxy, ← Finset.card_union_of_disjoint]
    · congr 1
      ext z
      simp only [Finset.mem_filter, Finset.mem_union]
      constructor
      · rintro ⟨h1, h2⟩
        rcases lt_trichotomy z x with h | h | h
        · exact Or.inl ⟨h1, h⟩
        · subst h; exact absurd h1 hx
        · exact Or.inr ⟨h1, h, h2⟩
      · rintro (⟨h1, h2⟩ | ⟨h1, h2, h3⟩)
        · exact ⟨h1, lt_of_lt_of_le h2 hxy⟩
        · exact ⟨h1, h3⟩
    · rw [Finset.disjoint_left]
      intro z h1 h2
      simp only [Finset.mem_filter] at h1 h2
      exact absurd h1.2 h2.2.1.not_gt
  unfold sgn
  rw [e, pow_add, ← mul_assoc, ← mul_pow]
  simp

omit [CharZero K] in
theorem btw_insert {C : Finset ι} {w x y : ι} (hw : w ∉ C) :
    btw (insert w C) x y = btw C x y + if min x y < w ∧ w < max x y then 1 else 0 := by
  unfold btw
  rw [Finset.filter_insert]
  split_ifs with h1
  · rw [Finset.card_insert_of_notMem (fun hh => hw (Finset.mem_filter.mp hh).1)]
  · rfl

omit [CharZero K] in
theorem btw_insert_left {C : Finset ι} {x y : ι} (hx : x ∉ C) : btw (insert x C) x y = btw C x y := by
  rw [btw_insert hx, if_neg, add_zero]
  rintro ⟨h1, h2⟩
  rcases le_total x y with h | h
  · rw [min_eq_left h] at h1; exact lt_irrefl _ h1
  · rw [max_eq_left h] at h2; exact lt_irrefl _ h2

omit [CharZero K] in
theorem btw_comm (C : Finset ι) (x y : ι) : btw C x y = btw C y x := by
  rw [btw, btw, min_comm, max_comm]

/-- Elements between determinants that differ by one orbital: `ket = C ∪ {o}`, `bra = C ∪ {v}`. -/
theorem slater_single (hV : ∀ p q r s, V p q r s = V q p s r) {C : Finset ι} {o v : ι} (ho : o ∉ C) (hv : v ∉ C)
    (hov : o ≠ v) (hC : C ⊆ U) (mo : o ∈ U) (mv : v ∈ U) :
    elt (ham U h V) (insert v C) (insert o C)
      = (-1) ^ btw (insert v C) v o * (h v o + ∑ i ∈ insert o C, (V v i o i - V v i i o)) := by
  have hvk : v ∉ insert o C := by simp [hv, hov.symm]
  have hob : o ∉ insert v C := by simp [ho, hov]
  rw [btw_insert_left hv, ← sgn_btw hv ho, Finset.sum_insert ho, sub_self, zero_add, elt_ham, mul_add]
  congr 1
  · rw [sum2_diag _ mv mo]
    · rw [if_pos ⟨Finset.mem_insert_self _ _, Finset.mem_insert_self _ _, by
        rw [Finset.erase_insert hv, Finset.erase_insert ho]⟩, sgn_insert_self, sgn_insert_self]
      ring
    · intro p q hpq
      have := right_ne_zero_of_mul hpq
      by_cases hh : p ∈ insert v C ∧ q ∈ insert o C ∧ (insert v C).erase p = (insert o C).erase q
      · obtain ⟨h1, h2, h3⟩ := hh
        constructor
        · by_contra hne
          have hm : v ∈ (insert v C).erase p := Finset.mem_erase.mpr ⟨Ne.symm hne, Finset.mem_insert_self _ _⟩
          rw [h3] at hm; exact hvk (Finset.mem_of_mem_erase hm)
        · by_contra hne
          have hm : o ∈ (insert o C).erase q := Finset.mem_erase.mpr ⟨Ne.symm hne, Finset.mem_insert_self _ _⟩
          rw [← h3] at hm; exact hob (Finset.mem_of_mem_erase hm)
      · rw [if_neg hh] at this; exact absurd rfl this
  · -- two-electron part
    have z : ∀ {p q r s}, (p = q ∨ r = s) → c2 K (insert v C) (insert o C) p q r s = 0 := by
      intro p q r s hh
      by_contra hc
      obtain ⟨-, -, h3, -, -, h6, -⟩ := c2_ne hc
      exact hh.elim (fun e => h3 e.symm) (fun e => h6 e.symm)
    have val : ∀ i, c2 K (insert v C) (insert o C) v i o i = if i ∈ C then sgn K v C * sgn K o C else 0 := by
      intro i
      unfold c2
      rw [Finset.erase_insert hv, Finset.erase_insert ho]
      by_cases hi : i ∈ C
      · rw [if_pos hi, if_pos ⟨⟨Finset.mem_insert_self _ _, hi⟩, ⟨Finset.mem_insert_self _ _, hi⟩, rfl⟩, sgn_insert_self,
          sgn_insert_self]
        linear_combination (sgn K v C * sgn K o C) * sgn_sq (K := K) i C
      · rw [if_neg hi, if_neg (fun hh => hi hh.1.2)]
    have off : ∀ q s, c2 K (insert v C) (insert o C) v q o s ≠ 0 → s = q := by
      intro q s hc
      obtain ⟨-, h2, h3, -, h5, h6, e⟩ := c2_ne hc
      rw [Finset.erase_insert hv, Finset.erase_insert ho] at e
      have hs : s ∈ C := (Finset.mem_insert.mp h5).resolve_left h6
      by_contra hne
      have : s ∈ C.erase q := Finset.mem_erase.mpr ⟨hne, hs⟩
      rw [e] at this; exact Finset.notMem_erase _ _ this
    have half : ∀ q ∈ U, ∑ r ∈ U, ∑ s ∈ U, V v q r s * c2 K (insert v C) (insert o C) v q r s
        = (V v q o q - V v q q o) * if q ∈ C then sgn K v C * sgn K o C else 0 := by
      intro q hq
      rw [sum2_one _ mo (by rw [z (Or.inr rfl), mul_zero])
        (fun r s hh => c2_annihilated (right_ne_zero_of_mul hh) (Finset.mem_insert_self _ _) hob)]
      rw [Finset.sum_eq_single q, Finset.sum_eq_single q]
      · rw [c2_swap_ket (r := o) (s := q), val]; ring
      · intro r _ hr
        by_contra hh
        have := right_ne_zero_of_mul hh
        rw [c2_swap_ket (r := o) (s := r)] at this
        exact hr (off q r (neg_ne_zero.mp this))
      · exact fun hh => absurd hq hh
      · intro s _ hs
        by_contra hh
        exact hs (off q s (right_ne_zero_of_mul hh))
      · exact fun hh => absurd hq hh
    have tot : ∑ p ∈ U, ∑ q ∈ U, ∑ r ∈ U, ∑ s ∈ U, V p q r s * c2 K (insert v C) (insert o C) p q r s
        = (∑ q ∈ U, ∑ r ∈ U, ∑ s ∈ U, V v q r s * c2 K (insert v C) (insert o C) v q r s)
          + ∑ p ∈ U, ∑ r ∈ U, ∑ s ∈ U, V p v r s * c2 K (insert v C) (insert o C) p v r s := by
      refine sum2_one (fun p q => ∑ r ∈ U, ∑ s ∈ U, V p q r s * c2 K (insert v C) (insert o C) p q r s) mv ?_ ?_
      · refine Finset.sum_eq_zero fun r _ => Finset.sum_eq_zero fun s _ => ?_
        rw [z (Or.inl rfl), mul_zero]
      · intro p q hh
        obtain ⟨r, -, hr⟩ := Finset.exists_ne_zero_of_sum_ne_zero hh
        obtain ⟨s, -, hs⟩ := Finset.exists_ne_zero_of_sum_ne_zero hr
        exact c2_created (right_ne_zero_of_mul hs) (Finset.mem_insert_self _ _) hvk
    have sw : ∀ p, ∑ r ∈ U, ∑ s ∈ U, V p v r s * c2 K (insert v C) (insert o C) p v r s
        = ∑ r ∈ U, ∑ s ∈ U, V v p r s * c2 K (insert v C) (insert o C) v p r s := by
      intro p
      rw [Finset.sum_comm]
      refine Finset.sum_congr rfl fun r _ => Finset.sum_congr rfl fun s _ => ?_
      rw [hV p v s r, c2_swap_bra (p := v) (q := p), c2_swap_ket (r := r) (s := s)]
      ring
    rw [tot, Finset.sum_congr rfl fun p _ => sw p]
    rw [Finset.sum_congr rfl half]
    rw [← two_mul, ← mul_assoc, show (1 / 2 : K) * 2 = 1 by norm_num, one_mul, Finset.mul_sum]
    rw [← Finset.sum_subset (hC)]
    · refine Finset.sum_congr rfl fun i hi => ?_
      rw [if_pos hi]; ring
    · intro i _ hi; rw [if_neg hi, mul_zero]

/-- Elements between determinants that differ by two orbitals: `ket = C ∪ {o1, o2}`, `bra = C ∪ {v1, v2}`. -/
theorem slater_double (hV : ∀ p q r s, V p q r s = V q p s r) {C : Finset ι} {o1 o2 v1 v2 : ι}
    (ho1 : o1 ∉ C) (ho2 : o2 ∉ C) (hv1 : v1 ∉ C) (hv2 : v2 ∉ C) (h12 : o1 < o2) (k12 : v1 < v2)
    (a1 : o1 ≠ v1) (a2 : o1 ≠ v2) (a3 : o2 ≠ v1) (a4 : o2 ≠ v2)
    (u1 : o1 ∈ U) (u2 : o2 ∈ U) (w1 : v1 ∈ U) (w2 : v2 ∈ U) :
    elt (ham U h V) (insert v1 (insert v2 C)) (insert o1 (insert o2 C))
      = (if v2 < o1 ∨ o2 < v1 then -1 else 1) * (-1) ^ btw (insert v1 (insert v2 C)) v1 o1
        * (-1) ^ btw (insert v1 (insert v2 C)) v2 o2 * (V v1 v2 o1 o2 - V v1 v2 o2 o1) := by
  set bra := insert v1 (insert v2 C) with hb
  set ket := insert o1 (insert o2 C) with hk
  have mv1 : v1 ∈ bra := by simp [hb]
  have mv2 : v2 ∈ bra := by simp [hb]
  have mo1 : o1 ∈ ket := by simp [hk]
  have mo2 : o2 ∈ ket := by simp [hk]
  have nv1 : v1 ∉ ket := by simp [hk, hv1, Ne.symm a1, Ne.symm a3]
  have nv2 : v2 ∉ ket := by simp [hk, hv2, Ne.symm a2, Ne.symm a4]
  have no1 : o1 ∉ bra := by simp [hb, ho1, a1, a2]
  have no2 : o2 ∉ bra := by simp [hb, ho2, a3, a4]
  have eb : bra.erase v1 = insert v2 C := by rw [hb, Finset.erase_insert]; simp [hv1, k12.ne]
  have ek : ket.erase o1 = insert o2 C := by rw [hk, Finset.erase_insert]; simp [ho1, h12.ne]
  have cv : c2 K bra ket v1 v2 o1 o2 = sgn K v1 C * sgn K o1 C * (sgn K v2 C * sgn K o2 C) := by
    unfold c2
    rw [eb, ek, if_pos ⟨⟨mv1, Finset.mem_insert_self _ _⟩, ⟨mo1, Finset.mem_insert_self _ _⟩, by
      rw [Finset.erase_insert hv2, Finset.erase_insert ho2]⟩, sgn_insert_self (p := v2), sgn_insert_self (p := o2), hb, hk,
      sgn_insert_self, sgn_insert_self, sgn_insert hv2, sgn_insert ho2, if_neg k12.not_gt, if_neg h12.not_gt]
    ring
  have sg : (if v2 < o1 ∨ o2 < v1 then -1 else 1) * (-1) ^ btw bra v1 o1 * (-1) ^ btw bra v2 o2
      = sgn K v1 C * sgn K o1 C * (sgn K v2 C * sgn K o2 C) := by
    have hv1' : v1 ∉ insert v2 C := by simp [hv1, k12.ne]
    have hv2' : v2 ∉ insert v1 C := by simp [hv2, k12.ne']
    rw [sgn_btw hv1 ho1, sgn_btw hv2 ho2, hb, btw_insert_left hv1', btw_insert hv2, Finset.insert_comm, btw_insert_left hv2',
      btw_insert hv1]
    have e1 : (min v1 o1 < v2 ∧ v2 < max v1 o1) ↔ v2 < o1 := by
      rw [min_lt_iff, lt_max_iff]
      exact ⟨fun hh => hh.2.resolve_left k12.not_gt, fun hh => ⟨Or.inl k12, Or.inr hh⟩⟩
    have e2 : (min v2 o2 < v1 ∧ v1 < max v2 o2) ↔ o2 < v1 := by
      rw [min_lt_iff, lt_max_iff]
      exact ⟨fun hh => hh.1.resolve_left k12.not_gt, fun hh => ⟨Or.inr hh, Or.inl k12⟩⟩
    simp only [e1, e2]
    by_cases c1 : v2 < o1
    · have c3 : ¬ o2 < v1 := fun hh => absurd (k12.trans (c1.trans h12)) hh.not_gt
      simp only [c1, c3, true_or, if_true, if_false]; ring
    · by_cases c3 : o2 < v1
      · simp only [c1, c3, or_true, if_true, if_false]; ring
      · simp only [c1, c3, or_false, if_false]; ring
  rw [sg, ← cv, elt_ham, Finset.sum_eq_zero, zero_add]
  · have sup : ∀ p q r s, c2 K bra ket p q r s ≠ 0 →
        ((p = v1 ∧ q = v2) ∨ (p = v2 ∧ q = v1)) ∧ ((r = o1 ∧ s = o2) ∨ (r = o2 ∧ s = o1)) := by
      intro p q r s hc
      have x1 := c2_created hc mv1 nv1
      have x2 := c2_created hc mv2 nv2
      have y1 := c2_annihilated hc mo1 no1
      have y2 := c2_annihilated hc mo2 no2
      constructor
      · rcases x1 with e | e <;> rcases x2 with e' | e'
        · exact absurd (e.trans e'.symm) k12.ne
        · exact Or.inl ⟨e.symm, e'.symm⟩
        · exact Or.inr ⟨e'.symm, e.symm⟩
        · exact absurd (e.trans e'.symm) k12.ne
      · rcases y1 with e | e <;> rcases y2 with e' | e'
        · exact absurd (e.trans e'.symm) h12.ne
        · exact Or.inl ⟨e.symm, e'.symm⟩
        · exact Or.inr ⟨e'.symm, e.symm⟩
        · exact absurd (e.trans e'.symm) h12.ne
    have inner : ∀ p q, ∑ r ∈ U, ∑ s ∈ U, V p q r s * c2 K bra ket p q r s
        = V p q o1 o2 * c2 K bra ket p q o1 o2 + V p q o2 o1 * c2 K bra ket p q o2 o1 := fun p q =>
      sum2_pair (fun r s => V p q r s * c2 K bra ket p q r s) u1 u2 h12.ne
        (fun r s hh => (sup _ _ _ _ (right_ne_zero_of_mul hh)).2)
    simp only [inner]
    rw [sum2_pair _ w1 w2 k12.ne]
    · rw [c2_swap_ket (r := o1) (s := o2), c2_swap_bra (p := v1) (q := v2), c2_swap_ket (r := o1) (s := o2),
        c2_swap_bra (p := v1) (q := v2), hV v2 v1 o1 o2, hV v2 v1 o2 o1]
      ring
    · intro p q hh
      by_contra hne
      apply hh
      have z : ∀ r s, c2 K bra ket p q r s = 0 := fun r s => by
        by_contra hc; exact hne (sup _ _ _ _ hc).1
      rw [z, z]; ring
  · intro p _
    refine Finset.sum_eq_zero fun q _ => ?_
    rw [if_neg, mul_zero]
    rintro ⟨h1, h2, h3⟩
    have f1 : ∀ {x}, x ∈ bra → x ∉ ket → x = p := fun {x} hx hx' => by
      by_contra hne
      have hm : x ∈ bra.erase p := Finset.mem_erase.mpr ⟨hne, hx⟩
      rw [h3] at hm; exact hx' (Finset.mem_of_mem_erase hm)
    exact k12.ne ((f1 mv1 nv1).trans (f1 mv2 nv2).symm)

/-- Elements between determinants that differ by three orbitals or more vanish. -/
theorem slater_zero {bra ket : Finset ι} (hc : 2 < (bra \ ket).card) : elt (ham U h V) bra ket = 0 := by
  obtain ⟨x, hx, y, hy, z, hz, hxy, hxz, hyz⟩ := Finset.two_lt_card.mp hc
  rw [Finset.mem_sdiff] at hx hy hz
  rw [elt_ham, Finset.sum_eq_zero, zero_add, Finset.sum_eq_zero, mul_zero]
  · intro p _
    refine Finset.sum_eq_zero fun q _ => Finset.sum_eq_zero fun r _ => Finset.sum_eq_zero fun s _ => ?_
    by_contra hh
    have hc := right_ne_zero_of_mul hh
    have x1 := c2_created hc hx.1 hx.2
    have x2 := c2_created hc hy.1 hy.2
    have x3 := c2_created hc hz.1 hz.2
    rcases x1 with rfl | rfl <;> rcases x2 with rfl | rfl <;> rcases x3 with rfl | rfl <;> simp_all
  · intro p _
    refine Finset.sum_eq_zero fun q _ => ?_
    rw [if_neg, mul_zero]
    rintro ⟨h1, h2, h3⟩
    have f1 : ∀ {x}, x ∈ bra → x ∉ ket → x = p := fun {x} hx hx' => by
      by_contra hne
      have hm : x ∈ bra.erase p := Finset.mem_erase.mpr ⟨hne, hx⟩
      rw [h3] at hm; exact hx' (Finset.mem_of_mem_erase hm)
    exact hxy ((f1 hx.1 hx.2).trans (f1 hy.1 hy.2).symm)

end Fock
