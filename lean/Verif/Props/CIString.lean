import Verif.Props.CILemmas
import Mathlib.Algebra.Field.Rat
import Mathlib.Data.Rat.Cast.CharZero
/-!
# C31: `Dstring.excite` acts as `a†_a a_i`
-/
namespace CI
open Fock

/-- C31: on a determinant and for different orbitals in range, `excite(i, a)` succeeds, and it is the action of `a†_a a_i`
on the determinant: `(None, None)` exactly when the operator gives zero, otherwise the sign and the determinant of the
result. -/
theorem C31_operator {K : Type} [Field K] {d : Dstring} (hd : IsDet d) {i a : ℕ} (hi : i < d.n) (ha : a < d.n) (hia : i ≠ a) :
    ((d.excite i a = .ok none ∧ (cre a * ann i : Module.End K (Finset ℕ → K)) (det (supp d)) = 0) ∨
      ∃ s d', d.excite i a = .ok (some (s, d')) ∧ IsDet d' ∧ d'.n = d.n ∧ (s = 1 ∨ s = -1) ∧
        (cre a * ann i : Module.End K (Finset ℕ → K)) (det (supp d)) = (s : K) • det (supp d')) := by
  obtain ⟨S, hS, hd'⟩ := exists_set hd
  obtain ⟨n, occ⟩ := d
  simp only at hS hd' hi ha
  rw [hd', supp_ofSet hS, excite_ofSet S hi ha, excop_det S hia]
  by_cases h : i ∈ S ∧ a ∉ S
  · have hT : insert a (S.erase i) ⊆ Finset.range n := by
      intro x hx
      rcases Finset.mem_insert.mp hx with rfl | hx
      · exact Finset.mem_range.mpr ha
      · exact hS (Finset.mem_of_mem_erase hx)
    refine Or.inr ⟨(-1) ^ btw S i a, ofSet n (insert a (S.erase i)), by rw [if_pos h], isDet_ofSet _ _, rfl, ?_, ?_⟩
    · exact neg_one_pow_eq_or ℤ _
    · rw [if_pos h, supp_ofSet hT]; push_cast; rfl
  · exact Or.inl ⟨by rw [if_neg h], if_neg h⟩

/-- C31: it reports zero exactly when `i` is empty or `a` is occupied; otherwise `i` is emptied and `a` filled, and nothing
else changes. -/
theorem C31_occupation {d : Dstring} (hd : IsDet d) {i a : ℕ} (hi : i < d.n) (ha : a < d.n) :
    (d.excite i a = .ok none ↔ ¬ (i ∈ supp d ∧ a ∉ supp d)) ∧
    ∀ s d', d.excite i a = .ok (some (s, d')) → supp d' = insert a ((supp d).erase i) := by
  obtain ⟨S, hS, hd'⟩ := exists_set hd
  obtain ⟨n, occ⟩ := d
  simp only at hS hd' hi ha
  rw [hd', supp_ofSet hS, excite_ofSet S hi ha]
  by_cases h : i ∈ S ∧ a ∉ S
  · have hT : insert a (S.erase i) ⊆ Finset.range n := by
      intro x hx
      rcases Finset.mem_insert.mp hx with rfl | hx
      · exact Finset.mem_range.mpr ha
      · exact hS (Finset.mem_of_mem_erase hx)
    rw [if_pos h]
    refine ⟨by simp [h.1, h.2], fun s d' hh => ?_⟩
    simp only [Except.ok.injEq, Option.some.injEq, Prod.mk.injEq] at hh
    rw [← hh.2, supp_ofSet hT]
  · rw [if_neg h]
    refine ⟨by simp only [true_iff]; exact h, fun s d' hh => by simp at hh⟩

/-- C31: the sign counts the electrons strictly between the two orbitals. -/
theorem C31_sign {d : Dstring} (hd : IsDet d) {i a : ℕ} (hi : i < d.n) (ha : a < d.n) {s : ℤ} {d' : Dstring}
    (h : d.excite i a = .ok (some (s, d'))) :
    s = (-1) ^ ((supp d).filter fun x => min i a < x ∧ x < max i a).card := by
  obtain ⟨S, hS, hd'⟩ := exists_set hd
  obtain ⟨n, occ⟩ := d
  simp only at hS hd' hi ha
  rw [hd', excite_ofSet S hi ha] at h
  rw [hd', supp_ofSet hS]
  by_cases hc : i ∈ S ∧ a ∉ S
  · rw [if_pos hc] at h
    simp only [Except.ok.injEq, Option.some.injEq, Prod.mk.injEq] at h
    exact h.1.symm
  · rw [if_neg hc] at h; simp at h

theorem sum_occ {d : Dstring} (hd : IsDet d) : d.occ.sum = (supp d).card := by
  obtain ⟨S, hS, hd'⟩ := exists_set hd
  obtain ⟨n, occ⟩ := d
  rw [hd', supp_ofSet hS]
  change (bits n S).sum = _
  rw [sum_bits]
  congr 2
  ext x
  simp only [Finset.mem_filter, and_iff_left_iff_imp]
  exact fun hx => Finset.mem_range.mp (hS hx)

/-- C31: the number of electrons is conserved. -/
theorem C31_conserved {d : Dstring} (hd : IsDet d) {i a : ℕ} (hi : i < d.n) (ha : a < d.n) {s : ℤ} {d' : Dstring}
    (h : d.excite i a = .ok (some (s, d'))) : d'.occ.sum = d.occ.sum := by
  have h1 := (C31_occupation hd hi ha).2 s d' h
  have h2 : i ∈ supp d ∧ a ∉ supp d := by
    by_contra hh
    rw [(C31_occupation hd hi ha).1.mpr hh] at h; simp at h
  have h3 : IsDet d' := by
    by_cases hia : i = a
    · subst hia; exact absurd h2.1 h2.2
    rcases C31_operator (K := ℚ) hd hi ha hia with hh | ⟨s', d'', hh, hh', -⟩
    · rw [hh.1] at h; simp at h
    · rw [hh] at h; simp only [Except.ok.injEq, Option.some.injEq, Prod.mk.injEq] at h; exact h.2 ▸ hh'
  rw [sum_occ hd, sum_occ h3, h1, Finset.card_insert_of_notMem (fun hh => h2.2 (Finset.mem_of_mem_erase hh)),
    Finset.card_erase_of_mem h2.1]
  have := Finset.card_pos.mpr ⟨i, h2.1⟩
  omega

/-- C31: de-excitation undoes excitation, with the same sign. -/
theorem C31_inverse {d : Dstring} (hd : IsDet d) {i a : ℕ} (hi : i < d.n) (ha : a < d.n) {s : ℤ} {d' : Dstring}
    (h : d.excite i a = .ok (some (s, d'))) : d'.excite a i = .ok (some (s, d)) := by
  obtain ⟨S, hS, hd'⟩ := exists_set hd
  obtain ⟨n, occ⟩ := d
  simp only at hS hd' hi ha
  rw [hd', excite_ofSet S hi ha] at h
  by_cases hc : i ∈ S ∧ a ∉ S
  swap
  · rw [if_neg hc] at h; simp at h
  rw [if_pos hc] at h
  simp only [Except.ok.injEq, Option.some.injEq, Prod.mk.injEq] at h
  obtain ⟨rfl, rfl⟩ := h
  have hia : i ≠ a := fun hh => hc.2 (hh ▸ hc.1)
  have ha' : a ∉ S.erase i := fun hh => hc.2 (Finset.mem_of_mem_erase hh)
  rw [hd', excite_ofSet _ ha hi, if_pos ⟨Finset.mem_insert_self _ _, by simp [hia]⟩, Finset.erase_insert ha',
    Finset.insert_erase hc.1, btw_insert_left ha', btw_comm (S.erase i) a i]
  congr 4
  have h3 := btw_insert_left (y := a) (Finset.notMem_erase i S)
  rw [Finset.insert_erase hc.1] at h3
  exact h3.symm

/-- C31: with equal indices the code always answers `(None, None)`; the branch `i == a` (ci_utils.py:16-17) is never taken.
So `excite(i, i)` is not the number operator: that one has the value one on an occupied orbital. -/
theorem C31_equal_indices {d : Dstring} {i : ℕ} (hd : IsDet d) (hi : i < d.n) : d.excite i i = .ok none :=
  (C31_occupation hd hi hi).1.mpr fun h => h.2 h.1

/-- C31: an orbital out of range raises an `IndexError`, unless the first test has already failed. -/
theorem C31_out_of_range {d : Dstring} (hd : IsDet d) {i a : ℕ} :
    (d.n ≤ i → d.excite i a = .error .index) ∧
    (i < d.n → d.n ≤ a → d.excite i a = if i ∈ supp d then .error .index else .ok none) := by
  obtain ⟨S, hS, hd'⟩ := exists_set hd
  obtain ⟨n, occ⟩ := d
  simp only at hS hd' ⊢
  rw [hd', supp_ofSet hS]
  constructor
  · intro h
    have : get (bits n S) i = .error .index := by simp [get, bits, h]
    simp only [Dstring.excite, ofSet, this, bind, Except.bind]
  · intro h1 h2
    have : get (bits n S) a = .error .index := by simp [get, bits, h2]
    simp only [Dstring.excite, ofSet, this, get_bits h1, bind, Except.bind, pure, Except.pure]
    by_cases h : i ∈ S <;> simp [h]

/-- `1110` with orbital 0 moved to 3 passes two electrons. -/
example : (Dstring.mk 4 [1, 1, 1, 0]).excite 0 3 = .ok (some (1, ⟨4, [0, 1, 1, 1]⟩)) := by decide
example : (Dstring.mk 4 [1, 1, 1, 0]).excite 1 3 = .ok (some (-1, ⟨4, [1, 0, 1, 1]⟩)) := by decide
example : IsDet ⟨4, [1, 1, 1, 0]⟩ := by simp [IsDet]

end CI
