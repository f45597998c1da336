/-
The Hamiltonian of two systems that do not interact.
-/
import Verif.Spec.SlaterCondon
import Mathlib.Data.Finset.Powerset

namespace Fock
variable {ι κ : Type} [LinearOrder ι] [LinearOrder κ] {K : Type} [Field K]

/-! ### spectators -/

/-- union, with the equality test of the order -/
def uni (S T : Finset ι) : Finset ι := S ∪ T

theorem sum_uni {M : Type*} [AddCommMonoid M] {S T : Finset ι} (h : Disjoint S T) (f : ι → M) : ∑ x ∈ uni S T, f x = ∑ x ∈ S, f x + ∑ x ∈ T, f x :=
  Finset.sum_union h

theorem uni_comm (S T : Finset ι) : uni S T = uni T S := Finset.union_comm S T

theorem sgn_union {p : ι} {S T : Finset ι} (h : Disjoint S T) : sgn K p (S ∪ T) = sgn K p S * sgn K p T := by
  unfold sgn cnt
  rw [Finset.filter_union, Finset.card_union_of_disjoint (Finset.disjoint_filter_filter h), pow_add]

theorem union_inj {S S' T T' U : Finset ι} (hS : S ⊆ U) (hS' : S' ⊆ U) (hT : Disjoint T U) (hT' : Disjoint T' U) :
    S ∪ T = S' ∪ T' ↔ S = S' ∧ T = T' := by
  constructor
  · intro e
    have e' : ∀ x, (x ∈ S ∨ x ∈ T) ↔ (x ∈ S' ∨ x ∈ T') := fun x => by rw [← Finset.mem_union, e, Finset.mem_union]
    constructor <;> ext x
    · constructor
      · intro hx
        exact ((e' x).mp (.inl hx)).resolve_right fun h => Finset.disjoint_left.mp hT' h (hS hx)
      · intro hx
        exact ((e' x).mpr (.inl hx)).resolve_right fun h => Finset.disjoint_left.mp hT h (hS' hx)
    · constructor
      · intro hx
        exact ((e' x).mp (.inr hx)).resolve_left fun h => Finset.disjoint_left.mp hT hx (hS' h)
      · intro hx
        exact ((e' x).mpr (.inr hx)).resolve_left fun h => Finset.disjoint_left.mp hT' hx (hS h)
  · rintro ⟨rfl, rfl⟩; rfl

theorem erase_union {p : ι} {S T U : Finset ι} (hT : Disjoint T U) (hp : p ∈ U) : (S ∪ T).erase p = S.erase p ∪ T := by
  ext x
  simp only [Finset.mem_erase, Finset.mem_union]
  constructor
  · rintro ⟨h1, h2 | h2⟩
    · exact .inl ⟨h1, h2⟩
    · exact .inr h2
  · rintro (⟨h1, h2⟩ | h2)
    · exact ⟨h1, .inl h2⟩
    · exact ⟨fun e => Finset.disjoint_left.mp hT h2 (e ▸ hp), .inr h2⟩

theorem mem_union_of {p : ι} {S T U : Finset ι} (hT : Disjoint T U) (hp : p ∈ U) : p ∈ S ∪ T ↔ p ∈ S := by
  rw [Finset.mem_union]
  exact ⟨fun h => h.resolve_right fun h => Finset.disjoint_left.mp hT h hp, .inl⟩

theorem disj_of {S T U : Finset ι} (hS : S ⊆ U) (hT : Disjoint T U) : Disjoint S T :=
  (hT.mono_right hS).symm

section spectators
variable {U S S' T T' : Finset ι} (hS : S ⊆ U) (hS' : S' ⊆ U) (hT : Disjoint T U) (hT' : Disjoint T' U)
include hS hS' hT hT'

theorem c1_union {p q : ι} (hp : p ∈ U) (hq : q ∈ U) :
    (if p ∈ S ∪ T ∧ q ∈ S' ∪ T' ∧ (S ∪ T).erase p = (S' ∪ T').erase q then sgn K p (S ∪ T) * sgn K q (S' ∪ T') else 0) =
      if T = T' then (sgn K p T * sgn K q T) * (if p ∈ S ∧ q ∈ S' ∧ S.erase p = S'.erase q then sgn K p S * sgn K q S' else 0) else 0 := by
  simp only [mem_union_of hT hp, mem_union_of hT' hq, erase_union hT hp, erase_union hT' hq,
    union_inj ((Finset.erase_subset _ _).trans hS) ((Finset.erase_subset _ _).trans hS') hT hT', sgn_union (disj_of hS hT), sgn_union (disj_of hS' hT')]
  by_cases e : T = T'
  · subst e
    simp only [and_true, if_true]
    split_ifs <;> ring
  · simp only [e, and_false, if_false]

theorem c2_union {p q r s : ι} (hp : p ∈ U) (hq : q ∈ U) (hr : r ∈ U) (hs : s ∈ U) :
    c2 K (S ∪ T) (S' ∪ T') p q r s = if T = T' then (sgn K p T * sgn K q T * (sgn K r T * sgn K s T)) * c2 K S S' p q r s else 0 := by
  have e1 : ∀ {x} {X : Finset ι}, X ⊆ U → X.erase x ⊆ U := fun h => (Finset.erase_subset _ _).trans h
  unfold c2
  simp only [mem_union_of hT hp, mem_union_of hT' hr, erase_union hT hp, erase_union hT' hr, mem_union_of hT hq, mem_union_of hT' hs,
    erase_union hT hq, erase_union hT' hs, union_inj (e1 (e1 hS)) (e1 (e1 hS')) hT hT', sgn_union (disj_of hS hT), sgn_union (disj_of hS' hT'),
    sgn_union (disj_of (e1 hS) hT), sgn_union (disj_of (e1 hS') hT')]
  by_cases e : T = T'
  · subst e
    simp only [and_true, if_true]
    split_ifs <;> ring
  · simp only [e, and_false, if_false]

/-- Electrons in other orbitals do not change the matrix elements, as long as the Hamiltonian keeps the parity `t` of their number below an orbital. -/
theorem elt_ham_union {h : ι → ι → K} {V : ι → ι → ι → ι → K} (hh : ∀ p ∈ U, ∀ q ∈ U, h p q ≠ 0 → sgn K p T = sgn K q T)
    (hV : ∀ p ∈ U, ∀ q ∈ U, ∀ r ∈ U, ∀ s ∈ U, V p q r s ≠ 0 → sgn K p T = sgn K r T ∧ sgn K q T = sgn K s T) :
    elt (ham U h V) (S ∪ T) (S' ∪ T') = if T = T' then elt (ham U h V) S S' else 0 := by
  rw [elt_ham, elt_ham]
  have A : ∀ p ∈ U, ∀ q ∈ U, h p q * (if p ∈ S ∪ T ∧ q ∈ S' ∪ T' ∧ (S ∪ T).erase p = (S' ∪ T').erase q then sgn K p (S ∪ T) * sgn K q (S' ∪ T') else 0) =
      if T = T' then h p q * (if p ∈ S ∧ q ∈ S' ∧ S.erase p = S'.erase q then sgn K p S * sgn K q S' else 0) else 0 := by
    intro p hp q hq
    rw [c1_union hS hS' hT hT' hp hq]
    by_cases e : T = T'
    · rw [if_pos e, if_pos e]
      by_cases h0 : h p q = 0
      · rw [h0, zero_mul, zero_mul]
      · rw [hh p hp q hq h0, sgn_sq, one_mul]
    · rw [if_neg e, if_neg e, mul_zero]
  have B : ∀ p ∈ U, ∀ q ∈ U, ∀ r ∈ U, ∀ s ∈ U, V p q r s * c2 K (S ∪ T) (S' ∪ T') p q r s = if T = T' then V p q r s * c2 K S S' p q r s else 0 := by
    intro p hp q hq r hr s hs
    rw [c2_union hS hS' hT hT' hp hq hr hs]
    by_cases e : T = T'
    · rw [if_pos e, if_pos e]
      by_cases h0 : V p q r s = 0
      · rw [h0, zero_mul, zero_mul]
      · obtain ⟨h1, h2⟩ := hV p hp q hq r hr s hs h0
        rw [h1, h2, show sgn K r T * sgn K s T * (sgn K r T * sgn K s T) = (sgn K r T * sgn K r T) * (sgn K s T * sgn K s T) by ring, sgn_sq, sgn_sq,
          one_mul, one_mul]
    · rw [if_neg e, if_neg e, mul_zero]
  rw [Finset.sum_congr rfl fun p hp => Finset.sum_congr rfl fun q hq => A p hp q hq,
    Finset.sum_congr rfl fun p hp => Finset.sum_congr rfl fun q hq => Finset.sum_congr rfl fun r hr => Finset.sum_congr rfl fun s hs => B p hp q hq r hr s hs]
  by_cases e : T = T'
  · simp only [e, if_true]
  · simp only [e, if_false, Finset.sum_const_zero, mul_zero, add_zero]

end spectators

/-! ### relabelling -/

theorem sgn_map (f : ι ↪o κ) (p : ι) (S : Finset ι) : sgn K (f p) (S.map f.toEmbedding) = sgn K p S := by
  unfold sgn cnt
  congr 1
  rw [Finset.filter_map, Finset.card_map]
  congr 1
  ext x
  simp

theorem erase_map (f : ι ↪o κ) (p : ι) (S : Finset ι) : (S.map f.toEmbedding).erase (f p) = (S.erase p).map f.toEmbedding := by
  ext x
  simp only [Finset.mem_erase, Finset.mem_map, RelEmbedding.coe_toEmbedding]
  constructor
  · rintro ⟨h1, y, hy, rfl⟩
    exact ⟨y, ⟨fun e => h1 (by rw [e]), hy⟩, rfl⟩
  · rintro ⟨y, ⟨h1, h2⟩, rfl⟩
    exact ⟨fun e => h1 (f.injective e), y, h2, rfl⟩

/-- Matrix elements do not depend on the names of the orbitals. -/
theorem elt_ham_map (f : ι ↪o κ) (U S S' : Finset ι) (h : κ → κ → K) (V : κ → κ → κ → κ → K) :
    elt (ham (U.map f.toEmbedding) h V) (S.map f.toEmbedding) (S'.map f.toEmbedding) =
      elt (ham U (fun p q => h (f p) (f q)) fun p q r s => V (f p) (f q) (f r) (f s)) S S' := by
  rw [elt_ham, elt_ham]
  simp only [Finset.sum_map, RelEmbedding.coe_toEmbedding, c2, sgn_map, erase_map, Finset.map_inj]
  have hm : ∀ (x : ι) (X : Finset ι), f x ∈ X.map f.toEmbedding ↔ x ∈ X := fun x X => by
    rw [Finset.mem_map]
    exact ⟨fun ⟨y, hy, e⟩ => f.injective e ▸ hy, fun h => ⟨x, h, rfl⟩⟩
  simp only [hm]

/-! ### two systems -/

theorem sum_two {U₁ U₂ : Finset ι} (hd : Disjoint U₁ U₂) {f : ι → ι → K} (h0 : ∀ p q, (p ∈ U₁ ∧ q ∈ U₂) ∨ (p ∈ U₂ ∧ q ∈ U₁) → f p q = 0) :
    ∑ p ∈ U₁ ∪ U₂, ∑ q ∈ U₁ ∪ U₂, f p q = ∑ p ∈ U₁, ∑ q ∈ U₁, f p q + ∑ p ∈ U₂, ∑ q ∈ U₂, f p q := by
  rw [Finset.sum_union hd]
  congr 1 <;> refine Finset.sum_congr rfl fun p hp => ?_ <;> rw [Finset.sum_union hd]
  · rw [Finset.sum_eq_zero (s := U₂) fun q hq => h0 p q (.inl ⟨hp, hq⟩), add_zero]
  · rw [Finset.sum_eq_zero (s := U₁) fun q hq => h0 p q (.inr ⟨hp, hq⟩), zero_add]

/-- The Hamiltonian of two systems without interaction is the sum of those of the two. -/
theorem elt_ham_disjoint {U₁ U₂ : Finset ι} (hd : Disjoint U₁ U₂) {h : ι → ι → K} {V : ι → ι → ι → ι → K}
    (hh : ∀ p q, (p ∈ U₁ ∧ q ∈ U₂) ∨ (p ∈ U₂ ∧ q ∈ U₁) → h p q = 0)
    (hV : ∀ p q r s, ((p ∈ U₁ ∨ q ∈ U₁ ∨ r ∈ U₁ ∨ s ∈ U₁) ∧ (p ∈ U₂ ∨ q ∈ U₂ ∨ r ∈ U₂ ∨ s ∈ U₂)) → V p q r s = 0) (bra ket : Finset ι) :
    elt (ham (U₁ ∪ U₂) h V) bra ket = elt (ham U₁ h V) bra ket + elt (ham U₂ h V) bra ket := by
  rw [elt_ham, elt_ham, elt_ham, sum_two hd fun p q hpq => by rw [hh p q hpq, zero_mul]]
  rw [sum_two hd (f := fun p q => ∑ r ∈ U₁ ∪ U₂, ∑ s ∈ U₁ ∪ U₂, V p q r s * c2 K bra ket p q r s)]
  · have h1 : ∀ p ∈ U₁, ∀ q ∈ U₁, ∑ r ∈ U₁ ∪ U₂, ∑ s ∈ U₁ ∪ U₂, V p q r s * c2 K bra ket p q r s = ∑ r ∈ U₁, ∑ s ∈ U₁, V p q r s * c2 K bra ket p q r s := by
      intro p hp q hq
      rw [sum_two hd, Finset.sum_eq_zero (s := U₂), add_zero]
      · exact fun r hr => Finset.sum_eq_zero fun s hs => by rw [hV p q r s ⟨.inl hp, .inr (.inr (.inl hr))⟩, zero_mul]
      · rintro r s (⟨hr, hs⟩ | ⟨hr, hs⟩)
        · rw [hV p q r s ⟨.inl hp, .inr (.inr (.inr hs))⟩, zero_mul]
        · rw [hV p q r s ⟨.inl hp, .inr (.inr (.inl hr))⟩, zero_mul]
    have h2 : ∀ p ∈ U₂, ∀ q ∈ U₂, ∑ r ∈ U₁ ∪ U₂, ∑ s ∈ U₁ ∪ U₂, V p q r s * c2 K bra ket p q r s = ∑ r ∈ U₂, ∑ s ∈ U₂, V p q r s * c2 K bra ket p q r s := by
      intro p hp q hq
      rw [sum_two hd, Finset.sum_eq_zero (s := U₁), zero_add]
      · exact fun r hr => Finset.sum_eq_zero fun s hs => by rw [hV p q r s ⟨.inr (.inr (.inl hr)), .inl hp⟩, zero_mul]
      · rintro r s (⟨hr, hs⟩ | ⟨hr, hs⟩)
        · rw [hV p q r s ⟨.inr (.inr (.inl hr)), .inl hp⟩, zero_mul]
        · rw [hV p q r s ⟨.inr (.inr (.inr hs)), .inl hp⟩, zero_mul]
    rw [Finset.sum_congr rfl fun p hp => Finset.sum_congr rfl fun q hq => h1 p hp q hq,
      Finset.sum_congr rfl fun p hp => Finset.sum_congr rfl fun q hq => h2 p hp q hq]
    ring
  · rintro p q (⟨hp, hq⟩ | ⟨hp, hq⟩) <;> refine Finset.sum_eq_zero fun r _ => Finset.sum_eq_zero fun s _ => ?_
    · rw [hV p q r s ⟨.inl hp, .inr (.inl hq)⟩, zero_mul]
    · rw [hV p q r s ⟨.inr (.inl hq), .inl hp⟩, zero_mul]

end Fock
