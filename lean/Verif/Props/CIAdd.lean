/-
Full CI energies of two systems that do not interact.
-/
import Verif.Props.FockAdd
import Verif.Props.CISpin
import Verif.Props.CISym

namespace CI
open Fock
set_option linter.unusedSectionVars false

/-! ### the integrals of two systems -/

section model
variable {K : Type} [Field K]

/-- one-electron integrals of two systems next to each other: the first has the orbitals `0 .. m-1` -/
def join1 (m : ℕ) (f g : ℕ → ℕ → K) (p q : ℕ) : K :=
  if p < m ∧ q < m then f p q else if m ≤ p ∧ m ≤ q then g (p - m) (q - m) else 0

/-- two-electron integrals of two systems that do not interact -/
def join2 (m : ℕ) (F G : ℕ → ℕ → ℕ → ℕ → K) (p q r s : ℕ) : K :=
  if p < m ∧ q < m ∧ r < m ∧ s < m then F p q r s
  else if m ≤ p ∧ m ≤ q ∧ m ≤ r ∧ m ≤ s then G (p - m) (q - m) (r - m) (s - m) else 0

end model

/-! ### spin orbitals of two systems -/

/-- see `shift` -/
def shiftSO (m : ℕ) (x : SO) : SO :=
  match ofLex x with
  | .inl i => up (i + m)
  | .inr i => dn (i + m)

theorem shiftSO_mono (m : ℕ) : StrictMono (shiftSO m) := by
  intro x y
  refine SO.cases (P := fun x => x < y → shiftSO m x < shiftSO m y) (fun i => ?_) (fun i => ?_) x
  · refine SO.cases (P := fun y => up i < y → shiftSO m (up i) < shiftSO m y) (fun j h => ?_) (fun j _ => up_lt_dn) y
    exact up_lt_up.mpr (Nat.add_lt_add_right (up_lt_up.mp h) m)
  · refine SO.cases (P := fun y => dn i < y → shiftSO m (dn i) < shiftSO m y) (fun j h => absurd h not_dn_lt_up) (fun j h => ?_) y
    exact dn_lt_dn.mpr (Nat.add_lt_add_right (dn_lt_dn.mp h) m)

/-- the orbitals of the second system among those of both -/
def shift (m : ℕ) : SO ↪o SO := OrderEmbedding.ofStrictMono (shiftSO m) (shiftSO_mono m)

@[simp] theorem shift_up (m i : ℕ) : shift m (up i) = up (i + m) := rfl
@[simp] theorem shift_dn (m i : ℕ) : shift m (dn i) = dn (i + m) := rfl

/-- all spin orbitals of `n` orbitals -/
abbrev allSO (n : ℕ) : Finset SO := emb (Finset.range n) (Finset.range n)

theorem mem_shift_up {m i : ℕ} {T : Finset SO} : up i ∈ T.map (shift m).toEmbedding ↔ m ≤ i ∧ up (i - m) ∈ T := by
  rw [Finset.mem_map]
  constructor
  · rintro ⟨x, hx, e⟩
    revert hx e
    refine SO.cases (P := fun x => x ∈ T → (shift m).toEmbedding x = up i → _) (fun j => ?_) (fun j => ?_) x
    · intro hx e
      obtain rfl : j + m = i := up_inj.mp e
      exact ⟨by omega, by rwa [Nat.add_sub_cancel]⟩
    · intro hx e
      exact absurd e.symm up_ne_dn
  · rintro ⟨h1, h2⟩
    exact ⟨_, h2, by change shift m (up (i - m)) = _; rw [shift_up, Nat.sub_add_cancel h1]⟩

theorem mem_shift_dn {m i : ℕ} {T : Finset SO} : dn i ∈ T.map (shift m).toEmbedding ↔ m ≤ i ∧ dn (i - m) ∈ T := by
  rw [Finset.mem_map]
  constructor
  · rintro ⟨x, hx, e⟩
    revert hx e
    refine SO.cases (P := fun x => x ∈ T → (shift m).toEmbedding x = dn i → _) (fun j => ?_) (fun j => ?_) x
    · intro hx e
      exact absurd e up_ne_dn
    · intro hx e
      obtain rfl : j + m = i := dn_inj.mp e
      exact ⟨by omega, by rwa [Nat.add_sub_cancel]⟩
  · rintro ⟨h1, h2⟩
    exact ⟨_, h2, by change shift m (dn (i - m)) = _; rw [shift_dn, Nat.sub_add_cancel h1]⟩

/-- the determinant of both systems -/
def both (m : ℕ) (S T : Finset SO) : Finset SO := uni S (T.map (shift m).toEmbedding)

theorem mem_both {m : ℕ} {S T : Finset SO} {x : SO} : x ∈ both m S T ↔ x ∈ S ∨ x ∈ T.map (shift m).toEmbedding := Finset.mem_union

theorem all_both (m k : ℕ) : allSO (m + k) = both m (allSO m) (allSO k) := by
  refine (emb_ext (fun i => ?_) (fun i => ?_)).symm <;> rw [mem_both]
  · rw [mem_shift_up, up_mem, up_mem]; simp only [Finset.mem_range]; omega
  · rw [mem_shift_dn, dn_mem, dn_mem]; simp only [Finset.mem_range]; omega

theorem disj_all (m : ℕ) (T : Finset SO) : Disjoint (T.map (shift m).toEmbedding) (allSO m) := by
  rw [Finset.disjoint_left]
  intro x
  refine SO.cases (P := fun x => x ∈ T.map (shift m).toEmbedding → ¬ x ∈ allSO m) (fun i => ?_) (fun i => ?_) x
  · rw [mem_shift_up, up_mem, Finset.mem_range]; omega
  · rw [mem_shift_dn, dn_mem, Finset.mem_range]; omega

theorem both_inj {m : ℕ} {S S' T T' : Finset SO} (hS : S ⊆ allSO m) (hS' : S' ⊆ allSO m) : both m S T = both m S' T' ↔ S = S' ∧ T = T' := by
  rw [both, both, uni, uni, union_inj hS hS' (disj_all m T) (disj_all m T'), Finset.map_inj]

theorem both_subset {m k : ℕ} {S T : Finset SO} (hS : S ⊆ allSO m) (hT : T ⊆ allSO k) : both m S T ⊆ allSO (m + k) := by
  rw [all_both]
  intro x hx
  rw [mem_both] at hx ⊢
  exact hx.imp (@hS x) (fun h => Finset.map_subset_map.mpr hT h)

/-- the part of a determinant in the first system -/
def left (m : ℕ) (X : Finset SO) : Finset SO := X.filter (· ∈ allSO m)
/-- the part of a determinant in the second system -/
def right (m k : ℕ) (X : Finset SO) : Finset SO := (allSO k).filter fun x => shift m x ∈ X

theorem left_subset (m : ℕ) (X : Finset SO) : left m X ⊆ allSO m := fun _ hx => (Finset.mem_filter.mp hx).2
theorem right_subset (m k : ℕ) (X : Finset SO) : right m k X ⊆ allSO k := Finset.filter_subset _ _

theorem left_both {m : ℕ} {S T : Finset SO} (hS : S ⊆ allSO m) : left m (both m S T) = S := by
  ext x
  rw [left, Finset.mem_filter, mem_both]
  constructor
  · rintro ⟨h1 | h1, h2⟩
    · exact h1
    · exact absurd h2 (Finset.disjoint_left.mp (disj_all m T) h1)
  · exact fun h => ⟨.inl h, hS h⟩

theorem right_both {m k : ℕ} {S T : Finset SO} (hS : S ⊆ allSO m) (hT : T ⊆ allSO k) : right m k (both m S T) = T := by
  ext x
  rw [right, Finset.mem_filter, mem_both]
  constructor
  · rintro ⟨h1, h2 | h2⟩
    · exact absurd (hS h2) (Finset.disjoint_left.mp (disj_all m (allSO k)) (Finset.mem_map.mpr ⟨x, h1, rfl⟩))
    · obtain ⟨y, hy, e⟩ := Finset.mem_map.mp h2
      rwa [← (shift m).injective e]
  · exact fun h => ⟨hT h, .inr (Finset.mem_map.mpr ⟨x, h, rfl⟩)⟩

theorem both_left_right {m k : ℕ} {X : Finset SO} (hX : X ⊆ allSO (m + k)) : both m (left m X) (right m k X) = X := by
  ext x
  rw [mem_both, left, Finset.mem_filter]
  constructor
  · rintro (⟨h1, -⟩ | h1)
    · exact h1
    · obtain ⟨y, hy, rfl⟩ := Finset.mem_map.mp h1
      exact (Finset.mem_filter.mp hy).2
  · intro hx
    have h1 := hX hx
    rw [all_both, mem_both] at h1
    rcases h1 with h1 | h1
    · exact .inl ⟨hx, h1⟩
    · obtain ⟨y, hy, rfl⟩ := Finset.mem_map.mp h1
      exact .inr (Finset.mem_map.mpr ⟨y, Finset.mem_filter.mpr ⟨hy, hx⟩, rfl⟩)

/-- sums over the determinants of both systems -/
theorem sum_both {M : Type} [AddCommMonoid M] (m k : ℕ) (f : Finset SO → M) :
    ∑ X ∈ (allSO (m + k)).powerset, f X = ∑ S ∈ (allSO m).powerset, ∑ T ∈ (allSO k).powerset, f (both m S T) := by
  rw [← Finset.sum_product']
  refine Finset.sum_nbij' (fun X => (left m X, right m k X)) (fun x => both m x.1 x.2) ?_ ?_ ?_ ?_ ?_
  · intro X _
    exact Finset.mem_product.mpr ⟨Finset.mem_powerset.mpr (left_subset m X), Finset.mem_powerset.mpr (right_subset m k X)⟩
  · intro x hx
    obtain ⟨h1, h2⟩ := Finset.mem_product.mp hx
    exact Finset.mem_powerset.mpr (both_subset (Finset.mem_powerset.mp h1) (Finset.mem_powerset.mp h2))
  · intro X hX
    exact both_left_right (Finset.mem_powerset.mp hX)
  · intro x hx
    obtain ⟨h1, h2⟩ := Finset.mem_product.mp hx
    exact Prod.ext (left_both (Finset.mem_powerset.mp h1)) (right_both (Finset.mem_powerset.mp h1) (Finset.mem_powerset.mp h2))
  · intro X hX
    rw [both_left_right (Finset.mem_powerset.mp hX)]

/-! ### matrix elements -/

section elements
variable {K : Type} [Field K]

theorem elt_ham_congr {ι : Type} [LinearOrder ι] {U : Finset ι} {h h' : ι → ι → K} {V V' : ι → ι → ι → ι → K} (hh : ∀ p ∈ U, ∀ q ∈ U, h p q = h' p q)
    (hV : ∀ p ∈ U, ∀ q ∈ U, ∀ r ∈ U, ∀ s ∈ U, V p q r s = V' p q r s) (bra ket : Finset ι) : elt (ham U h V) bra ket = elt (ham U h' V') bra ket := by
  rw [elt_ham, elt_ham]
  congr 1
  · exact Finset.sum_congr rfl fun p hp => Finset.sum_congr rfl fun q hq => by rw [hh p hp q hq]
  · congr 1
    exact Finset.sum_congr rfl fun p hp => Finset.sum_congr rfl fun q hq => Finset.sum_congr rfl fun r hr => Finset.sum_congr rfl fun s hs => by
      rw [hV p hp q hq r hr s hs]

/-- orbitals of the same spin -/
def sameSpin (p q : SO) : Prop := ∀ i j, ¬ (p = up i ∧ q = dn j) ∧ ¬ (p = dn i ∧ q = up j)

theorem spinH_same {ha hb : ℕ → ℕ → K} {p q : SO} (h : spinH ha hb p q ≠ 0) : sameSpin p q := by
  intro i j
  constructor
  · rintro ⟨rfl, rfl⟩; exact h rfl
  · rintro ⟨rfl, rfl⟩; exact h rfl

theorem spinV_same {Ia Ib Iabab : ℕ → ℕ → ℕ → ℕ → K} {p q r s : SO} (h : spinV Ia Ib Iabab p q r s ≠ 0) : sameSpin p r ∧ sameSpin q s := by
  refine ⟨fun i j => ⟨?_, ?_⟩, fun i j => ⟨?_, ?_⟩⟩ <;> rintro ⟨rfl, rfl⟩ <;> refine h ?_
  · rcases so_elim q with ⟨q, rfl⟩ | ⟨q, rfl⟩ <;> rcases so_elim s with ⟨s, rfl⟩ | ⟨s, rfl⟩ <;> rfl
  · rcases so_elim q with ⟨q, rfl⟩ | ⟨q, rfl⟩ <;> rcases so_elim s with ⟨s, rfl⟩ | ⟨s, rfl⟩ <;> rfl
  · rcases so_elim p with ⟨q, rfl⟩ | ⟨q, rfl⟩ <;> rcases so_elim r with ⟨s, rfl⟩ | ⟨s, rfl⟩ <;> rfl
  · rcases so_elim p with ⟨q, rfl⟩ | ⟨q, rfl⟩ <;> rcases so_elim r with ⟨s, rfl⟩ | ⟨s, rfl⟩ <;> rfl

theorem sgn_congr {p q : SO} {T : Finset SO} (h : ∀ x ∈ T, x < p ↔ x < q) : sgn K p T = sgn K q T := by
  unfold sgn cnt
  rw [Finset.filter_congr h]

theorem sgn_first {m : ℕ} {p q : SO} {T : Finset SO} (hp : p ∈ allSO m) (hq : q ∈ allSO m) (hs : sameSpin p q) :
    sgn K p (T.map (shift m).toEmbedding) = sgn K q (T.map (shift m).toEmbedding) := by
  refine sgn_congr fun x hx => ?_
  rcases so_elim p with ⟨p, rfl⟩ | ⟨p, rfl⟩ <;> rcases so_elim q with ⟨q, rfl⟩ | ⟨q, rfl⟩
  · rw [up_mem, Finset.mem_range] at hp hq
    rcases so_elim x with ⟨x, rfl⟩ | ⟨x, rfl⟩
    · have := (mem_shift_up.mp hx).1
      rw [up_lt_up, up_lt_up]; omega
    · exact iff_of_false not_dn_lt_up not_dn_lt_up
  · exact absurd ⟨rfl, rfl⟩ (hs p q).1
  · exact absurd ⟨rfl, rfl⟩ (hs p q).2
  · rw [dn_mem, Finset.mem_range] at hp hq
    rcases so_elim x with ⟨x, rfl⟩ | ⟨x, rfl⟩
    · exact iff_of_true up_lt_dn up_lt_dn
    · have := (mem_shift_dn.mp hx).1
      rw [dn_lt_dn, dn_lt_dn]; omega

theorem sgn_second {m : ℕ} {p q : SO} {S T : Finset SO} (hS : S ⊆ allSO m) (hp : p ∈ T.map (shift m).toEmbedding) (hq : q ∈ T.map (shift m).toEmbedding)
    (hs : sameSpin p q) : sgn K p S = sgn K q S := by
  refine sgn_congr fun x hx => ?_
  have hx := hS hx
  rcases so_elim p with ⟨p, rfl⟩ | ⟨p, rfl⟩ <;> rcases so_elim q with ⟨q, rfl⟩ | ⟨q, rfl⟩
  · have h1 := (mem_shift_up.mp hp).1
    have h2 := (mem_shift_up.mp hq).1
    rcases so_elim x with ⟨x, rfl⟩ | ⟨x, rfl⟩
    · rw [up_mem, Finset.mem_range] at hx
      rw [up_lt_up, up_lt_up]; omega
    · exact iff_of_false not_dn_lt_up not_dn_lt_up
  · exact absurd ⟨rfl, rfl⟩ (hs p q).1
  · exact absurd ⟨rfl, rfl⟩ (hs p q).2
  · have h1 := (mem_shift_dn.mp hp).1
    have h2 := (mem_shift_dn.mp hq).1
    rcases so_elim x with ⟨x, rfl⟩ | ⟨x, rfl⟩
    · exact iff_of_true up_lt_dn up_lt_dn
    · rw [dn_mem, Finset.mem_range] at hx
      rw [dn_lt_dn, dn_lt_dn]; omega

variable {m k : ℕ} {ha hb ha' hb' : ℕ → ℕ → K} {Ia Ib Iabab Ia' Ib' Iabab' : ℕ → ℕ → ℕ → ℕ → K}

theorem mem_all_up {m i : ℕ} : up i ∈ allSO m ↔ i < m := by rw [up_mem, Finset.mem_range]
theorem mem_all_dn {m i : ℕ} : dn i ∈ allSO m ↔ i < m := by rw [dn_mem, Finset.mem_range]

/-- the orbital of a spin orbital -/
def orb (x : SO) : ℕ := match ofLex x with | .inl i => i | .inr i => i

theorem mem_all {m : ℕ} {x : SO} : x ∈ allSO m ↔ orb x < m := by
  rcases so_elim x with ⟨x, rfl⟩ | ⟨x, rfl⟩
  · exact mem_all_up
  · exact mem_all_dn
theorem mem_shift {m k : ℕ} {x : SO} : x ∈ (allSO k).map (shift m).toEmbedding → m ≤ orb x := by
  rcases so_elim x with ⟨x, rfl⟩ | ⟨x, rfl⟩
  · rw [mem_shift_up]; exact fun h => h.1
  · rw [mem_shift_dn]; exact fun h => h.1

theorem join1_mixed {f g : ℕ → ℕ → K} {p q : ℕ} (h : (p < m ∧ m ≤ q) ∨ (m ≤ p ∧ q < m)) : join1 m f g p q = 0 := by
  rw [join1, if_neg (by omega), if_neg (by omega)]
theorem join2_mixed {F G : ℕ → ℕ → ℕ → ℕ → K} {p q r s : ℕ} (h : (p < m ∨ q < m ∨ r < m ∨ s < m) ∧ (m ≤ p ∨ m ≤ q ∨ m ≤ r ∨ m ≤ s)) :
    join2 m F G p q r s = 0 := by
  rw [join2, if_neg (by omega), if_neg (by omega)]

theorem spinH_mixed {p q : SO} (h : (orb p < m ∧ m ≤ orb q) ∨ (m ≤ orb p ∧ orb q < m)) : spinH (join1 m ha ha') (join1 m hb hb') p q = 0 := by
  rcases so_elim p with ⟨p, rfl⟩ | ⟨p, rfl⟩ <;> rcases so_elim q with ⟨q, rfl⟩ | ⟨q, rfl⟩
  · exact join1_mixed h
  · rfl
  · rfl
  · exact join1_mixed h

theorem spinV_mixed {p q r s : SO} (h : (orb p < m ∨ orb q < m ∨ orb r < m ∨ orb s < m) ∧ (m ≤ orb p ∨ m ≤ orb q ∨ m ≤ orb r ∨ m ≤ orb s)) :
    spinV (join2 m Ia Ia') (join2 m Ib Ib') (join2 m Iabab Iabab') p q r s = 0 := by
  rcases so_elim p with ⟨p, rfl⟩ | ⟨p, rfl⟩ <;> rcases so_elim q with ⟨q, rfl⟩ | ⟨q, rfl⟩ <;>
    rcases so_elim r with ⟨r, rfl⟩ | ⟨r, rfl⟩ <;> rcases so_elim s with ⟨s, rfl⟩ | ⟨s, rfl⟩ <;>
    first
    | rfl
    | (change join2 m _ _ _ _ _ _ = 0
       refine join2_mixed ?_
       simp only [orb, ofLex_toLex] at h
       omega)

theorem spinH_first {p q : SO} (hp : p ∈ allSO m) (hq : q ∈ allSO m) : spinH (join1 m ha ha') (join1 m hb hb') p q = spinH ha hb p q := by
  rcases so_elim p with ⟨p, rfl⟩ | ⟨p, rfl⟩ <;> rcases so_elim q with ⟨q, rfl⟩ | ⟨q, rfl⟩ <;> rw [mem_all] at hp hq
  · exact if_pos ⟨hp, hq⟩
  · rfl
  · rfl
  · exact if_pos ⟨hp, hq⟩

theorem spinV_first {p q r s : SO} (hp : p ∈ allSO m) (hq : q ∈ allSO m) (hr : r ∈ allSO m) (hs : s ∈ allSO m) :
    spinV (join2 m Ia Ia') (join2 m Ib Ib') (join2 m Iabab Iabab') p q r s = spinV Ia Ib Iabab p q r s := by
  rcases so_elim p with ⟨p, rfl⟩ | ⟨p, rfl⟩ <;> rcases so_elim q with ⟨q, rfl⟩ | ⟨q, rfl⟩ <;>
    rcases so_elim r with ⟨r, rfl⟩ | ⟨r, rfl⟩ <;> rcases so_elim s with ⟨s, rfl⟩ | ⟨s, rfl⟩ <;> rw [mem_all] at hp hq hr hs <;>
    simp only [orb, ofLex_toLex] at hp hq hr hs <;>
    first
    | rfl
    | (change join2 m _ _ _ _ _ _ = _
       rw [join2, if_pos (by omega)]
       rfl)

theorem spinH_second (p q : SO) : spinH (join1 m ha ha') (join1 m hb hb') (shift m p) (shift m q) = spinH ha' hb' p q := by
  rcases so_elim p with ⟨p, rfl⟩ | ⟨p, rfl⟩ <;> rcases so_elim q with ⟨q, rfl⟩ | ⟨q, rfl⟩
  · change join1 m _ _ (p + m) (q + m) = ha' p q
    rw [join1, if_neg (by omega), if_pos (by omega), Nat.add_sub_cancel, Nat.add_sub_cancel]
  · rfl
  · rfl
  · change join1 m _ _ (p + m) (q + m) = hb' p q
    rw [join1, if_neg (by omega), if_pos (by omega), Nat.add_sub_cancel, Nat.add_sub_cancel]

theorem spinV_second (p q r s : SO) :
    spinV (join2 m Ia Ia') (join2 m Ib Ib') (join2 m Iabab Iabab') (shift m p) (shift m q) (shift m r) (shift m s) = spinV Ia' Ib' Iabab' p q r s := by
  have key : ∀ (F G : ℕ → ℕ → ℕ → ℕ → K) (p q r s : ℕ), join2 m F G (p + m) (q + m) (r + m) (s + m) = G p q r s := by
    intro F G p q r s
    rw [join2, if_neg (by omega), if_pos (by omega)]
    simp only [Nat.add_sub_cancel]
  rcases so_elim p with ⟨p, rfl⟩ | ⟨p, rfl⟩ <;> rcases so_elim q with ⟨q, rfl⟩ | ⟨q, rfl⟩ <;>
    rcases so_elim r with ⟨r, rfl⟩ | ⟨r, rfl⟩ <;> rcases so_elim s with ⟨s, rfl⟩ | ⟨s, rfl⟩ <;>
    simp only [spinV, shift_up, shift_dn, ofLex_toLex, key]

/-- Matrix elements of the Hamiltonian of both systems. -/
theorem elt_both {S S' T T' : Finset SO} (hS : S ⊆ allSO m) (hS' : S' ⊆ allSO m) (hT : T ⊆ allSO k) (hT' : T' ⊆ allSO k) :
    elt (spinHam (m + k) (m + k) (join1 m ha ha') (join1 m hb hb') (join2 m Ia Ia') (join2 m Ib Ib') (join2 m Iabab Iabab')) (both m S T) (both m S' T') =
      (if T = T' then elt (spinHam m m ha hb Ia Ib Iabab) S S' else 0) + if S = S' then elt (spinHam k k ha' hb' Ia' Ib' Iabab') T T' else 0 := by
  have hd := (disj_all m (allSO k)).symm
  rw [spinHam, show emb (Finset.range (m + k)) (Finset.range (m + k)) = both m (allSO m) (allSO k) from all_both m k, both, uni,
    elt_ham_disjoint hd]
  · congr 1
    · rw [both, both, uni, uni, elt_ham_union hS hS' (disj_all m T) (disj_all m T')]
      · simp only [Finset.map_inj]
        split_ifs
        · exact elt_ham_congr (fun p hp q hq => spinH_first hp hq) (fun p hp q hq r hr s hs => spinV_first hp hq hr hs) S S'
        · rfl
      · exact fun p hp q hq h => sgn_first hp hq (spinH_same h)
      · exact fun p hp q hq r hr s hs h => ⟨sgn_first hp hr (spinV_same h).1, sgn_first hq hs (spinV_same h).2⟩
    · have d1 : Disjoint S ((allSO k).map (shift m).toEmbedding) := (hd.mono_left hS)
      have d2 : Disjoint S' ((allSO k).map (shift m).toEmbedding) := (hd.mono_left hS')
      rw [both, both, uni_comm S, uni_comm S', uni, uni,
        elt_ham_union (Finset.map_subset_map.mpr hT) (Finset.map_subset_map.mpr hT') d1 d2, elt_ham_map]
      · simp only [spinH_second, spinV_second]
        rfl
      · exact fun p hp q hq h => sgn_second hS hp hq (spinH_same h)
      · exact fun p hp q hq r hr s hs h => ⟨sgn_second hS hp hr (spinV_same h).1, sgn_second hS hq hs (spinV_same h).2⟩
  · rintro p q (⟨hp, hq⟩ | ⟨hp, hq⟩)
    · exact spinH_mixed (.inl ⟨mem_all.mp hp, mem_shift hq⟩)
    · exact spinH_mixed (.inr ⟨mem_shift hp, mem_all.mp hq⟩)
  · rintro p q r s ⟨h1, h2⟩
    refine spinV_mixed ⟨?_, ?_⟩
    · simpa only [mem_all] using h1
    · exact h2.imp mem_shift (Or.imp mem_shift (Or.imp mem_shift mem_shift))

end elements

/-! ### states -/

section states
variable {K : Type} [Field K] {n m k : ℕ} {ha hb ha' hb' : ℕ → ℕ → K} {Ia Ib Iabab Ia' Ib' Iabab' : ℕ → ℕ → ℕ → ℕ → K}

/-- numbers of alpha and beta electrons -/
def electrons (T : Finset SO) : ℤ × ℤ := ∑ x ∈ T, spinLabel (fun _ => ((1, 0) : ℤ × ℤ)) (fun _ => (0, 1)) x

theorem electrons_emb (A B : Finset ℕ) : electrons (emb A B) = ((A.card : ℤ), (B.card : ℤ)) := by
  rw [electrons, sum_spinLabel]
  simp [Prod.ext_iff]

theorem electrons_both {S T : Finset SO} (hS : S ⊆ allSO m) : electrons (both m S T) = electrons S + electrons T := by
  rw [both, electrons, sum_uni (disj_of hS (disj_all m T)), Finset.sum_map]
  congr 1
  refine Finset.sum_congr rfl fun x _ => ?_
  rcases so_elim x with ⟨x, rfl⟩ | ⟨x, rfl⟩ <;> rfl

theorem eq_emb {T : Finset SO} (h : T ⊆ allSO n) : ∃ A ⊆ Finset.range n, ∃ B ⊆ Finset.range n, T = emb A B := by
  refine ⟨(Finset.range n).filter fun i => up i ∈ T, Finset.filter_subset _ _, (Finset.range n).filter fun i => dn i ∈ T, Finset.filter_subset _ _,
    emb_ext (fun i => ?_) (fun i => ?_)⟩ <;> rw [Finset.mem_filter]
  · exact ⟨fun h' => ⟨Finset.mem_range.mpr (mem_all_up.mp (h h')), h'⟩, fun h' => h'.2⟩
  · exact ⟨fun h' => ⟨Finset.mem_range.mpr (mem_all_dn.mp (h h')), h'⟩, fun h' => h'.2⟩

theorem sector_iff {a b : ℕ} {T : Finset SO} :
    (∃ A ⊆ Finset.range n, ∃ B ⊆ Finset.range n, T = emb A B ∧ A.card = a ∧ B.card = b) ↔ T ⊆ allSO n ∧ electrons T = ((a : ℤ), (b : ℤ)) := by
  constructor
  · rintro ⟨A, hA, B, hB, rfl, rfl, rfl⟩
    exact ⟨emb_subset hA hB, electrons_emb A B⟩
  · rintro ⟨h1, h2⟩
    obtain ⟨A, hA, B, hB, rfl⟩ := eq_emb h1
    rw [electrons_emb, Prod.mk.injEq] at h2
    exact ⟨A, hA, B, hB, rfl, Int.ofNat_inj.mp h2.1, Int.ofNat_inj.mp h2.2⟩

theorem Sector.iff {a b : ℕ} {ψ : Finset SO → K} : Sector n a b ψ ↔ ∀ T, ψ T ≠ 0 → T ⊆ allSO n ∧ electrons T = ((a : ℤ), (b : ℤ)) :=
  forall_congr' fun _ => forall_congr' fun _ => sector_iff

theorem elt_electrons {S T : Finset SO} (h : elt (spinHam n n ha hb Ia Ib Iabab) S T ≠ 0) : electrons S = electrons T := by
  by_contra hne
  refine h (elt_ham_label _ (spinLabel (fun _ => ((1, 0) : ℤ × ℤ)) (fun _ => (0, 1))) ?_ ?_ hne)
  · intro p q
    rcases so_elim p with ⟨p, rfl⟩ | ⟨p, rfl⟩ <;> rcases so_elim q with ⟨q, rfl⟩ | ⟨q, rfl⟩ <;>
      first
      | exact fun _ => rfl
      | exact fun h => absurd rfl h
  · intro p q r s
    rcases so_elim p with ⟨p, rfl⟩ | ⟨p, rfl⟩ <;> rcases so_elim q with ⟨q, rfl⟩ | ⟨q, rfl⟩ <;>
      rcases so_elim r with ⟨r, rfl⟩ | ⟨r, rfl⟩ <;> rcases so_elim s with ⟨s, rfl⟩ | ⟨s, rfl⟩ <;>
      first
      | exact fun _ => rfl
      | exact fun h => absurd rfl h

theorem apply_expand {O : Finset SO} {ψ : Finset SO → K} (hψ : Below O ψ) (X : Module.End K (Finset SO → K)) (S : Finset SO) :
    X ψ S = ∑ T ∈ O.powerset, ψ T * elt X S T := by
  have e : ψ = ∑ T ∈ O.powerset, ψ T • det T := by
    funext B
    simp only [Finset.sum_apply, Pi.smul_apply, smul_eq_mul, det_apply, mul_ite, mul_one, mul_zero]
    rw [Finset.sum_ite_eq]
    split_ifs with h1
    · rfl
    · by_contra h2
      exact h1 (Finset.mem_powerset.mpr (hψ B h2))
  conv_lhs => rw [e]
  rw [map_sum, Finset.sum_apply]
  refine Finset.sum_congr rfl fun T _ => ?_
  rw [map_smul]; rfl

theorem Sector.below {a b : ℕ} {ψ : Finset SO → K} (h : Sector n a b ψ) : Below (allSO n) ψ := fun T hT => ((Sector.iff.mp h) T hT).1

theorem sector_ham {a b : ℕ} {ψ : Finset SO → K} (h : Sector n a b ψ) : Sector n a b (spinHam n n ha hb Ia Ib Iabab ψ) := by
  rw [Sector.iff]
  intro S hS
  refine ⟨(Below.ham h.below _ _) S hS, ?_⟩
  rw [apply_expand h.below] at hS
  obtain ⟨T, -, hT⟩ := Finset.exists_ne_zero_of_sum_ne_zero hS
  rw [elt_electrons (right_ne_zero_of_mul hT)]
  exact (Sector.iff.mp h T (left_ne_zero_of_mul hT)).2

/-- The Hamiltonian of both systems acting on a state. -/
theorem apply_both {Ψ : Finset SO → K} (hΨ : Below (allSO (m + k)) Ψ) {S T : Finset SO} (hS : S ⊆ allSO m) (hT : T ⊆ allSO k) :
    spinHam (m + k) (m + k) (join1 m ha ha') (join1 m hb hb') (join2 m Ia Ia') (join2 m Ib Ib') (join2 m Iabab Iabab') Ψ (both m S T) =
      ∑ S' ∈ (allSO m).powerset, Ψ (both m S' T) * elt (spinHam m m ha hb Ia Ib Iabab) S S' +
        ∑ T' ∈ (allSO k).powerset, Ψ (both m S T') * elt (spinHam k k ha' hb' Ia' Ib' Iabab') T T' := by
  rw [apply_expand hΨ, sum_both]
  have e : ∀ S' ∈ (allSO m).powerset, ∀ T' ∈ (allSO k).powerset,
      Ψ (both m S' T') * elt (spinHam (m + k) (m + k) (join1 m ha ha') (join1 m hb hb') (join2 m Ia Ia') (join2 m Ib Ib') (join2 m Iabab Iabab'))
        (both m S T) (both m S' T') = (if T = T' then Ψ (both m S' T) * elt (spinHam m m ha hb Ia Ib Iabab) S S' else 0) +
          if S = S' then Ψ (both m S T') * elt (spinHam k k ha' hb' Ia' Ib' Iabab') T T' else 0 := by
    intro S' hS' T' hT'
    rw [elt_both hS (Finset.mem_powerset.mp hS') hT (Finset.mem_powerset.mp hT'), mul_add]
    congr 1
    · split_ifs with h
      · rw [h]
      · rw [mul_zero]
    · split_ifs with h
      · rw [h]
      · rw [mul_zero]
  rw [Finset.sum_congr rfl fun S' hS' => Finset.sum_congr rfl fun T' hT' => e S' hS' T' hT']
  simp only [Finset.sum_add_distrib]
  congr 1
  · refine Finset.sum_congr rfl fun S' _ => ?_
    rw [Finset.sum_ite_eq, if_pos (Finset.mem_powerset.mpr hT)]
  · rw [Finset.sum_comm]
    refine Finset.sum_congr rfl fun T' _ => ?_
    rw [Finset.sum_ite_eq, if_pos (Finset.mem_powerset.mpr hS)]

/-- `ψ` is a state of `a` alpha and `b` beta electrons with the energy `E` -/
def Eigen (n a b : ℕ) (ha hb : ℕ → ℕ → K) (Ia Ib Iabab : ℕ → ℕ → ℕ → ℕ → K) (E : K) (ψ : Finset SO → K) : Prop :=
  ψ ≠ 0 ∧ Sector n a b ψ ∧ spinHam n n ha hb Ia Ib Iabab ψ = E • ψ

/-- the product of two states -/
def tensor (m k : ℕ) (ψ φ : Finset SO → K) (X : Finset SO) : K := if X ⊆ allSO (m + k) then ψ (left m X) * φ (right m k X) else 0

theorem eigen_tensor {a b a' b' : ℕ} {E E' : K} {ψ φ : Finset SO → K} (h : Eigen m a b ha hb Ia Ib Iabab E ψ)
    (h' : Eigen k a' b' ha' hb' Ia' Ib' Iabab' E' φ) :
    Eigen (m + k) (a + a') (b + b') (join1 m ha ha') (join1 m hb hb') (join2 m Ia Ia') (join2 m Ib Ib') (join2 m Iabab Iabab') (E + E') (tensor m k ψ φ) := by
  obtain ⟨h0, h1, h2⟩ := h
  obtain ⟨h0', h1', h2'⟩ := h'
  have val : ∀ S ⊆ allSO m, ∀ T ⊆ allSO k, tensor m k ψ φ (both m S T) = ψ S * φ T := by
    intro S hS T hT
    rw [tensor, if_pos (both_subset hS hT), left_both hS, right_both hS hT]
  have sec : Sector (m + k) (a + a') (b + b') (tensor m k ψ φ) := by
    rw [Sector.iff]
    intro X hX
    rw [tensor] at hX
    split_ifs at hX with hs
    · refine ⟨hs, ?_⟩
      conv_lhs => rw [← both_left_right hs]
      rw [electrons_both (left_subset m X), (Sector.iff.mp h1 _ (left_ne_zero_of_mul hX)).2, (Sector.iff.mp h1' _ (right_ne_zero_of_mul hX)).2]
      rfl
    · exact absurd rfl hX
  refine ⟨?_, sec, ?_⟩
  · obtain ⟨S, hS⟩ := Function.ne_iff.mp h0
    obtain ⟨T, hT⟩ := Function.ne_iff.mp h0'
    intro e
    have := congrFun e (both m S T)
    rw [val S (h1.below S hS) T (h1'.below T hT)] at this
    exact mul_ne_zero hS hT this
  · funext X
    by_cases hX : X ⊆ allSO (m + k)
    · rw [← both_left_right hX]
      generalize hS' : left m X = S
      generalize hT' : right m k X = T
      have hS : S ⊆ allSO m := hS' ▸ left_subset m X
      have hT : T ⊆ allSO k := hT' ▸ right_subset m k X
      rw [apply_both sec.below hS hT, Pi.smul_apply, smul_eq_mul, val S hS T hT]
      have e1 := congrFun h2 S
      have e2 := congrFun h2' T
      rw [apply_expand h1.below, Pi.smul_apply, smul_eq_mul] at e1
      rw [apply_expand h1'.below, Pi.smul_apply, smul_eq_mul] at e2
      rw [Finset.sum_congr rfl fun S' hS' => by rw [val S' (Finset.mem_powerset.mp hS') T hT],
        Finset.sum_congr (s₁ := (allSO k).powerset) rfl fun T' hT' => by rw [val S hS T' (Finset.mem_powerset.mp hT')]]
      have e3 : ∑ S' ∈ (allSO m).powerset, ψ S' * φ T * elt (spinHam m m ha hb Ia Ib Iabab) S S' = φ T * (E * ψ S) := by
        rw [← e1, Finset.mul_sum]; exact Finset.sum_congr rfl fun _ _ => by ring
      have e4 : ∑ T' ∈ (allSO k).powerset, ψ S * φ T' * elt (spinHam k k ha' hb' Ia' Ib' Iabab') T T' = ψ S * (E' * φ T) := by
        rw [← e2, Finset.mul_sum]; exact Finset.sum_congr rfl fun _ _ => by ring
      rw [e3, e4]; ring
    · have z1 : tensor m k ψ φ X = 0 := if_neg hX
      rw [Pi.smul_apply, z1, smul_zero]
      by_contra hne
      exact hX ((Below.ham sec.below _ _) X hne)

end states

end CI
