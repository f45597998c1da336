import Verif.Props.CIStrings
import Verif.Spec.SlaterCondon
import Mathlib.Data.List.Sort
import Mathlib.Data.Sum.Order
import Mathlib.Algebra.Field.Rat
/-!
# C35, C36: Hamiltonian matrix elements
-/
namespace CI
open Fock
variable {K : Type} [Field K]

/-! ### reading off the differences of two strings -/

theorem nonzero_map_bits (n : ℕ) (p : ℕ → ℤ) :
    nonzero ((List.range n).map p) = (List.range n).filter fun i => p i ≠ 0 := by
  unfold nonzero
  rw [List.length_map, List.length_range]
  refine List.filter_congr fun i hi => ?_
  rw [List.mem_range] at hi
  simp [hi]

theorem occdiff_bits (n : ℕ) (B S : Finset ℕ) :
    occdiff (ofSet n B) (ofSet n S) = (List.range n).map fun i => (if i ∈ B then 1 else 0) - (if i ∈ S then 1 else 0 : ℤ) := by
  simp only [occdiff, ofSet, bits]
  rw [List.zipWith_map, List.zipWith_self]

theorem nonzero_minus (n : ℕ) (B S : Finset ℕ) :
    nonzero (minus (occdiff (ofSet n B) (ofSet n S))) = (List.range n).filter fun i => i ∈ S \ B := by
  rw [occdiff_bits, minus, List.map_map, nonzero_map_bits]
  refine List.filter_congr fun i _ => ?_
  by_cases h1 : i ∈ B <;> by_cases h2 : i ∈ S <;> simp [h1, h2]

theorem nonzero_plus (n : ℕ) (B S : Finset ℕ) :
    nonzero (plus (occdiff (ofSet n B) (ofSet n S))) = (List.range n).filter fun i => i ∈ B \ S := by
  rw [occdiff_bits, plus, List.map_map, nonzero_map_bits]
  refine List.filter_congr fun i _ => ?_
  by_cases h1 : i ∈ B <;> by_cases h2 : i ∈ S <;> simp [h1, h2]

theorem filter_range_eq {n : ℕ} {T : Finset ℕ} {l : List ℕ} (hl : l.Pairwise (· < ·)) (hT : ∀ x, x ∈ l ↔ x < n ∧ x ∈ T) :
    ((List.range n).filter fun i => i ∈ T) = l := by
  have hs : ((List.range n).filter fun i => decide (i ∈ T)).Pairwise (· < ·) := List.Pairwise.filter _ List.pairwise_lt_range
  refine List.Perm.eq_of_pairwise (le := (· < ·)) (fun a b _ _ h1 h2 => absurd h1 (lt_asymm h2)) hs hl ?_
  rw [List.perm_ext_iff_of_nodup (hs.imp fun h => ne_of_lt h) (hl.imp fun h => ne_of_lt h)]
  intro x
  rw [hT]; simp

theorem filter_one {n o : ℕ} (h : o < n) : ((List.range n).filter fun i => i ∈ ({o} : Finset ℕ)) = [o] :=
  filter_range_eq (by simp) (by simp; omega)

theorem filter_two {n o1 o2 : ℕ} (h : o2 < n) (h12 : o1 < o2) :
    ((List.range n).filter fun i => i ∈ ({o1, o2} : Finset ℕ)) = [o1, o2] :=
  filter_range_eq (by simp [h12]) (by simp; omega)

theorem parity_bits {n x y : ℕ} (B : Finset ℕ) (hx : x < n) (hy : y < n) (hxy : x ≠ y) :
    parity (K := K) (bits n B) (min x y) (max x y) = (-1) ^ btw B y x := by
  unfold parity
  rw [sum_slice_bits B (by omega) (by omega)]
  have e : btw B (min x y) (max x y) = btw B y x := by
    rcases le_total x y with h | h
    · rw [min_eq_left h, max_eq_right h, btw_comm]
    · rw [min_eq_right h, max_eq_left h]
  rw [e]
  have := sign_pow (btw B y x)
  have h2 : ((if ((btw B y x : ℕ) : ℤ) % 2 = 0 then (1 : ℤ) else -1 : ℤ) : K) = (-1) ^ btw B y x := by rw [this]; push_cast; rfl
  rw [← h2]; split_ifs <;> simp

theorem sum_val {n : ℕ} {S : Finset ℕ} (hS : S ⊆ Finset.range n) (f : ℕ → K) :
    ∑ i ∈ Finset.range n, f i * val (bits n S) i = ∑ i ∈ S, f i := by
  have : ∀ i ∈ Finset.range n, f i * val (bits n S) i = if i ∈ S then f i else 0 := by
    intro i hi
    rw [val, getD_bits (Finset.mem_range.mp hi)]
    split_ifs <;> simp
  rw [Finset.sum_congr rfl this, ← Finset.sum_filter, Finset.filter_mem_eq_inter, Finset.inter_eq_right.mpr hS]

theorem tr1_bits {n : ℕ} {S : Finset ℕ} (hS : S ⊆ Finset.range n) (M : ℕ → ℕ → K) : tr1 M (bits n S) = ∑ i ∈ S, M i i := by
  rw [tr1, length_bits, sum_val hS]

theorem coul_bits {n m : ℕ} {S T : Finset ℕ} (hS : S ⊆ Finset.range n) (hT : T ⊆ Finset.range m) (M : ℕ → ℕ → ℕ → ℕ → K) :
    coul M (bits n S) (bits m T) = ∑ i ∈ S, ∑ j ∈ T, M i j i j := by
  rw [coul, length_bits, length_bits]
  simp only [sum_val hT, ← Finset.sum_mul, sum_val hS]

theorem exch_bits {n m : ℕ} {S T : Finset ℕ} (hS : S ⊆ Finset.range n) (hT : T ⊆ Finset.range m) (M : ℕ → ℕ → ℕ → ℕ → K) :
    exch M (bits n S) (bits m T) = ∑ i ∈ S, ∑ j ∈ T, M i j j i := by
  rw [exch, length_bits, length_bits]
  simp only [sum_val hT, ← Finset.sum_mul, sum_val hS]

/-! ### determinants that differ by few orbitals -/

theorem diff_bits {n : ℕ} {B S : Finset ℕ} (hB : B ⊆ Finset.range n) (hS : S ⊆ Finset.range n) (hc : B.card = S.card) :
    diff (ofSet n B) (ofSet n S) / 2 = ((B \ S).card : ℤ) := by
  have : (B \ S).card = (S \ B).card := by
    have h1 := Finset.card_sdiff_add_card_inter B S
    have h2 := Finset.card_sdiff_add_card_inter S B
    rw [Finset.inter_comm] at h2; omega
  rw [diff, level_ofSet hB hS, ← this]; push_cast; omega

theorem differ0 {B S : Finset ℕ} (hc : B.card = S.card) (h : (B \ S).card = 0) : B = S := by
  rw [Finset.card_eq_zero, Finset.sdiff_eq_empty_iff_subset] at h
  exact Finset.eq_of_subset_of_card_le h hc.ge

/-- common part and differences of two determinants -/
theorem parts (B S : Finset ℕ) : B = (B \ S) ∪ (B ∩ S) ∧ S = (S \ B) ∪ (B ∩ S) := by
  constructor
  · rw [Finset.sdiff_union_inter]
  · rw [Finset.inter_comm, Finset.sdiff_union_inter]

theorem card_sdiff_symm {B S : Finset ℕ} (hc : B.card = S.card) : (S \ B).card = (B \ S).card := by
  have h1 := Finset.card_sdiff_add_card_inter B S
  have h2 := Finset.card_sdiff_add_card_inter S B
  rw [Finset.inter_comm] at h2; omega

theorem differ1 {B S : Finset ℕ} (hc : B.card = S.card) (h : (B \ S).card = 1) :
    ∃ C o v, o ∉ C ∧ v ∉ C ∧ o ≠ v ∧ B = insert v C ∧ S = insert o C ∧ B \ S = {v} ∧ S \ B = {o} := by
  obtain ⟨v, hv⟩ := Finset.card_eq_one.mp h
  obtain ⟨o, ho⟩ := Finset.card_eq_one.mp ((card_sdiff_symm hc).trans h)
  obtain ⟨h1, h2⟩ := parts B S
  rw [hv] at h1; rw [ho] at h2
  have mv : v ∈ B ∧ v ∉ S := Finset.mem_sdiff.mp (by rw [hv]; simp)
  have mo : o ∈ S ∧ o ∉ B := Finset.mem_sdiff.mp (by rw [ho]; simp)
  exact ⟨B ∩ S, o, v, fun h => mo.2 (Finset.mem_inter.mp h).1, fun h => mv.2 (Finset.mem_inter.mp h).2,
    fun h => mv.2 (h ▸ mo.1), h1, h2, hv, ho⟩

theorem differ2 {B S : Finset ℕ} (hc : B.card = S.card) (h : (B \ S).card = 2) :
    ∃ C o1 o2 v1 v2, o1 < o2 ∧ v1 < v2 ∧ (o1 ∉ C ∧ o2 ∉ C ∧ v1 ∉ C ∧ v2 ∉ C) ∧ (o1 ≠ v1 ∧ o1 ≠ v2 ∧ o2 ≠ v1 ∧ o2 ≠ v2) ∧
      B = insert v1 (insert v2 C) ∧ S = insert o1 (insert o2 C) ∧ B \ S = {v1, v2} ∧ S \ B = {o1, o2} := by
  obtain ⟨v1, v2, hv12, hv⟩ := card2.mp h
  obtain ⟨o1, o2, ho12, ho⟩ := card2.mp ((card_sdiff_symm hc).trans h)
  obtain ⟨h1, h2⟩ := parts B S
  rw [hv] at h1; rw [ho] at h2
  have mv1 : v1 ∈ B ∧ v1 ∉ S := Finset.mem_sdiff.mp (by rw [hv]; simp)
  have mv2 : v2 ∈ B ∧ v2 ∉ S := Finset.mem_sdiff.mp (by rw [hv]; simp)
  have mo1 : o1 ∈ S ∧ o1 ∉ B := Finset.mem_sdiff.mp (by rw [ho]; simp)
  have mo2 : o2 ∈ S ∧ o2 ∉ B := Finset.mem_sdiff.mp (by rw [ho]; simp)
  refine ⟨B ∩ S, o1, o2, v1, v2, ho12, hv12, ⟨fun h => mo1.2 (Finset.mem_inter.mp h).1, fun h => mo2.2 (Finset.mem_inter.mp h).1,
    fun h => mv1.2 (Finset.mem_inter.mp h).2, fun h => mv2.2 (Finset.mem_inter.mp h).2⟩,
    ⟨fun h => mv1.2 (h ▸ mo1.1), fun h => mv2.2 (h ▸ mo1.1), fun h => mv1.2 (h ▸ mo2.1), fun h => mv2.2 (h ▸ mo2.1)⟩,
    ?_, ?_, hv, ho⟩
  · exact h1.trans (by rw [Finset.insert_union, Finset.singleton_union])
  · exact h2.trans (by rw [Finset.insert_union, Finset.singleton_union])

/-! ### spin orbitals -/

/-- Spin orbitals: an alpha or a beta orbital, alpha before beta. -/
abbrev SO := ℕ ⊕ₗ ℕ
/-- alpha orbital -/
abbrev up (i : ℕ) : SO := toLex (Sum.inl i)
/-- beta orbital -/
abbrev dn (i : ℕ) : SO := toLex (Sum.inr i)

/-- the spin orbitals occupied by a pair of occupations -/
def emb (A B : Finset ℕ) : Finset SO := (A.disjSum B).map toLex.toEmbedding

@[simp] theorem up_mem {A B : Finset ℕ} {i : ℕ} : up i ∈ emb A B ↔ i ∈ A := by simp [emb, up]
@[simp] theorem dn_mem {A B : Finset ℕ} {i : ℕ} : dn i ∈ emb A B ↔ i ∈ B := by simp [emb, dn]

theorem SO.cases {P : SO → Prop} (h1 : ∀ i, P (up i)) (h2 : ∀ i, P (dn i)) (x : SO) : P x := by
  rcases hx : ofLex x with i | i
  · have : x = up i := by rw [up, ← hx]; rfl
    rw [this]; exact h1 i
  · have : x = dn i := by rw [dn, ← hx]; rfl
    rw [this]; exact h2 i

theorem emb_ext {S : Finset SO} {A B : Finset ℕ} (h1 : ∀ i, up i ∈ S ↔ i ∈ A) (h2 : ∀ i, dn i ∈ S ↔ i ∈ B) : S = emb A B := by
  ext x
  refine SO.cases (P := fun x => x ∈ S ↔ x ∈ emb A B) (fun i => ?_) (fun i => ?_) x
  · rw [h1, up_mem]
  · rw [h2, dn_mem]

theorem up_inj {i j : ℕ} : up i = up j ↔ i = j := by simp [up]
theorem dn_inj {i j : ℕ} : dn i = dn j ↔ i = j := by simp [dn]
theorem up_ne_dn {i j : ℕ} : up i ≠ dn j := by simp [up, dn]

theorem emb_insert_up {_ : DecidableEq SO} (A B : Finset ℕ) (i : ℕ) : emb (insert i A) B = insert (up i) (emb A B) := by
  refine (emb_ext (fun j => ?_) (fun j => ?_)).symm <;> simp [up, dn, emb]
theorem emb_insert_dn {_ : DecidableEq SO} (A B : Finset ℕ) (i : ℕ) : emb A (insert i B) = insert (dn i) (emb A B) := by
  refine (emb_ext (fun j => ?_) (fun j => ?_)).symm <;> simp [up, dn, emb]

theorem sum_emb (A B : Finset ℕ) (f : SO → K) : ∑ x ∈ emb A B, f x = ∑ i ∈ A, f (up i) + ∑ i ∈ B, f (dn i) := by
  simp [emb, Finset.sum_map, Finset.sum_disjSum, up, dn]

theorem emb_subset {A B A' B' : Finset ℕ} (hA : A ⊆ A') (hB : B ⊆ B') : emb A B ⊆ emb A' B' := by
  intro x
  refine SO.cases (P := fun x => x ∈ emb A B → x ∈ emb A' B') (fun i => ?_) (fun i => ?_) x
  · simpa using @hA i
  · simpa using @hB i

theorem up_lt_up {i j : ℕ} : up i < up j ↔ i < j := Sum.Lex.inl_lt_inl_iff
theorem dn_lt_dn {i j : ℕ} : dn i < dn j ↔ i < j := Sum.Lex.inr_lt_inr_iff
theorem up_lt_dn {i j : ℕ} : up i < dn j := Sum.Lex.inl_lt_inr _ _
theorem not_dn_lt_up {i j : ℕ} : ¬ dn i < up j := Sum.Lex.not_inr_lt_inl

theorem min_up (i j : ℕ) : min (up i) (up j) = up (min i j) := (Sum.Lex.inl_mono.map_min).symm
theorem max_up (i j : ℕ) : max (up i) (up j) = up (max i j) := (Sum.Lex.inl_mono.map_max).symm
theorem min_dn (i j : ℕ) : min (dn i) (dn j) = dn (min i j) := (Sum.Lex.inr_mono.map_min).symm
theorem max_dn (i j : ℕ) : max (dn i) (dn j) = dn (max i j) := (Sum.Lex.inr_mono.map_max).symm

theorem card_emb (A B : Finset ℕ) : (emb A B).card = A.card + B.card := by simp [emb]

theorem btw_up (A B : Finset ℕ) (i j : ℕ) : btw (emb A B) (up i) (up j) = btw A i j := by
  unfold btw
  have : (emb A B).filter (fun z => min (up i) (up j) < z ∧ z < max (up i) (up j))
      = emb (A.filter fun z => min i j < z ∧ z < max i j) ∅ := by
    refine emb_ext (fun k => ?_) (fun k => ?_)
    · rw [Finset.mem_filter, up_mem, min_up, max_up, up_lt_up, up_lt_up, Finset.mem_filter]
    · rw [Finset.mem_filter, max_up]; simp
  rw [this, card_emb]; simp

theorem btw_dn (A B : Finset ℕ) (i j : ℕ) : btw (emb A B) (dn i) (dn j) = btw B i j := by
  unfold btw
  have : (emb A B).filter (fun z => min (dn i) (dn j) < z ∧ z < max (dn i) (dn j))
      = emb ∅ (B.filter fun z => min i j < z ∧ z < max i j) := by
    refine emb_ext (fun k => ?_) (fun k => ?_)
    · rw [Finset.mem_filter, min_dn]; simp
    · rw [Finset.mem_filter, dn_mem, min_dn, max_dn, dn_lt_dn, dn_lt_dn, Finset.mem_filter]
  rw [this, card_emb]; simp

theorem emb_sdiff {_ : DecidableEq SO} (A B A' B' : Finset ℕ) : emb A B \ emb A' B' = emb (A \ A') (B \ B') := by
  refine emb_ext (fun k => ?_) (fun k => ?_) <;> simp

theorem emb_inj {A B A' B' : Finset ℕ} : emb A B = emb A' B' ↔ A = A' ∧ B = B' := by
  constructor
  · intro h
    constructor
    · ext i; rw [← up_mem (B := B), h, up_mem]
    · ext i; rw [← dn_mem (A := A), h, dn_mem]
  · rintro ⟨rfl, rfl⟩; rfl

/-- The one-electron integrals over spin orbitals: no coupling between alpha and beta. -/
def spinH (ha hb : ℕ → ℕ → K) (p q : SO) : K :=
  match ofLex p, ofLex q with
  | .inl p, .inl q => ha p q
  | .inr p, .inr q => hb p q
  | _, _ => 0

/-- The two-electron integrals `⟨pq|rs⟩` over spin orbitals, from their blocks: the spins of electron one (`p`, `r`) agree and
so do those of electron two. -/
def spinV (Ia Ib Iabab : ℕ → ℕ → ℕ → ℕ → K) (p q r s : SO) : K :=
  match ofLex p, ofLex q, ofLex r, ofLex s with
  | .inl p, .inl q, .inl r, .inl s => Ia p q r s
  | .inr p, .inr q, .inr r, .inr s => Ib p q r s
  | .inl p, .inr q, .inl r, .inr s => Iabab p q r s
  | .inr p, .inl q, .inr r, .inl s => Iabab q p s r
  | _, _, _, _ => 0

theorem spinV_pair {Ia Ib Iabab : ℕ → ℕ → ℕ → ℕ → K} (ha : ∀ p q r s, Ia p q r s = Ia q p s r)
    (hb : ∀ p q r s, Ib p q r s = Ib q p s r) (p q r s : SO) : spinV Ia Ib Iabab p q r s = spinV Ia Ib Iabab q p s r := by
  unfold spinV
  rcases ofLex p with p | p <;> rcases ofLex q with q | q <;> rcases ofLex r with r | r <;> rcases ofLex s with s | s <;>
    first | rfl | exact ha _ _ _ _ | exact hb _ _ _ _

theorem spinV_herm {Ia Ib Iabab : ℕ → ℕ → ℕ → ℕ → K} (ha : ∀ p q r s, Ia p q r s = Ia r s p q)
    (hb : ∀ p q r s, Ib p q r s = Ib r s p q) (hab : ∀ p q r s, Iabab p q r s = Iabab r s p q) (p q r s : SO) :
    spinV Ia Ib Iabab p q r s = spinV Ia Ib Iabab r s p q := by
  unfold spinV
  rcases ofLex p with p | p <;> rcases ofLex q with q | q <;> rcases ofLex r with r | r <;> rcases ofLex s with s | s <;>
    first | rfl | exact ha _ _ _ _ | exact hb _ _ _ _ | exact hab _ _ _ _

/-- The Hamiltonian with blocks `ha`, `hb`, `Ia`, `Ib`, `Iabab` in `na` alpha and `nb` beta orbitals. -/
noncomputable def spinHam (na nb : ℕ) (ha hb : ℕ → ℕ → K) (Ia Ib Iabab : ℕ → ℕ → ℕ → ℕ → K) : Module.End K (Finset SO → K) :=
  ham (emb (Finset.range na) (Finset.range nb)) (spinH ha hb) (spinV Ia Ib Iabab)

theorem get_zero {α : Type} (x : α) (l : List α) : get (x :: l) 0 = .ok x := rfl

/-- the two sign factors and the exchange of the pairs -/
theorem double_sign (c : Prop) [Decidable c] (x y z : K) :
    (if c then -x * y else x * y) * z = (if c then -1 else 1) * x * y * z := by
  split_ifs <;> ring

variable [CharZero K] {na nb : ℕ} (ha hb : ℕ → ℕ → K) (Ia Ib Iabab : ℕ → ℕ → ℕ → ℕ → K) (const : K)

theorem ci_diag {Ba Bb : Finset ℕ} (h1 : Ba ⊆ Finset.range na) (h2 : Bb ⊆ Finset.range nb) :
    ci_matrixel (ofSet na Ba) (ofSet nb Bb) (ofSet na Ba) (ofSet nb Bb) ha hb Ia Ib Iabab const
      = .ok (elt (spinHam na nb ha hb Ia Ib Iabab) (emb Ba Bb) (emb Ba Bb) + const) := by
  unfold ci_matrixel
  simp only [diff_bits h1 h1 rfl, diff_bits h2 h2 rfl, Finset.sdiff_self, Finset.card_empty, Nat.cast_zero, true_and,
    if_true]
  rw [spinHam, slater_diag _ _ _ (emb_subset h1 h2)]
  simp only [sum_emb, ofSet, tr1_bits h1, tr1_bits h2, coul_bits h1 h1, coul_bits h2 h2, coul_bits h1 h2, exch_bits h1 h1,
    exch_bits h2 h2]
  change Except.ok _ = Except.ok _
  congr 1
  have e : ∑ i ∈ Bb, ∑ j ∈ Ba, Iabab j i j i = ∑ i ∈ Ba, ∑ j ∈ Bb, Iabab i j i j := Finset.sum_comm
  simp only [spinH, spinV, ofLex_toLex, sub_zero, Finset.sum_add_distrib, Finset.sum_sub_distrib, e]
  ring

theorem ci_single_a (va : ∀ p q r s, Ia p q r s = Ia q p s r) (vb : ∀ p q r s, Ib p q r s = Ib q p s r)
    {Ba Ka Bb : Finset ℕ} (h1 : Ba ⊆ Finset.range na) (k1 : Ka ⊆ Finset.range na) (h2 : Bb ⊆ Finset.range nb)
    (hc : Ba.card = Ka.card) (h : (Ba \ Ka).card = 1) :
    ci_matrixel (ofSet na Ba) (ofSet nb Bb) (ofSet na Ka) (ofSet nb Bb) ha hb Ia Ib Iabab const
      = .ok (elt (spinHam na nb ha hb Ia Ib Iabab) (emb Ba Bb) (emb Ka Bb)) := by
  obtain ⟨C, o, v, ho, hv, hov, eB, eS, dv, dO⟩ := differ1 hc h
  have mo : o < na := Finset.mem_range.mp (k1 (by rw [eS]; simp))
  have mv : v < na := Finset.mem_range.mp (h1 (by rw [eB]; simp))
  have mC : C ⊆ Finset.range na := fun x hx => h1 (by rw [eB]; simp [hx])
  unfold ci_matrixel
  simp only [diff_bits h1 k1 hc, diff_bits h2 h2 rfl, Finset.sdiff_self, Finset.card_empty, h, Nat.cast_one, Nat.cast_zero,
    one_ne_zero, false_and, if_false, and_self, if_true]
  simp only [nonzero_minus, nonzero_plus, dv, dO, filter_one mo, filter_one mv,
    get_zero, bind, Except.bind]
  change Except.ok _ = Except.ok _
  congr 1
  have E := slater_single (emb (Finset.range na) (Finset.range nb)) (spinH ha hb) (spinV Ia Ib Iabab) (spinV_pair va vb)
    (C := emb C Bb) (o := up o) (v := up v) (by simpa using ho) (by simpa using hv) (by simpa [up_inj] using hov)
    (emb_subset mC h2) (by simpa using mo) (by simpa using mv)
  rw [← emb_insert_up, ← emb_insert_up, ← eB, ← eS] at E
  rw [spinHam, E]
  simp only [ofSet, parity_bits Ba mo mv hov, tr1_bits k1, tr1_bits h2, btw_up, sum_emb, spinH, spinV, ofLex_toLex,
    Finset.sum_const_zero, Finset.sum_sub_distrib]
  ring

theorem ci_single_b (va : ∀ p q r s, Ia p q r s = Ia q p s r) (vb : ∀ p q r s, Ib p q r s = Ib q p s r)
    {Ba Bb Kb : Finset ℕ} (h1 : Ba ⊆ Finset.range na) (h2 : Bb ⊆ Finset.range nb) (k2 : Kb ⊆ Finset.range nb)
    (hc : Bb.card = Kb.card) (h : (Bb \ Kb).card = 1) :
    ci_matrixel (ofSet na Ba) (ofSet nb Bb) (ofSet na Ba) (ofSet nb Kb) ha hb Ia Ib Iabab const
      = .ok (elt (spinHam na nb ha hb Ia Ib Iabab) (emb Ba Bb) (emb Ba Kb)) := by
  obtain ⟨C, o, v, ho, hv, hov, eB, eS, dv, dO⟩ := differ1 hc h
  have mo : o < nb := Finset.mem_range.mp (k2 (by rw [eS]; simp))
  have mv : v < nb := Finset.mem_range.mp (h2 (by rw [eB]; simp))
  have mC : C ⊆ Finset.range nb := fun x hx => h2 (by rw [eB]; simp [hx])
  unfold ci_matrixel
  simp only [diff_bits h1 h1 rfl, diff_bits h2 k2 hc, Finset.sdiff_self, Finset.card_empty, h, Nat.cast_one, Nat.cast_zero,
    one_ne_zero, zero_ne_one, false_and, and_false, if_false, and_self, if_true]
  simp only [nonzero_minus, nonzero_plus, dv, dO,
    filter_one mo, filter_one mv, get_zero, bind, Except.bind]
  change Except.ok _ = Except.ok _
  congr 1
  have E := slater_single (emb (Finset.range na) (Finset.range nb)) (spinH ha hb) (spinV Ia Ib Iabab) (spinV_pair va vb)
    (C := emb Ba C) (o := dn o) (v := dn v) (by simpa using ho) (by simpa using hv) (by simpa [dn_inj] using hov)
    (emb_subset h1 mC) (by simpa using mo) (by simpa using mv)
  rw [← emb_insert_dn, ← emb_insert_dn, ← eB, ← eS] at E
  rw [spinHam, E]
  simp only [ofSet, parity_bits Bb mo mv hov, tr1_bits k2, tr1_bits h1, btw_dn, sum_emb, spinH, spinV, ofLex_toLex,
    Finset.sum_const_zero, Finset.sum_sub_distrib]
  ring

theorem ci_single_ab (va : ∀ p q r s, Ia p q r s = Ia q p s r) (vb : ∀ p q r s, Ib p q r s = Ib q p s r)
    {Ba Ka Bb Kb : Finset ℕ} (h1 : Ba ⊆ Finset.range na) (k1 : Ka ⊆ Finset.range na) (h2 : Bb ⊆ Finset.range nb)
    (k2 : Kb ⊆ Finset.range nb) (hca : Ba.card = Ka.card) (hda : (Ba \ Ka).card = 1)
    (hc : Bb.card = Kb.card) (h : (Bb \ Kb).card = 1) :
    ci_matrixel (ofSet na Ba) (ofSet nb Bb) (ofSet na Ka) (ofSet nb Kb) ha hb Ia Ib Iabab const
      = .ok (elt (spinHam na nb ha hb Ia Ib Iabab) (emb Ba Bb) (emb Ka Kb)) := by
  obtain ⟨C, o, v, ho, hv, hov, eB, eS, dv, dO⟩ := differ1 hc h
  obtain ⟨C', o', v', ho', hv', hov', eB', eS', dv', dO'⟩ := differ1 hca hda
  have mo : o < nb := Finset.mem_range.mp (k2 (by rw [eS]; simp))
  have mv : v < nb := Finset.mem_range.mp (h2 (by rw [eB]; simp))
  have mo' : o' < na := Finset.mem_range.mp (k1 (by rw [eS']; simp))
  have mv' : v' < na := Finset.mem_range.mp (h1 (by rw [eB']; simp))
  unfold ci_matrixel
  simp only [diff_bits h1 k1 hca, diff_bits h2 k2 hc, h, hda, Nat.cast_one,
    one_ne_zero, false_and, and_false, if_false, and_self, if_true]
  simp only [nonzero_minus, nonzero_plus, dv, dO, dv', dO',
    filter_one mo, filter_one mv, filter_one mo', filter_one mv', get_zero, bind, Except.bind]
  change Except.ok _ = Except.ok _
  congr 1
  have E := slater_double (emb (Finset.range na) (Finset.range nb)) (spinH ha hb) (spinV Ia Ib Iabab) (spinV_pair va vb)
    (C := emb C' C) (o1 := up o') (o2 := dn o) (v1 := up v') (v2 := dn v) (by simpa using ho') (by simpa using ho)
    (by simpa using hv') (by simpa using hv) up_lt_dn up_lt_dn (by simpa [up_inj] using hov')
    up_ne_dn up_ne_dn.symm (by simpa [dn_inj] using hov) (by simpa using mo') (by simpa using mo)
    (by simpa using mv') (by simpa using mv)
  rw [← emb_insert_dn, ← emb_insert_dn, ← emb_insert_up, ← emb_insert_up, ← eB, ← eS, ← eB', ← eS',
    if_neg (not_or.mpr ⟨not_dn_lt_up, not_dn_lt_up⟩)] at E
  rw [spinHam, E]
  simp only [ofSet, parity_bits Ba mo' mv' hov', parity_bits Bb mo mv hov, btw_up, btw_dn, spinV, ofLex_toLex, sub_zero]
  ring

theorem ci_double_a (va : ∀ p q r s, Ia p q r s = Ia q p s r) (vb : ∀ p q r s, Ib p q r s = Ib q p s r)
    {Ba Ka Bb : Finset ℕ} (h1 : Ba ⊆ Finset.range na) (k1 : Ka ⊆ Finset.range na) (h2 : Bb ⊆ Finset.range nb)
    (hc : Ba.card = Ka.card) (h : (Ba \ Ka).card = 2) :
    ci_matrixel (ofSet na Ba) (ofSet nb Bb) (ofSet na Ka) (ofSet nb Bb) ha hb Ia Ib Iabab const
      = .ok (elt (spinHam na nb ha hb Ia Ib Iabab) (emb Ba Bb) (emb Ka Bb)) := by
  obtain ⟨C, o1, o2, v1, v2, o12, v12, ⟨no1, no2, nv1, nv2⟩, ⟨n11, n12, n21, n22⟩, eB, eS, dv, dO⟩ := differ2 hc h
  have mo2 : o2 < na := Finset.mem_range.mp (k1 (by rw [eS]; simp))
  have mv2 : v2 < na := Finset.mem_range.mp (h1 (by rw [eB]; simp))
  have mo1 : o1 < na := o12.trans mo2
  have mv1 : v1 < na := v12.trans mv2
  unfold ci_matrixel
  simp only [diff_bits h1 k1 hc, diff_bits h2 h2 rfl, Finset.sdiff_self, Finset.card_empty, h, Nat.cast_zero, Nat.cast_ofNat,
    OfNat.ofNat_ne_zero, OfNat.ofNat_ne_one, false_and, if_false, and_self, if_true]
  simp only [nonzero_minus, nonzero_plus, dv, dO, filter_two mo2 o12, filter_two mv2 v12, unpack2, bind, Except.bind]
  change Except.ok _ = Except.ok _
  congr 1
  have E := slater_double (emb (Finset.range na) (Finset.range nb)) (spinH ha hb) (spinV Ia Ib Iabab) (spinV_pair va vb)
    (C := emb C Bb) (o1 := up o1) (o2 := up o2) (v1 := up v1) (v2 := up v2) (by simpa using no1) (by simpa using no2)
    (by simpa using nv1) (by simpa using nv2) (up_lt_up.mpr o12) (up_lt_up.mpr v12) (by simpa [up_inj] using n11)
    (by simpa [up_inj] using n12) (by simpa [up_inj] using n21) (by simpa [up_inj] using n22) (by simpa using mo1)
    (by simpa using mo2) (by simpa using mv1) (by simpa using mv2)
  rw [← emb_insert_up, ← emb_insert_up, ← emb_insert_up, ← emb_insert_up, ← eB, ← eS] at E
  rw [spinHam, E]
  simp only [ofSet, parity_bits Ba mo1 mv1 n11, parity_bits Ba mo2 mv2 n22, btw_up, spinV, ofLex_toLex, up_lt_up]
  exact double_sign _ _ _ _

theorem ci_double_b (va : ∀ p q r s, Ia p q r s = Ia q p s r) (vb : ∀ p q r s, Ib p q r s = Ib q p s r)
    {Ba Bb Kb : Finset ℕ} (h1 : Ba ⊆ Finset.range na) (h2 : Bb ⊆ Finset.range nb) (k2 : Kb ⊆ Finset.range nb)
    (hc : Bb.card = Kb.card) (h : (Bb \ Kb).card = 2) :
    ci_matrixel (ofSet na Ba) (ofSet nb Bb) (ofSet na Ba) (ofSet nb Kb) ha hb Ia Ib Iabab const
      = .ok (elt (spinHam na nb ha hb Ia Ib Iabab) (emb Ba Bb) (emb Ba Kb)) := by
  obtain ⟨C, o1, o2, v1, v2, o12, v12, ⟨no1, no2, nv1, nv2⟩, ⟨n11, n12, n21, n22⟩, eB, eS, dv, dO⟩ := differ2 hc h
  have mo2 : o2 < nb := Finset.mem_range.mp (k2 (by rw [eS]; simp))
  have mv2 : v2 < nb := Finset.mem_range.mp (h2 (by rw [eB]; simp))
  have mo1 : o1 < nb := o12.trans mo2
  have mv1 : v1 < nb := v12.trans mv2
  unfold ci_matrixel
  simp only [diff_bits h1 h1 rfl, diff_bits h2 k2 hc, Finset.sdiff_self, Finset.card_empty, h, Nat.cast_zero, Nat.cast_ofNat,
    OfNat.ofNat_ne_zero, OfNat.ofNat_ne_one, zero_ne_one, OfNat.zero_ne_ofNat, and_false, if_false, and_self, if_true]
  simp only [nonzero_minus, nonzero_plus, dv, dO, filter_two mo2 o12, filter_two mv2 v12, unpack2, bind, Except.bind]
  change Except.ok _ = Except.ok _
  congr 1
  have E := slater_double (emb (Finset.range na) (Finset.range nb)) (spinH ha hb) (spinV Ia Ib Iabab) (spinV_pair va vb)
    (C := emb Ba C) (o1 := dn o1) (o2 := dn o2) (v1 := dn v1) (v2 := dn v2) (by simpa using no1) (by simpa using no2)
    (by simpa using nv1) (by simpa using nv2) (dn_lt_dn.mpr o12) (dn_lt_dn.mpr v12) (by simpa [dn_inj] using n11)
    (by simpa [dn_inj] using n12) (by simpa [dn_inj] using n21) (by simpa [dn_inj] using n22) (by simpa using mo1)
    (by simpa using mo2) (by simpa using mv1) (by simpa using mv2)
  rw [← emb_insert_dn, ← emb_insert_dn, ← emb_insert_dn, ← emb_insert_dn, ← eB, ← eS] at E
  rw [spinHam, E]
  simp only [ofSet, parity_bits Bb mo1 mv1 n11, parity_bits Bb mo2 mv2 n22, btw_dn, spinV, ofLex_toLex, dn_lt_dn]
  exact double_sign _ _ _ _

/-- C35: for determinants with the same numbers of alpha and of beta electrons `ci_matrixel` returns the matrix element
`⟨bra| H |ket⟩` of the second-quantised Hamiltonian, plus the constant on the diagonal.  The integrals are arbitrary except
that exchanging the two electrons in `⟨pq|rs⟩` does not change the same-spin blocks. -/
theorem C35_ci_matrixel {braa brab keta ketb : Dstring} (da : IsDet braa) (db : IsDet brab) (ea : IsDet keta) (eb : IsDet ketb)
    (la : braa.n = na) (lb : brab.n = nb) (ka : keta.n = na) (kb : ketb.n = nb)
    (hca : (supp braa).card = (supp keta).card) (hcb : (supp brab).card = (supp ketb).card)
    (va : ∀ p q r s, Ia p q r s = Ia q p s r) (vb : ∀ p q r s, Ib p q r s = Ib q p s r) :
    ci_matrixel braa brab keta ketb ha hb Ia Ib Iabab const
      = .ok (elt (spinHam na nb ha hb Ia Ib Iabab) (emb (supp braa) (supp brab)) (emb (supp keta) (supp ketb))
          + if (braa, brab) = (keta, ketb) then const else 0) := by
  subst la; subst lb
  obtain ⟨Ba, h1, e1⟩ := exists_set da
  obtain ⟨Bb, h2, e2⟩ := exists_set db
  obtain ⟨Ka, k1, e3⟩ := exists_set ea
  obtain ⟨Kb, k2, e4⟩ := exists_set eb
  rw [ka] at k1 e3; rw [kb] at k2 e4
  generalize braa.n = na at *
  generalize brab.n = nb at *
  subst e1 e2 e3 e4
  rw [supp_ofSet h1, supp_ofSet k1] at hca
  rw [supp_ofSet h2, supp_ofSet k2] at hcb
  rw [supp_ofSet h1, supp_ofSet k1, supp_ofSet h2, supp_ofSet k2]
  have ne : (Ba ≠ Ka ∨ Bb ≠ Kb) → ¬ (ofSet na Ba, ofSet nb Bb) = (ofSet na Ka, ofSet nb Kb) := by
    intro hne hh
    rw [Prod.mk.injEq] at hh
    rcases hne with hne | hne
    · exact hne (ofSet_inj h1 k1 hh.1)
    · exact hne (ofSet_inj h2 k2 hh.2)
  have nea : (Ba \ Ka).card ≠ 0 → Ba ≠ Ka := by rintro h rfl; simp at h
  have neb : (Bb \ Kb).card ≠ 0 → Bb ≠ Kb := by rintro h rfl; simp at h
  by_cases a0 : (Ba \ Ka).card = 0
  · have := differ0 hca a0; subst this
    by_cases b0 : (Bb \ Kb).card = 0
    · have := differ0 hcb b0; subst this
      rw [if_pos rfl]; exact ci_diag ha hb Ia Ib Iabab const h1 h2
    rw [if_neg (ne (Or.inr (neb b0))), add_zero]
    by_cases b1 : (Bb \ Kb).card = 1
    · exact ci_single_b ha hb Ia Ib Iabab const va vb h1 h2 k2 hcb b1
    by_cases b2 : (Bb \ Kb).card = 2
    · exact ci_double_b ha hb Ia Ib Iabab const va vb h1 h2 k2 hcb b2
    rw [spinHam, slater_zero _ _ _ (by rw [emb_sdiff, card_emb, a0]; omega)]
    unfold ci_matrixel
    simp only [diff_bits h1 h1 rfl, diff_bits h2 k2 hcb, Finset.sdiff_self, Finset.card_empty, Nat.cast_zero, zero_ne_one,
      OfNat.zero_ne_ofNat, false_and, if_false, true_and]
    rw [if_neg (by omega), if_neg (by omega), if_neg (by omega)]; rfl
  rw [if_neg (ne (Or.inl (nea a0))), add_zero]
  by_cases a1 : (Ba \ Ka).card = 1
  · by_cases b0 : (Bb \ Kb).card = 0
    · have := differ0 hcb b0; subst this
      exact ci_single_a ha hb Ia Ib Iabab const va vb h1 k1 h2 hca a1
    by_cases b1 : (Bb \ Kb).card = 1
    · exact ci_single_ab ha hb Ia Ib Iabab const va vb h1 k1 h2 k2 hca a1 hcb b1
    rw [spinHam, slater_zero _ _ _ (by rw [emb_sdiff, card_emb, a1]; omega)]
    unfold ci_matrixel
    simp only [diff_bits h1 k1 hca, diff_bits h2 k2 hcb]
    rw [if_neg (by omega), if_neg (by omega), if_neg (by omega), if_neg (by omega), if_neg (by omega), if_neg (by omega)]; rfl
  by_cases ab : (Ba \ Ka).card = 2 ∧ (Bb \ Kb).card = 0
  · have := differ0 hcb ab.2; subst this
    exact ci_double_a ha hb Ia Ib Iabab const va vb h1 k1 h2 hca ab.1
  rw [spinHam, slater_zero _ _ _ (by rw [emb_sdiff, card_emb]; omega)]
  unfold ci_matrixel
  simp only [diff_bits h1 k1 hca, diff_bits h2 k2 hcb]
  rw [if_neg (by omega), if_neg (by omega), if_neg (by omega), if_neg (by omega), if_neg (by omega), if_neg (by omega)]; rfl

/-! ### general determinants -/

variable {n : ℕ} (h : ℕ → ℕ → K) (I : ℕ → ℕ → ℕ → ℕ → K)

/-- The sign that `gci_matrixel` leaves out: two determinants that differ by two orbitals where both orbitals of one lie below
both orbitals of the other. -/
def lostSign (bra ket : Finset ℕ) : Prop :=
  (bra \ ket).card = 2 ∧ ((∀ v ∈ bra \ ket, ∀ o ∈ ket \ bra, v < o) ∨ (∀ v ∈ bra \ ket, ∀ o ∈ ket \ bra, o < v))

theorem gci_sets (hI : ∀ p q r s, I p q r s = I q p s r) {B S : Finset ℕ} (hB : B ⊆ Finset.range n) (hS : S ⊆ Finset.range n)
    (hc : B.card = S.card) [Decidable (lostSign B S)] :
    gci_matrixel (ofSet n B) (ofSet n S) h I const
      = .ok ((if lostSign B S then -1 else 1) * elt (ham (Finset.range n) h I) B S) := by
  unfold gci_matrixel
  simp only [diff_bits hB hS hc]
  by_cases c0 : (B \ S).card = 0
  · have := differ0 hc c0; subst this
    have hl : ¬ lostSign B B := fun hh => by have := hh.1; omega
    rw [if_pos (by omega), if_neg hl, one_mul, slater_diag _ _ _ hB]
    simp only [ofSet, tr1_bits hB, coul_bits hB hB, exch_bits hB hB]
    change Except.ok _ = Except.ok _
    congr 1
    simp only [Finset.sum_sub_distrib]; ring
  rw [if_neg (by omega)]
  by_cases c1 : (B \ S).card = 1
  · obtain ⟨C, o, v, ho, hv, hov, eB, eS, dv, dO⟩ := differ1 hc c1
    have mo : o < n := Finset.mem_range.mp (hS (by rw [eS]; simp))
    have mv : v < n := Finset.mem_range.mp (hB (by rw [eB]; simp))
    have mC : C ⊆ Finset.range n := fun x hx => hB (by rw [eB]; simp [hx])
    have hl : ¬ lostSign B S := fun hh => by have := hh.1; omega
    rw [if_pos (by omega), if_neg hl, one_mul]
    simp only [nonzero_minus, nonzero_plus, dv, dO, filter_one mo, filter_one mv, get_zero, bind, Except.bind]
    change Except.ok _ = Except.ok _
    congr 1
    have E := slater_single (Finset.range n) h I hI ho hv hov mC (Finset.mem_range.mpr mo) (Finset.mem_range.mpr mv)
    rw [← eB, ← eS] at E
    rw [E]
    simp only [ofSet, parity_bits B mo mv hov, tr1_bits hS, Finset.sum_sub_distrib]
    ring
  rw [if_neg (by omega)]
  by_cases c2 : (B \ S).card = 2
  · obtain ⟨C, o1, o2, v1, v2, o12, v12, ⟨no1, no2, nv1, nv2⟩, ⟨n11, n12, n21, n22⟩, eB, eS, dv, dO⟩ := differ2 hc c2
    have mo2 : o2 < n := Finset.mem_range.mp (hS (by rw [eS]; simp))
    have mv2 : v2 < n := Finset.mem_range.mp (hB (by rw [eB]; simp))
    have mo1 : o1 < n := o12.trans mo2
    have mv1 : v1 < n := v12.trans mv2
    rw [if_pos (by omega)]
    simp only [nonzero_minus, nonzero_plus, dv, dO, filter_two mo2 o12, filter_two mv2 v12, unpack2, bind, Except.bind]
    change Except.ok _ = Except.ok _
    congr 1
    have E := slater_double (Finset.range n) h I hI no1 no2 nv1 nv2 o12 v12 n11 n12 n21 n22 (Finset.mem_range.mpr mo1)
      (Finset.mem_range.mpr mo2) (Finset.mem_range.mpr mv1) (Finset.mem_range.mpr mv2)
    rw [← eB, ← eS] at E
    have hl : lostSign B S ↔ v2 < o1 ∨ o2 < v1 := by
      unfold lostSign
      rw [dv, dO]
      simp only [Finset.mem_insert, Finset.mem_singleton, forall_eq_or_imp, forall_eq]
      rw [← dv]
      constructor
      · rintro ⟨-, h⟩; omega
      · intro h; exact ⟨c2, by omega⟩
    rw [E]
    simp only [ofSet, parity_bits B mo1 mv1 n11, parity_bits B mo2 mv2 n22, hl]
    split_ifs <;> ring
  have hl : ¬ lostSign B S := fun hh => c2 hh.1
  rw [if_neg (by omega), slater_zero _ _ _ (by omega), mul_zero]; rfl

/-- C35 for `gci_matrixel`: the matrix element is right, up to the sign `lostSign`.  Missing: that sign (see
`C35_gci_refuted`), and the constant, which the code does not use. -/
theorem C35_gci_partial {bra ket : Dstring} (d : IsDet bra) (e : IsDet ket) (ln : bra.n = n) (kn : ket.n = n)
    (hc : (supp bra).card = (supp ket).card) (hI : ∀ p q r s, I p q r s = I q p s r) [Decidable (lostSign (supp bra) (supp ket))] :
    gci_matrixel bra ket h I const
      = .ok ((if lostSign (supp bra) (supp ket) then -1 else 1) * elt (ham (Finset.range n) h I) (supp bra) (supp ket)) := by
  have := gci_sets const h I hI (n := n) (ln ▸ supp_subset bra) (kn ▸ supp_subset ket) hc
  rw [← this]
  congr 1
  · rw [← ln, ofSet_supp d]
  · rw [← kn, ofSet_supp e]

omit [CharZero K] in
/-- The matrix of a Hamiltonian with symmetric integrals is symmetric. -/
theorem elt_ham_symm {ι : Type} [LinearOrder ι] (U : Finset ι) {h : ι → ι → K} {V : ι → ι → ι → ι → K} (hh : ∀ p q, h p q = h q p)
    (hV : ∀ p q r s, V p q r s = V r s p q) (bra ket : Finset ι) : elt (ham U h V) bra ket = elt (ham U h V) ket bra := by
  rw [elt_ham, elt_ham]
  congr 1
  · rw [Finset.sum_comm]
    refine Finset.sum_congr rfl fun p _ => Finset.sum_congr rfl fun q _ => ?_
    rw [hh]
    congr 1
    by_cases hc : q ∈ bra ∧ p ∈ ket ∧ bra.erase q = ket.erase p
    · rw [if_pos hc, if_pos ⟨hc.2.1, hc.1, hc.2.2.symm⟩, mul_comm]
    · rw [if_neg hc, if_neg (fun h' => hc ⟨h'.2.1, h'.1, h'.2.2.symm⟩)]
  · congr 1
    have e : ∀ p q r s, V p q r s * c2 K bra ket p q r s = V r s p q * c2 K ket bra r s p q := fun p q r s => by
      rw [hV, c2_symm]
    simp only [e]
    calc _ = ∑ p ∈ U, ∑ r ∈ U, ∑ q ∈ U, ∑ s ∈ U, V r s p q * c2 K ket bra r s p q :=
            Finset.sum_congr rfl fun p _ => Finset.sum_comm
      _ = ∑ r ∈ U, ∑ p ∈ U, ∑ q ∈ U, ∑ s ∈ U, V r s p q * c2 K ket bra r s p q := Finset.sum_comm
      _ = ∑ r ∈ U, ∑ p ∈ U, ∑ s ∈ U, ∑ q ∈ U, V r s p q * c2 K ket bra r s p q :=
            Finset.sum_congr rfl fun p _ => Finset.sum_congr rfl fun r _ => Finset.sum_comm
      _ = _ := Finset.sum_congr rfl fun p _ => Finset.sum_comm

/-- C36: with real symmetric integrals `ci_matrixel` is symmetric in the two determinants. -/
theorem C36_ci_symmetric {braa brab keta ketb : Dstring} (da : IsDet braa) (db : IsDet brab) (ea : IsDet keta) (eb : IsDet ketb)
    (la : keta.n = braa.n) (lb : ketb.n = brab.n)
    (hca : (supp braa).card = (supp keta).card) (hcb : (supp brab).card = (supp ketb).card)
    (sa : ∀ p q, ha p q = ha q p) (sb : ∀ p q, hb p q = hb q p)
    (va : ∀ p q r s, Ia p q r s = Ia q p s r) (vb : ∀ p q r s, Ib p q r s = Ib q p s r)
    (wa : ∀ p q r s, Ia p q r s = Ia r s p q) (wb : ∀ p q r s, Ib p q r s = Ib r s p q)
    (wab : ∀ p q r s, Iabab p q r s = Iabab r s p q) :
    ci_matrixel braa brab keta ketb ha hb Ia Ib Iabab const = ci_matrixel keta ketb braa brab ha hb Ia Ib Iabab const := by
  rw [C35_ci_matrixel ha hb Ia Ib Iabab const da db ea eb rfl rfl la lb hca hcb va vb,
    C35_ci_matrixel ha hb Ia Ib Iabab const ea eb da db la lb rfl rfl hca.symm hcb.symm va vb, spinHam,
    elt_ham_symm _ _ (spinV_herm wa wb wab)]
  · congr 2
    exact if_congr eq_comm rfl rfl
  · intro p q
    unfold spinH
    rcases ofLex p with p | p <;> rcases ofLex q with q | q <;> first | rfl | exact sa _ _ | exact sb _ _

/-- C36: with real symmetric integrals `gci_matrixel` is symmetric in the two determinants (the missing sign is). -/
theorem C36_gci_symmetric {bra ket : Dstring} (d : IsDet bra) (e : IsDet ket) (kn : ket.n = bra.n)
    (hc : (supp bra).card = (supp ket).card) (sh : ∀ p q, h p q = h q p) (hI : ∀ p q r s, I p q r s = I q p s r)
    (wI : ∀ p q r s, I p q r s = I r s p q) :
    gci_matrixel bra ket h I const = gci_matrixel ket bra h I const := by
  classical
  rw [C35_gci_partial const h I d e rfl kn hc hI, C35_gci_partial const h I e d kn rfl hc.symm hI, elt_ham_symm _ sh wI]
  have : lostSign (supp bra) (supp ket) ↔ lostSign (supp ket) (supp bra) := by
    unfold lostSign
    rw [card_sdiff_symm hc]
    refine and_congr_right fun _ => ?_
    rw [or_comm]
    exact or_congr ⟨fun h v hv o ho => h o ho v hv, fun h v hv o ho => h o ho v hv⟩
      ⟨fun h v hv o ho => h o ho v hv, fun h v hv o ho => h o ho v hv⟩
  simp only [this]

/-- C35 is false for `gci_matrixel`: the element between `1100` and `0011` has the wrong sign, for all integrals. -/
theorem C35_gci_refuted (hI : ∀ p q r s, I p q r s = I q p s r) :
    gci_matrixel ⟨4, [0, 0, 1, 1]⟩ ⟨4, [1, 1, 0, 0]⟩ h I const = .ok (-elt (ham (Finset.range 4) h I) {2, 3} {0, 1}) ∧
    elt (ham (Finset.range 4) h I) {2, 3} {0, 1} = I 2 3 0 1 - I 2 3 1 0 := by
  classical
  have e1 : (⟨4, [0, 0, 1, 1]⟩ : Dstring) = ofSet 4 {2, 3} := by decide
  have e2 : (⟨4, [1, 1, 0, 0]⟩ : Dstring) = ofSet 4 {0, 1} := by decide
  have hl : lostSign {2, 3} {0, 1} := by unfold lostSign; decide
  constructor
  · rw [e1, e2, gci_sets (n := 4) (B := {2, 3}) (S := {0, 1}) const h I hI (by decide) (by decide) rfl, if_pos hl, neg_one_mul]
  · have E := slater_double (Finset.range 4) h I hI (C := ∅) (o1 := 0) (o2 := 1) (v1 := 2) (v2 := 3) (by simp) (by simp) (by simp)
      (by simp) (by decide) (by decide) (by decide) (by decide) (by decide) (by decide) (by decide) (by decide) (by decide) (by decide)
    have b1 : btw (insert 2 (insert 3 ∅) : Finset ℕ) 2 0 = 0 := by decide
    have b2 : btw (insert 2 (insert 3 ∅) : Finset ℕ) 3 1 = 1 := by decide
    rw [b1, b2] at E
    refine E.trans ?_
    rw [if_pos (by decide)]; ring

/-- the theorem applied: two alpha electrons move past each other, `1100 → 0011`, beta a spectator -/
example (va : ∀ p q r s, Ia p q r s = Ia q p s r) (vb : ∀ p q r s, Ib p q r s = Ib q p s r) :
    ci_matrixel ⟨4, [0, 0, 1, 1]⟩ ⟨2, [1, 0]⟩ ⟨4, [1, 1, 0, 0]⟩ ⟨2, [1, 0]⟩ ha hb Ia Ib Iabab const
      = .ok (elt (spinHam 4 2 ha hb Ia Ib Iabab) (emb {2, 3} {0}) (emb {0, 1} {0})) := by
  have := C35_ci_matrixel (braa := ⟨4, [0, 0, 1, 1]⟩) (brab := ⟨2, [1, 0]⟩) (keta := ⟨4, [1, 1, 0, 0]⟩) (ketb := ⟨2, [1, 0]⟩)
    ha hb Ia Ib Iabab const ⟨rfl, by decide⟩ ⟨rfl, by decide⟩ ⟨rfl, by decide⟩ ⟨rfl, by decide⟩ rfl rfl rfl rfl (by decide)
    (by decide) va vb
  rw [this, if_neg (by decide), add_zero]
  rfl
/-- and its value, computed by the code: the sign is `+` -/
example : ci_matrixel (K := ℚ) ⟨4, [0, 0, 1, 1]⟩ ⟨2, [1, 0]⟩ ⟨4, [1, 1, 0, 0]⟩ ⟨2, [1, 0]⟩ (fun _ _ => 0) (fun _ _ => 0)
    (fun p q r s => if (p, q, r, s) = (2, 3, 0, 1) then 1 else 0) (fun _ _ _ _ => 0) (fun _ _ _ _ => 0) 5 = .ok 1 := by
  decide +kernel
example : gci_matrixel (K := ℚ) ⟨4, [0, 0, 1, 1]⟩ ⟨4, [1, 1, 0, 0]⟩ (fun _ _ => 0)
    (fun p q r s => if (p, q, r, s) = (2, 3, 0, 1) then 1 else 0) 5 = .ok (-1) := by
  decide +kernel

end CI
