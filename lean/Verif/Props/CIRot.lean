/-
CI energies and changes of orbitals.
-/
import Verif.Props.CIVar
import Verif.Props.FockRot
import Mathlib.LinearAlgebra.Matrix.NonsingularInverse
import Mathlib.Tactic.IntervalCases

namespace CI
open Fock
variable {K : Type} [Field K]

/-! ### matrices acting on lists -/

theorem matvec_congr {M N : ℕ → ℕ → K} {v : List K} (h : ∀ i < v.length, ∀ j < v.length, M i j = N i j) : matvec M v = matvec N v := by
  refine List.map_congr_left fun i hi => Finset.sum_congr rfl fun j hj => ?_
  rw [h i (List.mem_range.1 hi) j (Finset.mem_range.1 hj)]

theorem getD_matvec (M : ℕ → ℕ → K) (v : List K) {i : ℕ} (hi : i < v.length) :
    (matvec M v).getD i 0 = ∑ j ∈ Finset.range v.length, M i j * v.getD j 0 := by
  simp [matvec, hi]

theorem matvec_matvec (M N : ℕ → ℕ → K) (v : List K) :
    matvec M (matvec N v) = matvec (fun i k => ∑ j ∈ Finset.range v.length, M i j * N j k) v := by
  rw [matvec, length_matvec]
  refine List.map_congr_left fun i _ => ?_
  have : ∀ j ∈ Finset.range v.length, M i j * (matvec N v).getD j 0 = ∑ k ∈ Finset.range v.length, M i j * N j k * v.getD k 0 := by
    intro j hj
    rw [getD_matvec N v (Finset.mem_range.1 hj), Finset.mul_sum]
    exact Finset.sum_congr rfl fun k _ => (mul_assoc _ _ _).symm
  rw [Finset.sum_congr rfl this, Finset.sum_comm]
  exact Finset.sum_congr rfl fun k _ => (Finset.sum_mul _ _ _).symm

theorem matvec_one {M : ℕ → ℕ → K} {v : List K} (h : ∀ i < v.length, ∀ j < v.length, M i j = if i = j then 1 else 0) : matvec M v = v := by
  rw [matvec_congr h]
  apply List.ext_getElem (length_matvec _ _)
  intro i h1 h2
  simp [matvec, h2]

/-- sums over a list without repetitions -/
theorem sum_list {ι : Type} [DecidableEq ι] {L : List (Finset ι)} (hL : L.Nodup) (f : Finset ι → K) :
    ∑ T ∈ L.toFinset, f T = ∑ j ∈ Finset.range L.length, f (L.getD j ∅) := by
  rw [List.sum_toFinset f hL, Finset.sum_range, ← List.sum_ofFn]
  congr 1
  apply List.ext_getElem <;> simp

/-! ### spin blocks of the rotated integrals -/

theorem so_elim (x : SO) : (∃ i, x = up i) ∨ ∃ i, x = dn i := SO.cases (P := fun x => (∃ i, x = up i) ∨ ∃ i, x = dn i)
  (fun i => .inl ⟨i, rfl⟩) (fun i => .inr ⟨i, rfl⟩) x

theorem spinH_uu (a b : ℕ → ℕ → K) (i j : ℕ) : spinH a b (up i) (up j) = a i j := rfl
theorem spinH_ud (a b : ℕ → ℕ → K) (i j : ℕ) : spinH a b (up i) (dn j) = 0 := rfl
theorem spinH_du (a b : ℕ → ℕ → K) (i j : ℕ) : spinH a b (dn i) (up j) = 0 := rfl
theorem spinH_dd (a b : ℕ → ℕ → K) (i j : ℕ) : spinH a b (dn i) (dn j) = b i j := rfl

/-- rotated integrals of an alpha and a beta electron -/
def rotab (na nb : ℕ) (Ua Wa Ub Wb : ℕ → ℕ → K) (V : ℕ → ℕ → ℕ → ℕ → K) (p q r s : ℕ) : K :=
  ∑ m ∈ Finset.range na, Wa p m * ∑ n ∈ Finset.range nb, Wb q n *
    ∑ k ∈ Finset.range na, (∑ l ∈ Finset.range nb, V m n k l * Ub l s) * Ua k r

theorem rot1_spin (na nb : ℕ) (Ua Wa Ub Wb ha hb : ℕ → ℕ → K) :
    rot1 (emb (Finset.range na) (Finset.range nb)) (spinH Ua Ub) (spinH Wa Wb) (spinH ha hb)
      = spinH (rot1 (Finset.range na) Ua Wa ha) (rot1 (Finset.range nb) Ub Wb hb) := by
  funext p q
  rcases so_elim p with ⟨p, rfl⟩ | ⟨p, rfl⟩ <;> rcases so_elim q with ⟨q, rfl⟩ | ⟨q, rfl⟩ <;> simp [rot1, spinH, sum_emb]

theorem swap4 {A B : Finset ℕ} (f : ℕ → ℕ → ℕ → ℕ → K) (w w' u u' : ℕ → K) :
    ∑ m ∈ B, w m * ∑ n ∈ A, w' n * ∑ k ∈ B, (∑ l ∈ A, f n m l k * u l) * u' k
      = ∑ n ∈ A, w' n * ∑ m ∈ B, w m * ∑ l ∈ A, (∑ k ∈ B, f n m l k * u' k) * u l := by
  simp only [Finset.mul_sum, Finset.sum_mul]
  rw [Finset.sum_comm]
  refine Finset.sum_congr rfl fun n _ => Finset.sum_congr rfl fun m _ => ?_
  rw [Finset.sum_comm]
  exact Finset.sum_congr rfl fun l _ => Finset.sum_congr rfl fun k _ => by ring

theorem rot2_spin (na nb : ℕ) (Ua Wa Ub Wb : ℕ → ℕ → K) (Ia Ib Iabab : ℕ → ℕ → ℕ → ℕ → K) :
    rot2 (emb (Finset.range na) (Finset.range nb)) (spinH Ua Ub) (spinH Wa Wb) (spinV Ia Ib Iabab)
      = spinV (rot2 (Finset.range na) Ua Wa Ia) (rot2 (Finset.range nb) Ub Wb Ib) (rotab na nb Ua Wa Ub Wb Iabab) := by
  funext p q r s
  rcases so_elim p with ⟨p, rfl⟩ | ⟨p, rfl⟩ <;> rcases so_elim q with ⟨q, rfl⟩ | ⟨q, rfl⟩ <;>
    rcases so_elim r with ⟨r, rfl⟩ | ⟨r, rfl⟩ <;> rcases so_elim s with ⟨s, rfl⟩ | ⟨s, rfl⟩ <;>
    simp only [rot2, rotab, spinH_uu, spinH_ud, spinH_du, spinH_dd, sum_emb, spinV, ofLex_toLex, zero_mul, mul_zero, Finset.sum_const_zero, add_zero,
      zero_add]
  exact swap4 Iabab _ _ _ _

theorem inverse_spin {na nb : ℕ} {Ua Wa Ub Wb : ℕ → ℕ → K} (h1 : Inverse (Finset.range na) Ua Wa) (h2 : Inverse (Finset.range nb) Ub Wb) :
    Inverse (emb (Finset.range na) (Finset.range nb)) (spinH Ua Ub) (spinH Wa Wb) := by
  intro p hp q hq
  rcases so_elim p with ⟨p, rfl⟩ | ⟨p, rfl⟩ <;> rcases so_elim q with ⟨q, rfl⟩ | ⟨q, rfl⟩ <;> rw [sum_emb, sum_emb]
  · simpa [spinH] using h1 p (up_mem.1 hp) q (up_mem.1 hq)
  · simp [spinH]
  · simp [spinH]
  · simpa [spinH] using h2 p (dn_mem.1 hp) q (dn_mem.1 hq)

theorem rot2_sym {n : ℕ} (U W : ℕ → ℕ → K) {I : ℕ → ℕ → ℕ → ℕ → K} (h : ∀ p q r s, I p q r s = I q p s r) (p q r s : ℕ) :
    rot2 (Finset.range n) U W I p q r s = rot2 (Finset.range n) U W I q p s r := by
  unfold rot2
  rw [← swap4 I]
  simp only [h _ _ _ _]

/-! ### the matrix of the Hamiltonian over a closed list -/

section main
variable {na nb : ℕ} {Ua Wa Ub Wb : ℕ → ℕ → K}

/-- overlaps of the determinants of the rotated orbitals with those of the old ones -/
noncomputable def ovl (na nb : ℕ) (Ua Ub : ℕ → ℕ → K) (L : List (Finset SO)) (i j : ℕ) : K :=
  rdet (emb (Finset.range na) (Finset.range nb)) (spinH Ua Ub) (L.getD j ∅) (L.getD i ∅)

/-- the rotation does not lead out of the space of the determinants `L` -/
def Closed (na nb : ℕ) (Ua Ub : ℕ → ℕ → K) (L : List (Finset SO)) : Prop :=
  ∀ S T, S ⊆ emb (Finset.range na) (Finset.range nb) → (S ∈ L ∨ T ∈ L) →
    rdet (emb (Finset.range na) (Finset.range nb)) (spinH Ua Ub) S T ≠ 0 → S ∈ L ∧ T ∈ L

theorem sum_closed {O : Finset SO} {L : List (Finset SO)} (hL : L.Nodup) (hO : ∀ S ∈ L, S ⊆ O) (f : Finset SO → K)
    (hf : ∀ T ∈ O.powerset, f T ≠ 0 → T ∈ L) : ∑ T ∈ O.powerset, f T = ∑ j ∈ Finset.range L.length, f (L.getD j ∅) := by
  rw [← sum_list hL]
  symm
  refine Finset.sum_subset (fun T hT => Finset.mem_powerset.2 (hO T (List.mem_toFinset.1 hT))) fun T hT hn => ?_
  by_contra h
  exact hn (List.mem_toFinset.2 (hf T hT h))

theorem getD_mem {L : List (Finset SO)} {i : ℕ} (h : i < L.length) : L.getD i ∅ ∈ L := by simp [h]

variable [CharZero K]

theorem ovl_inv (h1 : Inverse (Finset.range na) Ua Wa) (h2 : Inverse (Finset.range nb) Ub Wb) {L : List (Finset SO)} (hL : L.Nodup)
    (hO : ∀ S ∈ L, S ⊆ emb (Finset.range na) (Finset.range nb)) (hC : Closed na nb Ua Ub L) {i k : ℕ} (hi : i < L.length) (hk : k < L.length) :
    ∑ j ∈ Finset.range L.length, ovl na nb Ua Ub L i j * ovl na nb Wa Wb L j k = if i = k then 1 else 0 := by
  have h := overlap_inv (inverse_spin h1 h2) (hO _ (getD_mem hk)) (L.getD i ∅)
  rw [sum_closed hL hO _ fun T hT hne => (hC T (L.getD i ∅) (Finset.mem_powerset.1 hT) (.inr (getD_mem hi)) (left_ne_zero_of_mul hne)).1] at h
  refine h.trans ?_
  have : L.getD i ∅ = L.getD k ∅ ↔ i = k := by
    simp only [List.getD_eq_getElem?_getD, List.getElem?_eq_getElem hi, List.getElem?_eq_getElem hk, Option.getD_some]
    exact hL.getElem_inj_iff
  simp only [this]

theorem ovl_ham (h1 : Inverse (Finset.range na) Ua Wa) (h2 : Inverse (Finset.range nb) Ub Wb) {L : List (Finset SO)} (hL : L.Nodup)
    (hO : ∀ S ∈ L, S ⊆ emb (Finset.range na) (Finset.range nb)) (hC : Closed na nb Ua Ub L) (ha hb : ℕ → ℕ → K)
    (Ia Ib Iabab : ℕ → ℕ → ℕ → ℕ → K) {i k : ℕ} (hi : i < L.length) (hk : k < L.length) :
    ∑ j ∈ Finset.range L.length, ovl na nb Ua Ub L i j * elt (spinHam na nb (rot1 (Finset.range na) Ua Wa ha) (rot1 (Finset.range nb) Ub Wb hb)
        (rot2 (Finset.range na) Ua Wa Ia) (rot2 (Finset.range nb) Ub Wb Ib) (rotab na nb Ua Wa Ub Wb Iabab)) (L.getD j ∅) (L.getD k ∅)
      = ∑ j ∈ Finset.range L.length, elt (spinHam na nb ha hb Ia Ib Iabab) (L.getD i ∅) (L.getD j ∅) * ovl na nb Ua Ub L j k := by
  have h := overlap_ham (inverse_spin h1 h2) (spinH ha hb) (spinV Ia Ib Iabab) (hO _ (getD_mem hk)) (L.getD i ∅)
  rw [rot1_spin, rot2_spin] at h
  rw [sum_closed hL hO _ fun T hT hne => (hC T (L.getD i ∅) (Finset.mem_powerset.1 hT) (.inr (getD_mem hi)) (left_ne_zero_of_mul hne)).1,
    sum_closed hL hO _ fun T _ hne => (hC (L.getD k ∅) T (hO _ (getD_mem hk)) (.inl (getD_mem hk)) (right_ne_zero_of_mul hne)).2] at h
  exact h

end main

/-! ### which rotations keep which bases -/

/-- `U` mixes occupied orbitals among themselves and empty orbitals among themselves -/
def Blocks (ref : Dstring) (U : ℕ → ℕ → K) : Prop :=
  ∀ p < ref.n, ∀ q < ref.n, U p q ≠ 0 → (p ∈ supp ref ↔ q ∈ supp ref)

/-- the spin of an orbital and whether it belongs to the reference -/
def colour (ra rb : Finset ℕ) (x : SO) : Bool × Bool :=
  match ofLex x with
  | .inl i => (true, decide (i ∈ ra))
  | .inr i => (false, decide (i ∈ rb))

theorem colour_up (ra rb : Finset ℕ) (i : ℕ) : colour ra rb (up i) = (true, decide (i ∈ ra)) := rfl
theorem colour_dn (ra rb : Finset ℕ) (i : ℕ) : colour ra rb (dn i) = (false, decide (i ∈ rb)) := rfl

theorem colour_counts {ra rb A B A' B' : Finset ℕ}
    (h : ∀ γ, ((emb A B).filter (colour ra rb · = γ)).card = ((emb A' B').filter (colour ra rb · = γ)).card) :
    (A ∩ ra).card = (A' ∩ ra).card ∧ (A \ ra).card = (A' \ ra).card ∧ (B ∩ rb).card = (B' ∩ rb).card ∧ (B \ rb).card = (B' \ rb).card := by
  have e1 : ∀ A B, (emb A B).filter (colour ra rb · = (true, true)) = emb (A ∩ ra) ∅ := fun A B =>
    emb_ext (fun i => by rw [Finset.mem_filter]; simp [colour_up]) (fun i => by rw [Finset.mem_filter]; simp [colour_dn])
  have e2 : ∀ A B, (emb A B).filter (colour ra rb · = (true, false)) = emb (A \ ra) ∅ := fun A B =>
    emb_ext (fun i => by rw [Finset.mem_filter]; simp [colour_up]) (fun i => by rw [Finset.mem_filter]; simp [colour_dn])
  have e3 : ∀ A B, (emb A B).filter (colour ra rb · = (false, true)) = emb ∅ (B ∩ rb) := fun A B =>
    emb_ext (fun i => by rw [Finset.mem_filter]; simp [colour_up]) (fun i => by rw [Finset.mem_filter]; simp [colour_dn])
  have e4 : ∀ A B, (emb A B).filter (colour ra rb · = (false, false)) = emb ∅ (B \ rb) := fun A B =>
    emb_ext (fun i => by rw [Finset.mem_filter]; simp [colour_up]) (fun i => by rw [Finset.mem_filter]; simp [colour_dn])
  have h1 := h (true, true)
  have h2 := h (true, false)
  have h3 := h (false, true)
  have h4 := h (false, false)
  rw [e1, e1, card_emb, card_emb] at h1
  rw [e2, e2, card_emb, card_emb] at h2
  rw [e3, e3, card_emb, card_emb] at h3
  rw [e4, e4, card_emb, card_emb] at h4
  simp only [Finset.card_empty] at h1 h2 h3 h4
  omega

theorem subset_emb {na nb : ℕ} {S : Finset SO} (h : S ⊆ emb (Finset.range na) (Finset.range nb)) :
    ∃ A ⊆ Finset.range na, ∃ B ⊆ Finset.range nb, S = emb A B :=
  ⟨(Finset.range na).filter (up · ∈ S), Finset.filter_subset _ _, (Finset.range nb).filter (dn · ∈ S), Finset.filter_subset _ _,
    emb_ext (fun i => by
      rw [Finset.mem_filter]
      exact ⟨fun hi => ⟨up_mem.1 (h hi), hi⟩, fun hi => hi.2⟩) (fun i => by
      rw [Finset.mem_filter]
      exact ⟨fun hi => ⟨dn_mem.1 (h hi), hi⟩, fun hi => hi.2⟩)⟩

section lists
variable {refa refb : Dstring} {P : ℕ → ℕ → Prop} {D : List (Dstring × Dstring)}

theorem mem_list (hm : ∀ d, d ∈ D ↔ ∃ k l, Excitation refa d.1 k ∧ Excitation refb d.2 l ∧ P k l) {A B : Finset ℕ}
    (hA : A ⊆ Finset.range refa.n) (hB : B ⊆ Finset.range refb.n) :
    emb A B ∈ D.map psupp ↔ (supp refa \ A).card = (A \ supp refa).card ∧ (supp refb \ B).card = (B \ supp refb).card ∧
      P (A \ supp refa).card (B \ supp refb).card := by
  rw [List.mem_map]
  constructor
  · rintro ⟨d, hd, e⟩
    obtain ⟨rfl, rfl⟩ := emb_inj.1 e
    obtain ⟨k, l, h1, h2, h3⟩ := (hm d).1 hd
    rw [h1.2.2.1, h1.2.2.2, h2.2.2.1, h2.2.2.2]
    exact ⟨rfl, rfl, h3⟩
  · rintro ⟨h1, h2, h3⟩
    refine ⟨(ofSet refa.n A, ofSet refb.n B), (hm _).2 ⟨_, _, ⟨isDet_ofSet _ _, rfl, ?_, ?_⟩, ⟨isDet_ofSet _ _, rfl, ?_, ?_⟩, h3⟩, ?_⟩
    · rw [supp_ofSet hA, h1]
    · rw [supp_ofSet hA]
    · rw [supp_ofSet hB, h2]
    · rw [supp_ofSet hB]
    · rw [psupp, supp_ofSet hA, supp_ofSet hB]

theorem closed_blocks (hm : ∀ d, d ∈ D ↔ ∃ k l, Excitation refa d.1 k ∧ Excitation refb d.2 l ∧ P k l) {Ua Ub : ℕ → ℕ → K}
    (ba : Blocks refa Ua) (bb : Blocks refb Ub) : Closed refa.n refb.n Ua Ub (D.map psupp) := by
  intro S T hS hST hne
  have hT := rdet_subset hne
  have hc := rdet_colour (g := colour (supp refa) (supp refb)) hS (fun q hq p hp hU => by
    rcases so_elim p with ⟨p, rfl⟩ | ⟨p, rfl⟩ <;> rcases so_elim q with ⟨q, rfl⟩ | ⟨q, rfl⟩
    · have := ba q (Finset.mem_range.1 (up_mem.1 hq)) p (Finset.mem_range.1 (up_mem.1 hp)) hU
      simp [colour, this]
    · exact absurd rfl hU
    · exact absurd rfl hU
    · have := bb q (Finset.mem_range.1 (dn_mem.1 hq)) p (Finset.mem_range.1 (dn_mem.1 hp)) hU
      simp [colour, this]) hne
  obtain ⟨A, hA, B, hB, rfl⟩ := subset_emb hS
  obtain ⟨A', hA', B', hB', rfl⟩ := subset_emb hT
  obtain ⟨c1, c2, c3, c4⟩ := colour_counts hc
  have i1 := Finset.card_sdiff_add_card_inter (supp refa) A
  have i2 := Finset.card_sdiff_add_card_inter (supp refa) A'
  have i3 := Finset.card_sdiff_add_card_inter (supp refb) B
  have i4 := Finset.card_sdiff_add_card_inter (supp refb) B'
  rw [Finset.inter_comm] at i1 i2 i3 i4
  have e1 : (supp refa \ A').card = (supp refa \ A).card := by omega
  have e2 : (supp refb \ B').card = (supp refb \ B).card := by omega
  rw [mem_list hm hA hB, mem_list hm hA' hB', e1, c2, e2, c4] at hST ⊢
  exact ⟨hST.elim id id, hST.elim id id⟩

theorem closed_full (hm : ∀ d, d ∈ D ↔ ∃ k l, Excitation refa d.1 k ∧ Excitation refb d.2 l ∧ P k l)
    (hP : ∀ k l, k ≤ (supp refa).card → l ≤ (supp refb).card → P k l) (Ua Ub : ℕ → ℕ → K) :
    Closed refa.n refb.n Ua Ub (D.map psupp) := by
  intro S T hS hST hne
  have hT := rdet_subset hne
  have hc := rdet_colour (g := colour ∅ ∅) hS (fun q hq p hp hU => by
    rcases so_elim p with ⟨p, rfl⟩ | ⟨p, rfl⟩ <;> rcases so_elim q with ⟨q, rfl⟩ | ⟨q, rfl⟩
    · simp [colour]
    · exact absurd rfl hU
    · exact absurd rfl hU
    · simp [colour]) hne
  obtain ⟨A, hA, B, hB, rfl⟩ := subset_emb hS
  obtain ⟨A', hA', B', hB', rfl⟩ := subset_emb hT
  obtain ⟨-, c2, -, c4⟩ := colour_counts hc
  rw [Finset.sdiff_empty, Finset.sdiff_empty] at c2 c4
  have key : ∀ R X : Finset ℕ, ((R \ X).card = (X \ R).card ↔ X.card = R.card) := by
    intro R X
    have i1 := Finset.card_sdiff_add_card_inter R X
    have i2 := Finset.card_sdiff_add_card_inter X R
    rw [Finset.inter_comm] at i2
    omega
  have q1 : ∀ R X : Finset ℕ, (R \ X).card ≤ R.card := fun R X => Finset.card_le_card Finset.sdiff_subset
  rw [mem_list hm hA hB, mem_list hm hA' hB'] at hST ⊢
  have hh : A.card = (supp refa).card ∧ B.card = (supp refb).card := by
    rcases hST with h | h
    · exact ⟨(key _ _).1 h.1, (key _ _).1 h.2.1⟩
    · exact ⟨c2.symm.trans ((key _ _).1 h.1), c4.symm.trans ((key _ _).1 h.2.1)⟩
  have r1 := (key (supp refa) A).2 hh.1
  have r2 := (key (supp refb) B).2 hh.2
  have r3 := (key (supp refa) A').2 (c2.trans hh.1)
  have r4 := (key (supp refb) B').2 (c4.trans hh.2)
  exact ⟨⟨r1, r2, hP _ _ (r1 ▸ q1 _ _) (r2 ▸ q1 _ _)⟩, ⟨r3, r4, hP _ _ (r3 ▸ q1 _ _) (r4 ▸ q1 _ _)⟩⟩

end lists

/-! ### the theorems -/

section theorems
variable [CharZero K] {B : List Pair} {refa refb : Dstring} {P : ℕ → ℕ → Prop} {Ua Wa Ub Wb : ℕ → ℕ → K}

/-- The rotations for which the space of the listed determinants is kept: those that mix neither occupied with empty orbitals nor, if all
determinants with the right numbers of electrons are listed, any. -/
def Kept (refa refb : Dstring) (P : ℕ → ℕ → Prop) (Ua Ub : ℕ → ℕ → K) : Prop :=
  (Blocks refa Ua ∧ Blocks refb Ub) ∨ ∀ k l, k ≤ (supp refa).card → l ≤ (supp refb).card → P k l

theorem rot_data (he : EnumeratesU B refa refb P)
    (hk : Kept refa refb P Ua Ub) (ha hb : ℕ → ℕ → K) (Ia Ib Iabab : ℕ → ℕ → ℕ → ℕ → K)
    (va : ∀ p q r s, Ia p q r s = Ia q p s r) (vb : ∀ p q r s, Ib p q r s = Ib q p s r) :
    ∃ L : List (Finset SO), L.length = B.length ∧ L.Nodup ∧ (∀ S ∈ L, S ⊆ emb (Finset.range refa.n) (Finset.range refb.n)) ∧
      Closed refa.n refb.n Ua Ub L ∧
      (∀ v, v.length = B.length → H_on_vec B v ha hb Ia Ib Iabab
        = .ok (matvec (fun i j => elt (spinHam refa.n refb.n ha hb Ia Ib Iabab) (L.getD i ∅) (L.getD j ∅)) v)) ∧
      ∀ v, v.length = B.length → H_on_vec B v (rot1 (Finset.range refa.n) Ua Wa ha) (rot1 (Finset.range refb.n) Ub Wb hb)
        (rot2 (Finset.range refa.n) Ua Wa Ia) (rot2 (Finset.range refb.n) Ub Wb Ib) (rotab refa.n refb.n Ua Wa Ub Wb Iabab)
        = .ok (matvec (fun i j => elt (spinHam refa.n refb.n (rot1 (Finset.range refa.n) Ua Wa ha) (rot1 (Finset.range refb.n) Ub Wb hb)
        (rot2 (Finset.range refa.n) Ua Wa Ia) (rot2 (Finset.range refb.n) Ub Wb Ib) (rotab refa.n refb.n Ua Wa Ub Wb Iabab))
          (L.getD i ∅) (L.getD j ∅)) v) := by
  obtain ⟨D, hB⟩ := he.basis
  have hm : ∀ d, d ∈ D ↔ ∃ k l, Excitation refa d.1 k ∧ Excitation refb d.2 l ∧ P k l := fun d => by
    have h1 : d ∈ D ↔ (some d.1, some d.2) ∈ B := by
      rw [hB.1, List.mem_map]
      refine ⟨fun h => ⟨d, h, rfl⟩, ?_⟩
      rintro ⟨d', h, e⟩
      simp only [Prod.mk.injEq, Option.some.injEq] at e
      rwa [← Prod.ext e.1 e.2]
    rw [h1, he.2]
    constructor
    · rintro ⟨da, db, k, l, e, h2⟩
      simp only [Prod.mk.injEq, Option.some.injEq] at e
      obtain ⟨rfl, rfl⟩ := e
      exact ⟨k, l, h2⟩
    · rintro ⟨k, l, h2⟩
      exact ⟨d.1, d.2, k, l, rfl, h2⟩
  have hN : ∀ d ∈ D, ∀ e ∈ D, (supp d.1).card = (supp e.1).card ∧ (supp d.2).card = (supp e.2).card := by
    intro d hd e he
    obtain ⟨_, _, a1, a2, -⟩ := (hm d).1 hd
    obtain ⟨_, _, c1, c2, -⟩ := (hm e).1 he
    exact ⟨a1.card.trans c1.card.symm, a2.card.trans c2.card.symm⟩
  have cl : ∀ {Va Vb : ℕ → ℕ → K}, Kept refa refb P Va Vb → Closed refa.n refb.n Va Vb (D.map psupp) := by
    rintro Va Vb (⟨ba, bb⟩ | hP)
    · exact closed_blocks hm ba bb
    · exact closed_full hm hP _ _
  refine ⟨D.map psupp, by rw [hB.1, List.length_map, List.length_map], hB.nodup, fun S hS => ?_, cl hk, fun v hv => ?_, fun v hv => ?_⟩
  · obtain ⟨d, hd, rfl⟩ := List.mem_map.1 hS
    obtain ⟨_, _, a1, a2, -⟩ := (hm d).1 hd
    exact emb_subset (a1.2.1 ▸ supp_subset d.1) (a2.2.1 ▸ supp_subset d.2)
  · exact C38_H hB hv ha hb Ia Ib Iabab hN va vb
  · exact C38_H hB hv _ _ _ _ _ hN (rot2_sym Ua Wa va) (rot2_sym Ub Wb vb)

omit [CharZero K] in
theorem mul_one_comm {N : ℕ} {C D : ℕ → ℕ → K}
    (h : ∀ i < N, ∀ k < N, ∑ j ∈ Finset.range N, C i j * D j k = if i = k then 1 else 0) {i k : ℕ} (hi : i < N) (hk : k < N) :
    ∑ j ∈ Finset.range N, D i j * C j k = if i = k then 1 else 0 := by
  let X : Matrix (Fin N) (Fin N) K := Matrix.of fun i j => C i j
  let Y : Matrix (Fin N) (Fin N) K := Matrix.of fun i j => D i j
  have e : X * Y = 1 := by
    ext i k
    rw [Matrix.mul_apply, Matrix.one_apply]
    have := h i i.2 k k.2
    rw [Finset.sum_range] at this
    simpa [X, Y, Fin.ext_iff] using this
  have e1 : Y * X = 1 := mul_eq_one_comm.1 e
  have e2 := congrFun (congrFun e1 ⟨i, hi⟩) ⟨k, hk⟩
  rw [Matrix.mul_apply, Matrix.one_apply] at e2
  rw [Finset.sum_range]
  simpa [X, Y] using e2

/-- C77: a change of orbitals that keeps the space of the listed determinants changes `H_on_vec` by a similarity transformation. -/
theorem C77_similar (he : EnumeratesU B refa refb P) (h1 : Inverse (Finset.range refa.n) Ua Wa) (h2 : Inverse (Finset.range refb.n) Ub Wb)
    (hk : Kept refa refb P Ua Ub) (ha hb : ℕ → ℕ → K) (Ia Ib Iabab : ℕ → ℕ → ℕ → ℕ → K)
    (va : ∀ p q r s, Ia p q r s = Ia q p s r) (vb : ∀ p q r s, Ib p q r s = Ib q p s r) :
    ∃ C Ci : ℕ → ℕ → K, (∀ v, v.length = B.length → matvec C (matvec Ci v) = v ∧ matvec Ci (matvec C v) = v) ∧
      ∀ v, v.length = B.length → ∃ w, w.length = B.length ∧
        H_on_vec B v (rot1 (Finset.range refa.n) Ua Wa ha) (rot1 (Finset.range refb.n) Ub Wb hb)
          (rot2 (Finset.range refa.n) Ua Wa Ia) (rot2 (Finset.range refb.n) Ub Wb Ib) (rotab refa.n refb.n Ua Wa Ub Wb Iabab) = .ok w ∧
        H_on_vec B (matvec C v) ha hb Ia Ib Iabab = .ok (matvec C w) := by
  obtain ⟨L, hl, hL, hO, hC, o1, o2⟩ := rot_data (Wa := Wa) (Wb := Wb) he hk ha hb Ia Ib Iabab va vb
  have inv := fun i hi k hk => ovl_inv h1 h2 hL hO hC (i := i) (k := k) hi hk
  refine ⟨ovl refa.n refb.n Ua Ub L, ovl refa.n refb.n Wa Wb L, fun v hv => ⟨?_, ?_⟩, fun v hv => ?_⟩
  · rw [matvec_matvec]
    refine matvec_one fun i hi k hk => ?_
    rw [hv, ← hl] at hi hk ⊢
    exact inv i hi k hk
  · rw [matvec_matvec]
    refine matvec_one fun i hi k hk => ?_
    rw [hv, ← hl] at hi hk ⊢
    exact mul_one_comm inv hi hk
  · refine ⟨_, by rw [length_matvec, hv], o2 v hv, ?_⟩
    rw [o1 _ (by rw [length_matvec, hv]), matvec_matvec, matvec_matvec]
    congr 1
    refine matvec_congr fun i hi k hk => ?_
    rw [hv, ← hl] at hi hk ⊢
    exact (ovl_ham h1 h2 hL hO hC ha hb Ia Ib Iabab hi hk).symm

omit [CharZero K] in
theorem matvec_smul (M : ℕ → ℕ → K) (E : K) (v : List K) : matvec M (v.map (E * ·)) = (matvec M v).map (E * ·) := by
  simp only [matvec, List.length_map, List.map_map]
  refine List.map_congr_left fun i _ => ?_
  simp only [Function.comp, Finset.mul_sum]
  refine Finset.sum_congr rfl fun j hj => ?_
  have hj := Finset.mem_range.1 hj
  simp [hj, mul_left_comm]

/-- C77: the eigenvalues of `H_on_vec` are the same in both sets of orbitals, in any field. -/
theorem C77_eigenvalues (he : EnumeratesU B refa refb P) (h1 : Inverse (Finset.range refa.n) Ua Wa) (h2 : Inverse (Finset.range refb.n) Ub Wb)
    (hk : Kept refa refb P Ua Ub) (ha hb : ℕ → ℕ → K) (Ia Ib Iabab : ℕ → ℕ → ℕ → ℕ → K)
    (va : ∀ p q r s, Ia p q r s = Ia q p s r) (vb : ∀ p q r s, Ib p q r s = Ib q p s r) (E : K) :
    (∃ v, v.length = B.length ∧ (∃ x ∈ v, x ≠ 0) ∧
      H_on_vec B v (rot1 (Finset.range refa.n) Ua Wa ha) (rot1 (Finset.range refb.n) Ub Wb hb)
        (rot2 (Finset.range refa.n) Ua Wa Ia) (rot2 (Finset.range refb.n) Ub Wb Ib) (rotab refa.n refb.n Ua Wa Ub Wb Iabab)
        = .ok (v.map (E * ·))) ↔
    ∃ v, v.length = B.length ∧ (∃ x ∈ v, x ≠ 0) ∧ H_on_vec B v ha hb Ia Ib Iabab = .ok (v.map (E * ·)) := by
  obtain ⟨C, Ci, hi, hH⟩ := C77_similar he h1 h2 hk ha hb Ia Ib Iabab va vb
  have nz : ∀ (M N : ℕ → ℕ → K) (v : List K), matvec N (matvec M v) = v → (∃ x ∈ v, x ≠ 0) → ∃ x ∈ matvec M v, x ≠ 0 := by
    intro M N v hMN ⟨x, hx, hx0⟩
    by_contra hn
    push Not at hn
    rw [← hMN] at hx
    obtain ⟨i, -, rfl⟩ := List.mem_map.1 hx
    refine hx0 (Finset.sum_eq_zero fun j hj => ?_)
    have hj := Finset.mem_range.1 hj
    have : (matvec M v).getD j 0 = 0 := by
      rw [List.getD_eq_getElem?_getD, List.getElem?_eq_getElem hj, Option.getD_some]
      exact hn _ (List.getElem_mem hj)
    rw [this, mul_zero]
  constructor
  · rintro ⟨v, hv, hv0, e⟩
    obtain ⟨w, hw, e1, e2⟩ := hH v hv
    obtain rfl := Except.ok.inj (e1.symm.trans e)
    exact ⟨matvec C v, by rw [length_matvec, hv], nz C Ci v (hi v hv).2 hv0, by rw [e2, matvec_smul]⟩
  · rintro ⟨v, hv, hv0, e⟩
    have hl : (matvec Ci v).length = B.length := by rw [length_matvec, hv]
    obtain ⟨w, hw, e1, e2⟩ := hH (matvec Ci v) hl
    rw [(hi v hv).1, e] at e2
    refine ⟨matvec Ci v, hl, nz Ci C v (hi v hv).1 hv0, ?_⟩
    rw [e1, ← (hi w hw).2, ← Except.ok.inj e2, matvec_smul]

end theorems

/-! ### orthogonal rotations -/

section real
variable {B : List Pair} {refa refb : Dstring} {P : ℕ → ℕ → Prop} {Ua Ub : ℕ → ℕ → ℝ}

/-- `U` is orthogonal -/
def Orthogonal (n : ℕ) (U : ℕ → ℕ → ℝ) : Prop := Inverse (Finset.range n) U fun p q => U q p

theorem dot_sum {N : ℕ} {v w : List ℝ} (hv : v.length = N) (hw : w.length = N) : dot v w = ∑ i ∈ Finset.range N, v.getD i 0 * w.getD i 0 := by
  have e : ∀ v : List ℝ, v.length = N → v = tab N fun i => v.getD i 0 := by
    intro v hv
    apply List.ext_getElem (by simp [hv])
    intro i h1 h2
    simp [tab, h1]
  rw [e v hv, e w hw, dot_tab, ← e v hv, ← e w hw]

/-- C77: for a rotation to other orthonormal orbitals every list of eigenvalues of `H_on_vec` with orthonormal eigenvectors is one in the new
orbitals as well, and conversely: spectra agree with multiplicities. -/
theorem C77_spectrum (he : EnumeratesU B refa refb P) (h1 : Orthogonal refa.n Ua) (h2 : Orthogonal refb.n Ub)
    (hk : Kept refa refb P Ua Ub) (ha hb : ℕ → ℕ → ℝ) (Ia Ib Iabab : ℕ → ℕ → ℕ → ℕ → ℝ)
    (va : ∀ p q r s, Ia p q r s = Ia q p s r) (vb : ∀ p q r s, Ib p q r s = Ib q p s r) {k : ℕ} (es : Fin k → ℝ) :
    (∃ vs, Roots B.length (fun v => H_on_vec B v
      (rot1 (Finset.range refa.n) Ua (fun p q => Ua q p) ha) (rot1 (Finset.range refb.n) Ub (fun p q => Ub q p) hb)
      (rot2 (Finset.range refa.n) Ua (fun p q => Ua q p) Ia) (rot2 (Finset.range refb.n) Ub (fun p q => Ub q p) Ib)
      (rotab refa.n refb.n Ua (fun p q => Ua q p) Ub (fun p q => Ub q p) Iabab)) vs es) ↔
    ∃ vs, Roots B.length (fun v => H_on_vec B v ha hb Ia Ib Iabab) vs es := by
  obtain ⟨L, hl, hL, hO, hC, o1, o2⟩ := rot_data (Wa := fun p q => Ua q p) (Wb := fun p q => Ub q p) he hk ha hb Ia Ib Iabab va vb
  have inv := fun i hi k hk => ovl_inv h1 h2 hL hO hC (i := i) (k := k) hi hk
  set C := ovl refa.n refb.n Ua Ub L with hCd
  set Ci := ovl refa.n refb.n (fun p q => Ua q p) (fun p q => Ub q p) L with hCi
  have tr : ∀ i < L.length, ∀ j < L.length, Ci i j = C j i := by
    intro i hi j hj
    have e : spinH (fun p q => Ua q p) (fun p q => Ub q p) = fun p q => spinH Ua Ub q p := by
      funext p q
      rcases so_elim p with ⟨p, rfl⟩ | ⟨p, rfl⟩ <;> rcases so_elim q with ⟨q, rfl⟩ | ⟨q, rfl⟩ <;> rfl
    rw [hCi, hCd, ovl, ovl, e]
    exact overlap_transpose (inverse_spin h1 h2) (hO _ (getD_mem hi)) (hO _ (getD_mem hj))
  have c1 : ∀ v, v.length = B.length → matvec C (matvec Ci v) = v := fun v hv => by
    rw [matvec_matvec]
    refine matvec_one fun i hi k hk => ?_
    rw [hv, ← hl] at hi hk ⊢
    exact inv i hi k hk
  have c2 : ∀ v, v.length = B.length → matvec Ci (matvec C v) = v := fun v hv => by
    rw [matvec_matvec]
    refine matvec_one fun i hi k hk => ?_
    rw [hv, ← hl] at hi hk ⊢
    exact mul_one_comm inv hi hk
  have cH : ∀ v, v.length = B.length → ∃ w, w.length = B.length ∧ H_on_vec B v
      (rot1 (Finset.range refa.n) Ua (fun p q => Ua q p) ha) (rot1 (Finset.range refb.n) Ub (fun p q => Ub q p) hb)
      (rot2 (Finset.range refa.n) Ua (fun p q => Ua q p) Ia) (rot2 (Finset.range refb.n) Ub (fun p q => Ub q p) Ib)
      (rotab refa.n refb.n Ua (fun p q => Ua q p) Ub (fun p q => Ub q p) Iabab) = .ok w ∧
      H_on_vec B (matvec C v) ha hb Ia Ib Iabab = .ok (matvec C w) := fun v hv => by
    refine ⟨_, by rw [length_matvec, hv], o2 v hv, ?_⟩
    rw [o1 _ (by rw [length_matvec, hv]), matvec_matvec, matvec_matvec]
    congr 1
    refine matvec_congr fun i hi k hk => ?_
    rw [hv, ← hl] at hi hk ⊢
    exact (ovl_ham h1 h2 hL hO hC ha hb Ia Ib Iabab hi hk).symm
  have cd : ∀ v w, v.length = B.length → w.length = B.length → dot (matvec C v) (matvec C w) = dot v w := by
    intro v w hv hw
    have g : ∀ u : List ℝ, u.length = B.length → (matvec C u).length = B.length := fun u hu => by rw [length_matvec, hu]
    rw [dot_sum (g v hv) (g w hw)]
    have e : ∀ i ∈ Finset.range B.length, (matvec C v).getD i 0 * (matvec C w).getD i 0
        = ∑ j ∈ Finset.range B.length, v.getD j 0 * (Ci j i * (matvec C w).getD i 0) := by
      intro i hi
      have hi := Finset.mem_range.1 hi
      rw [getD_matvec C v (by rw [hv]; exact hi), hv, Finset.sum_mul]
      refine Finset.sum_congr rfl fun j hj => ?_
      rw [tr j (by rw [hl]; exact Finset.mem_range.1 hj) i (by rw [hl]; exact hi)]; ring
    rw [Finset.sum_congr rfl e, Finset.sum_comm, dot_sum hv hw]
    refine Finset.sum_congr rfl fun j hj => ?_
    have hj := Finset.mem_range.1 hj
    rw [← Finset.mul_sum]
    congr 1
    have := getD_matvec Ci (matvec C w) (i := j) (by rw [g w hw]; exact hj)
    rw [c2 w hw, g w hw] at this
    exact this.symm
  constructor
  · rintro ⟨vs, r1, r2, r3⟩
    refine ⟨fun i => matvec C (vs i), fun i => by rw [length_matvec, r1], fun i j => by rw [cd _ _ (r1 i) (r1 j), r2], fun i => ?_⟩
    obtain ⟨w, hw, e1, e2⟩ := cH (vs i) (r1 i)
    obtain rfl := Except.ok.inj (e1.symm.trans (r3 i))
    change H_on_vec _ _ _ _ _ _ _ = _
    rw [e2, matvec_smul]
  · rintro ⟨vs, r1, r2, r3⟩
    have hl' : ∀ i, (matvec Ci (vs i)).length = B.length := fun i => by rw [length_matvec, r1]
    refine ⟨fun i => matvec Ci (vs i), hl', fun i j => by rw [← cd _ _ (hl' i) (hl' j), c1 _ (r1 i), c1 _ (r1 j), r2], fun i => ?_⟩
    obtain ⟨w, hw, e1, e2⟩ := cH (matvec Ci (vs i)) (hl' i)
    rw [c1 _ (r1 i)] at e2
    have e3 := Except.ok.inj (e2.symm.trans (r3 i))
    change H_on_vec _ _ _ _ _ _ _ = _
    rw [e1, ← c2 w hw, e3, matvec_smul]

/-- `U` mixes the first `m` orbitals among themselves, and the others among themselves -/
def Apart (n m : ℕ) (U : ℕ → ℕ → ℝ) : Prop := ∀ p < n, ∀ q < n, U p q ≠ 0 → (p < m ↔ q < m)

theorem Apart.blocks {n m : ℕ} {U : ℕ → ℕ → ℝ} (h : Apart n m U) : Blocks ⟨n, aufbau n m⟩ U := by
  intro p hp q hq hU
  have := h p hp q hq hU
  rw [supp_aufbau, Finset.mem_range, Finset.mem_range]
  change p < n at hp
  change q < n at hq
  omega

theorem kept_of {n na nb t : ℕ} (h : (Apart n na Ua ∧ Apart n nb Ub) ∨ na + nb ≤ t) :
    Kept ⟨n, aufbau n na⟩ ⟨n, aufbau n nb⟩ (fun k l => k + l ≤ t) Ua Ub := by
  rcases h with ⟨h1, h2⟩ | h
  · exact .inl ⟨h1.blocks, h2.blocks⟩
  · refine .inr fun k l hk hl => ?_
    rw [supp_aufbau, Finset.card_range] at hk hl
    omega

/-- the eigenvalues of the Hamiltonian over the basis `B` do not depend on whether the integrals refer to the old orbitals or to those with the
coefficients `Ua`, `Ub` -/
def Invariant (n : ℕ) (Ua Ub : ℕ → ℕ → ℝ) (B : List Pair) : Prop :=
  ∀ (ha hb : ℕ → ℕ → ℝ) (Ia Ib Iabab : ℕ → ℕ → ℕ → ℕ → ℝ), (∀ p q r s, Ia p q r s = Ia q p s r) → (∀ p q r s, Ib p q r s = Ib q p s r) →
    ∀ (k : ℕ) (es : Fin k → ℝ),
    (∃ vs, Roots B.length (fun v => H_on_vec B v
      (rot1 (Finset.range n) Ua (fun p q => Ua q p) ha) (rot1 (Finset.range n) Ub (fun p q => Ub q p) hb)
      (rot2 (Finset.range n) Ua (fun p q => Ua q p) Ia) (rot2 (Finset.range n) Ub (fun p q => Ub q p) Ib)
      (rotab n n Ua (fun p q => Ua q p) Ub (fun p q => Ub q p) Iabab)) vs es) ↔
    ∃ vs, Roots B.length (fun v => H_on_vec B v ha hb Ia Ib Iabab) vs es

/-- C77: CIS energies (with or without the reference) depend only on the spaces of occupied and of empty orbitals. -/
theorem C77_ucis {n na nb : ℕ} (gs : Bool) (h1 : Orthogonal n Ua) (h2 : Orthogonal n Ub) (h : Apart n na Ua ∧ Apart n nb Ub) :
    ∃ B, ucis_basis n na nb gs = .ok B ∧ Invariant n Ua Ub B := by
  obtain ⟨B, hB, e⟩ := C33_ucis n na nb gs
  exact ⟨B, hB, fun ha hb Ia Ib Iabab va vb k es => C77_spectrum e h1 h2 (.inl ⟨h.1.blocks, h.2.blocks⟩) ha hb Ia Ib Iabab va vb es⟩

/-- C77: so do CISD energies; with at most two electrons they do not depend on the choice of orbitals at all. -/
theorem C77_ucisd {n na nb : ℕ} (h1 : Orthogonal n Ua) (h2 : Orthogonal n Ub) (h : (Apart n na Ua ∧ Apart n nb Ub) ∨ na + nb ≤ 2) :
    ∃ B, ucisd_basis n na nb = .ok B ∧ Invariant n Ua Ub B := by
  obtain ⟨B, hB, e⟩ := C33_ucisd n na nb
  exact ⟨B, hB, fun ha hb Ia Ib Iabab va vb k es => C77_spectrum e h1 h2 (kept_of h) ha hb Ia Ib Iabab va vb es⟩

/-- C77: the same for CISDT, and at most three electrons. -/
theorem C77_ucisdt {n na nb : ℕ} (h1 : Orthogonal n Ua) (h2 : Orthogonal n Ub) (h : (Apart n na Ua ∧ Apart n nb Ub) ∨ na + nb ≤ 3) :
    ∃ B, ucisdt_basis n na nb = .ok B ∧ Invariant n Ua Ub B := by
  obtain ⟨B, hB, e⟩ := C33_ucisdt n na nb
  exact ⟨B, hB, fun ha hb Ia Ib Iabab va vb k es => C77_spectrum e h1 h2 (kept_of h) ha hb Ia Ib Iabab va vb es⟩

/-- C77: the same for CISDTQ and at most four electrons, whenever `ucisdtq_basis` lists every determinant once. -/
theorem C77_ucisdtq {n na nb : ℕ} (ca : na < 4 ∨ n < na + 4) (cb : nb < 4 ∨ n < nb + 4) (h1 : Orthogonal n Ua) (h2 : Orthogonal n Ub)
    (h : (Apart n na Ua ∧ Apart n nb Ub) ∨ na + nb ≤ 4) : ∃ B, ucisdtq_basis n na nb = .ok B ∧ Invariant n Ua Ub B := by
  obtain ⟨B, hB, e⟩ := C33_ucisdtq ca cb
  exact ⟨B, hB, fun ha hb Ia Ib Iabab va vb k es => C77_spectrum e h1 h2 (kept_of h) ha hb Ia Ib Iabab va vb es⟩

/-! ### a concrete case: a rotation by an angle with cosine 3/5 of the last two of four orbitals, and one of all with the first -/

/-- rotation of the orbitals `x` and `y` -/
noncomputable def givens (x y p q : ℕ) : ℝ :=
  if p = x ∧ q = x ∨ p = y ∧ q = y then 3 / 5 else if p = x ∧ q = y then -4 / 5 else if p = y ∧ q = x then 4 / 5 else if p = q then 1 else 0

theorem givens_orthogonal : Orthogonal 4 (givens 2 3) ∧ Orthogonal 4 (givens 0 3) := by
  constructor <;>
  · intro p hp q hq
    have hp := Finset.mem_range.1 hp
    have hq := Finset.mem_range.1 hq
    interval_cases p <;> interval_cases q <;> norm_num [Finset.sum_range_succ, givens]

theorem givens_apart : Apart 4 2 (givens 2 3) := by
  intro p hp q hq
  interval_cases p <;> interval_cases q <;> norm_num [givens]

example := C77_ucisd givens_orthogonal.1 givens_orthogonal.1 (.inl ⟨givens_apart, givens_apart⟩)
example := C77_ucisd (na := 1) (nb := 1) givens_orthogonal.2 givens_orthogonal.2 (.inr (by norm_num))
example := C77_ucis false givens_orthogonal.1 givens_orthogonal.1 ⟨givens_apart, givens_apart⟩

/-- the rotation changes integrals -/
example : rot1 (Finset.range 4) (givens 2 3) (fun p q => givens 2 3 q p) (fun p q => if p = q then (p : ℝ) else 0) 2 3 = 12 / 25 := by
  norm_num [rot1, Finset.sum_range_succ, givens]

end real

end CI
