/-
Spin of the eigenvectors of the CI Hamiltonian with restricted integrals.
-/
import Verif.Props.CIRot
import Verif.Props.FockSpin
import Mathlib.Analysis.InnerProductSpace.JointEigenspace

namespace CI
open Fock
variable {K : Type} [Field K]

/-! ### the vectors of Fock space that lists of numbers stand for -/

/-- the vector with the coefficients `v` of the determinants `L` -/
def state (L : List (Finset SO)) (v : List K) : Finset SO → K := ∑ j ∈ Finset.range L.length, v.getD j 0 • det (L.getD j ∅)

/-- the determinant of an entry of a basis of pairs -/
def pdet (x : Pair) : Finset SO :=
  match x with
  | (some a, some b) => psupp (a, b)
  | _ => ∅

/-- the vector with the coefficients `v` in the basis `B` of pairs -/
def wave (B : List Pair) (v : List K) : Finset SO → K := state (B.map pdet) v

/-- a matrix with `N` rows acting on a list -/
def rectvec (N : ℕ) (M : ℕ → ℕ → K) (v : List K) : List K := (List.range N).map fun i => ∑ j ∈ Finset.range v.length, M i j * v.getD j 0

theorem length_rectvec (N : ℕ) (M : ℕ → ℕ → K) (v : List K) : (rectvec N M v).length = N := by simp [rectvec]
theorem getD_rectvec (N : ℕ) (M : ℕ → ℕ → K) (v : List K) {i : ℕ} (hi : i < N) :
    (rectvec N M v).getD i 0 = ∑ j ∈ Finset.range v.length, M i j * v.getD j 0 := by simp [rectvec, hi]
theorem matvec_eq (M : ℕ → ℕ → K) (v : List K) : matvec M v = rectvec v.length M v := rfl

/-- the matrix of an operator between two lists of determinants -/
def mat (X : Module.End K (Finset SO → K)) (L' L : List (Finset SO)) (i j : ℕ) : K := elt X (L'.getD i ∅) (L.getD j ∅)

section lists
variable {n : ℕ} {R : Finset ℕ} {Q Q' : ℕ → ℕ → ℕ → Prop} {L L' : List (Finset SO)}

/-- `L` lists the determinants of `A` and `B` with `Q |A| |B| (number of electrons outside R)` once each -/
def Lists (n : ℕ) (R : Finset ℕ) (Q : ℕ → ℕ → ℕ → Prop) (L : List (Finset SO)) : Prop :=
  L.Nodup ∧ ∀ T, T ∈ L ↔ ∃ A ⊆ Finset.range n, ∃ B ⊆ Finset.range n, T = emb A B ∧ Q A.card B.card ((A \ R).card + (B \ R).card)

theorem getD_inj {i j : ℕ} (hL : L.Nodup) (hi : i < L.length) (hj : j < L.length) : L.getD i ∅ = L.getD j ∅ ↔ i = j := by
  simp only [List.getD_eq_getElem?_getD, List.getElem?_eq_getElem hi, List.getElem?_eq_getElem hj, Option.getD_some]
  exact hL.getElem_inj_iff

theorem state_getD (hL : L.Nodup) (v : List K) {i : ℕ} (hi : i < L.length) : state L v (L.getD i ∅) = v.getD i 0 := by
  rw [state, Finset.sum_apply, Finset.sum_eq_single i]
  · rw [Pi.smul_apply, det_apply, if_pos rfl, smul_eq_mul, mul_one]
  · intro j hj hne
    rw [Pi.smul_apply, det_apply, if_neg, smul_zero]
    rw [getD_inj hL hi (Finset.mem_range.1 hj)]
    exact hne.symm
  · intro h; exact absurd (Finset.mem_range.2 hi) h

theorem state_notMem {T : Finset SO} (v : List K) (hT : T ∉ L) : state L v T = 0 := by
  rw [state, Finset.sum_apply]
  refine Finset.sum_eq_zero fun j hj => ?_
  rw [Pi.smul_apply, det_apply, if_neg, smul_zero]
  rintro rfl
  exact hT (getD_mem (Finset.mem_range.1 hj))

theorem state_within (hL : Lists n R Q L) (v : List K) : Within n R Q (state L v) := fun T hT => by
  by_contra h
  exact hT (state_notMem v fun hm => h ((hL.2 T).1 hm))

theorem apply_state (X : Module.End K (Finset SO → K)) {v : List K} (hv : v.length = L.length) (i : ℕ) :
    X (state L v) (L'.getD i ∅) = ∑ j ∈ Finset.range v.length, mat X L' L i j * v.getD j 0 := by
  rw [state, map_sum, Finset.sum_apply, hv]
  refine Finset.sum_congr rfl fun j _ => ?_
  rw [map_smul, Pi.smul_apply, smul_eq_mul, mul_comm]; rfl

theorem mem_getD {T : Finset SO} (h : T ∈ L) : ∃ i < L.length, T = L.getD i ∅ := by
  obtain ⟨i, hi, rfl⟩ := List.getElem_of_mem h
  exact ⟨i, hi, by simp [hi]⟩

/-- an operator from the span of `L` to that of `L'` acts through its matrix -/
theorem state_rectvec (hL : Lists n R Q L) (hL' : Lists n R Q' L') {X : Module.End K (Finset SO → K)}
    (hX : ∀ ψ, Within n R Q ψ → Within n R Q' (X ψ)) {v : List K} (hv : v.length = L.length) :
    state L' (rectvec L'.length (mat X L' L) v) = X (state L v) := by
  funext T
  by_cases hT : T ∈ L'
  · obtain ⟨i, hi, rfl⟩ := mem_getD hT
    rw [state_getD hL'.1 _ hi, getD_rectvec _ _ _ hi, apply_state X hv]
  · rw [state_notMem _ hT]
    by_contra h
    exact hT ((hL'.2 T).2 (hX _ (state_within hL v) T (Ne.symm h)))

/-- determinants of orbitals of `O` only -/
def Below (O : Finset SO) (ψ : Finset SO → K) : Prop := ∀ T, ψ T ≠ 0 → T ⊆ O

theorem Below.cre {O : Finset SO} {ψ : Finset SO → K} (h : Below O ψ) {p : SO} (hp : p ∈ O) : Below O (cre p ψ) := fun T hT => by
  rw [cre_apply] at hT
  split_ifs at hT with h1
  · have := h _ (right_ne_zero_of_mul hT)
    rw [← Finset.insert_erase h1]
    exact Finset.insert_subset hp this
  · exact absurd rfl hT
theorem Below.ann {O : Finset SO} {ψ : Finset SO → K} (h : Below O ψ) (p : SO) : Below O (ann p ψ) := fun T hT => by
  rw [ann_apply] at hT
  split_ifs at hT with h1
  · exact absurd rfl hT
  · exact (Finset.subset_insert _ _).trans (h _ (right_ne_zero_of_mul hT))
theorem Below.add {O : Finset SO} {ψ φ : Finset SO → K} (h : Below O ψ) (h' : Below O φ) : Below O (ψ + φ) := fun T hT => by
  by_cases h0 : ψ T = 0
  · exact h' T (by rw [Pi.add_apply, h0, zero_add] at hT; exact hT)
  · exact h T h0
theorem Below.smul {O : Finset SO} {ψ : Finset SO → K} (h : Below O ψ) (c : K) : Below O (c • ψ) := fun T hT =>
  h T (right_ne_zero_of_mul (by rw [Pi.smul_apply, smul_eq_mul] at hT; exact hT))
theorem Below.sum {O : Finset SO} {ι : Type} (s : Finset ι) (f : ι → Finset SO → K) (h : ∀ i ∈ s, Below O (f i)) : Below O (∑ i ∈ s, f i) := by
  intro T hT
  rw [Finset.sum_apply] at hT
  obtain ⟨i, hi, hne⟩ := Finset.exists_ne_zero_of_sum_ne_zero hT
  exact h i hi T hne

theorem Below.ham {O : Finset SO} {ψ : Finset SO → K} (h : Below O ψ) (f : SO → SO → K) (V : SO → SO → SO → SO → K) : Below O (ham O f V ψ) := by
  rw [Fock.ham, LinearMap.add_apply, LinearMap.smul_apply]
  refine Below.add ?_ (Below.smul ?_ _)
  · rw [LinearMap.sum_apply]
    refine Below.sum _ _ fun p hp => ?_
    rw [LinearMap.sum_apply]
    refine Below.sum _ _ fun q _ => ?_
    rw [LinearMap.smul_apply, Module.End.mul_apply]
    exact ((h.ann q).cre hp).smul _
  · rw [LinearMap.sum_apply]
    refine Below.sum _ _ fun p hp => ?_
    rw [LinearMap.sum_apply]
    refine Below.sum _ _ fun q hq => ?_
    rw [LinearMap.sum_apply]
    refine Below.sum _ _ fun r _ => ?_
    rw [LinearMap.sum_apply]
    refine Below.sum _ _ fun s _ => ?_
    rw [LinearMap.smul_apply, Module.End.mul_apply, Module.End.mul_apply, Module.End.mul_apply]
    exact ((((h.ann r).ann s).cre hq).cre hp).smul _

theorem Within.below {ψ : Finset SO → K} (h : Within n R Q ψ) : Below (emb (Finset.range n) (Finset.range n)) ψ := fun T hT => by
  obtain ⟨A, hA, B, hB, rfl, -⟩ := h T hT
  exact emb_subset hA hB

/-- An operator that commutes with the Hamiltonian and takes the span of `L` to that of `L'`, and what is outside of the first to what is outside
of the second, intertwines the two matrices of the Hamiltonian. -/
theorem intertwine (hL : Lists n R Q L) (hL' : Lists n R Q' L') {X : Module.End K (Finset SO → K)} (f : SO → SO → K) (V : SO → SO → SO → SO → K)
    (hX : ∀ ψ, Within n R Q ψ → Within n R Q' (X ψ))
    (hX' : ∀ ψ, Within n R (fun a b t => ¬ Q a b t) ψ → Within n R (fun a b t => ¬ Q' a b t) (X ψ))
    (hc : X * ham (emb (Finset.range n) (Finset.range n)) f V = ham (emb (Finset.range n) (Finset.range n)) f V * X)
    {v : List K} (hv : v.length = L.length) :
    matvec (mat (ham (emb (Finset.range n) (Finset.range n)) f V) L' L') (rectvec L'.length (mat X L' L) v)
      = rectvec L'.length (mat X L' L) (matvec (mat (ham (emb (Finset.range n) (Finset.range n)) f V) L L) v) := by
  set H := ham (emb (Finset.range n) (Finset.range n)) f V with hH
  rw [matvec_eq, length_rectvec]
  refine List.map_congr_left fun i hi => ?_
  have hi := List.mem_range.1 hi
  rw [← apply_state H (by rw [length_rectvec]) i, state_rectvec hL hL' hX hv, ← apply_state X (by rw [length_matvec, hv]) i]
  have e : H (X (state L v)) = X (H (state L v)) := by
    rw [← Module.End.mul_apply, ← hc, Module.End.mul_apply]
  rw [e, ← sub_eq_zero, ← Pi.sub_apply, ← map_sub]
  have hb := (state_within hL v).below.ham f V
  have out : Within n R (fun a b t => ¬ Q a b t) (H (state L v) - state L (matvec (mat H L L) v)) := by
    intro T hT
    have hn : T ∉ L := fun hm => by
      obtain ⟨j, hj, rfl⟩ := mem_getD hm
      rw [Pi.sub_apply, state_getD hL.1 _ hj, apply_state H hv, getD_matvec _ _ (by rw [hv]; exact hj), sub_self] at hT
      exact hT rfl
    rw [Pi.sub_apply, state_notMem _ hn, sub_zero] at hT
    obtain ⟨A, hA, B, hB, rfl⟩ := subset_emb (hb T hT)
    exact ⟨A, hA, B, hB, rfl, fun hq => hn ((hL.2 _).2 ⟨A, hA, B, hB, rfl, hq⟩)⟩
  by_contra hne
  obtain ⟨A, hA, B, hB, e1, hq⟩ := hX' _ out _ hne
  obtain ⟨A', hA', B', hB', e2, hq'⟩ := (hL'.2 _).1 (getD_mem hi)
  obtain ⟨rfl, rfl⟩ := emb_inj.1 (e1.symm.trans e2)
  exact hq hq'

theorem within_expand {ψ : Finset SO → K} (h : Within n R Q ψ) :
    ψ = ∑ T ∈ (emb (Finset.range n) (Finset.range n)).powerset, ψ T • det T := by
  funext B
  simp only [Finset.sum_apply, Pi.smul_apply, smul_eq_mul, det_apply, mul_ite, mul_one, mul_zero]
  rw [Finset.sum_ite_eq]
  split_ifs with h1
  · rfl
  · by_contra hB; exact h1 (Finset.mem_powerset.2 (h.below B hB))

theorem elt_ssq_symm (hL : Lists n R Q L) {S T : Finset SO} (hS : S ∈ L) (hT : T ∈ L) : elt (ssq K n) S T = elt (ssq K n) T S := by
  have wd : ∀ T ∈ L, Within n R Q (det (K := K) T) := by
    intro T hT U hU
    rw [det_apply] at hU
    split_ifs at hU with h
    · rw [h]; exact (hL.2 T).1 hT
    · exact absurd rfl hU
  have half : ∀ S T, T ∈ L → sminus K n (splus K n (det T)) S
      = ∑ U ∈ (emb (Finset.range n) (Finset.range n)).powerset, elt (splus K n) U T * elt (splus K n) U S := by
    intro S T hT
    rw [within_expand (within_splus (wd T hT)), map_sum, Finset.sum_apply]
    refine Finset.sum_congr rfl fun U _ => ?_
    rw [map_smul, Pi.smul_apply, smul_eq_mul, elt_splus n U S]; rfl
  have dg : ∀ S T, T ∈ L → (sz K n * sz K n + sz K n) (det T) S = (sz K n * sz K n + sz K n) (det S) T := by
    intro S T hT
    by_cases h : S = T
    · rw [h]
    · have z : ∀ S T : Finset SO, S ≠ T → (sz K n * sz K n + sz K n) (det T) S = 0 := by
        intro S T h
        rw [LinearMap.add_apply, Module.End.mul_apply, Pi.add_apply]
        have h0 : det (K := K) T S = 0 := by rw [det_apply, if_neg h]
        have h1 : sz K n (det T) S = 0 := by by_contra hh; exact sub_of_sz hh h0
        have h2 : sz K n (sz K n (det T)) S = 0 := by by_contra hh; exact sub_of_sz hh h1
        rw [h1, h2, add_zero]
      rw [z S T h, z T S (Ne.symm h)]
  have sp : ∀ S T, ssq K n (det T) S = sminus K n (splus K n (det T)) S + (sz K n * sz K n + sz K n) (det T) S := fun S T => by
    rw [ssq, add_assoc]; rfl
  rw [elt, elt, sp, sp, dg S T hT, half S T hT, half T S hS]
  congr 1
  exact Finset.sum_congr rfl fun U _ => mul_comm _ _

end lists

/-! ### bases of the code -/

/-- The excitations listed form a set that the spin operators keep: either both references occupy the same orbitals and the excitations are
selected by the total number of excited electrons, or all determinants are listed. -/
def SpinComplete (refa refb : Dstring) (P : ℕ → ℕ → Prop) : Prop :=
  (supp refa = supp refb ∧ ∃ P' : ℕ → Prop, ∀ k l, P k l ↔ P' (k + l)) ∨ ∀ k l, k ≤ (supp refa).card → l ≤ (supp refb).card → P k l

section data
variable {B : List Pair} {refa refb : Dstring} {P : ℕ → ℕ → Prop}

theorem card_swap (R X : Finset ℕ) : (R \ X).card = (X \ R).card ↔ X.card = R.card := by
  have i1 := Finset.card_sdiff_add_card_inter R X
  have i2 := Finset.card_sdiff_add_card_inter X R
  rw [Finset.inter_comm] at i2
  omega

theorem mem_data (he : EnumeratesU B refa refb P) (hn : refa.n = refb.n) : (B.map pdet).Nodup ∧
    (∀ T ∈ B.map pdet, ∃ A ⊆ Finset.range refa.n, ∃ C ⊆ Finset.range refa.n, T = emb A C) ∧
    ∀ A ⊆ Finset.range refa.n, ∀ C ⊆ Finset.range refa.n, (emb A C ∈ B.map pdet ↔
      A.card = (supp refa).card ∧ C.card = (supp refb).card ∧ P (A \ supp refa).card (C \ supp refb).card) := by
  obtain ⟨D, hB⟩ := he.basis
  have hm : ∀ d, d ∈ D ↔ ∃ k l, Excitation refa d.1 k ∧ Excitation refb d.2 l ∧ P k l := fun d => by
    have h1 : d ∈ D ↔ (some d.1, some d.2) ∈ B := by
      rw [hB.1, List.mem_map]
      refine ⟨fun h => ⟨d, h, rfl⟩, ?_⟩
      rintro ⟨d', h, e⟩
      simp only [Prod.mk.injEq, Option.some.injEq] at e
      rwa [← Prod.ext e.1 e.2]
    rw [h1, he.2]
    constructor
    · rintro ⟨da, db, k, l, e, h2⟩
      simp only [Prod.mk.injEq, Option.some.injEq] at e
      obtain ⟨rfl, rfl⟩ := e
      exact ⟨k, l, h2⟩
    · rintro ⟨k, l, h2⟩
      exact ⟨d.1, d.2, k, l, rfl, h2⟩
  have eD : B.map pdet = D.map psupp := by
    rw [hB.1, List.map_map]; rfl
  rw [eD]
  have low : ∀ T ∈ D.map psupp, ∃ A ⊆ Finset.range refa.n, ∃ C ⊆ Finset.range refa.n, T = emb A C := by
    intro T hT
    obtain ⟨d, hd, rfl⟩ := List.mem_map.1 hT
    obtain ⟨_, _, a1, a2, -⟩ := (hm d).1 hd
    exact ⟨_, a1.2.1 ▸ supp_subset d.1, _, hn ▸ a2.2.1 ▸ supp_subset d.2, rfl⟩
  refine ⟨hB.nodup, low, fun A hA C hC => ?_⟩
  rw [mem_list hm hA (hn ▸ hC), card_swap, card_swap]

theorem lists_full (he : EnumeratesU B refa refb P) (hn : refa.n = refb.n) (hP : ∀ k l, k ≤ (supp refa).card → l ≤ (supp refb).card → P k l) :
    Lists refa.n ∅ (fun a b _ => a = (supp refa).card ∧ b = (supp refb).card) (B.map pdet) := by
  obtain ⟨h0, low, hm⟩ := mem_data he hn
  refine ⟨h0, fun T => ⟨fun hT => ?_, ?_⟩⟩
  · obtain ⟨A, hA, C, hC, rfl⟩ := low T hT
    obtain ⟨h1, h2, h3⟩ := (hm A hA C hC).1 hT
    exact ⟨A, hA, C, hC, rfl, h1, h2⟩
  · rintro ⟨A, hA, C, hC, rfl, h1, h2⟩
    have q1 : ∀ R X : Finset ℕ, (R \ X).card ≤ R.card := fun R X => Finset.card_le_card Finset.sdiff_subset
    exact (hm A hA C hC).2 ⟨h1, h2, hP _ _ ((card_swap (supp refa) A).2 h1 ▸ q1 _ _) ((card_swap (supp refb) C).2 h2 ▸ q1 _ _)⟩

theorem lists_of (he : EnumeratesU B refa refb P) (hn : refa.n = refb.n) (hs : SpinComplete refa refb P) :
    ∃ R Q, Lists refa.n R Q (B.map pdet) ∧ (∀ a b t, Q a b t → a = (supp refa).card ∧ b = (supp refb).card) := by
  rcases hs with ⟨hr, P', hP⟩ | hP
  · obtain ⟨h0, low, hm⟩ := mem_data he hn
    refine ⟨supp refa, fun a b t => a = (supp refa).card ∧ b = (supp refb).card ∧ P' t, ⟨h0, fun T => ⟨fun hT => ?_, ?_⟩⟩, fun a b t h => ⟨h.1, h.2.1⟩⟩
    · obtain ⟨A, hA, C, hC, rfl⟩ := low T hT
      obtain ⟨h1, h2, h3⟩ := (hm A hA C hC).1 hT
      refine ⟨A, hA, C, hC, rfl, h1, h2, ?_⟩
      rw [hP] at h3
      rw [hr] at h3 ⊢; exact h3
    · rintro ⟨A, hA, C, hC, rfl, h1, h2, h3⟩
      refine (hm A hA C hC).2 ⟨h1, h2, ?_⟩
      rw [hP]
      rw [hr] at h3 ⊢; exact h3
  · exact ⟨∅, _, lists_full he hn hP, fun a b t h => h⟩

/-- `H_on_vec` is the matrix of the Hamiltonian over the determinants of the basis -/
theorem H_mat [CharZero K] (he : EnumeratesU B refa refb P) (hn : refa.n = refb.n) (h : ℕ → ℕ → K) {I : ℕ → ℕ → ℕ → ℕ → K} (v : ∀ p q r s, I p q r s = I q p s r)
    {x : List K} (hx : x.length = B.length) :
    H_on_vec B x h h I I I = .ok (matvec (mat (spinHam refa.n refa.n h h I I I) (B.map pdet) (B.map pdet)) x) := by
  obtain ⟨D, hB⟩ := he.basis
  have hN : ∀ d ∈ D, ∀ e ∈ D, (supp d.1).card = (supp e.1).card ∧ (supp d.2).card = (supp e.2).card := by
    have hm : ∀ d ∈ D, (supp d.1).card = (supp refa).card ∧ (supp d.2).card = (supp refb).card := by
      intro d hd
      have : (some d.1, some d.2) ∈ B := by rw [hB.1]; exact List.mem_map.2 ⟨d, hd, rfl⟩
      obtain ⟨da, db, k, l, e, h2, h3, -⟩ := (he.2 _).1 this
      simp only [Prod.mk.injEq, Option.some.injEq] at e
      obtain ⟨rfl, rfl⟩ := e
      exact ⟨h2.card, h3.card⟩
    exact fun d hd e he => ⟨(hm d hd).1.trans (hm e he).1.symm, (hm d hd).2.trans (hm e he).2.symm⟩
  rw [C38_H hB hx h h I I I hN v v, ← hn]
  have eD : B.map pdet = D.map psupp := by
    rw [hB.1, List.map_map]; rfl
  rw [eD]
  rfl

end data

/-! ### the theorems -/

section field
variable [CharZero K] {B : List Pair} {refa refb : Dstring} {P : ℕ → ℕ → Prop}

/-- C78: the total spin maps the space of the listed determinants to itself and commutes with `H_on_vec` for restricted integrals. -/
theorem C78_commute (he : EnumeratesU B refa refb P) (hn : refa.n = refb.n) (hs : SpinComplete refa refb P) (h : ℕ → ℕ → K)
    {I : ℕ → ℕ → ℕ → ℕ → K} (v : ∀ p q r s, I p q r s = I q p s r) :
    ∃ S : List K → List K, (∀ x, x.length = B.length → (S x).length = B.length ∧ wave B (S x) = ssq K refa.n (wave B x)) ∧
      ∀ x, x.length = B.length → ∃ y, y.length = B.length ∧ H_on_vec B x h h I I I = .ok y ∧ H_on_vec B (S x) h h I I I = .ok (S y) := by
  obtain ⟨R, Q, hL, -⟩ := lists_of he hn hs
  have hl : (B.map pdet).length = B.length := List.length_map _
  refine ⟨rectvec (B.map pdet).length (mat (ssq K refa.n) (B.map pdet) (B.map pdet)), fun x hx => ⟨by rw [length_rectvec, hl], ?_⟩, fun x hx => ?_⟩
  · exact state_rectvec hL hL (fun ψ => within_ssq) (hx.trans hl.symm)
  · refine ⟨_, by rw [length_matvec, hx], H_mat he hn h v hx, ?_⟩
    rw [H_mat he hn h v (by rw [length_rectvec, hl])]
    congr 1
    exact intertwine hL hL (spinH h h) (spinV I I I) (fun ψ => within_ssq) (fun ψ => within_ssq) (ssq_ham h v) (hx.trans hl.symm)

theorem wave_smul (B : List Pair) (c : K) (x : List K) : wave B (x.map (c * ·)) = c • wave B x := by
  rw [wave, state, wave, state, Finset.smul_sum]
  refine Finset.sum_congr rfl fun j _ => ?_
  rw [smul_smul]
  congr 1
  by_cases hj : j < x.length <;> simp [hj]

theorem wave_inj {x y : List K} (hL : (B.map pdet).Nodup) (hx : x.length = B.length) (hy : y.length = B.length) (hw : wave B x = wave B y) : x = y := by
  apply List.ext_getElem (hx.trans hy.symm)
  intro i h1 h2
  have hi : i < (B.map pdet).length := by rw [List.length_map, ← hx]; exact h1
  have := congrFun hw ((B.map pdet).getD i ∅)
  rw [wave, wave, state_getD hL _ hi, state_getD hL _ hi] at this
  simpa [h1, h2] using this

theorem wave_ne {x : List K} (hL : (B.map pdet).Nodup) (hx : x.length = B.length) (h0 : ∃ c ∈ x, c ≠ 0) : wave B x ≠ 0 := by
  intro hw
  obtain ⟨c, hc, hne⟩ := h0
  obtain ⟨i, hi, rfl⟩ := List.getElem_of_mem hc
  have := congrFun hw ((B.map pdet).getD i ∅)
  rw [wave, state_getD hL _ (by rw [List.length_map, ← hx]; exact hi)] at this
  exact hne (by simpa [hi] using this)

theorem sector_of {n a b : ℕ} {R : Finset ℕ} {Q : ℕ → ℕ → ℕ → Prop} (hL : Lists n R Q (B.map pdet)) (hQ : ∀ x y t, Q x y t → x = a ∧ y = b) (x : List K) :
    Sector n a b (wave B x) := fun T hT => by
  obtain ⟨A, hA, C, hC, e, q⟩ := state_within hL x T hT
  exact ⟨A, hA, C, hC, e, hQ _ _ _ q⟩

/-- C78: an eigenvector whose eigenvalue is not degenerate has a definite spin: it is an eigenvector of `S²` with a value `s (s + 1)` where `s` is
half the difference of the numbers of alpha and beta electrons, or larger by an integer. -/
theorem C78_nondegenerate (he : EnumeratesU B refa refb P) (hn : refa.n = refb.n) (hs : SpinComplete refa refb P) (h : ℕ → ℕ → K)
    {I : ℕ → ℕ → ℕ → ℕ → K} (v : ∀ p q r s, I p q r s = I q p s r) {x : List K} {E : K} (hx : x.length = B.length) (h0 : ∃ c ∈ x, c ≠ 0)
    (hE : H_on_vec B x h h I I I = .ok (x.map (E * ·)))
    (hu : ∀ y, y.length = B.length → H_on_vec B y h h I I I = .ok (y.map (E * ·)) → ∃ c, y = x.map (c * ·)) :
    ∃ k ≤ (supp refb).card, (supp refb).card ≤ (supp refa).card + 2 * k ∧ ∃ s : K, s = 1 / 2 * (((supp refa).card : K) - (supp refb).card) + k ∧
      ssq K refa.n (wave B x) = (s * (s + 1)) • wave B x := by
  obtain ⟨S, h1, h2⟩ := C78_commute he hn hs h v
  obtain ⟨R, Q, hL, hQ⟩ := lists_of he hn hs
  obtain ⟨y, hy, e1, e2⟩ := h2 x hx
  obtain rfl := Except.ok.inj (e1.symm.trans hE)
  have e3 : S (x.map (E * ·)) = (S x).map (E * ·) := by
    refine wave_inj hL.1 (h1 _ (by rw [List.length_map, hx])).1 (by rw [List.length_map, (h1 x hx).1]) ?_
    rw [(h1 _ (by rw [List.length_map, hx])).2, wave_smul, map_smul, wave_smul, (h1 x hx).2]
  rw [e3] at e2
  obtain ⟨c, hc⟩ := hu (S x) (h1 x hx).1 e2
  have e4 : ssq K refa.n (wave B x) = c • wave B x := by rw [← (h1 x hx).2, hc, wave_smul]
  obtain ⟨k, k1, k2, e5⟩ := spin_values (sector_of hL hQ x) (wave_ne hL.1 hx h0) e4
  exact ⟨k, k1, k2, _, rfl, by rw [e4, e5]⟩

/-! ### multiplets -/

/-- C78: lowering the spin takes the full CI problem with one more alpha and one less beta electron into the given one: if there are then more alpha
than beta electrons, an injective map takes eigenvectors to eigenvectors with the same energies. -/
theorem C78_multiplet {B' : List Pair} {refa' refb' : Dstring} {P' : ℕ → ℕ → Prop} (he : EnumeratesU B refa refb P) (hn : refa.n = refb.n)
    (hP : ∀ k l, k ≤ (supp refa).card → l ≤ (supp refb).card → P k l) (he' : EnumeratesU B' refa' refb' P') (hn' : refa'.n = refb'.n)
    (hP' : ∀ k l, k ≤ (supp refa').card → l ≤ (supp refb').card → P' k l) (hnn : refa'.n = refa.n)
    (ca : (supp refa').card = (supp refa).card + 1) (cb : (supp refb').card + 1 = (supp refb).card) (hlt : (supp refb').card < (supp refa').card)
    (h : ℕ → ℕ → K) {I : ℕ → ℕ → ℕ → ℕ → K} (v : ∀ p q r s, I p q r s = I q p s r) :
    ∃ C : ℕ → ℕ → K, (∀ x, x.length = B'.length → (∃ c ∈ x, c ≠ 0) → ∃ c ∈ rectvec B.length C x, c ≠ 0) ∧
      (∀ x, x.length = B'.length → wave B (rectvec B.length C x) = sminus K refa.n (wave B' x)) ∧
      ∀ x, x.length = B'.length → ∃ y, y.length = B'.length ∧ H_on_vec B' x h h I I I = .ok y ∧
        H_on_vec B (rectvec B.length C x) h h I I I = .ok (rectvec B.length C y) := by
  have hL := lists_full he hn hP
  have hL' := lists_full he' hn' hP'
  rw [hnn] at hL'
  have hl : (B.map pdet).length = B.length := List.length_map _
  have hl' : (B'.map pdet).length = B'.length := List.length_map _
  have w1 : ∀ ψ : Finset SO → K, Within refa.n ∅ (fun a b _ => a = (supp refa').card ∧ b = (supp refb').card) ψ →
      Within refa.n ∅ (fun a b _ => a = (supp refa).card ∧ b = (supp refb).card) (sminus K refa.n ψ) := fun ψ hψ =>
    (within_sminus hψ).mono fun a b t ⟨b', e1, e2, e3⟩ => ⟨by omega, by omega⟩
  have w2 : ∀ ψ : Finset SO → K, Within refa.n ∅ (fun a b _ => ¬ (a = (supp refa').card ∧ b = (supp refb').card)) ψ →
      Within refa.n ∅ (fun a b _ => ¬ (a = (supp refa).card ∧ b = (supp refb).card)) (sminus K refa.n ψ) := fun ψ hψ =>
    (within_sminus hψ).mono fun a b t ⟨b', e1, e2⟩ => by omega
  have ew : ∀ x, x.length = B'.length → wave B (rectvec B.length (mat (sminus K refa.n) (B.map pdet) (B'.map pdet)) x) = sminus K refa.n (wave B' x) :=
    fun x hx => by
      have := state_rectvec hL' hL w1 (hx.trans hl'.symm)
      rw [hl] at this
      exact this
  refine ⟨mat (sminus K refa.n) (B.map pdet) (B'.map pdet), fun x hx h0 => ?_, ew, fun x hx => ?_⟩
  · by_contra hcon
    push Not at hcon
    have z : wave B (rectvec B.length (mat (sminus K refa.n) (B.map pdet) (B'.map pdet)) x) = 0 := by
      rw [wave, state]
      refine Finset.sum_eq_zero fun j hj => ?_
      rw [hl] at hj
      have hj' : j < (rectvec B.length (mat (sminus K refa.n) (B.map pdet) (B'.map pdet)) x).length := by
        rw [length_rectvec]; exact Finset.mem_range.1 hj
      rw [List.getD_eq_getElem?_getD, List.getElem?_eq_getElem hj', Option.getD_some, hcon _ (List.getElem_mem hj'), zero_smul]
    rw [ew x hx] at z
    exact wave_ne hL'.1 hx h0 (sminus_injective hlt (sector_of hL' (fun _ _ _ h => h) x) z)
  · refine ⟨_, by rw [length_matvec, hx], H_mat he' hn' h v hx, ?_⟩
    rw [H_mat he hn h v (by rw [length_rectvec]), hnn]
    congr 1
    have := intertwine hL' hL (spinH h h) (spinV I I I) w1 w2 (sminus_ham h v) (hx.trans hl'.symm)
    rw [hl] at this
    exact this

/-- C78: an energy of the problem with larger spin projection is an energy of the problem with the smaller one. -/
theorem C78_degenerate {B' : List Pair} {refa' refb' : Dstring} {P' : ℕ → ℕ → Prop} (he : EnumeratesU B refa refb P) (hn : refa.n = refb.n)
    (hP : ∀ k l, k ≤ (supp refa).card → l ≤ (supp refb).card → P k l) (he' : EnumeratesU B' refa' refb' P') (hn' : refa'.n = refb'.n)
    (hP' : ∀ k l, k ≤ (supp refa').card → l ≤ (supp refb').card → P' k l) (hnn : refa'.n = refa.n)
    (ca : (supp refa').card = (supp refa).card + 1) (cb : (supp refb').card + 1 = (supp refb).card) (hlt : (supp refb').card < (supp refa').card)
    (h : ℕ → ℕ → K) {I : ℕ → ℕ → ℕ → ℕ → K} (v : ∀ p q r s, I p q r s = I q p s r) {E : K}
    (hE : ∃ x, x.length = B'.length ∧ (∃ c ∈ x, c ≠ 0) ∧ H_on_vec B' x h h I I I = .ok (x.map (E * ·))) :
    ∃ x, x.length = B.length ∧ (∃ c ∈ x, c ≠ 0) ∧ H_on_vec B x h h I I I = .ok (x.map (E * ·)) := by
  obtain ⟨C, c1, c2, c3⟩ := C78_multiplet he hn hP he' hn' hP' hnn ca cb hlt h v
  obtain ⟨x, hx, h0, e⟩ := hE
  obtain ⟨y, hy, e1, e2⟩ := c3 x hx
  obtain rfl := Except.ok.inj (e1.symm.trans e)
  refine ⟨_, length_rectvec _ C x, c1 x hx h0, ?_⟩
  rw [e2]
  congr 1
  refine wave_inj (lists_full he hn hP).1 (length_rectvec _ _ _) (by rw [List.length_map, length_rectvec]) ?_
  rw [c2 _ hy, wave_smul, map_smul, wave_smul, c2 x hx]

end field

/-! ### complete sets of eigenvectors -/

theorem joint_basis {E : Type} [NormedAddCommGroup E] [InnerProductSpace ℝ E] [FiniteDimensional ℝ E] {N : ℕ} (hN : Module.finrank ℝ E = N)
    {X Y : E →ₗ[ℝ] E} (hX : X.IsSymmetric) (hY : Y.IsSymmetric) (hc : ∀ x, X (Y x) = Y (X x)) :
    ∃ (b : Fin N → E) (x y : Fin N → ℝ), Orthonormal ℝ b ∧ (∀ i, X (b i) = x i • b i) ∧ ∀ i, Y (b i) = y i • b i := by
  classical
  have inv : ∀ μ : ℝ, ∀ w ∈ Module.End.eigenspace X μ, Y w ∈ Module.End.eigenspace X μ := by
    intro μ w hw
    rw [Module.End.mem_eigenspace_iff] at hw ⊢
    rw [hc, hw, map_smul]
  have hr : ∀ μ : Module.End.Eigenvalues X, (Y.restrict (inv μ)).IsSymmetric := fun μ => hY.restrict_invariant (inv μ)
  let fam : ∀ μ : Module.End.Eigenvalues X, OrthonormalBasis (Fin (Module.finrank ℝ (Module.End.eigenspace X μ))) ℝ (Module.End.eigenspace X μ) :=
    fun μ => (hr μ).eigenvectorBasis rfl
  let b := hX.direct_sum_isInternal.collectedOrthonormalBasis hX.orthogonalFamily_eigenspaces' fam
  have hcard : Fintype.card (Σ μ : Module.End.Eigenvalues X, Fin (Module.finrank ℝ (Module.End.eigenspace X μ))) = N := by
    rw [← hN]; exact (Module.finrank_eq_card_basis b.toBasis).symm
  let e := Fintype.equivFinOfCardEq hcard
  refine ⟨fun i => b (e.symm i), fun i => (e.symm i).1, fun i => (hr (e.symm i).1).eigenvalues rfl (e.symm i).2,
    b.orthonormal.comp _ e.symm.injective, fun i => ?_, fun i => ?_⟩
  · have := hX.direct_sum_isInternal.collectedOrthonormalBasis_mem hX.orthogonalFamily_eigenspaces' fam (e.symm i)
    exact Module.End.mem_eigenspace_iff.1 this
  · have h1 : b (e.symm i) = (fam (e.symm i).1 (e.symm i).2 : E) := by
      simp [b, DirectSum.IsInternal.collectedOrthonormalBasis]
    have h2 := congrArg (Subtype.val) ((hr (e.symm i).1).apply_eigenvectorBasis rfl (e.symm i).2)
    change Y (b (e.symm i)) = _ • b (e.symm i)
    rw [h1]
    exact h2

section real
variable {B : List Pair} {refa refb : Dstring} {P : ℕ → ℕ → Prop}

/-- C78: for restricted integrals `H_on_vec` over a spin-complete basis has a complete set of orthonormal eigenvectors of definite spin: each is an
eigenvector of `S²` with a value `s (s + 1)`, where `s ≥ 0` exceeds half the difference of the numbers of electrons by an integer. -/
theorem C78_spin_states (he : EnumeratesU B refa refb P) (hn : refa.n = refb.n) (hs : SpinComplete refa refb P) {h : ℕ → ℕ → ℝ}
    {I : ℕ → ℕ → ℕ → ℕ → ℝ} (hS : SymU h h I I I) :
    ∃ (vs : Fin B.length → List ℝ) (es ss : Fin B.length → ℝ), Roots B.length (fun x => H_on_vec B x h h I I I) vs es ∧
      ∀ i, 0 ≤ ss i ∧ (∃ k : ℕ, k ≤ (supp refb).card ∧ ss i = 1 / 2 * (((supp refa).card : ℝ) - (supp refb).card) + k) ∧
        ssq ℝ refa.n (wave B (vs i)) = (ss i * (ss i + 1)) • wave B (vs i) := by
  obtain ⟨R, Q, hL, hQ⟩ := lists_of he hn hs
  have hl : (B.map pdet).length = B.length := List.length_map _
  set M := mat (ssq ℝ refa.n) (B.map pdet) (B.map pdet) with hM
  have hH := fun x (hx : List.length x = B.length) => H_mat he hn h hS.va hx
  set N := mat (spinHam refa.n refa.n h h I I I) (B.map pdet) (B.map pdet) with hN
  have s1 : (opM B.length M).IsSymmetric := opM_symm fun i j hi hj =>
    elt_ssq_symm hL (getD_mem (by rw [hl]; exact hi)) (getD_mem (by rw [hl]; exact hj))
  have s2 : (opM B.length N).IsSymmetric := opM_symm fun i j hi hj =>
    elt_ham_symm _ (fun p q => by
      rcases so_elim p with ⟨p, rfl⟩ | ⟨p, rfl⟩ <;> rcases so_elim q with ⟨q, rfl⟩ | ⟨q, rfl⟩ <;> first | rfl | exact hS.sa _ _)
      (spinV_herm hS.wa hS.wb hS.wab) _ _
  have hc : ∀ x, opM B.length N (opM B.length M x) = opM B.length M (opM B.length N x) := by
    intro x
    have hx : (List.ofFn fun i => x i).length = B.length := by simp
    have := intertwine hL hL (spinH h h) (spinV I I I) (fun ψ => within_ssq) (fun ψ => within_ssq) (ssq_ham h hS.va) (hx.trans hl.symm)
    have e1 : ∀ (Z : ℕ → ℕ → ℝ) (y : List ℝ), y.length = B.length → rectvec (B.map pdet).length Z y = matvec Z y := fun Z y hy => by
      rw [matvec_eq, hl, hy]
    rw [e1 _ _ hx, e1 _ _ (by rw [length_matvec, hx])] at this
    have e2 := congrArg (toV B.length) this
    rw [toV_matvec _ (by rw [length_matvec, hx]), toV_matvec _ hx, toV_matvec _ (by rw [length_matvec, hx]), toV_matvec _ hx, toV_ofFn] at e2
    exact e2
  obtain ⟨b, es, cs, ho, b1, b2⟩ := joint_basis (N := B.length) (by simp) s2 s1 hc
  have hlen : ∀ i, (List.ofFn fun j => b i j).length = B.length := fun i => by simp
  have hw : ∀ i, ssq ℝ refa.n (wave B (List.ofFn fun j => b i j)) = cs i • wave B (List.ofFn fun j => b i j) := by
    intro i
    rw [← wave_smul]
    have e1 : matvec M (List.ofFn fun j => b i j) = (List.ofFn fun j => b i j).map (cs i * ·) := by
      refine toV_injective (N := B.length) (by rw [length_matvec, hlen]) (by rw [List.length_map, hlen]) ?_
      rw [toV_matvec _ (hlen i), toV_map, toV_ofFn, b2]
    rw [← e1]
    refine (state_rectvec hL hL (fun ψ => within_ssq) ((hlen i).trans hl.symm)).symm.trans ?_
    rw [wave, matvec_eq, hlen, hl]
  have hne : ∀ i, ∃ c ∈ (List.ofFn fun j => b i j), c ≠ 0 := by
    intro i
    by_contra hcon
    push Not at hcon
    have : b i = 0 := by
      ext j
      exact hcon _ (by simp)
    exact ho.ne_zero i this
  have hv : ∀ i, ∃ k ≤ (supp refb).card, (supp refb).card ≤ (supp refa).card + 2 * k ∧
      cs i = (1 / 2 * (((supp refa).card : ℝ) - (supp refb).card) + k) * (1 / 2 * (((supp refa).card : ℝ) - (supp refb).card) + k + 1) :=
    fun i => spin_values (sector_of hL hQ _) (wave_ne hL.1 (hlen i) (hne i)) (hw i)
  choose k k1 k2 k3 using hv
  refine ⟨fun i => List.ofFn fun j => b i j, es, fun i => 1 / 2 * (((supp refa).card : ℝ) - (supp refb).card) + k i, ?_, fun i => ⟨?_, ⟨k i, k1 i, rfl⟩, ?_⟩⟩
  · rw [roots_iff hH hlen]
    simp only [toV_ofFn]
    exact ⟨ho, b1⟩
  · have : ((supp refb).card : ℝ) ≤ (supp refa).card + 2 * k i := by exact_mod_cast k2 i
    linarith
  · rw [← k3]; exact hw i

/-- `H_on_vec` over `B` with restricted integrals has as many orthonormal eigenvectors as there are entries of `B`, all of definite spin: `S²` takes
on them the values `s (s + 1)`, `s = (na - nb) / 2 + k ≥ 0` -/
def SpinPure (n na nb : ℕ) (B : List Pair) : Prop :=
  ∀ (h : ℕ → ℕ → ℝ) (I : ℕ → ℕ → ℕ → ℕ → ℝ), SymU h h I I I →
    ∃ (vs : Fin B.length → List ℝ) (es ss : Fin B.length → ℝ), Roots B.length (fun x => H_on_vec B x h h I I I) vs es ∧
      ∀ i, 0 ≤ ss i ∧ (∃ k : ℕ, k ≤ nb ∧ ss i = 1 / 2 * ((na : ℝ) - nb) + k) ∧
        ssq ℝ n (wave B (vs i)) = (ss i * (ss i + 1)) • wave B (vs i)

theorem spinPure_of {n na nb : ℕ} (hna : na ≤ n) (hnb : nb ≤ n) {P : ℕ → ℕ → Prop} {P' : ℕ → Prop} (hP : ∀ k l, P k l ↔ P' (k + l))
    (he : EnumeratesU B ⟨n, aufbau n na⟩ ⟨n, aufbau n nb⟩ P) (h : na = nb ∨ ∀ k l, k ≤ na → l ≤ nb → P k l) : SpinPure n na nb B := by
  intro f I hS
  have e1 : (supp ⟨n, aufbau n na⟩).card = na := by rw [supp_aufbau, Finset.card_range]; omega
  have e2 : (supp ⟨n, aufbau n nb⟩).card = nb := by rw [supp_aufbau, Finset.card_range]; omega
  have hc : SpinComplete ⟨n, aufbau n na⟩ ⟨n, aufbau n nb⟩ P := by
    rcases h with rfl | h
    · exact .inl ⟨rfl, P', hP⟩
    · exact .inr fun k l hk hl => h k l (e1 ▸ hk) (e2 ▸ hl)
  have := C78_spin_states he rfl hc hS
  rw [e1, e2] at this
  exact this

/-- C78: restricted CIS states (with or without the reference) of a closed shell have definite spins. -/
theorem C78_ucis {n m : ℕ} (hm : m ≤ n) (gs : Bool) : ∃ B, ucis_basis n m m gs = .ok B ∧ SpinPure n m m B := by
  obtain ⟨B, hB, e⟩ := C33_ucis n m m gs
  exact ⟨B, hB, spinPure_of (P' := fun t => t ≤ 1 ∧ (gs = false → t = 1)) hm hm (fun _ _ => Iff.rfl) e (.inl rfl)⟩

/-- C78: so have restricted CISD states of a closed shell, and those of at most two electrons. -/
theorem C78_ucisd {n na nb : ℕ} (hna : na ≤ n) (hnb : nb ≤ n) (h : na = nb ∨ na + nb ≤ 2) :
    ∃ B, ucisd_basis n na nb = .ok B ∧ SpinPure n na nb B := by
  obtain ⟨B, hB, e⟩ := C33_ucisd n na nb
  exact ⟨B, hB, spinPure_of (P' := fun t => t ≤ 2) hna hnb (fun _ _ => Iff.rfl) e (h.imp id fun h k l hk hl => by omega)⟩

/-- C78: the same for CISDT and at most three electrons. -/
theorem C78_ucisdt {n na nb : ℕ} (hna : na ≤ n) (hnb : nb ≤ n) (h : na = nb ∨ na + nb ≤ 3) :
    ∃ B, ucisdt_basis n na nb = .ok B ∧ SpinPure n na nb B := by
  obtain ⟨B, hB, e⟩ := C33_ucisdt n na nb
  exact ⟨B, hB, spinPure_of (P' := fun t => t ≤ 3) hna hnb (fun _ _ => Iff.rfl) e (h.imp id fun h k l hk hl => by omega)⟩

/-- C78: the same for CISDTQ and at most four electrons, whenever `ucisdtq_basis` lists every determinant once. -/
theorem C78_ucisdtq {n na nb : ℕ} (hna : na ≤ n) (hnb : nb ≤ n) (ca : na < 4 ∨ n < na + 4) (cb : nb < 4 ∨ n < nb + 4) (h : na = nb ∨ na + nb ≤ 4) :
    ∃ B, ucisdtq_basis n na nb = .ok B ∧ SpinPure n na nb B := by
  obtain ⟨B, hB, e⟩ := C33_ucisdtq ca cb
  exact ⟨B, hB, spinPure_of (P' := fun t => t ≤ 4) hna hnb (fun _ _ => Iff.rfl) e (h.imp id fun h k l hk hl => by omega)⟩

/-- the energies over `B'` are among those over `B`, for all restricted integrals -/
def Contains (B B' : List Pair) : Prop :=
  ∀ (h : ℕ → ℕ → ℝ) (I : ℕ → ℕ → ℕ → ℕ → ℝ), (∀ p q r s, I p q r s = I q p s r) → ∀ E : ℝ,
    (∃ x, x.length = B'.length ∧ (∃ c ∈ x, c ≠ 0) ∧ H_on_vec B' x h h I I I = .ok (x.map (E * ·))) →
    ∃ x, x.length = B.length ∧ (∃ c ∈ x, c ≠ 0) ∧ H_on_vec B x h h I I I = .ok (x.map (E * ·))

theorem contains_of {n na nb t : ℕ} {B' : List Pair} (hna : na + 1 ≤ n) (hnb : nb + 1 ≤ n) (ht : na + nb + 1 ≤ t) (hab : nb < na + 1)
    (he : EnumeratesU B ⟨n, aufbau n na⟩ ⟨n, aufbau n (nb + 1)⟩ fun k l => k + l ≤ t)
    (he' : EnumeratesU B' ⟨n, aufbau n (na + 1)⟩ ⟨n, aufbau n nb⟩ fun k l => k + l ≤ t) : Contains B B' := by
  intro h I v E hE
  have e : ∀ m ≤ n, (supp ⟨n, aufbau n m⟩).card = m := fun m hm => by rw [supp_aufbau, Finset.card_range]; omega
  have a1 := e na (by omega)
  have a2 := e (nb + 1) hnb
  have a3 := e (na + 1) hna
  have a4 := e nb (by omega)
  exact C78_degenerate he rfl (fun k l hk hl => by omega) he' rfl (fun k l hk hl => by omega) rfl (by omega) (by omega) (by omega) h v hE

/-- C78: the energies of two parallel electrons are energies of two electrons of opposite spin: triplets show up in the singlet calculation. -/
theorem C78_triplet {n : ℕ} (hn : 2 ≤ n) : ∃ B B', ucisd_basis n 1 1 = .ok B ∧ ucisd_basis n 2 0 = .ok B' ∧ Contains B B' := by
  obtain ⟨B, hB, e⟩ := C33_ucisd n 1 1
  obtain ⟨B', hB', e'⟩ := C33_ucisd n 2 0
  exact ⟨B, B', hB, hB', contains_of (na := 1) (nb := 0) hn (by omega) (by omega) (by omega) e e'⟩

/-- C78: the energies of three parallel electrons are energies of the doublet calculation with CISDT. -/
theorem C78_quartet {n : ℕ} (hn : 3 ≤ n) : ∃ B B', ucisdt_basis n 2 1 = .ok B ∧ ucisdt_basis n 3 0 = .ok B' ∧ Contains B B' := by
  obtain ⟨B, hB, e⟩ := C33_ucisdt n 2 1
  obtain ⟨B', hB', e'⟩ := C33_ucisdt n 3 0
  exact ⟨B, B', hB, hB', contains_of (na := 2) (nb := 0) hn (by omega) (by omega) (by omega) e e'⟩

/-- C78: the energies of three alpha electrons and one beta electron are energies of the calculation with two of each with CISDTQ. -/
theorem C78_four {n : ℕ} (hn : 3 ≤ n) : ∃ B B', ucisdtq_basis n 2 2 = .ok B ∧ ucisdtq_basis n 3 1 = .ok B' ∧ Contains B B' := by
  obtain ⟨B, hB, e⟩ := C33_ucisdtq (n := n) (na := 2) (nb := 2) (.inl (by omega)) (.inl (by omega))
  obtain ⟨B', hB', e'⟩ := C33_ucisdtq (n := n) (na := 3) (nb := 1) (.inl (by omega)) (.inl (by omega))
  exact ⟨B, B', hB, hB', contains_of (na := 2) (nb := 1) hn (by omega) (by omega) (by omega) e e'⟩

/-! ### concrete cases -/

example := C78_ucisd (n := 6) (na := 3) (nb := 3) (by norm_num) (by norm_num) (.inl rfl)
example : ∃ B, ucisd_basis 2 1 1 = .ok B ∧ SymU hw hw Iw Iw Iw ∧ SpinPure 2 1 1 B := by
  obtain ⟨B, hB, h⟩ := C78_ucisd (n := 2) (na := 1) (nb := 1) (by norm_num) (by norm_num) (.inl rfl)
  exact ⟨B, hB, symU_w, h⟩

/-- both spins occur: two parallel electrons have `S² = 2` -/
example : ssq ℚ 2 (det (emb {0, 1} ∅)) = (1 * (1 + 1) : ℚ) • det (emb {0, 1} ∅) := by
  have hs : Sector (K := ℚ) 2 2 0 (det (emb {0, 1} ∅)) := fun T hT => by
    rw [det_apply] at hT
    split_ifs at hT with h
    · exact ⟨{0, 1}, by decide, ∅, by decide, h, rfl, rfl⟩
    · exact absurd rfl hT
  rw [ssq, LinearMap.add_apply, LinearMap.add_apply, Module.End.mul_apply, Module.End.mul_apply, splus_sector_zero hs, map_zero, sz_sector hs, map_smul,
    sz_sector hs, zero_add, smul_smul, ← add_smul]
  norm_num

end real

end CI
