/-
C80: full CI energies of two systems that do not interact add up.
-/
import Verif.Props.CIAdd
import Mathlib.Analysis.Matrix.Spectrum

namespace CI
open Fock

/-! ### the eigenvectors of a symmetric matrix span -/

section overlap
open Matrix

theorem exists_overlap_fin {ι : Type} [Fintype ι] [DecidableEq ι] (A : Matrix ι ι ℝ) (hA : A.IsHermitian) {v : ι → ℝ} (hv : v ≠ 0) :
    ∃ (f : ι → ℝ) (e : ℝ), A *ᵥ f = e • f ∧ ∑ x, f x * v x ≠ 0 := by
  by_contra hcon
  push Not at hcon
  apply hv
  have h0 : (WithLp.toLp 2 v : EuclideanSpace ℝ ι) = 0 := by
    refine hA.eigenvectorBasis.repr.injective (PiLp.ext fun i => ?_)
    rw [map_zero, OrthonormalBasis.repr_apply_apply, PiLp.zero_apply]
    have := hcon _ _ (hA.mulVec_eigenvectorBasis i)
    rw [← this, EuclideanSpace.inner_eq_star_dotProduct]
    simp [dotProduct, mul_comm]
  exact congrArg WithLp.ofLp h0

theorem exists_overlap {α : Type} [DecidableEq α] (s : Finset α) (M : α → α → ℝ) (hM : ∀ x ∈ s, ∀ y ∈ s, M x y = M y x) {v : α → ℝ} {x0 : α}
    (h0 : x0 ∈ s) (hv : v x0 ≠ 0) :
    ∃ (f : α → ℝ) (e : ℝ), (∀ x, x ∉ s → f x = 0) ∧ (∀ x ∈ s, ∑ y ∈ s, M x y * f y = e * f x) ∧ ∑ x ∈ s, f x * v x ≠ 0 := by
  obtain ⟨f, e, h1, h2⟩ := exists_overlap_fin (ι := s) (Matrix.of fun x y => M x y)
    (Matrix.IsHermitian.ext fun x y => by simpa using hM y y.2 x x.2) (v := fun x => v x) (fun h => hv (congrFun h ⟨x0, h0⟩))
  have hf : ∀ x : s, (if h : (x : α) ∈ s then f ⟨x, h⟩ else 0) = f x := fun x => by rw [dif_pos x.2]
  refine ⟨fun x => if h : x ∈ s then f ⟨x, h⟩ else 0, e, fun x hx => dif_neg hx, fun x hx => ?_, ?_⟩
  · rw [← Finset.sum_coe_sort s fun y => M x y * if h : y ∈ s then f ⟨y, h⟩ else 0]
    simp only [hf]
    have := congrFun h1 ⟨x, hx⟩
    rw [dif_pos hx]
    simpa [Matrix.mulVec, dotProduct] using this
  · rw [← Finset.sum_coe_sort s fun x => (if h : x ∈ s then f ⟨x, h⟩ else 0) * v x]
    simp only [hf]
    exact h2

end overlap

section split
variable {m k : ℕ} {ha hb ha' hb' : ℕ → ℕ → ℝ} {Ia Ib Iabab Ia' Ib' Iabab' : ℕ → ℕ → ℕ → ℕ → ℝ}

theorem elt_symm {n : ℕ} (hS : SymU ha hb Ia Ib Iabab) (S T : Finset SO) :
    elt (spinHam n n ha hb Ia Ib Iabab) S T = elt (spinHam n n ha hb Ia Ib Iabab) T S :=
  elt_ham_symm _ (fun p q => by
    rcases so_elim p with ⟨p, rfl⟩ | ⟨p, rfl⟩ <;> rcases so_elim q with ⟨q, rfl⟩ | ⟨q, rfl⟩
    exacts [hS.sa p q, rfl, rfl, hS.sb p q]) (spinV_herm hS.wa hS.wb hS.wab) S T

theorem eigen_split (hS : SymU ha hb Ia Ib Iabab) {a b : ℕ} {E : ℝ} {Ψ : Finset SO → ℝ}
    (h : Eigen (m + k) a b (join1 m ha ha') (join1 m hb hb') (join2 m Ia Ia') (join2 m Ib Ib') (join2 m Iabab Iabab') E Ψ) :
    ∃ a1 b1 a2 b2 E1 E2 ψ φ, a1 + a2 = a ∧ b1 + b2 = b ∧ E1 + E2 = E ∧ Eigen m a1 b1 ha hb Ia Ib Iabab E1 ψ ∧
      Eigen k a2 b2 ha' hb' Ia' Ib' Iabab' E2 φ := by
  classical
  obtain ⟨h0, h1, h2⟩ := h
  obtain ⟨X, hX⟩ := Function.ne_iff.mp h0
  obtain ⟨hXs, hXe⟩ := Sector.iff.mp h1 X hX
  rw [← both_left_right hXs] at hX hXe
  generalize hS' : left m X = S0 at hX hXe
  generalize hT' : right m k X = T0 at hX hXe
  have hS0 : S0 ⊆ allSO m := hS' ▸ left_subset m X
  have hT0 : T0 ⊆ allSO k := hT' ▸ right_subset m k X
  clear hS' hT'
  rw [electrons_both hS0] at hXe
  obtain ⟨A1, -, B1, -, rfl⟩ := eq_emb hS0
  obtain ⟨A2, -, B2, -, rfl⟩ := eq_emb hT0
  rw [electrons_emb, electrons_emb, Prod.mk_add_mk, Prod.mk.injEq] at hXe
  set s : Finset (Finset SO) := (allSO m).powerset.filter fun S => electrons S = ((A1.card : ℤ), (B1.card : ℤ)) with hs
  have mem_s : ∀ S, S ∈ s ↔ S ⊆ allSO m ∧ electrons S = ((A1.card : ℤ), (B1.card : ℤ)) := fun S => by
    rw [hs, Finset.mem_filter, Finset.mem_powerset]
  have s_sub : ∀ {f : Finset SO → ℝ}, (∀ S ⊆ allSO m, S ∉ s → f S = 0) → ∑ S ∈ (allSO m).powerset, f S = ∑ S ∈ s, f S := fun hf =>
    (Finset.sum_subset (Finset.filter_subset _ _) fun S h3 h4 => hf S (Finset.mem_powerset.mp h3) h4).symm
  obtain ⟨ψ, e, p0, p1, p2⟩ := exists_overlap s (elt (spinHam m m ha hb Ia Ib Iabab)) (fun x _ y _ => elt_symm hS x y)
    (v := fun S => Ψ (both m S (emb A2 B2))) ((mem_s _).mpr ⟨hS0, electrons_emb A1 B1⟩) hX
  have secψ : Sector m A1.card B1.card ψ := by
    rw [Sector.iff]
    intro S hne
    by_contra hc
    exact hne (p0 S fun hm => hc ((mem_s S).mp hm))
  set χ : Finset SO → ℝ := fun T => if T ⊆ allSO k then ∑ S ∈ s, ψ S * Ψ (both m S T) else 0 with hχ
  have val : ∀ T ⊆ allSO k, χ T = ∑ S ∈ s, ψ S * Ψ (both m S T) := fun T hT => if_pos hT
  have secχ : Sector k A2.card B2.card χ := by
    rw [Sector.iff]
    intro T hT
    by_cases hTs : T ⊆ allSO k
    · refine ⟨hTs, ?_⟩
      rw [val T hTs] at hT
      obtain ⟨S, hSs, hSn⟩ := Finset.exists_ne_zero_of_sum_ne_zero hT
      have e1 := (Sector.iff.mp h1 _ (right_ne_zero_of_mul hSn)).2
      obtain ⟨s1, s2⟩ := (mem_s S).mp hSs
      rw [electrons_both s1, s2] at e1
      have e2 : electrons T = ((a : ℤ), (b : ℤ)) - ((A1.card : ℤ), (B1.card : ℤ)) := by rw [← e1]; abel
      rw [e2, ← hXe.1, ← hXe.2, Prod.mk_sub_mk]
      congr 1 <;> ring
    · exact absurd (if_neg hTs) hT
  refine ⟨A1.card, B1.card, A2.card, B2.card, e, E - e, ψ, χ, by exact_mod_cast hXe.1, by exact_mod_cast hXe.2, by ring, ⟨?_, secψ, ?_⟩, ⟨?_, secχ, ?_⟩⟩
  · rintro rfl
    exact p2 (Finset.sum_eq_zero fun _ _ => zero_mul _)
  · funext S
    rw [Pi.smul_apply, smul_eq_mul]
    by_cases hSs : S ∈ s
    · rw [apply_expand secψ.below, s_sub fun S' _ h' => by rw [p0 S' h', zero_mul], ← p1 S hSs]
      exact Finset.sum_congr rfl fun _ _ => mul_comm _ _
    · rw [p0 S hSs, mul_zero]
      by_contra hne
      exact hSs ((mem_s S).mpr (Sector.iff.mp (sector_ham secψ) S hne))
  · intro h
    have := congrFun h (emb A2 B2)
    rw [val _ hT0] at this
    exact p2 this
  · funext T
    rw [Pi.smul_apply, smul_eq_mul]
    by_cases hT : T ⊆ allSO k
    · rw [apply_expand secχ.below, val T hT]
      have step : ∀ S ∈ s, ∑ T' ∈ (allSO k).powerset, Ψ (both m S T') * elt (spinHam k k ha' hb' Ia' Ib' Iabab') T T' =
          E * Ψ (both m S T) - ∑ S' ∈ s, Ψ (both m S' T) * elt (spinHam m m ha hb Ia Ib Iabab) S S' := by
        intro S hSs
        have e1 := congrFun h2 (both m S T)
        rw [apply_both h1.below ((mem_s S).mp hSs).1 hT, Pi.smul_apply, smul_eq_mul, s_sub] at e1
        · rw [← e1]; ring
        · intro S' hsub hS'
          refine mul_eq_zero_of_right _ ?_
          by_contra hne
          exact hS' ((mem_s S').mpr ⟨hsub, (elt_electrons hne).symm.trans ((mem_s S).mp hSs).2⟩)
      rw [Finset.sum_congr rfl fun T' hT' => by rw [val T' (Finset.mem_powerset.mp hT'), Finset.sum_mul], Finset.sum_comm,
        Finset.sum_congr rfl fun S hSs => by
          rw [Finset.sum_congr rfl fun T' _ => mul_assoc (ψ S) _ _, ← Finset.mul_sum, step S hSs, mul_sub], Finset.sum_sub_distrib]
      have e3 : ∑ S ∈ s, ψ S * ∑ S' ∈ s, Ψ (both m S' T) * elt (spinHam m m ha hb Ia Ib Iabab) S S' = e * ∑ S ∈ s, ψ S * Ψ (both m S T) := by
        simp only [Finset.mul_sum]
        rw [Finset.sum_comm]
        refine Finset.sum_congr rfl fun S' hS' => ?_
        rw [← mul_assoc, ← p1 S' hS', Finset.sum_mul]
        refine Finset.sum_congr rfl fun S _ => ?_
        rw [elt_symm hS S' S]; ring
      rw [e3, sub_mul]
      congr 1
      rw [Finset.mul_sum]
      exact Finset.sum_congr rfl fun _ _ => by ring
    · rw [show χ T = 0 from if_neg hT, mul_zero]
      by_contra hne
      exact hT ((Below.ham secχ.below _ _) T hne)

end split

/-! ### the lists -/

/-- `B` lists every determinant of `a` alpha and `b` beta electrons in `n` orbitals once: all excitations of the lowest determinants -/
def FullCI (n a b : ℕ) (B : List Pair) : Prop :=
  a ≤ n ∧ b ≤ n ∧ ∃ P : ℕ → ℕ → Prop, EnumeratesU B ⟨n, aufbau n a⟩ ⟨n, aufbau n b⟩ P ∧ ∀ k l, k ≤ a → l ≤ b → P k l

/-- `E` is an eigenvalue of `H_on_vec` over `B` -/
def Energy {K : Type} [Field K] (B : List Pair) (ha hb : ℕ → ℕ → K) (Ia Ib Iabab : ℕ → ℕ → ℕ → ℕ → K) (E : K) : Prop :=
  ∃ x : List K, x.length = B.length ∧ (∃ c ∈ x, c ≠ 0) ∧ H_on_vec B x ha hb Ia Ib Iabab = .ok (x.map (E * ·))

section energy
variable {K : Type} [Field K] [CharZero K] {n a b : ℕ} {B : List Pair} {ha hb : ℕ → ℕ → K} {Ia Ib Iabab : ℕ → ℕ → ℕ → ℕ → K}

theorem card_aufbau (h : a ≤ n) : (supp ⟨n, aufbau n a⟩).card = a := by rw [supp_aufbau, Finset.card_range, min_eq_left h]

theorem FullCI.lists (h : FullCI n a b B) : Lists n ∅ (fun x y _ => x = a ∧ y = b) (B.map pdet) := by
  obtain ⟨h1, h2, P, he, hP⟩ := h
  have := lists_full he rfl (fun k l hk hl => hP k l (by rwa [card_aufbau h1] at hk) (by rwa [card_aufbau h2] at hl))
  rwa [card_aufbau h1, card_aufbau h2] at this

theorem FullCI.hmat (h : FullCI n a b B) (va : ∀ p q r s, Ia p q r s = Ia q p s r) (vb : ∀ p q r s, Ib p q r s = Ib q p s r) {x : List K}
    (hx : x.length = B.length) :
    H_on_vec B x ha hb Ia Ib Iabab = .ok (matvec (mat (spinHam n n ha hb Ia Ib Iabab) (B.map pdet) (B.map pdet)) x) := by
  obtain ⟨-, -, P, he, -⟩ := h
  obtain ⟨D, hB⟩ := he.basis
  have hm : ∀ d ∈ D, (supp d.1).card = (supp ⟨n, aufbau n a⟩).card ∧ (supp d.2).card = (supp ⟨n, aufbau n b⟩).card := by
    intro d hd
    have : (some d.1, some d.2) ∈ B := by rw [hB.1]; exact List.mem_map.2 ⟨d, hd, rfl⟩
    obtain ⟨da, db, k, l, e, h2, h3, -⟩ := (he.2 _).1 this
    simp only [Prod.mk.injEq, Option.some.injEq] at e
    obtain ⟨rfl, rfl⟩ := e
    exact ⟨h2.card, h3.card⟩
  rw [C38_H hB hx ha hb Ia Ib Iabab (fun d hd e he => ⟨(hm d hd).1.trans (hm e he).1.symm, (hm d hd).2.trans (hm e he).2.symm⟩) va vb]
  have eD : B.map pdet = D.map psupp := by rw [hB.1, List.map_map]; rfl
  rw [eD]
  rfl

theorem FullCI.wave_H (h : FullCI n a b B) {x : List K} (hx : x.length = B.length) :
    wave B (matvec (mat (spinHam n n ha hb Ia Ib Iabab) (B.map pdet) (B.map pdet)) x) = spinHam n n ha hb Ia Ib Iabab (wave B x) := by
  have hl : (B.map pdet).length = x.length := by rw [List.length_map, hx]
  have := state_rectvec h.lists h.lists (X := spinHam n n ha hb Ia Ib Iabab) (fun ψ hψ => sector_ham hψ) hl.symm
  rw [hl] at this
  exact this

theorem Eigen.le {E : K} {ψ : Finset SO → K} (h : Eigen n a b ha hb Ia Ib Iabab E ψ) : a ≤ n ∧ b ≤ n := by
  obtain ⟨T, hT⟩ := Function.ne_iff.mp h.1
  obtain ⟨A, hA, B, hB, -, rfl, rfl⟩ := h.2.1 T hT
  exact ⟨by simpa using Finset.card_le_card hA, by simpa using Finset.card_le_card hB⟩

theorem energy_iff (h : FullCI n a b B) (va : ∀ p q r s, Ia p q r s = Ia q p s r) (vb : ∀ p q r s, Ib p q r s = Ib q p s r) (E : K) :
    Energy B ha hb Ia Ib Iabab E ↔ ∃ ψ, Eigen n a b ha hb Ia Ib Iabab E ψ := by
  have hL := h.lists
  constructor
  · rintro ⟨x, hx, h0, hE⟩
    refine ⟨wave B x, wave_ne hL.1 hx h0, sector_of hL (fun _ _ _ q => q) x, ?_⟩
    rw [h.hmat va vb hx, Except.ok.injEq] at hE
    rw [← h.wave_H hx, hE, wave_smul]
  · rintro ⟨ψ, h0, h1, h2⟩
    have hx : ((B.map pdet).map ψ).length = B.length := by rw [List.length_map, List.length_map]
    have hw : wave B ((B.map pdet).map ψ) = ψ := by
      funext T
      by_cases hT : T ∈ B.map pdet
      · obtain ⟨i, hi, rfl⟩ := mem_getD hT
        rw [wave, state_getD hL.1 _ hi]
        simp only [List.getD_eq_getElem?_getD, List.getElem?_map (f := ψ), List.getElem?_eq_getElem hi, Option.map_some, Option.getD_some]
      · rw [wave, state_notMem _ hT]
        by_contra hne
        exact hT ((hL.2 T).mpr (h1 T (Ne.symm hne)))
    refine ⟨(B.map pdet).map ψ, hx, ?_, ?_⟩
    · obtain ⟨T, hT⟩ := Function.ne_iff.mp h0
      exact ⟨ψ T, List.mem_map.mpr ⟨T, (hL.2 T).mpr (h1 T hT), rfl⟩, hT⟩
    · rw [h.hmat va vb hx]
      congr 1
      refine wave_inj hL.1 (by rw [length_matvec, hx]) (by rw [List.length_map, hx]) ?_
      rw [h.wave_H hx, wave_smul, hw, h2]

end energy

/-- C80: for all numbers of electrons there is such a list. -/
theorem C80_lists {n a b : ℕ} (h1 : a ≤ n) (h2 : b ≤ n) : ∃ B, FullCI n a b B := by
  have fin : ∀ r : Dstring, {d | ∃ k, Excitation r d k}.Finite := fun r =>
    ((Finset.range r.n).powerset.finite_toSet.image (ofSet r.n)).subset fun d ⟨k, hd⟩ =>
      ⟨supp d, by rw [Finset.mem_coe, Finset.mem_powerset, ← hd.2.1]; exact supp_subset d, by rw [← hd.2.1, ofSet_supp hd.1]⟩
  have hf : {x : Pair | ∃ da db k l, x = (some da, some db) ∧ Excitation ⟨n, aufbau n a⟩ da k ∧ Excitation ⟨n, aufbau n b⟩ db l ∧ True}.Finite :=
    (Set.Finite.image2 (fun da db => (some da, some db)) (fin ⟨n, aufbau n a⟩) (fin ⟨n, aufbau n b⟩)).subset fun x hx => by
      obtain ⟨da, db, k, l, rfl, e1, e2, -⟩ := hx
      exact ⟨da, ⟨k, e1⟩, db, ⟨l, e2⟩, rfl⟩
  refine ⟨hf.toFinset.toList, h1, h2, fun _ _ => True, ⟨Finset.nodup_toList _, fun x => ?_⟩, fun _ _ _ _ => trivial⟩
  rw [Finset.mem_toList, Set.Finite.mem_toFinset]
  rfl

/-! ### the theorems -/

section field
variable {K : Type} [Field K] [CharZero K] {m k a b a' b' : ℕ} {B B' C : List Pair} {ha hb ha' hb' : ℕ → ℕ → K}
  {Ia Ib Iabab Ia' Ib' Iabab' : ℕ → ℕ → ℕ → ℕ → K}

theorem join2_pair {I I' : ℕ → ℕ → ℕ → ℕ → K} (v : ∀ p q r s, I p q r s = I q p s r) (v' : ∀ p q r s, I' p q r s = I' q p s r) (p q r s : ℕ) :
    join2 m I I' p q r s = join2 m I I' q p s r := by
  unfold join2
  split_ifs <;> first | exact v _ _ _ _ | exact v' _ _ _ _ | omega | rfl

theorem spinHam_congr {n : ℕ} {ha hb ha' hb' : ℕ → ℕ → K} {Ia Ib Iabab Ia' Ib' Iabab' : ℕ → ℕ → ℕ → ℕ → K}
    (e1 : ∀ p < n, ∀ q < n, ha p q = ha' p q) (e2 : ∀ p < n, ∀ q < n, hb p q = hb' p q)
    (e3 : ∀ p < n, ∀ q < n, ∀ r < n, ∀ s < n, Ia p q r s = Ia' p q r s) (e4 : ∀ p < n, ∀ q < n, ∀ r < n, ∀ s < n, Ib p q r s = Ib' p q r s)
    (e5 : ∀ p < n, ∀ q < n, ∀ r < n, ∀ s < n, Iabab p q r s = Iabab' p q r s) :
    spinHam n n ha hb Ia Ib Iabab = spinHam n n ha' hb' Ia' Ib' Iabab' := by
  have h1 : ∀ p ∈ allSO n, ∀ q ∈ allSO n, spinH ha hb p q = spinH ha' hb' p q := by
    intro p hp q hq
    rcases so_elim p with ⟨p, rfl⟩ | ⟨p, rfl⟩ <;> rcases so_elim q with ⟨q, rfl⟩ | ⟨q, rfl⟩ <;>
      simp only [mem_all_up, mem_all_dn] at hp hq
    exacts [e1 p hp q hq, rfl, rfl, e2 p hp q hq]
  have h2 : ∀ p ∈ allSO n, ∀ q ∈ allSO n, ∀ r ∈ allSO n, ∀ s ∈ allSO n, spinV Ia Ib Iabab p q r s = spinV Ia' Ib' Iabab' p q r s := by
    intro p hp q hq r hr s hs
    rcases so_elim p with ⟨p, rfl⟩ | ⟨p, rfl⟩ <;> rcases so_elim q with ⟨q, rfl⟩ | ⟨q, rfl⟩ <;>
      rcases so_elim r with ⟨r, rfl⟩ | ⟨r, rfl⟩ <;> rcases so_elim s with ⟨s, rfl⟩ | ⟨s, rfl⟩ <;>
      simp only [mem_all_up, mem_all_dn] at hp hq hr hs <;>
      first
      | rfl
      | exact e3 _ hp _ hq _ hr _ hs
      | exact e4 _ hp _ hq _ hr _ hs
      | exact e5 _ hp _ hq _ hr _ hs
      | exact e5 _ hq _ hp _ hs _ hr
  unfold spinHam ham
  congr 1
  · exact Finset.sum_congr rfl fun p hp => Finset.sum_congr rfl fun q hq => by rw [h1 p hp q hq]
  · congr 1
    exact Finset.sum_congr rfl fun p hp => Finset.sum_congr rfl fun q hq => Finset.sum_congr rfl fun r hr => Finset.sum_congr rfl fun s hs => by
      rw [h2 p hp q hq r hr s hs]

/-- C80: the order of the orbitals does not matter to full CI energies. -/
theorem C80_order {n : ℕ} (hB : FullCI n a b B) (σ : Equiv.Perm ℕ) (hσ : ∀ p, σ p < n ↔ p < n) (va : ∀ p q r s, Ia p q r s = Ia q p s r)
    (vb : ∀ p q r s, Ib p q r s = Ib q p s r) (E : K) :
    Energy B (fun p q => ha (σ p) (σ q)) (fun p q => hb (σ p) (σ q)) (fun p q r s => Ia (σ p) (σ q) (σ r) (σ s))
      (fun p q r s => Ib (σ p) (σ q) (σ r) (σ s)) (fun p q r s => Iabab (σ p) (σ q) (σ r) (σ s)) E ↔ Energy B ha hb Ia Ib Iabab E := by
  set U : ℕ → ℕ → K := fun i q => if i = σ q then 1 else 0 with hU
  set W : ℕ → ℕ → K := fun p i => if i = σ p then 1 else 0 with hW
  have inv : Inverse (Finset.range n) U W := by
    intro p hp q hq
    have hp := Finset.mem_range.mp hp
    have hq := Finset.mem_range.mp hq
    constructor
    · rw [Finset.sum_eq_single (σ.symm p)]
      · simp [hU, hW, eq_comm]
      · intro r _ hr
        have : p ≠ σ r := fun h => hr (by rw [h, Equiv.symm_apply_apply])
        simp [hU, this]
      · intro h
        rw [Finset.mem_range, ← hσ, Equiv.apply_symm_apply] at h
        exact absurd hp h
    · rw [Finset.sum_eq_single (σ p)]
      · simp [hU, hW]
      · intro r _ hr
        simp [hW, hr]
      · intro h
        rw [Finset.mem_range, hσ] at h
        exact absurd hp h
  obtain ⟨l1, l2, P, he, hP⟩ := id hB
  have kept : Kept ⟨n, aufbau n a⟩ ⟨n, aufbau n b⟩ P U U := .inr fun k l hk hl =>
    hP k l (by rwa [card_aufbau l1] at hk) (by rwa [card_aufbau l2] at hl)
  have main := C77_eigenvalues he inv inv kept ha hb Ia Ib Iabab va vb E
  refine Iff.trans ?_ main
  have r1 : ∀ (h : ℕ → ℕ → K), ∀ p < n, ∀ q < n, h (σ p) (σ q) = rot1 (Finset.range n) U W h p q := by
    intro h p hp q hq
    simp [rot1, hU, hW, hσ, hp, hq]
  have r2 : ∀ (I : ℕ → ℕ → ℕ → ℕ → K), ∀ p < n, ∀ q < n, ∀ r < n, ∀ s < n, I (σ p) (σ q) (σ r) (σ s) = rot2 (Finset.range n) U W I p q r s := by
    intro I p hp q hq r hr s hs
    simp [rot2, hU, hW, hσ, hp, hq, hr, hs]
  have r3 : ∀ (I : ℕ → ℕ → ℕ → ℕ → K), ∀ p < n, ∀ q < n, ∀ r < n, ∀ s < n, I (σ p) (σ q) (σ r) (σ s) = rotab n n U W U W I p q r s := by
    intro I p hp q hq r hr s hs
    simp [rotab, hU, hW, hσ, hp, hq, hr, hs]
  have e := spinHam_congr (r1 ha) (r1 hb) (r2 Ia) (r2 Ib) (r3 Iabab)
  rw [energy_iff hB (fun p q r s => va _ _ _ _) (fun p q r s => vb _ _ _ _)]
  change _ ↔ Energy B _ _ _ _ _ E
  rw [energy_iff hB (rot2_sym U W va) (rot2_sym U W vb)]
  unfold Eigen
  rw [e]

/-- C80: the sum of an energy of the first and an energy of the second system is an energy of both. -/
theorem C80_sum (hB : FullCI m a b B) (hB' : FullCI k a' b' B') (hC : FullCI (m + k) (a + a') (b + b') C)
    (va : ∀ p q r s, Ia p q r s = Ia q p s r) (vb : ∀ p q r s, Ib p q r s = Ib q p s r)
    (va' : ∀ p q r s, Ia' p q r s = Ia' q p s r) (vb' : ∀ p q r s, Ib' p q r s = Ib' q p s r) {E E' : K}
    (hE : Energy B ha hb Ia Ib Iabab E) (hE' : Energy B' ha' hb' Ia' Ib' Iabab' E') :
    Energy C (join1 m ha ha') (join1 m hb hb') (join2 m Ia Ia') (join2 m Ib Ib') (join2 m Iabab Iabab') (E + E') := by
  obtain ⟨ψ, h1⟩ := (energy_iff hB va vb E).mp hE
  obtain ⟨φ, h2⟩ := (energy_iff hB' va' vb' E').mp hE'
  exact (energy_iff hC (join2_pair va va') (join2_pair vb vb') _).mpr ⟨_, eigen_tensor h1 h2⟩

end field

section real
variable {m k a b a' b' : ℕ} {B B' C : List Pair} {ha hb ha' hb' : ℕ → ℕ → ℝ} {Ia Ib Iabab Ia' Ib' Iabab' : ℕ → ℕ → ℕ → ℕ → ℝ}

/-- C80: the energies of both systems are exactly the sums of energies of the first and of the second system, over all ways to divide the electrons. -/
theorem C80_energies (hS : SymU ha hb Ia Ib Iabab) (va' : ∀ p q r s, Ia' p q r s = Ia' q p s r) (vb' : ∀ p q r s, Ib' p q r s = Ib' q p s r)
    (hC : FullCI (m + k) a b C) (E : ℝ) :
    Energy C (join1 m ha ha') (join1 m hb hb') (join2 m Ia Ia') (join2 m Ib Ib') (join2 m Iabab Iabab') E ↔
      ∃ a1 b1 a2 b2 E1 E2 B1 B2, a1 + a2 = a ∧ b1 + b2 = b ∧ E1 + E2 = E ∧ FullCI m a1 b1 B1 ∧ FullCI k a2 b2 B2 ∧
        Energy B1 ha hb Ia Ib Iabab E1 ∧ Energy B2 ha' hb' Ia' Ib' Iabab' E2 := by
  constructor
  · intro h
    obtain ⟨Ψ, hΨ⟩ := (energy_iff hC (join2_pair hS.va va') (join2_pair hS.vb vb') E).mp h
    obtain ⟨a1, b1, a2, b2, E1, E2, ψ, φ, e1, e2, e3, h1, h2⟩ := eigen_split hS hΨ
    obtain ⟨l1, l2⟩ := h1.le
    obtain ⟨l3, l4⟩ := h2.le
    obtain ⟨B1, hB1⟩ := C80_lists l1 l2
    obtain ⟨B2, hB2⟩ := C80_lists l3 l4
    exact ⟨a1, b1, a2, b2, E1, E2, B1, B2, e1, e2, e3, hB1, hB2, (energy_iff hB1 hS.va hS.vb E1).mpr ⟨ψ, h1⟩, (energy_iff hB2 va' vb' E2).mpr ⟨φ, h2⟩⟩
  · rintro ⟨a1, b1, a2, b2, E1, E2, B1, B2, rfl, rfl, rfl, h1, h2, h3, h4⟩
    exact C80_sum h1 h2 hC hS.va hS.vb va' vb' h3 h4

/-- C80: no energy of both lies below the sum of the lowest energies. -/
theorem C80_lowest (hS : SymU ha hb Ia Ib Iabab) (va' : ∀ p q r s, Ia' p q r s = Ia' q p s r) (vb' : ∀ p q r s, Ib' p q r s = Ib' q p s r)
    {L L' : ℕ → ℕ → ℝ} (hL : ∀ a b B E, FullCI m a b B → Energy B ha hb Ia Ib Iabab E → L a b ≤ E)
    (hL' : ∀ a b B E, FullCI k a b B → Energy B ha' hb' Ia' Ib' Iabab' E → L' a b ≤ E) (hC : FullCI (m + k) a b C) {E : ℝ}
    (hE : Energy C (join1 m ha ha') (join1 m hb hb') (join2 m Ia Ia') (join2 m Ib Ib') (join2 m Iabab Iabab') E) :
    ∃ a1 b1 a2 b2, a1 + a2 = a ∧ b1 + b2 = b ∧ L a1 b1 + L' a2 b2 ≤ E := by
  obtain ⟨a1, b1, a2, b2, E1, E2, B1, B2, e1, e2, rfl, h1, h2, h3, h4⟩ := (C80_energies hS va' vb' hC E).mp hE
  exact ⟨a1, b1, a2, b2, e1, e2, add_le_add (hL _ _ _ _ h1 h3) (hL' _ _ _ _ h2 h4)⟩

end real

/-! ### the lists of the package -/

theorem full_ucisd {n a b : ℕ} (ha : a ≤ n) (hb : b ≤ n) (h : a + b ≤ 2) : ∃ B, ucisd_basis n a b = .ok B ∧ FullCI n a b B := by
  obtain ⟨B, hB, e⟩ := C33_ucisd n a b
  exact ⟨B, hB, ha, hb, _, e, fun k l hk hl => by omega⟩

theorem full_ucisdtq {n a b : ℕ} (ha : a ≤ n) (hb : b ≤ n) (ca : a < 4 ∨ n < a + 4) (cb : b < 4 ∨ n < b + 4) (h : a + b ≤ 4) :
    ∃ B, ucisdtq_basis n a b = .ok B ∧ FullCI n a b B := by
  obtain ⟨B, hB, e⟩ := C33_ucisdtq ca cb
  exact ⟨B, hB, ha, hb, _, e, fun k l hk hl => by omega⟩

/-- C80: the sum of CISD energies of two systems of two electrons is a CISDTQ energy of both. -/
theorem C80_cisd {K : Type} [Field K] [CharZero K] {m k : ℕ} (hm : 1 ≤ m) (hk : 1 ≤ k) :
    ∃ B B' C, ucisd_basis m 1 1 = .ok B ∧ ucisd_basis k 1 1 = .ok B' ∧ ucisdtq_basis (m + k) 2 2 = .ok C ∧
      ∀ (h h' : ℕ → ℕ → K) (I I' : ℕ → ℕ → ℕ → ℕ → K), (∀ p q r s, I p q r s = I q p s r) → (∀ p q r s, I' p q r s = I' q p s r) → ∀ E E',
        Energy B h h I I I E → Energy B' h' h' I' I' I' E' →
        Energy C (join1 m h h') (join1 m h h') (join2 m I I') (join2 m I I') (join2 m I I') (E + E') := by
  obtain ⟨B, hB, e⟩ := full_ucisd hm hm (le_refl 2)
  obtain ⟨B', hB', e'⟩ := full_ucisd hk hk (le_refl 2)
  obtain ⟨C, hC, e''⟩ := full_ucisdtq (n := m + k) (a := 2) (b := 2) (by omega) (by omega) (by omega) (by omega) (le_refl 4)
  exact ⟨B, B', C, hB, hB', hC, fun h h' I I' v v' E E' hE hE' => C80_sum e e' e'' v v v' v' hE hE'⟩

/-! ### two electrons in two orbitals, and two such systems -/

/-- orbital energies 0 and 3 -/
def h2 (p q : ℕ) : ℚ := if p = 1 ∧ q = 1 then 3 else 0
/-- both electrons change their orbitals -/
def I2 (p q r s : ℕ) : ℚ := if p ≠ r ∧ q ≠ s then 4 else 0

theorem I2_pair (p q r s : ℕ) : I2 p q r s = I2 q p s r := by unfold I2; simp only [and_comm]

/-- the order in which the lower orbitals of both systems come first -/
def interleave : Equiv.Perm ℕ := Equiv.swap 1 2

def h4 (p q : ℕ) : ℚ := join1 2 h2 h2 (interleave p) (interleave q)
def I4 (p q r s : ℕ) : ℚ := join2 2 I2 I2 (interleave p) (interleave q) (interleave r) (interleave s)

/-- the determinants of a list -/
def strs (B : List Pair) : List (Dstring × Dstring) := B.filterMap fun x => match x with
  | (some a, some b) => some (a, b)
  | _ => none

/-- the matrix with the given entries in its rows -/
def entries (l : List (List (ℕ × ℤ))) (i j : ℕ) : ℤ := ((l.getD i []).lookup j).getD 0

def cisdRows : List (List (ℕ × ℤ)) :=
  [[(11, 4), (26, 4)], [(1, 3), (5, 4)], [(2, -1)], [(3, -1)], [(4, 3), (8, 4)], [(1, 4), (5, 3)], [(6, -1)], [(7, -1)], [(4, 4), (8, 3)], [(9, 6),
   (14, -4), (23, -4)], [(10, 6), (14, -4), (23, -4)], [(0, 4), (11, 6)], [(12, 2)], [(13, 2)], [(9, -4), (10, -4), (14, 6)], [(15, 2)], [(16, -2)],
   [(17, -2)], [(18, 2)], [(19, 2)], [(20, -2)], [(21, -2)], [(22, 2)], [(9, -4), (10, -4), (23, 6)], [(24, 2)], [(25, 2)], [(0, 4), (26, 6)]]

def inverseRows : List (List (ℕ × ℤ)) :=
  [[(0, 2475), (11, -990), (26, -990)], [(1, 420), (5, -240)], [(2, 660)], [(3, 660)], [(4, 420), (8, -240)], [(1, -240), (5, 420)], [(6, 660)], [(7,
   660)], [(4, -240), (8, 420)], [(9, 374), (10, 176), (14, 220), (23, 220)], [(9, 176), (10, 374), (14, 220), (23, 220)], [(0, -990), (11, 594), (26,
   396)], [(12, 330)], [(13, 330)], [(9, 220), (10, 220), (14, 374), (23, 176)], [(15, 330)], [(16, 990)], [(17, 990)], [(18, 330)], [(19, 330)],
   [(20, 990)], [(21, 990)], [(22, 330)], [(9, 220), (10, 220), (14, 176), (23, 374)], [(24, 330)], [(25, 330)], [(0, -990), (11, 396), (26, 594)]]

def cisd4 : List Pair := match ucisd_basis 4 2 2 with
  | .ok B => B
  | .error _ => []

theorem cisd4_ok : ucisd_basis 4 2 2 = .ok cisd4 ∧ cisd4 = (strs cisd4).map (fun d => (some d.1, some d.2)) ∧ cisd4.length = 27 := by decide +kernel

theorem cisd4_matrix : ∀ i < 27, ∀ j < 27, ∀ b ∈ (strs cisd4)[i]?, ∀ k ∈ (strs cisd4)[j]?, ci_matrixel b.1 b.2 k.1 k.2 h4 h4 I4 I4 I4 0 = .ok ((entries cisdRows i j : ℤ) : ℚ) := by
  decide +kernel

theorem cisd4_inverse : ∀ r < 27, ∀ j < 27,
    ∑ i ∈ Finset.range 27, entries inverseRows r i * (entries cisdRows i j + if i = j then 4 else 0) = if r = j then 1980 else 0 := by
  decide +kernel

theorem cisd4_H {x : List ℚ} (hx : x.length = cisd4.length) :
    H_on_vec cisd4 x h4 h4 I4 I4 I4 = .ok (matvec (fun i j => ((entries cisdRows i j : ℤ) : ℚ)) x) := by
  obtain ⟨-, h1, h2⟩ := cisd4_ok
  have hl : (strs cisd4).length = 27 := by rw [← h2, h1, List.length_map, ← h1]
  refine C38_H_matrix h1 hx h4 h4 I4 I4 I4 _ fun i j b k hi hj => ?_
  have li : i < 27 := by rw [← hl]; exact (List.getElem?_eq_some_iff.mp hi).1
  have lj : j < 27 := by rw [← hl]; exact (List.getElem?_eq_some_iff.mp hj).1
  exact cisd4_matrix i li j lj b hi k hj

/-- the energy of one of the systems -/
theorem energy2 {B : List Pair} (hB : ucisd_basis 2 1 1 = .ok B) : Energy B h2 h2 I2 I2 I2 (-2) := by
  have h1 : ucisd_basis 2 1 1 = .ok [(some ⟨2, [1, 0]⟩, some ⟨2, [1, 0]⟩), (some ⟨2, [0, 1]⟩, some ⟨2, [1, 0]⟩), (some ⟨2, [1, 0]⟩, some ⟨2, [0, 1]⟩),
    (some ⟨2, [0, 1]⟩, some ⟨2, [0, 1]⟩)] := by decide +kernel
  rw [h1, Except.ok.injEq] at hB
  subst hB
  exact ⟨[2, 0, 0, -1], by decide +kernel⟩

/-- C80: CISD energies do not add up: -2 is a CISD energy of a system of two electrons in two orbitals, and -4 a CISDTQ energy of two such systems,
whose lower orbitals are occupied in the reference, but it is not a CISD energy of both. -/
theorem C80_truncated : ∃ B C D, ucisd_basis 2 1 1 = .ok B ∧ ucisd_basis 4 2 2 = .ok C ∧ ucisdtq_basis 4 2 2 = .ok D ∧
    Energy B h2 h2 I2 I2 I2 (-2) ∧ Energy D h4 h4 I4 I4 I4 (-2 + -2) ∧ ¬ Energy C h4 h4 I4 I4 I4 (-2 + -2) := by
  obtain ⟨B, hB, e⟩ := full_ucisd (n := 2) (a := 1) (b := 1) (by omega) (by omega) (le_refl 2)
  obtain ⟨D, hD, e'⟩ := full_ucisdtq (n := 2 + 2) (a := 1 + 1) (b := 1 + 1) (by omega) (by omega) (by omega) (by omega) (le_refl 4)
  refine ⟨B, cisd4, D, hB, cisd4_ok.1, hD, energy2 hB, ?_, ?_⟩
  · have h := C80_sum e e e' I2_pair I2_pair I2_pair I2_pair (energy2 hB) (energy2 hB)
    have v := join2_pair (m := 2) I2_pair I2_pair
    refine (C80_order e' interleave (fun p => ?_) v v (-2 + -2)).mpr h
    unfold interleave
    by_cases h1 : p = 1
    · subst h1; simp
    · by_cases h2 : p = 2
      · subst h2; simp
      · rw [Equiv.swap_apply_of_ne_of_ne h1 h2]
  · rintro ⟨x, hx, ⟨c, hc, hne⟩, hE⟩
    rw [cisd4_H hx, Except.ok.injEq] at hE
    have hl : x.length = 27 := hx.trans cisd4_ok.2.2
    have row : ∀ i < 27, ∑ j ∈ Finset.range 27, ((entries cisdRows i j : ℤ) + if i = j then (4 : ℚ) else 0) * x.getD j 0 = 0 := by
      intro i hi
      have h1 : (matvec (fun i j => ((entries cisdRows i j : ℤ) : ℚ)) x).getD i 0 = (x.map ((-2 + -2) * ·)).getD i 0 := by rw [hE]
      rw [matvec_eq, getD_rectvec _ _ _ (hl ▸ hi), hl] at h1
      have h2 : (x.map ((-2 + -2 : ℚ) * ·)).getD i 0 = -4 * x.getD i 0 := by
        simp [hl, hi]; norm_num
      simp only [add_mul, Finset.sum_add_distrib, ite_mul, zero_mul]
      rw [Finset.sum_ite_eq, if_pos (Finset.mem_range.mpr hi), h1, h2]
      ring
    obtain ⟨r, hr, rfl⟩ := List.getElem_of_mem hc
    apply hne
    have hr' : r < 27 := hl ▸ hr
    have h1 : ∑ j ∈ Finset.range 27, (if r = j then (1980 : ℚ) else 0) * x.getD j 0 = 1980 * x.getD r 0 := by
      simp only [ite_mul, zero_mul]
      rw [Finset.sum_ite_eq, if_pos (Finset.mem_range.mpr hr')]
    have h2 : x.getD r 0 = x[r] := by simp [hr]
    have h3 : ∀ j < 27, (if r = j then (1980 : ℚ) else 0) =
        ∑ i ∈ Finset.range 27, (entries inverseRows r i : ℚ) * (entries cisdRows i j + if i = j then 4 else 0) := fun j hj => by
      exact_mod_cast congrArg (Int.cast (R := ℚ)) (cisd4_inverse r hr' j hj).symm
    rw [← h2, ← mul_eq_zero_iff_left (a := (1980 : ℚ)) (by norm_num), ← h1,
      Finset.sum_congr rfl fun j hj => by rw [h3 j (Finset.mem_range.mp hj), Finset.sum_mul], Finset.sum_comm]
    refine Finset.sum_eq_zero fun i hi => ?_
    rw [Finset.sum_congr rfl fun j _ => mul_assoc _ _ _, ← Finset.mul_sum, row i (Finset.mem_range.mp hi), mul_zero]

/-- the hypotheses of `C80_energies` and `C80_lowest` -/
theorem sym2 : SymU (fun p q => (h2 p q : ℝ)) (fun p q => (h2 p q : ℝ)) (fun p q r s => (I2 p q r s : ℝ)) (fun p q r s => (I2 p q r s : ℝ))
    (fun p q r s => (I2 p q r s : ℝ)) := by
  have h : ∀ p q, h2 p q = h2 q p := fun p q => by unfold h2; simp only [and_comm]
  have w : ∀ p q r s, I2 p q r s = I2 r s p q := fun p q r s => by unfold I2; simp only [ne_comm]
  exact ⟨fun p q => by rw [h], fun p q => by rw [h], fun p q r s => by rw [I2_pair], fun p q r s => by rw [I2_pair],
    fun p q r s => by rw [w], fun p q r s => by rw [w], fun p q r s => by rw [w]⟩

example : ∃ C, FullCI (2 + 3) 3 2 C ∧ ∀ E, Energy C (join1 2 (fun p q => (h2 p q : ℝ)) (fun p q => (h2 p q : ℝ)))
      (join1 2 (fun p q => (h2 p q : ℝ)) (fun p q => (h2 p q : ℝ))) (join2 2 (fun p q r s => (I2 p q r s : ℝ)) (fun p q r s => (I2 p q r s : ℝ)))
      (join2 2 (fun p q r s => (I2 p q r s : ℝ)) (fun p q r s => (I2 p q r s : ℝ)))
      (join2 2 (fun p q r s => (I2 p q r s : ℝ)) (fun p q r s => (I2 p q r s : ℝ))) E →
    ∃ a1 b1 a2 b2 E1 E2, a1 + a2 = 3 ∧ b1 + b2 = 2 ∧ (E1 + E2 : ℝ) = E ∧ a1 ≤ 2 ∧ b1 ≤ 2 ∧ a2 ≤ 3 ∧ b2 ≤ 3 := by
  obtain ⟨C, hC⟩ := C80_lists (n := 2 + 3) (a := 3) (b := 2) (by omega) (by omega)
  refine ⟨C, hC, fun E hE => ?_⟩
  obtain ⟨a1, b1, a2, b2, E1, E2, B1, B2, e1, e2, e3, f1, f2, -, -⟩ := (C80_energies sym2 sym2.va sym2.vb hC E).mp hE
  exact ⟨a1, b1, a2, b2, E1, E2, e1, e2, e3, f1.1, f1.2.1, f2.1, f2.2.1⟩

end CI
