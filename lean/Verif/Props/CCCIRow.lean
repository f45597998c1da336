import Verif.Props.CCCI
/-!
# Rows of the configuration-interaction matrix and components of `H e^T|0⟩`
-/
set_option linter.unusedSectionVars false
set_option linter.unusedSimpArgs false
namespace CCCI
open Finset CI Fock

section generic
variable {K O V ι : Type} [Field K] [CharZero K] [DecidableEq O] [DecidableEq V] [LinearOrder ι] [Fintype O] [Fintype V] (σ : O ⊕ V ↪ ι)

theorem sgn_sq (p : ι) (S : Finset ι) : sgn K p S = 1 ∨ sgn K p S = -1 := by unfold sgn; exact neg_one_pow_eq_or K _

theorem pm_mul {s t : K} (hs : s = 1 ∨ s = -1) (ht : t = 1 ∨ t = -1) : s * t = 1 ∨ s * t = -1 := by
  rcases hs with rfl | rfl <;> rcases ht with rfl | rfl <;> simp

/-- the singly excited determinant -/
def exS (a : V) (i : O) : Finset ι := insert (σ (.inr a)) ((Sq.occSet σ).erase (σ (.inl i)))
/-- the doubly excited determinant -/
def exD (a b : V) (i j : O) : Finset ι := insert (σ (.inr a)) (insert (σ (.inr b)) (((Sq.occSet σ).erase (σ (.inl i))).erase (σ (.inl j))))

theorem comp_single (a : V) (i : O) : ∃ s : K, (s = 1 ∨ s = -1) ∧ ∀ ψ : Finset ι → K, Sq.s1 (Sq.fockRef σ K) a i ψ = s * ψ (exS σ a i) := by
  refine ⟨_, pm_mul (sgn_sq (σ (.inl i)) ((Sq.occSet σ).erase (σ (.inl i)))) (sgn_sq (σ (.inr a)) ((Sq.occSet σ).erase (σ (.inl i)))), fun ψ => ?_⟩
  change Fock.cre (σ (.inl i)) (Fock.ann (σ (.inr a)) ψ) (Sq.occSet σ) = _
  rw [Fock.cre_apply, if_pos (Sq.inl_mem σ i), Fock.ann_apply, if_neg (fun hh => Sq.inr_notMem σ a (mem_of_mem_erase hh)), exS, mul_assoc]

theorem comp_double {a b : V} {i j : O} (hab : a ≠ b) (hij : i ≠ j) :
    ∃ s : K, (s = 1 ∨ s = -1) ∧ ∀ ψ : Finset ι → K, Sq.s2 (Sq.fockRef σ K) a b i j ψ = s * ψ (exD σ a b i j) := by
  have hx : σ (.inl j) ∈ (Sq.occSet σ).erase (σ (.inl i)) :=
    mem_erase.2 ⟨fun e => hij (Sum.inl.inj (σ.injective e)).symm, Sq.inl_mem σ j⟩
  have hy : σ (.inr b) ∉ ((Sq.occSet σ).erase (σ (.inl i))).erase (σ (.inl j)) :=
    fun hh => Sq.inr_notMem σ b (mem_of_mem_erase (mem_of_mem_erase hh))
  have hz : σ (.inr a) ∉ insert (σ (.inr b)) (((Sq.occSet σ).erase (σ (.inl i))).erase (σ (.inl j))) := fun hh =>
    (mem_insert.1 hh).elim (fun e => hab (Sum.inr.inj (σ.injective e)))
      fun hh => Sq.inr_notMem σ a (mem_of_mem_erase (mem_of_mem_erase hh))
  refine ⟨_, pm_mul (pm_mul (sgn_sq (σ (.inl i)) ((Sq.occSet σ).erase (σ (.inl i))))
    (sgn_sq (σ (.inl j)) (((Sq.occSet σ).erase (σ (.inl i))).erase (σ (.inl j))))) (pm_mul
    (sgn_sq (σ (.inr b)) (((Sq.occSet σ).erase (σ (.inl i))).erase (σ (.inl j))))
    (sgn_sq (σ (.inr a)) (insert (σ (.inr b)) (((Sq.occSet σ).erase (σ (.inl i))).erase (σ (.inl j)))))), fun ψ => ?_⟩
  change Fock.cre (σ (.inl i)) (Fock.cre (σ (.inl j)) (Fock.ann (σ (.inr b)) (Fock.ann (σ (.inr a)) ψ))) (Sq.occSet σ) = _
  rw [Fock.cre_apply, if_pos (Sq.inl_mem σ i), Fock.cre_apply, if_pos hx, Fock.ann_apply, if_neg hy, Fock.ann_apply, if_neg hz, exD]
  ring

/-- Determinants with at most two excitations are the reference, singly or doubly excited determinants. -/
theorem det_cases {S : Finset ι} (hS : S ⊆ univ.map σ) (hc : S.card = Fintype.card O) (h2 : (S \ Sq.occSet σ).card ≤ 2) :
    S = Sq.occSet σ ∨ (∃ a i, S = exS σ a i) ∨ ∃ a b i j, a ≠ b ∧ i ≠ j ∧ S = exD σ a b i j := by
  have cocc : (Sq.occSet σ).card = Fintype.card O :=
    (card_image_of_injective univ (σ.injective.comp Sum.inl_injective)).trans card_univ
  have hin : ∀ x ∈ Sq.occSet σ, ∃ i, σ (.inl i) = x := fun x hx => by
    obtain ⟨i, -, hi⟩ := mem_image.mp hx; exact ⟨i, hi⟩
  have hout : ∀ x ∈ S, x ∉ Sq.occSet σ → ∃ a, σ (.inr a) = x := fun x hxS hx => by
    obtain ⟨p | p, -, rfl⟩ := mem_map.mp (hS hxS)
    · exact absurd (Sq.inl_mem σ p) hx
    · exact ⟨p, rfl⟩
  have hcc : (S \ Sq.occSet σ).card = (Sq.occSet σ \ S).card := by
    have e1 := card_sdiff_add_card_inter S (Sq.occSet σ)
    have e2 := card_sdiff_add_card_inter (Sq.occSet σ) S
    rw [inter_comm] at e2
    omega
  have hSeq : S = (Sq.occSet σ \ (Sq.occSet σ \ S)) ∪ (S \ Sq.occSet σ) := by
    ext x; simp only [mem_union, mem_sdiff]; tauto
  rcases Nat.lt_or_ge (Sq.occSet σ \ S).card 1 with hk | hk
  · left
    have e1 : Sq.occSet σ \ S = ∅ := card_eq_zero.mp (by omega)
    have e2 : S \ Sq.occSet σ = ∅ := card_eq_zero.mp (by omega)
    rw [e1, e2] at hSeq
    simpa only [sdiff_empty, union_empty] using hSeq
  rcases Nat.lt_or_ge (Sq.occSet σ \ S).card 2 with hk2 | hk2
  · right; left
    obtain ⟨x, ex⟩ := card_eq_one.mp (show (Sq.occSet σ \ S).card = 1 by omega)
    obtain ⟨y, ey⟩ := card_eq_one.mp (show (S \ Sq.occSet σ).card = 1 by omega)
    have hx : x ∈ Sq.occSet σ ∧ x ∉ S := by rw [← mem_sdiff, ex]; exact mem_singleton_self x
    have hy : y ∈ S ∧ y ∉ Sq.occSet σ := by rw [← mem_sdiff, ey]; exact mem_singleton_self y
    obtain ⟨i, rfl⟩ := hin x hx.1
    obtain ⟨a, rfl⟩ := hout y hy.1 hy.2
    exact ⟨a, i, by rw [hSeq, ex, ey, sdiff_singleton_eq_erase, union_comm]; rfl⟩
  · right; right
    obtain ⟨x, x', hxx, ex⟩ := card_eq_two.mp (show (Sq.occSet σ \ S).card = 2 by omega)
    obtain ⟨y, y', hyy, ey⟩ := card_eq_two.mp (show (S \ Sq.occSet σ).card = 2 by omega)
    have hx : x ∈ Sq.occSet σ ∧ x ∉ S := by rw [← mem_sdiff, ex]; simp
    have hx' : x' ∈ Sq.occSet σ ∧ x' ∉ S := by rw [← mem_sdiff, ex]; simp
    have hy : y ∈ S ∧ y ∉ Sq.occSet σ := by rw [← mem_sdiff, ey]; simp
    have hy' : y' ∈ S ∧ y' ∉ Sq.occSet σ := by rw [← mem_sdiff, ey]; simp
    obtain ⟨i, rfl⟩ := hin x hx.1
    obtain ⟨j, rfl⟩ := hin x' hx'.1
    obtain ⟨a, rfl⟩ := hout y hy.1 hy.2
    obtain ⟨b, rfl⟩ := hout y' hy'.1 hy'.2
    refine ⟨a, b, i, j, fun e => hyy (by rw [e]), fun e => hxx (by rw [e]), ?_⟩
    rw [hSeq, ex, ey, exD]; ext z; simp only [mem_insert, mem_erase, mem_union, mem_sdiff, mem_singleton]; tauto

end generic

/-! ### the vectors with given numbers of alpha and beta electrons -/

variable {K : Type} [Field K] [CharZero K] {noa nob na nb : ℕ}

/-- combinations of determinants with `noa` alpha and `nob` beta electrons -/
def sect (K : Type) [Field K] (noa nob na nb : ℕ) : Submodule K (Finset SO → K) :=
  Submodule.span K {φ | ∃ A B : Finset ℕ, A ⊆ range na ∧ A.card = noa ∧ B ⊆ range nb ∧ B.card = nob ∧ φ = det (emb A B)}

/-- operators that preserve them -/
def stab (K : Type) [Field K] (noa nob na nb : ℕ) : Subalgebra K (Module.End K (Finset SO → K)) where
  carrier := {X | ∀ φ ∈ sect K noa nob na nb, X φ ∈ sect K noa nob na nb}
  mul_mem' h1 h2 φ hφ := h1 _ (h2 φ hφ)
  add_mem' h1 h2 φ hφ := add_mem (h1 φ hφ) (h2 φ hφ)
  algebraMap_mem' c φ hφ := by
    rw [Module.algebraMap_end_apply]; exact Submodule.smul_mem _ _ hφ

theorem stab_of_gen {X : Module.End K (Finset SO → K)} (h : ∀ A B : Finset ℕ, A ⊆ range na → A.card = noa → B ⊆ range nb → B.card = nob →
    X (det (emb A B)) ∈ sect K noa nob na nb) : X ∈ stab K noa nob na nb := by
  intro φ hφ
  unfold sect at hφ
  induction hφ using Submodule.span_induction with
  | mem x hx => obtain ⟨A, B, h1, h2, h3, h4, rfl⟩ := hx; exact h A B h1 h2 h3 h4
  | zero => rw [map_zero]; exact zero_mem _
  | add x y _ _ hx hy => rw [map_add]; exact add_mem hx hy
  | smul c x _ hx => rw [map_smul]; exact Submodule.smul_mem _ _ hx

theorem det_sect {A B : Finset ℕ} (h1 : A ⊆ range na) (h2 : A.card = noa) (h3 : B ⊆ range nb) (h4 : B.card = nob) :
    det (K := K) (emb A B) ∈ sect K noa nob na nb := Submodule.subset_span ⟨A, B, h1, h2, h3, h4, rfl⟩

theorem exc_card {A : Finset ℕ} {i a : ℕ} (hi : i ∈ A) (ha : a ∉ A) : (insert a (A.erase i)).card = A.card := by
  rw [card_insert_of_notMem (fun h => ha (mem_of_mem_erase h)), card_erase_add_one hi]

theorem exc_up {_ : DecidableEq SO} (A B : Finset ℕ) (i a : ℕ) : insert (up a) ((emb A B).erase (up i)) = emb (insert a (A.erase i)) B := by
  refine emb_ext (fun k => ?_) (fun k => ?_)
  · rw [mem_insert, mem_erase, up_inj, Ne, up_inj, up_mem, mem_insert, mem_erase]
  · rw [mem_insert, mem_erase, dn_mem]
    exact ⟨fun hk => hk.elim (fun e => absurd e.symm up_ne_dn) And.right, fun hk => Or.inr ⟨up_ne_dn.symm, hk⟩⟩

theorem exc_dn {_ : DecidableEq SO} (A B : Finset ℕ) (i a : ℕ) : insert (dn a) ((emb A B).erase (dn i)) = emb A (insert a (B.erase i)) := by
  refine emb_ext (fun k => ?_) (fun k => ?_)
  · rw [mem_insert, mem_erase, up_mem]
    exact ⟨fun hk => hk.elim (fun e => absurd e up_ne_dn) And.right, fun hk => Or.inr ⟨up_ne_dn, hk⟩⟩
  · rw [mem_insert, mem_erase, dn_inj, Ne, dn_inj, dn_mem, mem_insert, mem_erase]

theorem E_up {i a : ℕ} (hia : i ≠ a) (ha : a < na) : (E (up i) (up a) : Module.End K (Finset SO → K)) ∈ stab K noa nob na nb := by
  refine stab_of_gen fun A B h1 h2 h3 h4 => ?_
  rw [E_exc _ (fun e => hia (up_inj.mp e)), exc]
  split_ifs with h
  · refine Submodule.smul_mem _ _ ?_
    rw [up_mem, up_mem] at h
    rw [exc_up]
    exact det_sect (insert_subset (mem_range.mpr ha) ((erase_subset _ _).trans h1)) ((exc_card h.1 h.2).trans h2) h3 h4
  · exact zero_mem _

theorem E_dn {i a : ℕ} (hia : i ≠ a) (ha : a < nb) : (E (dn i) (dn a) : Module.End K (Finset SO → K)) ∈ stab K noa nob na nb := by
  refine stab_of_gen fun A B h1 h2 h3 h4 => ?_
  rw [E_exc _ (fun e => hia (dn_inj.mp e)), exc]
  split_ifs with h
  · refine Submodule.smul_mem _ _ ?_
    rw [dn_mem, dn_mem] at h
    rw [exc_dn]
    exact det_sect h1 h2 (insert_subset (mem_range.mpr ha) ((erase_subset _ _).trans h3)) ((exc_card h.1 h.2).trans h4)
  · exact zero_mem _

theorem cluster_stab {nva nvb : ℕ} (T1a T1b : ℕ → ℕ → K) {T2aa T2ab T2bb : ℕ → ℕ → ℕ → ℕ → K} (haa : CI.Anti noa nva T2aa)
    (hbb : CI.Anti nob nvb T2bb) :
    clusterU noa nva nob nvb T1a T1b T2aa T2ab T2bb ∈ stab K noa nob (noa + nva) (nob + nvb) := by
  rw [clusterU_eq _ _ _ _ _ _ haa hbb]
  have ua : ∀ i ∈ range noa, ∀ a ∈ range nva, (E (up i) (up (a + noa)) : Module.End K (Finset SO → K)) ∈ stab K noa nob (noa + nva) (nob + nvb) :=
    fun i hi a ha => by rw [mem_range] at hi ha; exact E_up (by omega) (by omega)
  have ub : ∀ i ∈ range nob, ∀ a ∈ range nvb, (E (dn i) (dn (a + nob)) : Module.End K (Finset SO → K)) ∈ stab K noa nob (noa + nva) (nob + nvb) :=
    fun i hi a ha => by rw [mem_range] at hi ha; exact E_dn (by omega) (by omega)
  refine add_mem (add_mem ?_ ?_) (add_mem (add_mem ?_ ?_) ?_)
  · exact sum_mem fun i hi => sum_mem fun a ha => Subalgebra.smul_mem _ (ua i hi a ha) _
  · exact sum_mem fun i hi => sum_mem fun a ha => Subalgebra.smul_mem _ (ub i hi a ha) _
  · exact sum_mem fun i hi => sum_mem fun j hj => sum_mem fun a ha => sum_mem fun b hb =>
      Subalgebra.smul_mem _ (mul_mem (ua j hj b hb) (ua i hi a ha)) _
  · exact sum_mem fun i hi => sum_mem fun j hj => sum_mem fun a ha => sum_mem fun b hb =>
      Subalgebra.smul_mem _ (mul_mem (ua i hi a ha) (ub j hj b hb)) _
  · exact sum_mem fun i hi => sum_mem fun j hj => sum_mem fun a ha => sum_mem fun b hb =>
      Subalgebra.smul_mem _ (mul_mem (ub j hj b hb) (ub i hi a ha)) _

/-! ### rows -/

theorem sum_getD {α K : Type} [AddCommMonoid K] (L : List α) (d : α) (g : α → K) :
    ∑ j ∈ range L.length, g (L.getD j d) = (L.map g).sum := by
  induction L with
  | nil => simp
  | cons x L ih =>
    rw [List.length_cons, sum_range_succ', List.map_cons, List.sum_cons, ← ih, add_comm]
    rfl

/-- A row of the matrix over a basis complete up to a level, applied to the coefficients of a vector, is a component of `H` applied to the
vector, if the row has at least two excitations less than the basis, or the basis is complete. -/
theorem row {order : ℕ} {L : List (Finset SO)} (hF : Full L noa na nob nb order) (hnd : L.Nodup)
    {S : Finset SO} (hS : S.card = noa + nob) (hm : (S \ uref noa nob).card + 2 ≤ order ∨ noa + nob ≤ order)
    (h : SO → SO → K) (V : SO → SO → SO → SO → K) (U : Finset SO) {ψ : Finset SO → K} (hψ : ψ ∈ sect K noa nob na nb) :
    ∑ j ∈ range L.length, elt (ham U h V) S (L.getD j ∅) * ψ (L.getD j ∅) = ham U h V ψ S := by
  rw [sum_getD L ∅ fun T => elt (ham U h V) S T * ψ T, ← List.sum_toFinset _ hnd]
  unfold sect at hψ
  induction hψ using Submodule.span_induction with
  | zero => simp
  | add x y _ _ hx hy => simp only [Pi.add_apply, mul_add, sum_add_distrib, hx, hy, map_add]
  | smul c x _ hx =>
    rw [map_smul, Pi.smul_apply, smul_eq_mul, ← hx, mul_sum]
    exact sum_congr rfl fun T _ => by rw [Pi.smul_apply, smul_eq_mul]; ring
  | mem x hx =>
    obtain ⟨A, B, h1, h2, h3, h4, rfl⟩ := hx
    simp only [det_apply, mul_ite, mul_one, mul_zero, sum_ite_eq', List.mem_toFinset]
    rw [show (ham U h V) (det (emb A B)) S = elt (ham U h V) S (emb A B) from rfl]
    split_ifs with hin
    · rfl
    · symm
      have ea : (A \ range noa).card = (range noa \ A).card := by
        have e1 := card_sdiff_add_card_inter A (range noa)
        have e2 := card_sdiff_add_card_inter (range noa) A
        rw [inter_comm, card_range] at e2
        omega
      have eb : (B \ range nob).card = (range nob \ B).card := by
        have e1 := card_sdiff_add_card_inter B (range nob)
        have e2 := card_sdiff_add_card_inter (range nob) B
        rw [inter_comm, card_range] at e2
        omega
      have hlev : order < (A \ range noa).card + (B \ range nob).card := by
        by_contra hc
        exact hin (hF A B _ _ ⟨h1, rfl, ea.symm⟩ ⟨h3, rfl, eb.symm⟩ (not_lt.mp hc))
      have la : (range noa \ A).card ≤ noa := (card_le_card sdiff_subset).trans (card_range _).le
      have lb : (range nob \ B).card ≤ nob := (card_le_card sdiff_subset).trans (card_range _).le
      rcases hm with hm | hm
      swap; · omega
      have hT : (emb A B).card = noa + nob := by rw [card_emb, h2, h4]
      have hlev' : (emb A B \ uref noa nob).card = (A \ range noa).card + (B \ range nob).card := by
        rw [uref, emb_sdiff, card_emb]
      have hsub : emb A B \ uref noa nob ⊆ (emb A B \ S) ∪ (S \ uref noa nob) := by
        intro x; simp only [mem_sdiff, mem_union]; tauto
      have := (card_le_card hsub).trans (card_union_le _ _)
      have e1 := card_sdiff_add_card_inter (emb A B) S
      have e2 := card_sdiff_add_card_inter S (emb A B)
      rw [inter_comm] at e2
      have key : 2 < (S \ emb A B).card := by omega
      exact slater_zero U h V (by convert key)

end CCCI
