import Verif.Props.GSecond
/-!
# C51: CCSD is exact for two electrons

If the reference has at most two electrons and the residuals of the generalized CCSD equations vanish, then `e^T|0⟩` is an eigenvector of
the Hamiltonian on the full Fock space, with eigenvalue the reference energy plus `cc_energy`.
-/
set_option linter.unusedSectionVars false
namespace Sq
open Finset CC

section number
variable {K ι : Type} [Field K] [LinearOrder ι]

/-- vectors with `n` electrons -/
def sector (K : Type) [Field K] (n : ℕ) : Submodule K (Finset ι → K) where
  carrier := {ψ | ∀ S, S.card ≠ n → ψ S = 0}
  add_mem' h1 h2 S hS := by rw [Pi.add_apply, h1 S hS, h2 S hS, add_zero]
  zero_mem' _ _ := rfl
  smul_mem' c ψ h S hS := by rw [Pi.smul_apply, h S hS, smul_zero]

/-- operators that conserve the number of electrons -/
def consAlg (K ι : Type) [Field K] [LinearOrder ι] : Subalgebra K (Module.End K (Finset ι → K)) where
  carrier := {A | ∀ n, ∀ ψ ∈ sector K n, A ψ ∈ sector K n}
  mul_mem' h1 h2 n ψ hψ := h1 n _ (h2 n ψ hψ)
  add_mem' h1 h2 n ψ hψ := add_mem (h1 n ψ hψ) (h2 n ψ hψ)
  algebraMap_mem' c n ψ hψ := by
    rw [Module.algebraMap_end_apply]; exact Submodule.smul_mem _ _ hψ

theorem cre_sector (p : ι) {n : ℕ} {ψ : Finset ι → K} (h : ψ ∈ sector K n) : Fock.cre p ψ ∈ sector K (n + 1) := by
  intro S hS
  rw [Fock.cre_apply]
  split_ifs with hp
  · rw [h (S.erase p) (fun e => hS (by rw [← e]; exact (card_erase_add_one hp).symm)), mul_zero]
  · rfl

theorem ann_sector (p : ι) {n : ℕ} {ψ : Finset ι → K} (h : ψ ∈ sector K (n + 1)) : Fock.ann p ψ ∈ sector K n := by
  intro S hS
  rw [Fock.ann_apply]
  split_ifs with hp
  · rfl
  · rw [h (insert p S) (fun e => hS (by rw [card_insert_of_notMem hp] at e; omega)), mul_zero]

theorem ann_sector_zero (p : ι) {ψ : Finset ι → K} (h : ψ ∈ sector K 0) : Fock.ann p ψ = 0 := by
  funext S
  rw [Fock.ann_apply]
  split_ifs with hp
  · rfl
  · rw [h (insert p S) (by rw [card_insert_of_notMem hp]; omega), mul_zero]; rfl

theorem cons_wrap (p q : ι) {B : Module.End K (Finset ι → K)} (hB : B ∈ consAlg K ι) : Fock.cre p * B * Fock.ann q ∈ consAlg K ι := by
  intro n ψ hψ
  rw [Module.End.mul_apply, Module.End.mul_apply]
  cases n with
  | zero => rw [ann_sector_zero q hψ, map_zero, map_zero]; exact zero_mem _
  | succ n => exact cre_sector p (hB n _ (ann_sector q hψ))

theorem cons_pair (p q : ι) : (Fock.cre p * Fock.ann q : Module.End K (Finset ι → K)) ∈ consAlg K ι := by
  simpa using cons_wrap p q (one_mem (consAlg K ι))

theorem cons_quad (p q r s : ι) : (Fock.cre p * Fock.cre q * Fock.ann s * Fock.ann r : Module.End K (Finset ι → K)) ∈ consAlg K ι := by
  simpa only [mul_assoc] using cons_wrap p r (cons_pair (K := K) q s)
end number

variable {K O V ι : Type} [Field K] [CharZero K] [DecidableEq O] [DecidableEq V] [LinearOrder ι] [Fintype O] [Fintype V] (σ : O ⊕ V ≃ ι)
  {t : V → O → K} {t2 : V → V → O → O → K} (h : O ⊕ V → O ⊕ V → K) (v : O ⊕ V → O ⊕ V → O ⊕ V → O ⊕ V → K)

theorem cons_ham : ham (fockCAR σ K) h v ∈ consAlg K ι :=
  add_mem (sum_mem fun _ _ => sum_mem fun _ _ => Subalgebra.smul_mem _ (cons_pair _ _) _)
    (Subalgebra.smul_mem _ (sum_mem fun _ _ => sum_mem fun _ _ => sum_mem fun _ _ => sum_mem fun _ _ =>
      Subalgebra.smul_mem _ (cons_quad _ _ _ _) _) _)
theorem cons_cluster : cluster (fockCAR σ K) t t2 ∈ consAlg K ι :=
  add_mem (sum_mem fun _ _ => sum_mem fun _ _ => Subalgebra.smul_mem _ (cons_pair _ _) _)
    (Subalgebra.smul_mem _ (sum_mem fun _ _ => sum_mem fun _ _ => sum_mem fun _ _ => sum_mem fun _ _ =>
      Subalgebra.smul_mem _ (cons_quad _ _ _ _) _) _)
theorem cons_nexp {x : Module.End K (Finset ι → K)} (hx : x ∈ consAlg K ι) : nexp K x ∈ consAlg K ι :=
  sum_mem fun n _ => Subalgebra.smul_mem _ (pow_mem hx n) _
theorem cons_bar : bar (fockCAR σ K) t t2 (ham (fockCAR σ K) h v) ∈ consAlg K ι :=
  mul_mem (mul_mem (cons_nexp (neg_mem (cons_cluster σ))) (cons_ham σ h v)) (cons_nexp (cons_cluster σ))

theorem card_occ : (occSet σ).card = Fintype.card O :=
  (card_image_of_injective univ (σ.injective.comp Sum.inl_injective)).trans card_univ

theorem ket_sector : (fockRef σ K).ket ∈ sector K (Fintype.card O) := by
  intro S hS
  change Fock.det (occSet σ) S = 0
  rw [Fock.det_apply, if_neg]
  rintro rfl
  exact hS (card_occ σ)

/-- A vector with at most two electrons whose components on the reference, the singly and the doubly excited determinants vanish is zero. -/
theorem eq_zero_of_proj (h2 : Fintype.card O ≤ 2) {ψ : Finset ι → K} (hψ : ψ ∈ sector K (Fintype.card O))
    (h0 : (fockRef σ K).bra ψ = 0)
    (h1 : ∀ i a, (fockRef σ K).bra ((fockCAR σ K).cre (.inl i) ((fockCAR σ K).ann (.inr a) ψ)) = 0)
    (hd : ∀ i j a b, (fockRef σ K).bra ((fockCAR σ K).cre (.inl i) ((fockCAR σ K).cre (.inl j) ((fockCAR σ K).ann (.inr b)
      ((fockCAR σ K).ann (.inr a) ψ)))) = 0) : ψ = 0 := by
  have sg : ∀ (p : ι) (S : Finset ι), Fock.sgn K p S ≠ 0 := fun p S => by unfold Fock.sgn; exact pow_ne_zero _ (by simp)
  have cocc : (occSet σ).card = Fintype.card O := card_occ σ
  have hin : ∀ x ∈ occSet σ, ∃ i, σ (.inl i) = x := fun x hx => by
    obtain ⟨i, -, hi⟩ := mem_image.mp hx; exact ⟨i, hi⟩
  have hout : ∀ x, x ∉ occSet σ → ∃ a, σ (.inr a) = x := fun x hx => by
    obtain ⟨p | p, rfl⟩ := σ.surjective x
    · exact absurd (inl_mem σ p) hx
    · exact ⟨p, rfl⟩
  funext S
  by_cases hS : S.card = Fintype.card O
  swap; · exact hψ S hS
  have hc : (S \ occSet σ).card = (occSet σ \ S).card := by
    have e1 := card_sdiff_add_card_inter S (occSet σ)
    have e2 := card_sdiff_add_card_inter (occSet σ) S
    rw [inter_comm] at e2
    omega
  have hle : (occSet σ \ S).card ≤ 2 := (card_le_card sdiff_subset).trans (cocc.trans_le h2)
  have hSeq : S = (occSet σ \ (occSet σ \ S)) ∪ (S \ occSet σ) := by
    ext x; simp only [mem_union, mem_sdiff]; tauto
  rcases Nat.lt_or_ge (occSet σ \ S).card 1 with hk | hk
  · have e1 : occSet σ \ S = ∅ := card_eq_zero.mp (by omega)
    have e2 : S \ occSet σ = ∅ := card_eq_zero.mp (by omega)
    rw [e1, e2] at hSeq
    simp only [sdiff_empty, union_empty] at hSeq
    rw [hSeq]; exact h0
  rcases Nat.lt_or_ge (occSet σ \ S).card 2 with hk2 | hk2
  · obtain ⟨x, ex⟩ := card_eq_one.mp (show (occSet σ \ S).card = 1 by omega)
    obtain ⟨y, ey⟩ := card_eq_one.mp (show (S \ occSet σ).card = 1 by omega)
    have hx : x ∈ occSet σ ∧ x ∉ S := by rw [← mem_sdiff, ex]; exact mem_singleton_self x
    have hy : y ∈ S ∧ y ∉ occSet σ := by rw [← mem_sdiff, ey]; exact mem_singleton_self y
    obtain ⟨i, rfl⟩ := hin x hx.1
    obtain ⟨a, rfl⟩ := hout y hy.2
    have := h1 i a
    change Fock.cre (σ (.inl i)) (Fock.ann (σ (.inr a)) ψ) (occSet σ) = 0 at this
    rw [Fock.cre_apply, if_pos hx.1, Fock.ann_apply, if_neg (fun hh => hy.2 (mem_of_mem_erase hh))] at this
    have hSe : insert (σ (.inr a)) ((occSet σ).erase (σ (.inl i))) = S := by
      rw [hSeq, ex, ey, sdiff_singleton_eq_erase, union_comm]; rfl
    rw [hSe] at this
    simpa [sg] using this
  · obtain ⟨x, x', hxx, ex⟩ := card_eq_two.mp (show (occSet σ \ S).card = 2 by omega)
    obtain ⟨y, y', hyy, ey⟩ := card_eq_two.mp (show (S \ occSet σ).card = 2 by omega)
    have hx : x ∈ occSet σ ∧ x ∉ S := by rw [← mem_sdiff, ex]; simp
    have hx' : x' ∈ occSet σ ∧ x' ∉ S := by rw [← mem_sdiff, ex]; simp
    have hy : y ∈ S ∧ y ∉ occSet σ := by rw [← mem_sdiff, ey]; simp
    have hy' : y' ∈ S ∧ y' ∉ occSet σ := by rw [← mem_sdiff, ey]; simp
    obtain ⟨i, rfl⟩ := hin x hx.1
    obtain ⟨j, rfl⟩ := hin x' hx'.1
    obtain ⟨a, rfl⟩ := hout y hy.2
    obtain ⟨b, rfl⟩ := hout y' hy'.2
    have := hd i j a b
    change Fock.cre (σ (.inl i)) (Fock.cre (σ (.inl j)) (Fock.ann (σ (.inr b)) (Fock.ann (σ (.inr a)) ψ))) (occSet σ) = 0 at this
    rw [Fock.cre_apply, if_pos hx.1, Fock.cre_apply, if_pos (mem_erase.2 ⟨hxx.symm, hx'.1⟩), Fock.ann_apply,
      if_neg (fun hh => hy'.2 (mem_of_mem_erase (mem_of_mem_erase hh))), Fock.ann_apply,
      if_neg (fun hh => (mem_insert.1 hh).elim hyy (fun hh => hy.2 (mem_of_mem_erase (mem_of_mem_erase hh))))] at this
    have hSe : insert (σ (.inr a)) (insert (σ (.inr b)) (((occSet σ).erase (σ (.inl i))).erase (σ (.inl j)))) = S := by
      rw [hSeq, ex, ey]; ext z; simp only [mem_insert, mem_erase, mem_union, mem_sdiff, mem_singleton]; tauto
    rw [hSe] at this
    simpa [sg] using this

/-- C51: for at most two electrons, amplitudes with vanishing CCSD residuals give an eigenvector of the Hamiltonian on the full Fock space,
and the CCSD energy is its eigenvalue. -/
theorem C51_two_electrons (hv : AntiV v) (hT : Anti t2) (h2 : Fintype.card O ≤ 2)
    (r1 : ∀ a i, (ccsd_simple (fock h v) (blocks v) t t2).1 a i = 0) (r2 : ∀ a b i j, (ccsd_simple (fock h v) (blocks v) t t2).2 a b i j = 0) :
    ham (fockCAR σ K) h v (nexp K (cluster (fockCAR σ K) t t2) (Fock.det (occSet σ)))
      = (refEnergy h v + cc_energy t t2 (fock h v).ov (blocks v).oovv) • nexp K (cluster (fockCAR σ K) t t2) (Fock.det (occSet σ)) := by
  set E := refEnergy h v + cc_energy t t2 (fock h v).ov (blocks v).oovv with hE
  set C := fockCAR σ K
  have key : bar C t t2 (ham C h v) (fockRef σ K).ket - E • (fockRef σ K).ket = 0 := by
    refine eq_zero_of_proj σ h2 (sub_mem (cons_bar σ h v _ _ (ket_sector σ)) (Submodule.smul_mem _ _ (ket_sector σ))) ?_ ?_ ?_
    · have := C48_energy (t := t) (fockRef σ K) h v hv hT
      rw [map_sub, map_smul, (fockRef σ K).norm, smul_eq_mul, mul_one, sub_eq_zero]
      exact this
    · intro i a
      have := C48_singles (t := t) (fockRef σ K) h v hv hT a i
      rw [r1] at this
      rw [map_sub, map_sub, map_sub, map_smul, (fockRef σ K).ann_ket a, smul_zero, map_zero, map_zero, sub_zero]
      exact this
    · intro i j a b
      have := C48_doubles (t := t) (fockRef σ K) h v hv hT a b i j
      rw [r2] at this
      rw [map_sub, map_sub, map_sub, map_sub, map_sub, map_smul, (fockRef σ K).ann_ket a, smul_zero, map_zero, map_zero, map_zero, map_zero, sub_zero]
      exact this
  have e : ham C h v * nexp K (cluster C t t2) = nexp K (cluster C t t2) * bar C t t2 (ham C h v) := by
    have := nexp_neg_mul (K := K) (cluster_nilpotent C t t2).neg
    rw [neg_neg] at this
    rw [bar, ← mul_assoc, ← mul_assoc, this, one_mul]
  have e' := LinearMap.congr_fun e (fockRef σ K).ket
  rw [Module.End.mul_apply, Module.End.mul_apply, sub_eq_zero.1 key, map_smul] at e'
  exact e'

theorem bra_cluster {M : Type} [AddCommGroup M] [Module K M] {C : CAR K (O ⊕ V) M} (Φ : Ref C) (m : M) : Φ.bra (cluster C t t2 m) = 0 := by
  simp only [cluster, LinearMap.add_apply, LinearMap.sum_apply, LinearMap.smul_apply, Module.End.mul_apply, map_add, map_sum, map_smul,
    Φ.bra_cre, smul_zero, sum_const_zero, add_zero]

/-- The eigenvector of C51 is not zero: its component on the reference is 1. -/
theorem C51_intermediate_norm : nexp K (cluster (fockCAR σ K) t t2) (Fock.det (occSet σ)) (occSet σ) = 1 := by
  obtain ⟨N, hN⟩ := cluster_nilpotent (fockCAR σ K) t t2
  change (fockRef σ K).bra (nexp K (cluster (fockCAR σ K) t t2) (fockRef σ K).ket) = 1
  rw [nexp_eq (N := N + 1) (by rw [pow_succ, hN, zero_mul]), sum_range_succ']
  simp only [LinearMap.add_apply, LinearMap.sum_apply, LinearMap.smul_apply, map_add, map_sum, map_smul, pow_succ', Module.End.mul_apply,
    bra_cluster, smul_zero, sum_const_zero, zero_add, pow_zero, Module.End.one_apply, (fockRef σ K).norm]
  simp

/-! ### Non-vacuity: two electrons in four orbitals with a non-trivial solution of the CCSD equations -/

/-- one-electron integrals of the example -/
def hx : OneE (Fin 2) (Fin 2) ℚ := ⟨fun _ _ => 0, fun _ _ => 0, fun _ _ => 0, fun a b => if a = b then 3/2 else 0⟩
/-- two-electron integrals of the example -/
def vx : TwoE (Fin 2) (Fin 2) ℚ where
  vvvv := fun _ _ _ _ => 0
  vvvo := fun _ _ _ _ => 0
  vovv := fun _ _ _ _ => 0
  vvoo := fun a b i j => 2 * ((a : ℕ) - (b : ℕ) : ℚ) * ((i : ℕ) - (j : ℕ) : ℚ)
  vovo := fun _ _ _ _ => 0
  oovv := fun i j a b => 2 * ((a : ℕ) - (b : ℕ) : ℚ) * ((i : ℕ) - (j : ℕ) : ℚ)
  vooo := fun _ _ _ _ => 0
  ooov := fun _ _ _ _ => 0
  oooo := fun _ _ _ _ => 0
/-- amplitudes solving the equations of the example -/
def tx : Fin 2 → Fin 2 → Fin 2 → Fin 2 → ℚ := fun a b i j => 2 * ((a : ℕ) - (b : ℕ) : ℚ) * ((i : ℕ) - (j : ℕ) : ℚ)

theorem vx_anti : AntiI vx := by constructor <;> intro a b c d <;> simp only [vx] <;> ring
theorem tx_anti : Anti tx := by constructor <;> intro a b c d <;> simp only [tx] <;> ring

example : (∀ a i, (ccsd_simple (fock (one hx) (full vx)) (blocks (full vx)) (fun _ _ => 0) tx).1 a i = 0) ∧
    (∀ a b i j, (ccsd_simple (fock (one hx) (full vx)) (blocks (full vx)) (fun _ _ => 0) tx).2 a b i j = 0) ∧
    refEnergy (one hx) (full vx) + cc_energy (fun _ _ => 0) tx (fock (one hx) (full vx)).ov (blocks (full vx)).oovv = 4 ∧
    AntiV (full vx) ∧ Anti tx ∧ Fintype.card (Fin 2) ≤ 2 :=
  ⟨by decide +kernel, by decide +kernel, by decide +kernel, full_anti _ vx_anti, tx_anti, by simp⟩

end Sq
