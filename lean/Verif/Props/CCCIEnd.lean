import Verif.Props.CCCIRow
/-!
# C59: coupled cluster and configuration interaction agree

For every set of integrals and amplitudes, the vector built by `makeCfromT` and the matrix applied by `H_on_vec` reproduce `ucc_energy` and the
residuals of `uccsd_stanton`.
-/
set_option linter.unusedSectionVars false
set_option linter.unusedSimpArgs false
namespace CCCI
open Finset CI Fock

variable {K : Type} [Field K] [CharZero K] (noa nva nob nvb : ℕ) (ha hb : ℕ → ℕ → K) (Ia Ib Iab : ℕ → ℕ → ℕ → ℕ → K)
  (T1a T1b : ℕ → ℕ → K) (T2aa T2ab T2bb : ℕ → ℕ → ℕ → ℕ → K)

/-- The coupled-cluster energy: that of the reference plus `ucc_energy`. -/
def ccE : K := refE noa nob ha hb Ia Ib Iab
  + CC.ucc_energy (arr2 nva noa T1a, arr2 nvb nob T1b) (arr4 nva nva noa noa T2aa, arr4 nva nvb noa nob T2ab, arr4 nvb nvb nob nob T2bb)
      (one noa nva (fockA noa nob ha Ia Iab)).ov (one nob nvb (fockB noa nob hb Ib Iab)).ov
      (two noa nva (asym Ia)).oovv (two nob nvb (asym Ib)).oovv (twoAB noa nva nob nvb Iab).oovv

/-- The residuals returned by `uccsd_stanton` for the Fock matrices and antisymmetrised integrals of the reference. -/
def res : ((Fin nva → Fin noa → K) × (Fin nvb → Fin nob → K)) × ((Fin nva → Fin nva → Fin noa → Fin noa → K) ×
    (Fin nva → Fin nvb → Fin noa → Fin nob → K) × (Fin nvb → Fin nvb → Fin nob → Fin nob → K)) :=
  CC.uccsd_stanton (one noa nva (fockA noa nob ha Ia Iab)) (one nob nvb (fockB noa nob hb Ib Iab)) (two noa nva (asym Ia)) (two nob nvb (asym Ib))
    (twoAB noa nva nob nvb Iab) (arr2 nva noa T1a, arr2 nvb nob T1b)
    (arr4 nva nva noa noa T2aa, arr4 nva nvb noa nob T2ab, arr4 nvb nvb nob nob T2bb)

/-- `e^T|0⟩` -/
noncomputable def psi : Finset SO → K := IsNilpotent.exp (clusterU noa nva nob nvb T1a T1b T2aa T2ab T2bb) (det (uref noa nob))
/-- `H e^T|0⟩` -/
noncomputable def hpsi : Finset SO → K :=
  spinHam (noa + nva) (nob + nvb) ha hb Ia Ib Iab (psi noa nva nob nvb T1a T1b T2aa T2ab T2bb)

/-- the singles residuals over spin orbitals -/
def r1 : VS nva nvb → OS noa nob → K :=
  CC.T1_to_spin (res noa nva nob nvb ha hb Ia Ib Iab T1a T1b T2aa T2ab T2bb).1.1 (res noa nva nob nvb ha hb Ia Ib Iab T1a T1b T2aa T2ab T2bb).1.2
/-- the doubles residuals over spin orbitals -/
def r2 : VS nva nvb → VS nva nvb → OS noa nob → OS noa nob → K :=
  CC.T2_to_spin (res noa nva nob nvb ha hb Ia Ib Iab T1a T1b T2aa T2ab T2bb).2.1 (res noa nva nob nvb ha hb Ia Ib Iab T1a T1b T2aa T2ab T2bb).2.2.1
    (res noa nva nob nvb ha hb Ia Ib Iab T1a T1b T2aa T2ab T2bb).2.2.2

theorem psi_eq : Sq.nexp K (Sq.cluster (CS noa nva nob nvb K) (t1S noa nva nob nvb T1a T1b) (t2S noa nva nob nvb T2aa T2ab T2bb))
    (Sq.fockRef (so noa nva nob nvb) K).ket = psi noa nva nob nvb T1a T1b T2aa T2ab T2bb := by
  rw [cluster_bridge, ← exp_bridge, psi, ← occ_bridge noa nva nob nvb]; rfl

theorem hpsi_eq : Sq.hpsi (t1S noa nva nob nvb T1a T1b) (t2S noa nva nob nvb T2aa T2ab T2bb) (hS noa nva nob nvb ha hb)
    (vS noa nva nob nvb Ia Ib Iab) (Sq.fockRef (so noa nva nob nvb) K) = hpsi noa nva nob nvb ha hb Ia Ib Iab T1a T1b T2aa T2ab T2bb := by
  rw [Sq.hpsi, psi_eq, ham_bridge]; rfl

theorem ccE_eq : Sq.ccE (t1S noa nva nob nvb T1a T1b) (t2S noa nva nob nvb T2aa T2ab T2bb) (hS noa nva nob nvb ha hb)
    (vS noa nva nob nvb Ia Ib Iab) = ccE noa nva nob nvb ha hb Ia Ib Iab T1a T1b T2aa T2ab T2bb := by
  rw [Sq.ccE, refE_bridge, fock_bridge, blocks_bridge, t1S, t2S, CC.C12_ucc_energy, ccE]

section
variable {Ia Ib T2aa T2bb} (va : ∀ p q r s, Ia p q r s = Ia q p s r) (vb : ∀ p q r s, Ib p q r s = Ib q p s r)
  (haa : CI.Anti noa nva T2aa) (hbb : CI.Anti nob nvb T2bb)
include va vb haa hbb

theorem res_eq : CC.ccsd_simple (Sq.fock (hS noa nva nob nvb ha hb) (vS noa nva nob nvb Ia Ib Iab)) (Sq.blocks (vS noa nva nob nvb Ia Ib Iab))
    (t1S noa nva nob nvb T1a T1b) (t2S noa nva nob nvb T2aa T2ab T2bb)
    = (r1 noa nva nob nvb ha hb Ia Ib Iab T1a T1b T2aa T2ab T2bb, r2 noa nva nob nvb ha hb Ia Ib Iab T1a T1b T2aa T2ab T2bb) := by
  rw [fock_bridge, blocks_bridge, t1S, t2S,
    CC.C13_uccsd _ _ _ _ _ _ _ _ _ _ (anti_two va) (anti_two vb) (anti_arr haa) (anti_arr hbb)]
  rfl

theorem at_ref : hpsi noa nva nob nvb ha hb Ia Ib Iab T1a T1b T2aa T2ab T2bb (uref noa nob) = ccE noa nva nob nvb ha hb Ia Ib Iab T1a T1b T2aa T2ab T2bb
    ∧ psi noa nva nob nvb T1a T1b T2aa T2ab T2bb (uref noa nob) = 1 := by
  constructor
  · have := Sq.row_ref (t := t1S noa nva nob nvb T1a T1b) (Sq.fockRef (so noa nva nob nvb) K) (hS noa nva nob nvb ha hb) _
      (vS_anti noa nva nob nvb Ia Ib Iab va vb) (anti_t2S noa nva nob nvb T2aa T2ab T2bb haa hbb)
    rw [hpsi_eq, ccE_eq] at this
    rw [← this, ← occ_bridge noa nva nob nvb]; rfl
  · have := Sq.bra_nexp (t := t1S noa nva nob nvb T1a T1b) (t2 := t2S noa nva nob nvb T2aa T2ab T2bb) (Sq.fockRef (so noa nva nob nvb) K)
      (Sq.fockRef (so noa nva nob nvb) K).ket
    rw [psi_eq, (Sq.fockRef (so noa nva nob nvb) K).norm] at this
    rw [← this, ← occ_bridge noa nva nob nvb]; rfl

theorem at_single (x : VS nva nvb) (i : OS noa nob) : ∃ s : K, (s = 1 ∨ s = -1) ∧
    psi noa nva nob nvb T1a T1b T2aa T2ab T2bb (exS (so noa nva nob nvb) x i) = s * t1S noa nva nob nvb T1a T1b x i ∧
    hpsi noa nva nob nvb ha hb Ia Ib Iab T1a T1b T2aa T2ab T2bb (exS (so noa nva nob nvb) x i)
      = ccE noa nva nob nvb ha hb Ia Ib Iab T1a T1b T2aa T2ab T2bb * psi noa nva nob nvb T1a T1b T2aa T2ab T2bb (exS (so noa nva nob nvb) x i)
        + s * r1 noa nva nob nvb ha hb Ia Ib Iab T1a T1b T2aa T2ab T2bb x i := by
  obtain ⟨s, hs, h⟩ := comp_single (K := K) (so noa nva nob nvb) x i
  have hT := anti_t2S noa nva nob nvb T2aa T2ab T2bb haa hbb
  have e1 := Sq.bra_single (t := t1S noa nva nob nvb T1a T1b) (Sq.fockRef (so noa nva nob nvb) K) hT x i (Sq.fockRef (so noa nva nob nvb) K).ket
  have e2 := Sq.row_single (t := t1S noa nva nob nvb T1a T1b) (Sq.fockRef (so noa nva nob nvb) K) (hS noa nva nob nvb ha hb) _
      (vS_anti noa nva nob nvb Ia Ib Iab va vb) hT x i
  have h0 : Sq.s1 (Sq.fockRef (so noa nva nob nvb) K) x i (Sq.fockRef (so noa nva nob nvb) K).ket = 0 := by
    rw [Sq.s1, (Sq.fockRef (so noa nva nob nvb) K).ann_ket, map_zero, map_zero]
  rw [psi_eq, h0, (Sq.fockRef (so noa nva nob nvb) K).norm, h, zero_add, mul_one] at e1
  rw [hpsi_eq, ccE_eq, psi_eq, res_eq noa nva nob nvb ha hb Iab T1a T1b T2ab va vb haa hbb, h, h] at e2
  have ss : s * s = 1 := by rcases hs with rfl | rfl <;> ring
  refine ⟨s, hs, ?_, ?_⟩
  · rw [← e1, ← mul_assoc, ss, one_mul]
  · have := congrArg (s * ·) e2
    simp only [mul_add, ← mul_assoc, ss, one_mul] at this
    rw [this, mul_right_comm s, ss, one_mul]

theorem at_double {x y : VS nva nvb} {i j : OS noa nob} (hxy : x ≠ y) (hij : i ≠ j) : ∃ s : K, (s = 1 ∨ s = -1) ∧
    psi noa nva nob nvb T1a T1b T2aa T2ab T2bb (exD (so noa nva nob nvb) x y i j)
      = s * (t2S noa nva nob nvb T2aa T2ab T2bb x y i j + t1S noa nva nob nvb T1a T1b x i * t1S noa nva nob nvb T1a T1b y j
          - t1S noa nva nob nvb T1a T1b x j * t1S noa nva nob nvb T1a T1b y i) ∧
    hpsi noa nva nob nvb ha hb Ia Ib Iab T1a T1b T2aa T2ab T2bb (exD (so noa nva nob nvb) x y i j)
      = ccE noa nva nob nvb ha hb Ia Ib Iab T1a T1b T2aa T2ab T2bb * psi noa nva nob nvb T1a T1b T2aa T2ab T2bb (exD (so noa nva nob nvb) x y i j)
        + s * (r2 noa nva nob nvb ha hb Ia Ib Iab T1a T1b T2aa T2ab T2bb x y i j
          + t1S noa nva nob nvb T1a T1b x i * r1 noa nva nob nvb ha hb Ia Ib Iab T1a T1b T2aa T2ab T2bb y j
          + t1S noa nva nob nvb T1a T1b y j * r1 noa nva nob nvb ha hb Ia Ib Iab T1a T1b T2aa T2ab T2bb x i
          - t1S noa nva nob nvb T1a T1b x j * r1 noa nva nob nvb ha hb Ia Ib Iab T1a T1b T2aa T2ab T2bb y i
          - t1S noa nva nob nvb T1a T1b y i * r1 noa nva nob nvb ha hb Ia Ib Iab T1a T1b T2aa T2ab T2bb x j) := by
  obtain ⟨s, hs, h⟩ := comp_double (K := K) (so noa nva nob nvb) hxy hij
  have hT := anti_t2S noa nva nob nvb T2aa T2ab T2bb haa hbb
  have e1 := Sq.bra_double (t := t1S noa nva nob nvb T1a T1b) (Sq.fockRef (so noa nva nob nvb) K) hT x y i j (Sq.fockRef (so noa nva nob nvb) K).ket
  have e2 := Sq.row_double (t := t1S noa nva nob nvb T1a T1b) (Sq.fockRef (so noa nva nob nvb) K) (hS noa nva nob nvb ha hb) _
      (vS_anti noa nva nob nvb Ia Ib Iab va vb) hT x y i j
  have h0 : ∀ x i, Sq.s1 (Sq.fockRef (so noa nva nob nvb) K) x i (Sq.fockRef (so noa nva nob nvb) K).ket = 0 := fun x i => by
    rw [Sq.s1, (Sq.fockRef (so noa nva nob nvb) K).ann_ket, map_zero, map_zero]
  have h0' : Sq.s2 (Sq.fockRef (so noa nva nob nvb) K) x y i j (Sq.fockRef (so noa nva nob nvb) K).ket = 0 := by
    rw [Sq.s2, (Sq.fockRef (so noa nva nob nvb) K).ann_ket, map_zero, map_zero, map_zero, map_zero]
  rw [psi_eq, h0', (Sq.fockRef (so noa nva nob nvb) K).norm, h] at e1
  simp only [h0, mul_zero, add_zero, sub_zero, zero_add, mul_one] at e1
  rw [hpsi_eq, ccE_eq, psi_eq, res_eq noa nva nob nvb ha hb Iab T1a T1b T2ab va vb haa hbb, h, h] at e2
  have ss : s * s = 1 := by rcases hs with rfl | rfl <;> ring
  refine ⟨s, hs, ?_, ?_⟩
  · rw [← e1, ← mul_assoc, ss, one_mul]
  · have := congrArg (s * ·) e2
    simp only at this
    rw [← mul_assoc, ss, one_mul, mul_add, mul_left_comm, ← mul_assoc s s, ss, one_mul] at this
    exact this

end

/-! ### lists -/

theorem card_of_level {R A : Finset ℕ} {n k : ℕ} (h : Level R n A k) : A.card = R.card := by
  obtain ⟨-, h1, h2⟩ := h
  have e1 := card_sdiff_add_card_inter A R
  have e2 := card_sdiff_add_card_inter R A
  rw [inter_comm] at e2
  omega

theorem matvec_map {α : Type} (D : List α) (f : α → Finset SO) (M : Finset SO → Finset SO → K) (ψ : Finset SO → K) :
    matvec (fun k l => M ((D.map f).getD k ∅) ((D.map f).getD l ∅)) (D.map fun d => ψ (f d))
      = D.map fun d => ∑ j ∈ range (D.map f).length, M (f d) ((D.map f).getD j ∅) * ψ ((D.map f).getD j ∅) := by
  unfold matvec
  refine List.ext_getElem (by simp) fun k h1 h2 => ?_
  have hk : k < D.length := by simpa using h2
  simp only [List.getElem_map, List.getElem_range, List.length_map]
  refine sum_congr rfl fun j hj => ?_
  rw [mem_range] at hj
  simp [hk, hj]

/-- the determinant pairs of a basis -/
theorem basis_levels {order : ℕ} {B : List Pair} {D : List (Dstring × Dstring)}
    (he : EnumeratesU B (ofSet (noa + nva) (range noa)) (ofSet (nob + nvb) (range nob)) fun k l => k + l ≤ order)
    (hD : PBasis (noa + nva) (nob + nvb) B D) {d : Dstring × Dstring} (hd : d ∈ D) :
    ∃ k l, Level (range noa) (noa + nva) (supp d.1) k ∧ Level (range nob) (nob + nvb) (supp d.2) l ∧ k + l ≤ order := by
  have : (some d.1, some d.2) ∈ B := by rw [hD.1]; exact List.mem_map.mpr ⟨d, hd, rfl⟩
  obtain ⟨da, db, k, l, e, h1, h2, h3⟩ := (he.2 _).mp this
  simp only [Prod.mk.injEq, Option.some.injEq] at e
  refine ⟨k, l, ?_, ?_, h3⟩
  · rw [e.1]; exact level_excitation (range_sub _ _) h1
  · rw [e.2]; exact level_excitation (range_sub _ _) h2

/-- `H_on_vec` on a basis complete up to a level and the coefficients of a vector in the right sector. -/
theorem H_on_psi {order : ℕ} {B : List Pair} {D : List (Dstring × Dstring)}
    (he : EnumeratesU B (ofSet (noa + nva) (range noa)) (ofSet (nob + nvb) (range nob)) fun k l => k + l ≤ order)
    (hD : PBasis (noa + nva) (nob + nvb) B D) (va : ∀ p q r s, Ia p q r s = Ia q p s r) (vb : ∀ p q r s, Ib p q r s = Ib q p s r)
    {ψ : Finset SO → K} (hψ : ψ ∈ sect K noa nob (noa + nva) (nob + nvb)) :
    ∃ w : Finset SO → K, H_on_vec B (D.map fun d => ψ (psupp d)) ha hb Ia Ib Iab = .ok (D.map fun d => w (psupp d)) ∧
      ∀ d ∈ D, ((psupp d \ uref noa nob).card + 2 ≤ order ∨ noa + nob ≤ order) →
        w (psupp d) = spinHam (noa + nva) (nob + nvb) ha hb Ia Ib Iab ψ (psupp d) := by
  have hc : ∀ d ∈ D, (supp d.1).card = noa ∧ (supp d.2).card = nob := fun d hd => by
    obtain ⟨k, l, h1, h2, -⟩ := basis_levels noa nva nob nvb he hD hd
    exact ⟨(card_of_level h1).trans (card_range _), (card_of_level h2).trans (card_range _)⟩
  refine ⟨fun S => ∑ j ∈ range (D.map psupp).length, elt (spinHam (noa + nva) (nob + nvb) ha hb Ia Ib Iab) S ((D.map psupp).getD j ∅)
    * ψ ((D.map psupp).getD j ∅), ?_, ?_⟩
  · rw [C38_H hD (by rw [hD.1]; simp) ha hb Ia Ib Iab (fun d hd e he => by
      rw [(hc d hd).1, (hc d hd).2, (hc e he).1, (hc e he).2]; exact ⟨rfl, rfl⟩) va vb]
    rw [matvec_map]
  · intro d hd hm
    refine row (he.full hD).1 hD.nodup ?_ hm _ _ _ hψ
    rw [psupp, card_emb, (hc d hd).1, (hc d hd).2]

theorem psi_sect {T2aa T2bb} (haa : CI.Anti noa nva T2aa) (hbb : CI.Anti nob nvb T2bb) :
    psi noa nva nob nvb T1a T1b T2aa T2ab T2bb ∈ sect K noa nob (noa + nva) (nob + nvb) := by
  have h := cluster_stab (K := K) T1a T1b (T2ab := T2ab) haa hbb
  rw [psi, exp_bridge]
  have : Sq.nexp K (clusterU noa nva nob nvb T1a T1b T2aa T2ab T2bb) ∈ stab K noa nob (noa + nva) (nob + nvb) :=
    sum_mem fun n _ => Subalgebra.smul_mem _ (pow_mem h n) _
  exact this _ (det_sect (range_sub _ _) (card_range _) (range_sub _ _) (card_range _))

/-! ### the excited determinants -/

theorem lev_single {o v : ℕ} {i a : ℕ} (hi : i < o) (ha : a < v) : Level (range o) (o + v) (insert (a + o) ((range o).erase i)) 1 :=
  (Level.ref (range_sub o v)).step (mem_range.mpr hi) (by simp) (by omega) (mem_range.mpr hi) (by simp)

theorem lev_double {o v : ℕ} {i j a b : ℕ} (hi : i < o) (hj : j < o) (hij : i ≠ j) (ha : a < v) (hb : b < v) (hab : a ≠ b) :
    Level (range o) (o + v) (insert (a + o) (insert (b + o) (((range o).erase i).erase j))) 2 := by
  have h := (lev_single hi hb).step (i := j) (a := a + o) (mem_range.mpr hj) (by simp) (by omega)
    (mem_insert_of_mem (mem_erase.mpr ⟨hij.symm, mem_range.mpr hj⟩)) (by
      rw [mem_insert, mem_erase, mem_range]; omega)
  have e : insert (a + o) ((insert (b + o) ((range o).erase i)).erase j) = insert (a + o) (insert (b + o) (((range o).erase i).erase j)) := by
    rw [erase_insert_of_ne (by omega)]
  rwa [e] at h

variable {noa nva nob nvb}

theorem exS_a (a : Fin nva) (i : Fin noa) : exS (so noa nva nob nvb) (.inl a) (.inl i)
    = emb (insert (a + noa) ((range noa).erase i)) (range nob) := by
  rw [exS, occ_bridge]; exact exc_up _ _ _ _
theorem exS_b (a : Fin nvb) (i : Fin nob) : exS (so noa nva nob nvb) (.inr a) (.inr i)
    = emb (range noa) (insert (a + nob) ((range nob).erase i)) := by
  rw [exS, occ_bridge]; exact exc_dn _ _ _ _

theorem exD_aa (a b : Fin nva) (i j : Fin noa) : exD (so noa nva nob nvb) (.inl a) (.inl b) (.inl i) (.inl j)
    = emb (insert (a + noa) (insert (b + noa) (((range noa).erase i).erase j))) (range nob) := by
  rw [exD, occ_bridge]
  change insert (up (a + noa)) (insert (up (b + noa)) (((uref noa nob).erase (up i)).erase (up j))) = _
  refine emb_ext (fun k => ?_) (fun k => ?_)
  · simp only [uref, mem_insert, mem_erase, Ne, up_inj, up_mem, mem_range]
  · simp only [uref, mem_insert, mem_erase, Ne, dn_mem, mem_range, up_ne_dn.symm, false_or, not_false_eq_true, true_and]
theorem exD_bb (a b : Fin nvb) (i j : Fin nob) : exD (so noa nva nob nvb) (.inr a) (.inr b) (.inr i) (.inr j)
    = emb (range noa) (insert (a + nob) (insert (b + nob) (((range nob).erase i).erase j))) := by
  rw [exD, occ_bridge]
  change insert (dn (a + nob)) (insert (dn (b + nob)) (((uref noa nob).erase (dn i)).erase (dn j))) = _
  refine emb_ext (fun k => ?_) (fun k => ?_)
  · simp only [uref, mem_insert, mem_erase, Ne, up_mem, mem_range, up_ne_dn, false_or, not_false_eq_true, true_and]
  · simp only [uref, mem_insert, mem_erase, Ne, dn_inj, dn_mem, mem_range]
theorem exD_ab (a : Fin nva) (b : Fin nvb) (i : Fin noa) (j : Fin nob) : exD (so noa nva nob nvb) (.inl a) (.inr b) (.inl i) (.inr j)
    = emb (insert (a + noa) ((range noa).erase i)) (insert (b + nob) ((range nob).erase j)) := by
  rw [exD, occ_bridge]
  change insert (up (a + noa)) (insert (dn (b + nob)) (((uref noa nob).erase (up i)).erase (dn j))) = _
  refine emb_ext (fun k => ?_) (fun k => ?_)
  · simp only [uref, mem_insert, mem_erase, Ne, up_inj, up_mem, mem_range, up_ne_dn, false_or, not_false_eq_true, true_and]
  · simp only [uref, mem_insert, mem_erase, Ne, dn_inj, dn_mem, mem_range, up_ne_dn.symm, false_or, not_false_eq_true, true_and]

/-! ### C59 -/

/-- Entry `k` of the basis is the determinant with the given occupied orbitals, and `c`, `w` are its entries in the two vectors. -/
def Entry (B : List Pair) (C y : List K) (occa occb : Finset ℕ) (c w : K) : Prop :=
  ∃ (k : ℕ) (da db : Dstring), B[k]? = some (some da, some db) ∧ supp da = occa ∧ supp db = occb ∧ C[k]? = some c ∧ y[k]? = some w

/-- The determinants of the basis, in the terms of `det_cases`. -/
theorem det_data {order : ℕ} {B : List Pair} {D : List (Dstring × Dstring)}
    (he : EnumeratesU B (ofSet (noa + nva) (range noa)) (ofSet (nob + nvb) (range nob)) fun k l => k + l ≤ order)
    (hD : PBasis (noa + nva) (nob + nvb) B D) {d : Dstring × Dstring} (hd : d ∈ D) :
    psupp d ⊆ univ.map (so noa nva nob nvb) ∧ (psupp d).card = Fintype.card (OS noa nob) ∧
      (psupp d \ Sq.occSet (so noa nva nob nvb)).card ≤ order := by
  obtain ⟨k, l, l1, l2, l3⟩ := basis_levels noa nva nob nvb he hD hd
  have e : psupp d = emb (supp d.1) (supp d.2) := rfl
  refine ⟨?_, ?_, ?_⟩
  · rw [map_so, e]; exact emb_subset l1.1 l2.1
  · rw [e, card_emb, card_of_level l1, card_of_level l2]; simp
  · rw [occ_bridge, e, uref, emb_sdiff, card_emb, l1.2.1, l2.2.1]; exact l3

section main
variable {Ia Ib T2aa T2bb} (hn : noa + nva = nob + nvb) (va : ∀ p q r s, Ia p q r s = Ia q p s r) (vb : ∀ p q r s, Ib p q r s = Ib q p s r)
  (haa : CI.Anti noa nva T2aa) (hbb : CI.Anti nob nvb T2bb)

/-- Everything at once, for a basis complete up to `order`. -/
theorem run {order : ℕ} {B : List Pair} {D : List (Dstring × Dstring)}
    (he : EnumeratesU B (ofSet (noa + nva) (range noa)) (ofSet (nob + nvb) (range nob)) fun k l => k + l ≤ order)
    (hD : PBasis (noa + nva) (nob + nvb) B D) (va : ∀ p q r s, Ia p q r s = Ia q p s r) (vb : ∀ p q r s, Ib p q r s = Ib q p s r)
    (haa : CI.Anti noa nva T2aa) (hbb : CI.Anti nob nvb T2bb) :
    ∃ y, H_on_vec B (D.map fun d => psi noa nva nob nvb T1a T1b T2aa T2ab T2bb (psupp d)) ha hb Ia Ib Iab = .ok y ∧ y.length = D.length ∧
      (∀ {A A' : Finset ℕ} {k l : ℕ}, Level (range noa) (noa + nva) A k → Level (range nob) (nob + nvb) A' l → k + l ≤ order →
        (k + l + 2 ≤ order ∨ noa + nob ≤ order) →
        Entry B (D.map fun d => psi noa nva nob nvb T1a T1b T2aa T2ab T2bb (psupp d)) y A A'
          (psi noa nva nob nvb T1a T1b T2aa T2ab T2bb (emb A A')) (hpsi noa nva nob nvb ha hb Ia Ib Iab T1a T1b T2aa T2ab T2bb (emb A A'))) ∧
      (noa + nob ≤ order → y = D.map fun d => hpsi noa nva nob nvb ha hb Ia Ib Iab T1a T1b T2aa T2ab T2bb (psupp d)) := by
  obtain ⟨w, hw, hr⟩ := H_on_psi noa nva nob nvb ha hb Ia Ib Iab he hD va vb (psi_sect noa nva nob nvb T1a T1b T2ab haa hbb)
  refine ⟨_, hw, by simp, ?_, ?_⟩
  · intro A A' k l h1 h2 h3 h4
    obtain ⟨d, hd, e⟩ := List.mem_map.mp ((he.full hD).1 A A' k l h1 h2 h3)
    obtain ⟨idx, hi, ei⟩ := List.mem_iff_getElem.mp hd
    have hs := emb_inj.mp e
    refine ⟨idx, d.1, d.2, ?_, hs.1, hs.2, ?_, ?_⟩
    · rw [hD.1, List.getElem?_map, List.getElem?_eq_getElem hi, ei]; rfl
    · rw [List.getElem?_map, List.getElem?_eq_getElem hi, ei, Option.map_some, e]
    · rw [List.getElem?_map, List.getElem?_eq_getElem hi, ei, Option.map_some, hr d hd, e]; · rfl
      rw [e, uref, emb_sdiff, card_emb, h1.2.1, h2.2.1]
      exact h4
  · intro h4
    exact List.map_congr_left fun d hd => hr d hd (.inr h4)

include hn va vb haa hbb

/-- The vectors of `makeCfromT` with `order = 2` and `order = 3`. -/
theorem run2 : ∃ B D, ucisd_basis (noa + nva) noa nob = .ok B ∧
    makeCfromT noa nva nob nvb T1a T1b T2aa T2ab T2bb 2 = .ok (D.map fun d => psi noa nva nob nvb T1a T1b T2aa T2ab T2bb (psupp d)) ∧
    EnumeratesU B (ofSet (noa + nva) (range noa)) (ofSet (nob + nvb) (range nob)) (fun k l => k + l ≤ 2) ∧ PBasis (noa + nva) (nob + nvb) B D := by
  obtain ⟨B, D, h1, h2, h3⟩ := C37_makeCfromT_2 T1a T1b (T2ab := T2ab) hn haa hbb
  obtain ⟨B', hB, he⟩ := C33_ucisd (noa + nva) noa nob
  have hr : (⟨noa + nva, aufbau (noa + nva) nob⟩ : Dstring) = ofSet (nob + nvb) (Finset.range nob) := by rw [hn, aufbau_ofSet]
  rw [aufbau_ofSet, hr] at he
  rw [h1] at hB; obtain rfl := Except.ok.inj hB
  exact ⟨B, D, h1, h3, he, h2⟩
theorem run3 : ∃ B D, ucisdt_basis (noa + nva) noa nob = .ok B ∧
    makeCfromT noa nva nob nvb T1a T1b T2aa T2ab T2bb 3 = .ok (D.map fun d => psi noa nva nob nvb T1a T1b T2aa T2ab T2bb (psupp d)) ∧
    EnumeratesU B (ofSet (noa + nva) (range noa)) (ofSet (nob + nvb) (range nob)) (fun k l => k + l ≤ 3) ∧ PBasis (noa + nva) (nob + nvb) B D := by
  obtain ⟨B, D, h1, h2, h3⟩ := C37_makeCfromT_3 T1a T1b (T2ab := T2ab) hn haa hbb
  obtain ⟨B', hB, he⟩ := C33_ucisdt (noa + nva) noa nob
  have hr : (⟨noa + nva, aufbau (noa + nva) nob⟩ : Dstring) = ofSet (nob + nvb) (Finset.range nob) := by rw [hn, aufbau_ofSet]
  rw [aufbau_ofSet, hr] at he
  rw [h1] at hB; obtain rfl := Except.ok.inj hB
  exact ⟨B, D, h1, h3, he, h2⟩

/-- C59: for all integrals and amplitudes and any numbers of electrons, the reference row of the CI matrix over `ucisd_basis` applied to the
vector of `makeCfromT` is the energy of the reference plus `ucc_energy`. -/
theorem C59_energy : ∃ B C y, ucisd_basis (noa + nva) noa nob = .ok B ∧ makeCfromT noa nva nob nvb T1a T1b T2aa T2ab T2bb 2 = .ok C ∧
    H_on_vec B C ha hb Ia Ib Iab = .ok y ∧
    Entry B C y (range noa) (range nob) 1 (ccE noa nva nob nvb ha hb Ia Ib Iab T1a T1b T2aa T2ab T2bb) := by
  obtain ⟨B, D, h1, h2, he, hD⟩ := run2 T1a T1b T2ab hn va vb haa hbb
  obtain ⟨y, h3, -, h4, -⟩ := run ha hb Iab T1a T1b T2ab he hD va vb haa hbb
  refine ⟨B, _, y, h1, h2, h3, ?_⟩
  have := h4 (Level.ref (range_sub _ _)) (Level.ref (range_sub _ _)) (by omega) (.inl (by omega))
  obtain ⟨e1, e2⟩ := at_ref noa nva nob nvb ha hb Iab T1a T1b T2ab va vb haa hbb
  rw [uref] at e1 e2
  rwa [e1, e2] at this

/-- C59: with `order = 3`, also the singles rows of the CI matrix give the energy times the coefficient plus the residual of `uccsd_stanton`, for
all integrals and amplitudes and any numbers of electrons. -/
theorem C59_singles : ∃ B C y, ucisdt_basis (noa + nva) noa nob = .ok B ∧ makeCfromT noa nva nob nvb T1a T1b T2aa T2ab T2bb 3 = .ok C ∧
    H_on_vec B C ha hb Ia Ib Iab = .ok y ∧
    Entry B C y (range noa) (range nob) 1 (ccE noa nva nob nvb ha hb Ia Ib Iab T1a T1b T2aa T2ab T2bb) ∧
    (∀ (a : Fin nva) (i : Fin noa), ∃ s : K, (s = 1 ∨ s = -1) ∧
      Entry B C y (insert (a + noa) ((range noa).erase i)) (range nob) (s * T1a a i)
        (ccE noa nva nob nvb ha hb Ia Ib Iab T1a T1b T2aa T2ab T2bb * (s * T1a a i)
          + s * (res noa nva nob nvb ha hb Ia Ib Iab T1a T1b T2aa T2ab T2bb).1.1 a i)) ∧
    (∀ (a : Fin nvb) (i : Fin nob), ∃ s : K, (s = 1 ∨ s = -1) ∧
      Entry B C y (range noa) (insert (a + nob) ((range nob).erase i)) (s * T1b a i)
        (ccE noa nva nob nvb ha hb Ia Ib Iab T1a T1b T2aa T2ab T2bb * (s * T1b a i)
          + s * (res noa nva nob nvb ha hb Ia Ib Iab T1a T1b T2aa T2ab T2bb).1.2 a i)) := by
  obtain ⟨B, D, h1, h2, he, hD⟩ := run3 T1a T1b T2ab hn va vb haa hbb
  obtain ⟨y, h3, -, h4, -⟩ := run ha hb Iab T1a T1b T2ab he hD va vb haa hbb
  refine ⟨B, _, y, h1, h2, h3, ?_, fun a i => ?_, fun a i => ?_⟩
  · have := h4 (Level.ref (range_sub _ _)) (Level.ref (range_sub _ _)) (by omega) (.inl (by omega))
    obtain ⟨e1, e2⟩ := at_ref noa nva nob nvb ha hb Iab T1a T1b T2ab va vb haa hbb
    rw [uref] at e1 e2
    rwa [e1, e2] at this
  · have := h4 (lev_single i.2 a.2) (Level.ref (range_sub _ _)) (by omega) (.inl (by omega))
    obtain ⟨s, hs, e1, e2⟩ := at_single noa nva nob nvb ha hb Iab T1a T1b T2ab va vb haa hbb (.inl a) (.inl i)
    rw [exS_a] at e1 e2
    rw [e2, e1] at this
    exact ⟨s, hs, this⟩
  · have := h4 (Level.ref (range_sub _ _)) (lev_single i.2 a.2) (by omega) (.inl (by omega))
    obtain ⟨s, hs, e1, e2⟩ := at_single noa nva nob nvb ha hb Iab T1a T1b T2ab va vb haa hbb (.inr a) (.inr i)
    rw [exS_b] at e1 e2
    rw [e2, e1] at this
    exact ⟨s, hs, this⟩

/-- C59: with `order = 3` and at most three electrons, also the doubles rows: the residual enters with the products of singles amplitudes and
singles residuals. -/
theorem C59_doubles (h3 : noa + nob ≤ 3) : ∃ B C y, ucisdt_basis (noa + nva) noa nob = .ok B ∧
    makeCfromT noa nva nob nvb T1a T1b T2aa T2ab T2bb 3 = .ok C ∧ H_on_vec B C ha hb Ia Ib Iab = .ok y ∧
    (∀ (a b : Fin nva) (i j : Fin noa), a ≠ b → i ≠ j → ∃ s : K, (s = 1 ∨ s = -1) ∧ ∃ c, c = s * (T2aa a b i j + T1a a i * T1a b j - T1a a j * T1a b i) ∧
      Entry B C y (insert (a + noa) (insert (b + noa) (((range noa).erase i).erase j))) (range nob) c
        (ccE noa nva nob nvb ha hb Ia Ib Iab T1a T1b T2aa T2ab T2bb * c
          + s * ((res noa nva nob nvb ha hb Ia Ib Iab T1a T1b T2aa T2ab T2bb).2.1 a b i j
            + T1a a i * (res noa nva nob nvb ha hb Ia Ib Iab T1a T1b T2aa T2ab T2bb).1.1 b j
            + T1a b j * (res noa nva nob nvb ha hb Ia Ib Iab T1a T1b T2aa T2ab T2bb).1.1 a i
            - T1a a j * (res noa nva nob nvb ha hb Ia Ib Iab T1a T1b T2aa T2ab T2bb).1.1 b i
            - T1a b i * (res noa nva nob nvb ha hb Ia Ib Iab T1a T1b T2aa T2ab T2bb).1.1 a j))) ∧
    (∀ (a : Fin nva) (b : Fin nvb) (i : Fin noa) (j : Fin nob), ∃ s : K, (s = 1 ∨ s = -1) ∧ ∃ c, c = s * (T2ab a b i j + T1a a i * T1b b j) ∧
      Entry B C y (insert (a + noa) ((range noa).erase i)) (insert (b + nob) ((range nob).erase j)) c
        (ccE noa nva nob nvb ha hb Ia Ib Iab T1a T1b T2aa T2ab T2bb * c
          + s * ((res noa nva nob nvb ha hb Ia Ib Iab T1a T1b T2aa T2ab T2bb).2.2.1 a b i j
            + T1a a i * (res noa nva nob nvb ha hb Ia Ib Iab T1a T1b T2aa T2ab T2bb).1.2 b j
            + T1b b j * (res noa nva nob nvb ha hb Ia Ib Iab T1a T1b T2aa T2ab T2bb).1.1 a i))) ∧
    (∀ (a b : Fin nvb) (i j : Fin nob), a ≠ b → i ≠ j → ∃ s : K, (s = 1 ∨ s = -1) ∧ ∃ c, c = s * (T2bb a b i j + T1b a i * T1b b j - T1b a j * T1b b i) ∧
      Entry B C y (range noa) (insert (a + nob) (insert (b + nob) (((range nob).erase i).erase j))) c
        (ccE noa nva nob nvb ha hb Ia Ib Iab T1a T1b T2aa T2ab T2bb * c
          + s * ((res noa nva nob nvb ha hb Ia Ib Iab T1a T1b T2aa T2ab T2bb).2.2.2 a b i j
            + T1b a i * (res noa nva nob nvb ha hb Ia Ib Iab T1a T1b T2aa T2ab T2bb).1.2 b j
            + T1b b j * (res noa nva nob nvb ha hb Ia Ib Iab T1a T1b T2aa T2ab T2bb).1.2 a i
            - T1b a j * (res noa nva nob nvb ha hb Ia Ib Iab T1a T1b T2aa T2ab T2bb).1.2 b i
            - T1b b i * (res noa nva nob nvb ha hb Ia Ib Iab T1a T1b T2aa T2ab T2bb).1.2 a j))) := by
  obtain ⟨B, D, h1, h2, he, hD⟩ := run3 T1a T1b T2ab hn va vb haa hbb
  obtain ⟨y, hy, -, h4, -⟩ := run ha hb Iab T1a T1b T2ab he hD va vb haa hbb
  refine ⟨B, _, y, h1, h2, hy, fun a b i j hab hij => ?_, fun a b i j => ?_, fun a b i j hab hij => ?_⟩
  · have := h4 (lev_double i.2 j.2 (fun h => hij (Fin.ext h)) a.2 b.2 (fun h => hab (Fin.ext h))) (Level.ref (range_sub _ _)) (by omega) (.inr h3)
    obtain ⟨s, hs, e1, e2⟩ := at_double noa nva nob nvb ha hb Iab T1a T1b T2ab va vb haa hbb
      (x := .inl a) (y := .inl b) (i := .inl i) (j := .inl j) (fun h => hab (Sum.inl_injective h)) (fun h => hij (Sum.inl_injective h))
    rw [exD_aa] at e1 e2
    rw [e2, e1] at this
    exact ⟨s, hs, _, rfl, this⟩
  · have := h4 (lev_single i.2 a.2) (lev_single j.2 b.2) (by omega) (.inr h3)
    obtain ⟨s, hs, e1, e2⟩ := at_double noa nva nob nvb ha hb Iab T1a T1b T2ab va vb haa hbb
      (x := .inl a) (y := .inr b) (i := .inl i) (j := .inr j) Sum.inl_ne_inr Sum.inl_ne_inr
    rw [exD_ab] at e1 e2
    have z1 : t1S noa nva nob nvb T1a T1b (.inl a) (.inr j) = 0 := rfl
    have z2 : t1S noa nva nob nvb T1a T1b (.inr b) (.inl i) = 0 := rfl
    rw [z1, z2] at e1 e2
    simp only [zero_mul, sub_zero] at e1 e2
    rw [e2, e1] at this
    exact ⟨s, hs, _, rfl, this⟩
  · have := h4 (Level.ref (range_sub _ _)) (lev_double i.2 j.2 (fun h => hij (Fin.ext h)) a.2 b.2 (fun h => hab (Fin.ext h))) (by omega) (.inr h3)
    obtain ⟨s, hs, e1, e2⟩ := at_double noa nva nob nvb ha hb Iab T1a T1b T2ab va vb haa hbb
      (x := .inr a) (y := .inr b) (i := .inr i) (j := .inr j) (fun h => hab (Sum.inr_injective h)) (fun h => hij (Sum.inr_injective h))
    rw [exD_bb] at e1 e2
    rw [e2, e1] at this
    exact ⟨s, hs, _, rfl, this⟩

/-- C59: for one or two electrons, the vector of `makeCfromT` is an eigenvector of the CI matrix over `ucisd_basis`, with the reference energy plus
`ucc_energy` as eigenvalue, exactly if all residuals of `uccsd_stanton` vanish. -/
theorem C59_two_electrons (h2e : noa + nob ≤ 2) : ∃ B C y, ucisd_basis (noa + nva) noa nob = .ok B ∧
    makeCfromT noa nva nob nvb T1a T1b T2aa T2ab T2bb 2 = .ok C ∧ H_on_vec B C ha hb Ia Ib Iab = .ok y ∧ C ≠ C.map (fun _ => 0) ∧
    (y = C.map (ccE noa nva nob nvb ha hb Ia Ib Iab T1a T1b T2aa T2ab T2bb * ·) ↔
      res noa nva nob nvb ha hb Ia Ib Iab T1a T1b T2aa T2ab T2bb = ((0, 0), 0, 0, 0)) := by
  obtain ⟨B, D, h1, h2, he, hD⟩ := run2 T1a T1b T2ab hn va vb haa hbb
  obtain ⟨y, hy, -, h4, h5⟩ := run ha hb Iab T1a T1b T2ab he hD va vb haa hbb
  have hyD := h5 h2e
  refine ⟨B, _, y, h1, h2, hy, ?_, fun hev => ?_, fun hres => ?_⟩
  · obtain ⟨d, hd, e⟩ := List.mem_map.mp ((he.full hD).1 _ _ 0 0 (Level.ref (range_sub _ _)) (Level.ref (range_sub _ _)) (by omega))
    rw [List.map_map]
    intro hC
    have := List.map_inj_left.mp hC d hd
    rw [e, Function.comp] at this
    have e1 := (at_ref noa nva nob nvb ha hb Iab T1a T1b T2ab va vb haa hbb).2
    rw [uref, this] at e1
    exact zero_ne_one e1
  · have ev : ∀ {A A' : Finset ℕ} {k l : ℕ}, Level (range noa) (noa + nva) A k → Level (range nob) (nob + nvb) A' l → k + l ≤ 2 →
        hpsi noa nva nob nvb ha hb Ia Ib Iab T1a T1b T2aa T2ab T2bb (emb A A')
          = ccE noa nva nob nvb ha hb Ia Ib Iab T1a T1b T2aa T2ab T2bb * psi noa nva nob nvb T1a T1b T2aa T2ab T2bb (emb A A') := by
      intro A A' k l l1 l2 l3
      obtain ⟨d, hd, e⟩ := List.mem_map.mp ((he.full hD).1 A A' k l l1 l2 l3)
      rw [hyD, List.map_map] at hev
      have := List.map_inj_left.mp hev d hd
      rwa [e, Function.comp, e] at this
    have pm : ∀ {s : K}, (s = 1 ∨ s = -1) → s ≠ 0 := by rintro s (rfl | rfl) <;> simp
    have hs1 : ∀ x i, r1 noa nva nob nvb ha hb Ia Ib Iab T1a T1b T2aa T2ab T2bb x i = 0 := by
      intro x i
      rcases x with a | a <;> rcases i with i | i
      · obtain ⟨s, hs, -, e2⟩ := at_single noa nva nob nvb ha hb Iab T1a T1b T2ab va vb haa hbb (.inl a) (.inl i)
        rw [exS_a, ev (lev_single i.2 a.2) (Level.ref (range_sub _ _)) (by omega)] at e2
        exact (mul_eq_zero.mp (by linear_combination -e2 : s * _ = 0)).resolve_left (pm hs)
      · rfl
      · rfl
      · obtain ⟨s, hs, -, e2⟩ := at_single noa nva nob nvb ha hb Iab T1a T1b T2ab va vb haa hbb (.inr a) (.inr i)
        rw [exS_b, ev (Level.ref (range_sub _ _)) (lev_single i.2 a.2) (by omega)] at e2
        exact (mul_eq_zero.mp (by linear_combination -e2 : s * _ = 0)).resolve_left (pm hs)
    have hd : ∀ {x y : VS nva nvb} {i j : OS noa nob}, x ≠ y → i ≠ j →
        hpsi noa nva nob nvb ha hb Ia Ib Iab T1a T1b T2aa T2ab T2bb (exD (so noa nva nob nvb) x y i j)
          = ccE noa nva nob nvb ha hb Ia Ib Iab T1a T1b T2aa T2ab T2bb * psi noa nva nob nvb T1a T1b T2aa T2ab T2bb (exD (so noa nva nob nvb) x y i j) →
        r2 noa nva nob nvb ha hb Ia Ib Iab T1a T1b T2aa T2ab T2bb x y i j = 0 := by
      intro x y i j hxy hij e
      obtain ⟨s, hs, -, e2⟩ := at_double noa nva nob nvb ha hb Iab T1a T1b T2ab va vb haa hbb hxy hij
      rw [e, hs1, hs1, hs1, hs1] at e2
      exact (mul_eq_zero.mp (by linear_combination -e2 : s * _ = 0)).resolve_left (pm hs)
    obtain ⟨aa, bb⟩ := CC.C44_uccsd_anti (one noa nva (fockA noa nob ha Ia Iab)) (one nob nvb (fockB noa nob hb Ib Iab)) (two noa nva (asym Ia))
      (two nob nvb (asym Ib)) (twoAB noa nva nob nvb Iab) (arr2 nva noa T1a) (arr2 nvb nob T1b) (arr4 nva nva noa noa T2aa) (arr4 nva nvb noa nob T2ab)
      (arr4 nvb nvb nob nob T2bb) (anti_two va) (anti_two vb) (anti_arr haa) (anti_arr hbb)
    refine Prod.ext (Prod.ext ?_ ?_) (Prod.ext ?_ (Prod.ext ?_ ?_))
    · funext a i; exact hs1 (.inl a) (.inl i)
    · funext a i; exact hs1 (.inr a) (.inr i)
    · funext a b i j
      by_cases hab : a = b
      · subst hab; exact self_eq_neg.mp (aa.1 a a i j)
      by_cases hij : i = j
      · subst hij; exact self_eq_neg.mp (aa.2 a b i i)
      exact hd (x := .inl a) (y := .inl b) (i := .inl i) (j := .inl j) (fun h => hab (Sum.inl_injective h)) (fun h => hij (Sum.inl_injective h))
        (by rw [exD_aa]; exact ev (lev_double i.2 j.2 (fun h => hij (Fin.ext h)) a.2 b.2 (fun h => hab (Fin.ext h))) (Level.ref (range_sub _ _)) (by omega))
    · funext a b i j
      exact hd (x := .inl a) (y := .inr b) (i := .inl i) (j := .inr j) Sum.inl_ne_inr Sum.inl_ne_inr
        (by rw [exD_ab]; exact ev (lev_single i.2 a.2) (lev_single j.2 b.2) (by omega))
    · funext a b i j
      by_cases hab : a = b
      · subst hab; exact self_eq_neg.mp (bb.1 a a i j)
      by_cases hij : i = j
      · subst hij; exact self_eq_neg.mp (bb.2 a b i i)
      exact hd (x := .inr a) (y := .inr b) (i := .inr i) (j := .inr j) (fun h => hab (Sum.inr_injective h)) (fun h => hij (Sum.inr_injective h))
        (by rw [exD_bb]; exact ev (Level.ref (range_sub _ _)) (lev_double i.2 j.2 (fun h => hij (Fin.ext h)) a.2 b.2 (fun h => hab (Fin.ext h))) (by omega))
  · rw [hyD, List.map_map]
    have z1 : ∀ x i, r1 noa nva nob nvb ha hb Ia Ib Iab T1a T1b T2aa T2ab T2bb x i = 0 := by
      intro x i; rw [r1, hres]; rcases x with a | a <;> rcases i with i | i <;> rfl
    have z2 : ∀ x y i j, r2 noa nva nob nvb ha hb Ia Ib Iab T1a T1b T2aa T2ab T2bb x y i j = 0 := by
      intro x y i j; rw [r2, hres]
      rcases x with a | a <;> rcases y with b | b <;> rcases i with i | i <;> rcases j with j | j <;> first | rfl | exact neg_zero
    refine List.map_congr_left fun d hd => ?_
    rw [Function.comp]
    obtain ⟨s1, s2, s3⟩ := det_data he hD hd
    rcases det_cases (so noa nva nob nvb) s1 s2 s3 with e | ⟨a, i, e⟩ | ⟨a, b, i, j, hab, hij, e⟩
    · obtain ⟨e1, e2⟩ := at_ref noa nva nob nvb ha hb Iab T1a T1b T2ab va vb haa hbb
      rw [e, occ_bridge, e1, e2, mul_one]
    · obtain ⟨s, hs, -, e2⟩ := at_single noa nva nob nvb ha hb Iab T1a T1b T2ab va vb haa hbb a i
      rw [e, e2, z1, mul_zero, add_zero]
    · obtain ⟨s, hs, -, e2⟩ := at_double noa nva nob nvb ha hb Iab T1a T1b T2ab va vb haa hbb hab hij
      rw [e, e2]; simp only [z1, z2, mul_zero, add_zero, sub_zero]

end main
/-! A case that meets the hypotheses, with non-zero converged amplitudes: two electrons in two orbitals, coupled by a pair excitation. -/

def exH : ℕ → ℕ → ℚ := fun p q => if p = q ∧ p = 1 then 3 / 2 else 0
def exI : ℕ → ℕ → ℕ → ℕ → ℚ := fun p q r s => if p = q ∧ r = s ∧ p ≠ r then 2 else 0
def exT : ℕ → ℕ → ℕ → ℕ → ℚ := fun _ _ _ _ => -1 / 2

theorem ex_res : res 1 1 1 1 exH exH (fun _ _ _ _ => 0) (fun _ _ _ _ => 0) exI (fun _ _ => 0) (fun _ _ => 0) (fun _ _ _ _ => 0) exT (fun _ _ _ _ => 0)
    = ((0, 0), 0, 0, 0) := by
  refine Prod.ext (Prod.ext ?_ ?_) (Prod.ext ?_ (Prod.ext ?_ ?_)) <;> funext a b
  · revert a b; decide +kernel
  · revert a b; decide +kernel
  all_goals funext i j; revert a b i j; decide +kernel

theorem ex_energy : ccE 1 1 1 1 exH exH (fun _ _ _ _ => 0) (fun _ _ _ _ => 0) exI (fun _ _ => 0) (fun _ _ => 0) (fun _ _ _ _ => 0) exT (fun _ _ _ _ => 0)
    = -1 := by decide +kernel

example : ∃ B C y, ucisd_basis 2 1 1 = .ok B ∧
    makeCfromT 1 1 1 1 (fun _ _ => 0) (fun _ _ => 0) (fun _ _ _ _ => 0) exT (fun _ _ _ _ => 0) 2 = .ok C ∧
    H_on_vec B C exH exH (fun _ _ _ _ => 0) (fun _ _ _ _ => 0) exI = .ok y ∧ C ≠ C.map (fun _ => 0) ∧ y = C.map (-1 * ·) := by
  obtain ⟨B, C, y, h1, h2, h3, h4, h5⟩ := C59_two_electrons exH exH exI (fun _ _ => 0) (fun _ _ => 0) exT (noa := 1) (nva := 1) (nob := 1) (nvb := 1)
    (Ia := fun _ _ _ _ => 0) (Ib := fun _ _ _ _ => 0) (T2aa := fun _ _ _ _ => 0) (T2bb := fun _ _ _ _ => 0)
    rfl (fun _ _ _ _ => rfl) (fun _ _ _ _ => rfl) (fun _ _ _ _ _ _ _ _ => ⟨neg_zero.symm, neg_zero.symm⟩)
    (fun _ _ _ _ _ _ _ _ => ⟨neg_zero.symm, neg_zero.symm⟩) le_rfl
  rw [ex_energy] at h5
  exact ⟨B, C, y, h1, h2, h3, h4, h5.mpr ex_res⟩

/-! Three electrons, unconverged amplitudes and no symmetry between the spins. -/
example : ∃ B C y, ucisdt_basis 4 2 1 = .ok B ∧
    makeCfromT 2 2 1 3 (fun a i => (a : ℚ) + i) (fun a _ => (a : ℚ)) (fun a b i j => ((a : ℚ) - b) * (i - j)) (fun a b i j => (a : ℚ) + 2 * b + i + j)
      (fun _ _ _ _ => 0) 3 = .ok C ∧
    H_on_vec B C (fun p q => (p : ℚ) + q) (fun p q => (p : ℚ) * q) (fun p q r s => (p : ℚ) * q + r * s) (fun p q r s => (p : ℚ) * q * r * s)
      (fun p q r s => (p : ℚ) + 2 * q + r + 3 * s) = .ok y ∧
    ∀ (a : Fin 2) (b : Fin 3) (i : Fin 2) (j : Fin 1), ∃ s : ℚ, (s = 1 ∨ s = -1) ∧ ∃ c, c = s * (((a : ℕ) : ℚ) + 2 * (b : ℕ) + (i : ℕ) + (j : ℕ)
      + (((a : ℕ) : ℚ) + (i : ℕ)) * (b : ℕ)) ∧ ∃ w, Entry B C y (insert ((a : ℕ) + 2) ((range 2).erase i)) (insert ((b : ℕ) + 1) ((range 1).erase j)) c w := by
  obtain ⟨B, C, y, h1, h2, h3, -, h4, -⟩ := C59_doubles (fun p q => (p : ℚ) + q) (fun p q => (p : ℚ) * q) (fun p q r s => (p : ℚ) + 2 * q + r + 3 * s)
    (fun a i => (a : ℚ) + i) (fun a _ => (a : ℚ)) (fun a b i j => (a : ℚ) + 2 * b + i + j) (noa := 2) (nva := 2) (nob := 1) (nvb := 3)
    (Ia := fun p q r s => (p : ℚ) * q + r * s) (Ib := fun p q r s => (p : ℚ) * q * r * s) (T2aa := fun a b i j => ((a : ℚ) - b) * (i - j))
    (T2bb := fun _ _ _ _ => 0)
    rfl (fun _ _ _ _ => by ring) (fun _ _ _ _ => by ring) (fun _ _ _ _ _ _ _ _ => ⟨by ring, by ring⟩)
    (fun _ _ _ _ _ _ _ _ => ⟨neg_zero.symm, neg_zero.symm⟩) le_rfl
  refine ⟨B, C, y, h1, h2, h3, fun a b i j => ?_⟩
  obtain ⟨s, hs, c, hc, h⟩ := h4 a b i j
  exact ⟨s, hs, c, hc, _, h⟩

end CCCI
