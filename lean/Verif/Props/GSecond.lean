import Verif.Props.ProjS
import Verif.Props.ProjD
import Verif.Props.GT
import Verif.Props.GRdm
import Verif.Props.FockRep
import Verif.Model.CCEnergy
/-!
# C48, C49: the generalized code against second quantisation

C48: `cc_energy` and the residuals of `ccsd_simple` / `ccsd_stanton` are the projections of `e^{-T} H e^{T}|0⟩` on the reference and on the
excited determinants.  C49: the density matrices are the expectation values of `p† q` and `p† q† s r` with `⟨0|(1+Λ) e^{-T}` and `e^{T}|0⟩`.
-/
set_option linter.unusedSectionVars false
set_option linter.unusedSimpArgs false
set_option linter.unusedTactic false
namespace Sq
open Finset CC Verif.Tensor

variable {K O V M : Type} [Field K] [CharZero K] [DecidableEq O] [DecidableEq V] [AddCommGroup M] [Module K M]
  [Fintype O] [Fintype V] {C : CAR K (O ⊕ V) M} (Φ : Ref C) {t : V → O → K} {t2 : V → V → O → O → K}
  (h : O ⊕ V → O ⊕ V → K) (v : O ⊕ V → O ⊕ V → O ⊕ V → O ⊕ V → K)

/-! ## C48 -/

theorem energy_textbook (hv : AntiV v) (hT : Anti t2) :
    Φ.vev (bar C t t2 (ham C h v)) = refEnergy h v + Spec.energy (fock h v) (blocks v) t t2 := by
  have := proj_e Φ (t := t) ⟨fun i j => h (.inl i) (.inl j), fun i a => h (.inl i) (.inr a), fun a i => h (.inr a) (.inl i),
    fun a b => h (.inr a) (.inr b)⟩ (blocks v) (blocks_anti hv) hT
  rwa [one_blocks, full_blocks hv] at this

theorem singles_textbook (hv : AntiV v) (hT : Anti t2) (a : V) (i : O) :
    Φ.vev (C.cre (.inl i) * C.ann (.inr a) * bar C t t2 (ham C h v)) = Spec.singles (fock h v) (blocks v) t t2 a i := by
  have := proj_s Φ (t := t) ⟨fun i j => h (.inl i) (.inl j), fun i a => h (.inl i) (.inr a), fun a i => h (.inr a) (.inl i),
    fun a b => h (.inr a) (.inr b)⟩ (blocks v) (blocks_anti hv) hT a i
  rwa [one_blocks, full_blocks hv] at this

theorem doubles_textbook (hv : AntiV v) (hT : Anti t2) (a b : V) (i j : O) :
    Φ.vev (C.cre (.inl i) * C.cre (.inl j) * C.ann (.inr b) * C.ann (.inr a) * bar C t t2 (ham C h v))
      = Spec.doubles (fock h v) (blocks v) t t2 a b i j := by
  have := proj_d Φ (t := t) ⟨fun i j => h (.inl i) (.inl j), fun i a => h (.inl i) (.inr a), fun a i => h (.inr a) (.inl i),
    fun a b => h (.inr a) (.inr b)⟩ (blocks v) (blocks_anti hv) hT a b i j
  rwa [one_blocks, full_blocks hv] at this

theorem cc_energy_textbook (F : OneE O V K) (I : TwoE O V K) (t : V → O → K) (t2 : V → V → O → O → K) :
    Spec.energy F I t t2 = cc_energy t t2 F.ov I.oovv := by
  tensor

/-- C48: `⟨0|e^{-T} H e^{T}|0⟩` is the reference energy plus `cc_energy`. -/
theorem C48_energy (hv : AntiV v) (hT : Anti t2) :
    Φ.vev (bar C t t2 (ham C h v)) = refEnergy h v + cc_energy t t2 (fock h v).ov (blocks v).oovv := by
  rw [energy_textbook Φ h v hv hT, cc_energy_textbook]

/-- C48: `⟨Φ_i^a|e^{-T} H e^{T}|0⟩` is the singles residual of `ccsd_simple`, where `⟨Φ_i^a| = ⟨0| i† a`. -/
theorem C48_singles (hv : AntiV v) (hT : Anti t2) (a : V) (i : O) :
    Φ.vev (C.cre (.inl i) * C.ann (.inr a) * bar C t t2 (ham C h v)) = (ccsd_simple (fock h v) (blocks v) t t2).1 a i := by
  rw [singles_textbook Φ h v hv hT, C01_simple_singles_textbook _ _ (blocks_anti hv) _ _ hT]

/-- C48: `⟨Φ_ij^ab|e^{-T} H e^{T}|0⟩` is the doubles residual of `ccsd_simple`, where `⟨Φ_ij^ab| = ⟨0| i† j† b a`. -/
theorem C48_doubles (hv : AntiV v) (hT : Anti t2) (a b : V) (i j : O) :
    Φ.vev (C.cre (.inl i) * C.cre (.inl j) * C.ann (.inr b) * C.ann (.inr a) * bar C t t2 (ham C h v))
      = (ccsd_simple (fock h v) (blocks v) t t2).2 a b i j := by
  rw [doubles_textbook Φ h v hv hT, C01_simple_doubles_textbook _ _ (blocks_anti hv) _ _ hT]

/-- C48 for the implementation with intermediates. -/
theorem C48_stanton (hv : AntiV v) (hT : Anti t2) : ccsd_stanton (fock h v) (blocks v) t t2
    = (fun a i => Φ.vev (C.cre (.inl i) * C.ann (.inr a) * bar C t t2 (ham C h v)),
       fun a b i j => Φ.vev (C.cre (.inl i) * C.cre (.inl j) * C.ann (.inr b) * C.ann (.inr a) * bar C t t2 (ham C h v))) := by
  rw [C01_ccsd_stanton_eq_simple _ _ (blocks_anti hv) _ _ hT]
  refine Prod.ext ?_ ?_
  · funext a i; exact (C48_singles Φ h v hv hT a i).symm
  · funext a b i j; exact (C48_doubles Φ h v hv hT a b i j).symm

/-- C48 for CCD: the doubles residual with `T = T2`. -/
theorem C48_ccd (hv : AntiV v) (hT : Anti t2) : ccd_stanton (fock h v) (blocks v) t2
    = fun a b i j => Φ.vev (C.cre (.inl i) * C.cre (.inl j) * C.ann (.inr b) * C.ann (.inr a) * bar C (fun _ _ => 0) t2 (ham C h v)) := by
  rw [← C02_ccsd_stanton_T1_zero _ _ (blocks_anti hv) _ hT, C48_stanton Φ h v hv hT]

/-! ## C49 -/

variable (l : O → V → K) (l2 : O → O → V → V → K)

/-- `⟨0|(1 + Λ) e^{-T} A e^{T}|0⟩` -/
noncomputable def ccExp (t : V → O → K) (t2 : V → V → O → O → K) (A : Module.End K M) : K := Φ.vev ((1 + deexc C l l2) * bar C t t2 A)

theorem vev_add (A B : Module.End K M) : Φ.vev (A + B) = Φ.vev A + Φ.vev B := map_add _ _ _
theorem vev_smul (c : K) (A : Module.End K M) : Φ.vev (c • A) = c * Φ.vev A := map_smul _ _ _
theorem vev_sum {ι : Type} (s : Finset ι) (F : ι → Module.End K M) : Φ.vev (∑ x ∈ s, F x) = ∑ x ∈ s, Φ.vev (F x) := by
  simp only [Ref.vev, LinearMap.sum_apply, map_sum]

/-- C48: the CC Lagrangian is the expectation value of the Hamiltonian. -/
theorem C48_lagrangian (hv : AntiV v) (hT : Anti t2) :
    ccExp Φ l l2 t t2 (ham C h v) = refEnergy h v + Spec.lagrangian (fock h v) (blocks v) l l2 t t2 := by
  simp only [ccExp, add_mul, one_mul, deexc, smul_mul_assoc, sum_mul, vev_add, vev_smul, vev_sum, energy_textbook Φ h v hv hT,
    singles_textbook Φ h v hv hT, doubles_textbook Φ h v hv hT, Spec.lagrangian]
  ring

theorem ccExp_op1 : ccExp Φ l l2 t t2 (op1 C h) = ∑ p, ∑ q, h p q * ccExp Φ l l2 t t2 (C.cre p * C.ann q) := by
  simp only [ccExp, op1, bar_sum, bar_smul, mul_sum, mul_smul_comm, vev_smul, vev_sum]
theorem ccExp_op2 : ccExp Φ l l2 t t2 (op2 C v)
    = (1/4) * ∑ p, ∑ q, ∑ r, ∑ s, v p q r s * ccExp Φ l l2 t t2 (C.cre p * C.cre q * C.ann s * C.ann r) := by
  simp only [ccExp, op2, bar_sum, bar_smul, mul_sum, mul_smul_comm, vev_smul, vev_sum]

/-- The normal-ordered one-particle density assembled from the blocks the code returns, as `γ p q = ⟨p† q⟩ - ⟨p† q⟩₀`. -/
def gam (t : V → O → K) (t2 : V → V → O → O → K) (l : O → V → K) (l2 : O → O → V → V → K) : OneE O V K where
  oo := fun i j => ccsd_1rdm_ji t t2 l l2 j i
  ov := fun i a => ccsd_1rdm_ai t t2 l l2 1 a i
  vo := fun a i => l i a
  vv := fun a b => ccsd_1rdm_ba t t2 l l2 b a

/-- The blocks of the two-particle density the code returns, with the indices in the order `p† q† s r`. -/
def gam2 (t : V → O → K) (t2 : V → V → O → O → K) (l : O → V → K) (l2 : O → O → V → V → K) : TwoE O V K where
  vvvv := fun a b c d => ccsd_2rdm_cdab t t2 l l2 c d a b
  vvvo := fun a b c i => ccsd_2rdm_ciab t t2 l l2 c i a b
  vovv := fun a i b c => ccsd_2rdm_bcai t t2 l l2 b c a i
  vvoo := fun a b i j => l2 i j a b
  vovo := fun a i b j => ccsd_2rdm_bjai t t2 l l2 b j a i
  oovv := fun i j a b => ccsd_2rdm_abij t t2 l l2 1 a b i j
  vooo := fun a i j k => ccsd_2rdm_jkai t t2 l l2 j k a i
  ooov := fun i j k a => ccsd_2rdm_kaij t t2 l l2 k a i j
  oooo := fun i j k m => ccsd_2rdm_klij t t2 l l2 k m i j

/-- `δ_pq` restricted to occupied orbitals: the density matrix of the reference -/
def gam0 : O ⊕ V → O ⊕ V → K
  | .inl i, .inl j => dl K i j
  | .inl _, .inr _ => 0
  | .inr _, .inl _ => 0
  | .inr _, .inr _ => 0

/-- Two-particle density of a reference plus normal-ordered one- and two-particle parts (the generalized Wick expansion of `p† q† s r`). -/
def tot (γ : O ⊕ V → O ⊕ V → K) (Γ : O ⊕ V → O ⊕ V → O ⊕ V → O ⊕ V → K) (p q r s : O ⊕ V) : K :=
  Γ p q r s + (gam0 p r * γ q s - gam0 p s * γ q r - gam0 q r * γ p s + gam0 q s * γ p r)
    + (gam0 p r * gam0 q s - gam0 p s * gam0 q r)

set_option maxHeartbeats 40000000 in
theorem trace_two (I : TwoE O V K) (hI : AntiI I) (G : OneE O V K) (N : TwoE O V K) (hN : AntiI N) :
    (1/4) * (∑ p, ∑ q, ∑ r, ∑ s, full I p q r s * tot (one G) (full N) p q r s)
    = refEnergy (fun _ _ => 0) (full I)
    + ((∑ a, ∑ b, (fock (fun _ _ => 0) (full I)).vv a b * G.vv a b)
    + (∑ i, ∑ j, (fock (fun _ _ => 0) (full I)).oo i j * G.oo i j)
    + (∑ a, ∑ i, (fock (fun _ _ => 0) (full I)).vo a i * G.vo a i)
    + (∑ i, ∑ a, (fock (fun _ _ => 0) (full I)).ov i a * G.ov i a)
    + (1/4) * (∑ a, ∑ b, ∑ i, ∑ j, I.vvoo a b i j * N.vvoo a b i j)
    + (1/4) * (∑ i, ∑ j, ∑ a, ∑ b, I.oovv i j a b * N.oovv i j a b)
    + (1/4) * (∑ a, ∑ b, ∑ c, ∑ d, I.vvvv a b c d * N.vvvv a b c d)
    + (1/2) * (∑ a, ∑ b, ∑ c, ∑ i, I.vvvo a b c i * N.vvvo a b c i)
    + (1/2) * (∑ a, ∑ i, ∑ b, ∑ c, I.vovv a i b c * N.vovv a i b c)
    + (∑ a, ∑ i, ∑ b, ∑ j, I.vovo a i b j * N.vovo a i b j)
    + (1/2) * (∑ a, ∑ i, ∑ j, ∑ k, I.vooo a i j k * N.vooo a i j k)
    + (1/2) * (∑ i, ∑ j, ∑ k, ∑ a, I.ooov i j k a * N.ooov i j k a)
    + (1/4) * (∑ i, ∑ j, ∑ k, ∑ l, I.oooo i j k l * N.oooo i j k l)) := by
  obtain ⟨_, _, _, _, _, _, _, _, _, _, _, _⟩ := hI
  obtain ⟨_, _, _, _, _, _, _, _, _, _, _, _⟩ := hN
  simp only [Fintype.sum_sum_type, tot, gam0, full, one, refEnergy, fock, zero_mul, mul_zero, add_zero, sub_zero, zero_add, zero_sub,
    sum_const_zero]
  dl_simp
  tensor

theorem one_unique (D : O ⊕ V → O ⊕ V → K) (h0 : ∀ h : O ⊕ V → O ⊕ V → K, ∑ p, ∑ q, h p q * D p q = 0) (p q : O ⊕ V) : D p q = 0 := by
  have := h0 fun p' q' => dl K p p' * dl K q q'
  simpa [dl, ite_and] using this

theorem anti_unique (D : O ⊕ V → O ⊕ V → O ⊕ V → O ⊕ V → K) (hD : AntiV D)
    (h0 : ∀ v : O ⊕ V → O ⊕ V → O ⊕ V → O ⊕ V → K, AntiV v → ∑ p, ∑ q, ∑ r, ∑ s, v p q r s * D p q r s = 0) (p q r s : O ⊕ V) :
    D p q r s = 0 := by
  have := h0 (fun p' q' r' s' => (dl K p p' * dl K q q' - dl K p q' * dl K q p') * (dl K r r' * dl K s s' - dl K r s' * dl K s r'))
    ⟨fun _ _ _ _ => by ring, fun _ _ _ _ => by ring⟩
  simp only [dl, sub_mul, mul_sub, sum_sub_distrib, mul_assoc, ite_mul, one_mul, zero_mul, mul_ite, mul_zero, sum_ite_irrel', sum_ite_eq,
    mem_univ, if_true] at this
  have h1 := hD.bra p q r s; have h2 := hD.ket p q r s; have h3 := hD.ket q p r s
  have : 4 * D p q r s = 0 := by linear_combination this + 2 * h1 + h2 - h3
  simpa using this

/-- C49: `⟨0|(1+Λ) e^{-T} p† q e^{T}|0⟩` is the reference density plus the block of the one-particle density matrix returned by the code;
the virtual-occupied block, which the code does not compute, is `Λ1`. -/
theorem C49_1rdm (hT : Anti t2) (hL : Anti l2) (p q : O ⊕ V) :
    ccExp Φ l l2 t t2 (C.cre p * C.ann q) = gam0 p q + one (gam t t2 l l2) p q := by
  refine sub_eq_zero.1 (one_unique (fun p q => ccExp Φ l l2 t t2 (C.cre p * C.ann q) - (gam0 p q + one (gam t t2 l l2) p q)) (fun h => ?_) p q)
  have key := C48_lagrangian (C := C) (t := t) Φ h (fun _ _ _ _ => 0) l l2 ⟨by simp, by simp⟩ hT
  rw [← C10_densities_give_lagrangian _ _ hT _ _ hL _ _ (blocks_anti ⟨by simp, by simp⟩)] at key
  have e : ham C h (fun _ _ _ _ => 0) = op1 C h := by simp [ham, op2]
  rw [e, ccExp_op1] at key
  simp only [mul_sub, sum_sub_distrib, key]
  simp [Fintype.sum_sum_type, refEnergy, fock, blocks, one, gam, gam0, mul_add, sum_add_distrib, dl]
  ring

theorem full_anti (N : TwoE O V K) (hN : AntiI N) : AntiV (full N) := by
  obtain ⟨h1, h2, h3, h4, h5, h6, h7, h8, h9, h10, h11, h12⟩ := hN
  constructor
  · rintro (p | p) (q | q) (r | r) (s | s) <;> simp only [full, neg_neg] <;> first | rfl | apply h1 | apply h3 | apply h5 | apply h7 | apply h10 | apply h11 | (rw [h3]; done) | (rw [h3, neg_neg]; done) | (rw [h10]; done) | (rw [h10, neg_neg]; done)
  · rintro (p | p) (q | q) (r | r) (s | s) <;> simp only [full, neg_neg] <;> first | rfl | apply h2 | apply h4 | apply h6 | apply h8 | apply h9 | apply h12 | (rw [h4]; done) | (rw [h4, neg_neg]; done) | (rw [h9]; done) | (rw [h9, neg_neg]; done)

theorem tot_anti (γ : O ⊕ V → O ⊕ V → K) (Γ : O ⊕ V → O ⊕ V → O ⊕ V → O ⊕ V → K) (hΓ : AntiV Γ) : AntiV (tot γ Γ) := by
  constructor
  · intro p q r s; simp only [tot, hΓ.bra p q]; ring
  · intro p q r s; simp only [tot, hΓ.ket p q r s]; ring

theorem gam2_anti (hT : Anti t2) (hL : Anti l2) : AntiI (gam2 t t2 l l2) where
  vvvv12 := fun _ _ _ _ => (C11_cdab t t2 hT l l2 hL).2 _ _ _ _
  vvvv34 := fun _ _ _ _ => (C11_cdab t t2 hT l l2 hL).1 _ _ _ _
  vvvo12 := fun _ _ _ _ => C11_ciab t t2 hT l l2 hL _ _ _ _
  vovv34 := fun _ _ _ _ => C11_bcai t t2 hT l l2 hL _ _ _ _
  vvoo12 := fun _ _ _ _ => hL.2 _ _ _ _
  vvoo34 := fun _ _ _ _ => hL.1 _ _ _ _
  oovv12 := fun _ _ _ _ => (C11_abij t t2 hT l l2 hL 1).2 _ _ _ _
  oovv34 := fun _ _ _ _ => (C11_abij t t2 hT l l2 hL 1).1 _ _ _ _
  vooo34 := fun _ _ _ _ => C11_jkai t t2 hT l l2 hL _ _ _ _
  ooov12 := fun _ _ _ _ => C11_kaij t t2 hT l l2 hL _ _ _ _
  oooo12 := fun _ _ _ _ => (C11_klij t t2 hT l l2 hL).2 _ _ _ _
  oooo34 := fun _ _ _ _ => (C11_klij t t2 hT l l2 hL).1 _ _ _ _

theorem ccExp_neg (A : Module.End K M) : ccExp Φ l l2 t t2 (-A) = - ccExp Φ l l2 t t2 A := by
  have : (-A) = (-1 : K) • A := by simp
  rw [this]
  simp only [ccExp, bar_smul, mul_smul_comm, vev_smul]
  ring

theorem ccExp_anti : AntiV fun p q r s => ccExp Φ l l2 t t2 (C.cre p * C.cre q * C.ann s * C.ann r) := by
  constructor
  · intro p q r s
    rw [← ccExp_neg, C.cre_cre q p]
    simp only [neg_mul]
  · intro p q r s
    rw [← ccExp_neg, mul_assoc _ (C.ann r), C.ann_ann r s]
    simp only [mul_neg, mul_assoc]

/-- C49: `⟨0|(1+Λ) e^{-T} p† q† s r e^{T}|0⟩` in terms of the blocks returned by the code, for all orbitals `p q r s`. -/
theorem C49_2rdm (hT : Anti t2) (hL : Anti l2) (p q r s : O ⊕ V) :
    ccExp Φ l l2 t t2 (C.cre p * C.cre q * C.ann s * C.ann r) = tot (one (gam t t2 l l2)) (full (gam2 t t2 l l2)) p q r s := by
  have hN := gam2_anti (t := t) l l2 hT hL
  refine sub_eq_zero.1 (anti_unique (fun p q r s => ccExp Φ l l2 t t2 (C.cre p * C.cre q * C.ann s * C.ann r)
    - tot (one (gam t t2 l l2)) (full (gam2 t t2 l l2)) p q r s) ?_ (fun v hv => ?_) p q r s)
  · have h1 := ccExp_anti (t := t) (t2 := t2) Φ l l2
    have h2 := tot_anti (one (gam t t2 l l2)) _ (full_anti _ hN)
    constructor
    · intro p q r s; rw [h1.bra p q r s, h2.bra p q r s]; ring
    · intro p q r s; rw [h1.ket p q r s, h2.ket p q r s]; ring
  · have key := C48_lagrangian (C := C) (t := t) Φ (fun _ _ => 0) v l l2 hv hT
    rw [← C10_densities_give_lagrangian _ _ hT _ _ hL _ _ (blocks_anti hv)] at key
    have e : ham C (fun _ _ => 0) v = op2 C v := by simp [ham, op1]
    have tr := trace_two (blocks v) (blocks_anti hv) (gam t t2 l l2) _ hN
    rw [full_blocks hv] at tr
    rw [e, ccExp_op2] at key
    simp only [mul_sub, sum_sub_distrib]
    rw [sub_eq_zero]
    have h4 : (1/4 : K) ≠ 0 := by norm_num
    exact mul_left_cancel₀ h4 (key.trans tr.symm)

/-! ### Non-vacuity: the occupation-number representation with three occupied and two virtual orbitals -/

/-- occupation-number representation of five orbitals -/
abbrev C32 : CAR ℚ (Fin 3 ⊕ Fin 2) (Finset (Fin 5) → ℚ) := fockCAR finSumFinEquiv ℚ
/-- reference determinant with the first three orbitals occupied -/
abbrev R32 : Ref C32 := fockRef finSumFinEquiv ℚ

example : R32.vev (bar C32 T10 T20 (ham C32 (one F0) (full I0)))
        = refEnergy (one F0) (full I0) + cc_energy T10 T20 (fock (one F0) (full I0)).ov (blocks (full I0)).oovv ∧
    cc_energy T10 T20 (fock (one F0) (full I0)).ov (blocks (full I0)).oovv ≠ 0 ∧
    (ccsd_simple (fock (one F0) (full I0)) (blocks (full I0)) T10 T20).1 0 1 ≠ 0 ∧
    (ccsd_simple (fock (one F0) (full I0)) (blocks (full I0)) T10 T20).2 0 1 0 1 ≠ 0 :=
  ⟨C48_energy _ _ _ (full_anti I0 I0_anti) T20_anti, by decide +kernel, by decide +kernel, by decide +kernel⟩

example : (∀ p q, ccExp R32 L10 L20 T10 T20 (C32.cre p * C32.ann q) = gam0 p q + one (gam T10 T20 L10 L20) p q) ∧
    tot (one (gam T10 T20 L10 L20)) (full (gam2 T10 T20 L10 L20)) (.inl 0) (.inl 1) (.inl 0) (.inr 1) ≠ 0 :=
  ⟨C49_1rdm _ _ _ T20_anti L20_anti, by decide +kernel⟩

end Sq
