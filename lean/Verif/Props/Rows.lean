import Verif.Props.GSecond
/-!
# Projections of `H e^T|0⟩`

For all amplitudes: the components of `H e^T|0⟩` on the reference, on singly and on doubly excited determinants, in terms of the energy and
the residuals of the code.
-/
set_option linter.unusedSectionVars false
set_option linter.unusedSimpArgs false
namespace Sq
open Finset CC

variable {K O V M : Type} [Field K] [CharZero K] [DecidableEq O] [DecidableEq V] [AddCommGroup M] [Module K M]
  [Fintype O] [Fintype V] {C : CAR K (O ⊕ V) M} (Φ : Ref C) {t : V → O → K} {t2 : V → V → O → O → K}
  (h : O ⊕ V → O ⊕ V → K) (v : O ⊕ V → O ⊕ V → O ⊕ V → O ⊕ V → K)

theorem bra_cluster' (m : M) : Φ.bra (cluster C t t2 m) = 0 := by
  simp only [cluster, LinearMap.add_apply, LinearMap.sum_apply, LinearMap.smul_apply, Module.End.mul_apply, map_add, map_sum, map_smul,
    Φ.bra_cre, smul_zero, sum_const_zero, add_zero]

/-- `⟨0|e^T = ⟨0|` -/
theorem bra_nexp (m : M) : Φ.bra (nexp K (cluster C t t2) m) = Φ.bra m := by
  obtain ⟨N, hN⟩ := cluster_nilpotent C t t2
  rw [nexp_eq (N := N + 1) (by rw [pow_succ, hN, zero_mul]), sum_range_succ']
  simp only [LinearMap.add_apply, LinearMap.sum_apply, LinearMap.smul_apply, map_add, map_sum, map_smul, pow_succ', Module.End.mul_apply,
    bra_cluster', smul_zero, sum_const_zero, zero_add, pow_zero, Module.End.one_apply]
  simp

/-- the component on the singly excited determinant `a† i|0⟩` -/
def s1 (a : V) (i : O) (m : M) : K := Φ.bra (C.cre (.inl i) (C.ann (.inr a) m))
/-- the component on the doubly excited determinant `a† b† j i|0⟩` -/
def s2 (a b : V) (i j : O) (m : M) : K := Φ.bra (C.cre (.inl i) (C.cre (.inl j) (C.ann (.inr b) (C.ann (.inr a) m))))

theorem bra_single (hT : Anti t2) (a : V) (i : O) (m : M) :
    s1 Φ a i (nexp K (cluster C t t2) m) = s1 Φ a i m + t a i * Φ.bra m := by
  have e1 := LinearMap.congr_fun (ann_nexp C t t2 hT (.inr a)) m
  rw [Module.End.mul_apply, Module.End.mul_apply] at e1
  have e2 := LinearMap.congr_fun (cre_nexp C t t2 hT (.inl i)) (annD C t t2 (.inr a) m)
  rw [Module.End.mul_apply, Module.End.mul_apply] at e2
  rw [s1, s1, e1, e2, bra_nexp]
  change _ = Φ.bra (C.g i (C.d a m)) + _
  simp only [creD, annD, LinearMap.add_apply, map_add, map_sub, gX C hT, bra_X, bra_Y, bra_Z, add_zero, sub_zero]

theorem bra_double (hT : Anti t2) (a b : V) (i j : O) (m : M) :
    s2 Φ a b i j (nexp K (cluster C t t2) m)
      = s2 Φ a b i j m + (t a i * s1 Φ b j m + t b j * s1 Φ a i m - t a j * s1 Φ b i m - t b i * s1 Φ a j m)
        + (t2 a b i j + t a i * t b j - t a j * t b i) * Φ.bra m := by
  have e1 := LinearMap.congr_fun (ann_nexp C t t2 hT (.inr a)) m
  have e2 := LinearMap.congr_fun (ann_nexp C t t2 hT (.inr b)) (annD C t t2 (.inr a) m)
  have e3 := LinearMap.congr_fun (cre_nexp C t t2 hT (.inl j)) (annD C t t2 (.inr b) (annD C t t2 (.inr a) m))
  have e4 := LinearMap.congr_fun (cre_nexp C t t2 hT (.inl i)) (creD C t t2 (.inl j) (annD C t t2 (.inr b) (annD C t t2 (.inr a) m)))
  rw [Module.End.mul_apply, Module.End.mul_apply] at e1 e2 e3 e4
  rw [s2, s2, e1, e2, e3, e4, bra_nexp]
  change _ = Φ.bra (C.g i (C.g j (C.d b (C.d a m)))) + (_ * Φ.bra (C.g j (C.d b m)) + _ * Φ.bra (C.g i (C.d a m)) - _ * Φ.bra (C.g i (C.d b m))
    - _ * Φ.bra (C.g j (C.d a m))) + _
  simp only [creD, annD, LinearMap.add_apply, map_add, map_sub, map_neg, map_smul, smul_eq_mul, dX, gX C hT, dY C hT, gY C hT, dZ, gZ, dW, gW C hT, dU C hT,
    gU, dP, gP, dR, gR, bra_X, bra_Y, bra_Z, bra_W, bra_U, bra_P, bra_R, add_zero, sub_zero, zero_add, zero_sub, neg_zero, mul_zero]
  rw [hT.a12 a b, hT.a34 a b]
  ring

variable (t t2) in
/-- `H e^T|0⟩` -/
noncomputable def hpsi (Φ : Ref C) : M := ham C h v (nexp K (cluster C t t2) Φ.ket)

theorem hpsi_eq : hpsi t t2 h v Φ = nexp K (cluster C t t2) (bar C t t2 (ham C h v) Φ.ket) := by
  have := nexp_neg_mul (K := K) (cluster_nilpotent C t t2).neg
  rw [neg_neg] at this
  have e : ham C h v * nexp K (cluster C t t2) = nexp K (cluster C t t2) * bar C t t2 (ham C h v) := by
    rw [bar, ← mul_assoc, ← mul_assoc, this, one_mul]
  exact LinearMap.congr_fun e Φ.ket

variable (t t2) in
/-- the energy of the code -/
def ccE : K := refEnergy h v + cc_energy t t2 (fock h v).ov (blocks v).oovv

/-- `⟨0|H e^T|0⟩` for any amplitudes -/
theorem row_ref (hv : AntiV v) (hT : Anti t2) : Φ.bra (hpsi t t2 h v Φ) = ccE t t2 h v := by
  rw [hpsi_eq, bra_nexp]; exact C48_energy Φ h v hv hT

/-- The singles rows for any amplitudes: the energy times the coefficient, plus the residual. -/
theorem row_single (hv : AntiV v) (hT : Anti t2) (a : V) (i : O) :
    s1 Φ a i (hpsi t t2 h v Φ) = ccE t t2 h v * s1 Φ a i (nexp K (cluster C t t2) Φ.ket)
      + (ccsd_simple (fock h v) (blocks v) t t2).1 a i := by
  have h0 : s1 Φ a i Φ.ket = 0 := by rw [s1, Φ.ann_ket, map_zero, map_zero]
  have h1 : s1 Φ a i (bar C t t2 (ham C h v) Φ.ket) = _ := C48_singles (t := t) Φ h v hv hT a i
  have h2 : Φ.bra (bar C t t2 (ham C h v) Φ.ket) = _ := C48_energy (t := t) Φ h v hv hT
  rw [hpsi_eq, bra_single Φ hT, bra_single Φ hT, h0, h1, h2, Φ.norm, ccE]
  ring

/-- The doubles rows for any amplitudes: the energy times the coefficient, plus the residuals. -/
theorem row_double (hv : AntiV v) (hT : Anti t2) (a b : V) (i j : O) :
    s2 Φ a b i j (hpsi t t2 h v Φ) = ccE t t2 h v * s2 Φ a b i j (nexp K (cluster C t t2) Φ.ket)
      + ((ccsd_simple (fock h v) (blocks v) t t2).2 a b i j
        + t a i * (ccsd_simple (fock h v) (blocks v) t t2).1 b j + t b j * (ccsd_simple (fock h v) (blocks v) t t2).1 a i
        - t a j * (ccsd_simple (fock h v) (blocks v) t t2).1 b i - t b i * (ccsd_simple (fock h v) (blocks v) t t2).1 a j) := by
  have h0 : ∀ a i, s1 Φ a i Φ.ket = 0 := fun a i => by rw [s1, Φ.ann_ket, map_zero, map_zero]
  have h0' : s2 Φ a b i j Φ.ket = 0 := by rw [s2, Φ.ann_ket]; simp only [map_zero]
  have h1 : ∀ a i, s1 Φ a i (bar C t t2 (ham C h v) Φ.ket) = _ := fun a i => C48_singles (t := t) Φ h v hv hT a i
  have h1' : s2 Φ a b i j (bar C t t2 (ham C h v) Φ.ket) = _ := C48_doubles (t := t) Φ h v hv hT a b i j
  have h2 : Φ.bra (bar C t t2 (ham C h v) Φ.ket) = _ := C48_energy (t := t) Φ h v hv hT
  rw [hpsi_eq, bra_double Φ hT, bra_double Φ hT, h1', h2, Φ.norm, ccE]
  simp only [h0, h0', h1]
  ring

end Sq
