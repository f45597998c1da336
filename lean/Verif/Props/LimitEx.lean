import Verif.Props.IterateU
import Verif.Props.GExact
/-!
# C51, C66: what a converged calculation has found

Nothing is assumed about why the updates converge.  When they do, the limit solves the CCSD equations, and for at most two electrons the limit of the
printed energies is an exact eigenvalue of the Hamiltonian.
-/
set_option linter.unusedSectionVars false
namespace CC
open Finset Filter Topology

section
variable {𝕜 : Type} [RCLike 𝕜] {O V : Type} [DecidableEq O] [DecidableEq V] [Fintype O] [Fintype V]

/-- C66: if the updates converge and no denominator vanishes, the limit is antisymmetric, solves the equations, and its energy is the limit of the energies. -/
theorem C66_limit_solves (F : OneE O V 𝕜) (I : TwoE O V 𝕜) (hI : AntiI I) {eo : O → 𝕜} {ev : V → 𝕜} (g1 : ∀ a i, ev a - eo i ≠ 0)
    (g2 : ∀ a b i j, ev a + ev b - eo i - eo j ≠ 0) {T S : Amp 𝕜 O V} (hT : Anti T.2) (h : Tendsto (fun m => (update F I eo ev)^[m] T) atTop (𝓝 S)) :
    Anti S.2 ∧ ccsd_simple F I S.1 S.2 = (fun _ _ => 0, fun _ _ _ _ => 0)
      ∧ Tendsto (fun m => cc_energy ((update F I eo ev)^[m] T).1 ((update F I eo ev)^[m] T).2 F.ov I.oovv) atTop (𝓝 (cc_energy S.1 S.2 F.ov I.oovv)) := by
  have hS : Anti S.2 := (closed_anti (𝕜 := 𝕜) (continuous_snd (X := V → O → 𝕜))).mem_of_tendsto h (Eventually.of_forall fun m => iterate_anti F I hI eo ev hT m)
  refine ⟨hS, (update_fixed F I g1 g2 S).1 ?_, ?_⟩
  · have c : Tendsto (fun m => (update F I eo ev)^[m] T - gStep F I eo ev ((update F I eo ev)^[m] T)) atTop (𝓝 (S - gStep F I eo ev S)) :=
      h.sub (((gStep_smooth F I eo ev).continuous.tendsto S).comp h)
    have e : ∀ m, (update F I eo ev)^[m] T - gStep F I eo ev ((update F I eo ev)^[m] T) = (update F I eo ev)^[m + 1] T := fun m => by
      rw [gStep_eq F I hI eo ev (iterate_anti F I hI eo ev hT m), Function.iterate_succ_apply', update_eq]
    simp only [e] at c
    rw [gStep_eq F I hI eo ev hS, ← update_eq] at c
    exact tendsto_nhds_unique c (h.comp (tendsto_add_atTop_nat 1))
  · exact ((show Continuous fun T : Amp 𝕜 O V => cc_energy T.1 T.2 F.ov I.oovv by unfold cc_energy cc_energy_d cc_energy_s1 cc_energy_s2; fun_prop).tendsto S).comp h
end
end CC

namespace Sq
open Finset CC Filter Topology
variable {𝕜 : Type} [RCLike 𝕜] {O V ι : Type} [DecidableEq O] [DecidableEq V] [LinearOrder ι] [Fintype O] [Fintype V] (σ : O ⊕ V ≃ ι)

/-- C51: for at most two electrons, a calculation that converges finds an eigenvector of the Hamiltonian, and the reference energy plus the energies of its
updates tend to the eigenvalue. -/
theorem C51_limit (h : O ⊕ V → O ⊕ V → 𝕜) (v : O ⊕ V → O ⊕ V → O ⊕ V → O ⊕ V → 𝕜) (hv : AntiV v) (h2 : Fintype.card O ≤ 2) {eo : O → 𝕜} {ev : V → 𝕜}
    (g1 : ∀ a i, ev a - eo i ≠ 0) (g2 : ∀ a b i j, ev a + ev b - eo i - eo j ≠ 0) {T S : Amp 𝕜 O V} (hT : Anti T.2)
    (hS : Tendsto (fun m => (update (fock h v) (blocks v) eo ev)^[m] T) atTop (𝓝 S)) :
    ∃ E : 𝕜, ∃ ψ : Finset ι → 𝕜, ψ ≠ 0 ∧ ham (fockCAR σ 𝕜) h v ψ = E • ψ
      ∧ Tendsto (fun m => refEnergy h v + cc_energy ((update (fock h v) (blocks v) eo ev)^[m] T).1 ((update (fock h v) (blocks v) eo ev)^[m] T).2
          (fock h v).ov (blocks v).oovv) atTop (𝓝 E) := by
  obtain ⟨hA, hr, hE⟩ := C66_limit_solves (fock h v) (blocks v) (blocks_anti hv) g1 g2 hT hS
  refine ⟨_, nexp 𝕜 (cluster (fockCAR σ 𝕜) S.1 S.2) (Fock.det (occSet σ)), fun h0 => ?_, C51_two_electrons σ h v hv hA h2 (fun a i => by rw [hr])
    (fun a b i j => by rw [hr]), hE.const_add _⟩
  have := C51_intermediate_norm (K := 𝕜) σ (t := S.1) (t2 := S.2)
  rw [h0] at this
  exact zero_ne_one this

/-! ### Non-vacuity: one electron in two orbitals, from zero amplitudes -/

/-- one-electron integrals of the example -/
noncomputable def hy : Fin 1 ⊕ Fin 1 → Fin 1 ⊕ Fin 1 → ℝ := one ⟨fun _ _ => 0, fun _ _ => 2, fun _ _ => 2, fun _ _ => 3⟩

/-- amplitudes with one single -/
def sy (t : ℝ) : Amp ℝ (Fin 1) (Fin 1) := (fun _ _ => t, fun _ _ _ _ => 0)

theorem anti_one {T : Fin 1 → Fin 1 → Fin 1 → Fin 1 → ℝ} (h : Anti T) : T = fun _ _ _ _ => 0 := by
  funext a b i j
  have := h.a12 a b i j
  rw [Subsingleton.elim b a] at this ⊢
  linarith

theorem sy_anti (t : ℝ) : Anti (sy t).2 := by constructor <;> intro a b i j <;> simp [sy]

theorem sy_step (t : ℝ) : update (fock hy fun _ _ _ _ => 0) (blocks fun _ _ _ _ => 0) (fun _ => 0) (fun _ => 3) (sy t) = sy ((2 * t ^ 2 - 2) / 3) := by
  have hv : AntiV (fun _ _ _ _ => 0 : Fin 1 ⊕ Fin 1 → Fin 1 ⊕ Fin 1 → Fin 1 ⊕ Fin 1 → Fin 1 ⊕ Fin 1 → ℝ) := by constructor <;> intros <;> simp
  have ha : Anti (sy t).2 := sy_anti t
  refine Prod.ext ?_ (anti_one (update_anti _ _ (blocks_anti hv) _ _ ha))
  funext a i
  have := congrFun (congrFun (congrArg Prod.fst (resPt_flat (fock hy fun _ _ _ _ => 0) (blocks fun _ _ _ _ => 0) (blocks_anti hv) (sy t) ha)) a) i
  simp only [update]
  rw [← this]
  simp [resPt, Spec.singles, Spec.ovvo, Spec.ovvv, Spec.oovo, unflat1, unflat2, flat1, flat2, fock, blocks, hy, one, sy]
  ring

theorem sy_iterate (m : ℕ) : ∃ t : ℝ, (update (fock hy fun _ _ _ _ => 0) (blocks fun _ _ _ _ => 0) (fun _ => 0) (fun _ => 3))^[m] (sy 0) = sy t
    ∧ -(2 / 3) ≤ t ∧ t ≤ 0 ∧ |t + 1 / 2| ≤ (7 / 9) ^ m := by
  induction m with
  | zero => exact ⟨0, rfl, by norm_num, le_rfl, by norm_num [abs_le]⟩
  | succ m ih =>
    obtain ⟨t, e, l, u, b⟩ := ih
    refine ⟨(2 * t ^ 2 - 2) / 3, by rw [Function.iterate_succ_apply', e, sy_step], by nlinarith, by nlinarith, ?_⟩
    rw [show (2 * t ^ 2 - 2) / 3 + 1 / 2 = (2 / 3 * (t - 1 / 2)) * (t + 1 / 2) by ring, abs_mul, pow_succ, mul_comm]
    exact mul_le_mul b (abs_le.2 ⟨by linarith, by linarith⟩) (abs_nonneg _) (by positivity)

theorem sy_tendsto : Tendsto (fun m => (update (fock hy fun _ _ _ _ => 0) (blocks fun _ _ _ _ => 0) (fun _ => 0) (fun _ => 3))^[m] (sy 0)) atTop
    (𝓝 (sy (-(1 / 2)))) := by
  choose t e _ _ b using sy_iterate
  simp only [e]
  have c : Tendsto t atTop (𝓝 (-(1 / 2))) := by
    rw [tendsto_iff_norm_sub_tendsto_zero]
    refine squeeze_zero (fun _ => norm_nonneg _) (fun m => ?_) (tendsto_pow_atTop_nhds_zero_of_lt_one (r := (7 / 9 : ℝ)) (by norm_num) (by norm_num))
    rw [sub_neg_eq_add]
    exact b m
  have : Continuous sy := by unfold sy; fun_prop
  exact (this.tendsto _).comp c

example : ∃ E : ℝ, ∃ ψ : Finset (Fin 2) → ℝ, ψ ≠ 0 ∧ ham (fockCAR finSumFinEquiv ℝ) hy (fun _ _ _ _ => 0) ψ = E • ψ := by
  obtain ⟨E, ψ, h, e, -⟩ := C51_limit (finSumFinEquiv (m := 1) (n := 1)) hy (fun _ _ _ _ => 0) (by constructor <;> intros <;> simp) (by simp) (by simp) (by norm_num)
    (sy_anti 0) sy_tendsto
  exact ⟨E, ψ, h, e⟩
end Sq
