import Verif.Props.Iterate
/-!
# C67: energies from density matrices have second-order errors

At a solution of the amplitude and Lambda equations the contraction of the density matrices with the Hamiltonian is stationary in amplitudes and
multipliers, so its error is quadratic in theirs.
-/
set_option linter.unusedSectionVars false
set_option synthInstance.maxHeartbeats 400000
set_option synthInstance.maxSize 2000
set_option maxHeartbeats 1000000
namespace CC
open Finset Filter Topology Metric

section
variable {𝕜 : Type} [RCLike 𝕜] {O V : Type} [Fintype O] [Fintype V]

/-- the Lagrangian on antisymmetrised amplitudes and multipliers -/
def lagTL (F : OneE O V 𝕜) (I : TwoE O V 𝕜) (u : Amp 𝕜 O V × Amp 𝕜 V O) : 𝕜 :=
  Spec.lagrangian F I u.2.1 u.2.2 u.1.1 u.1.2

theorem lagTL_smooth (F : OneE O V 𝕜) (I : TwoE O V 𝕜) : ContDiff 𝕜 2 (lagTL F I) := by
  unfold lagTL Spec.lagrangian Spec.energy Spec.singles Spec.doubles Spec.ovvo Spec.ovvv Spec.oovo Spec.ovoo Spec.ovov Spec.Pij Spec.Pab
  fun_prop

/-- A function with vanishing derivative grows at most quadratically. -/
theorem quadratic {E : Type} [NormedAddCommGroup E] [NormedSpace 𝕜 E] [FiniteDimensional 𝕜 E] {f : E → 𝕜} (h : ContDiff 𝕜 2 f) (x : E)
    (hx : fderiv 𝕜 f x = 0) (r : ℝ) : ∃ C : ℝ, 0 ≤ C ∧ ∀ y, ‖y - x‖ ≤ r → ‖f y - f x‖ ≤ C * ‖y - x‖ ^ 2 := by
  let : NormedSpace ℝ E := NormedSpace.restrictScalars ℝ 𝕜 E
  have : ProperSpace E := FiniteDimensional.proper_rclike 𝕜 E
  have h1 : ContDiff 𝕜 1 (fderiv 𝕜 f) := h.fderiv_right (by norm_num)
  obtain ⟨M, hM⟩ := (isCompact_closedBall x r).exists_bound_of_continuousOn (h1.continuous_fderiv one_ne_zero).continuousOn
  refine ⟨max M 0, le_max_right _ _, fun y hy => ?_⟩
  have hr : 0 ≤ r := (norm_nonneg _).trans hy
  have b : ∀ z ∈ closedBall x ‖y - x‖, ‖fderiv 𝕜 f z‖ ≤ max M 0 * ‖y - x‖ := by
    intro z hz
    rw [mem_closedBall, dist_eq_norm] at hz
    have := (convex_closedBall x r).norm_image_sub_le_of_norm_fderiv_le (𝕜 := 𝕜) (C := max M 0) (fun w _ => h1.differentiable one_ne_zero w)
      (fun w hw => (hM w hw).trans (le_max_left _ _)) (mem_closedBall_self hr) (y := z) (by rw [mem_closedBall, dist_eq_norm]; exact hz.trans hy)
    rw [hx, sub_zero] at this
    exact this.trans (mul_le_mul_of_nonneg_left hz (le_max_right _ _))
  have := (convex_closedBall x ‖y - x‖).norm_image_sub_le_of_norm_fderiv_le (𝕜 := 𝕜) (C := max M 0 * ‖y - x‖)
    (fun w _ => h.differentiable two_ne_zero w) b (mem_closedBall_self (norm_nonneg _)) (y := y) (by rw [mem_closedBall, dist_eq_norm])
  rw [pow_two, ← mul_assoc]
  exact this

theorem trace_lag (F : OneE O V 𝕜) (I : TwoE O V 𝕜) (hI : AntiI I) {T : Amp 𝕜 O V} (hT : Anti T.2) {L : Amp 𝕜 V O} (hL : Anti L.2) :
    traceRdm F I L.1 L.2 T.1 T.2 = lagTL F I (T, L) :=
  C10_densities_give_lagrangian T.1 T.2 hT L.1 L.2 hL F I hI

theorem lag_code (F : OneE O V 𝕜) (I : TwoE O V 𝕜) (hI : AntiI I) {T : Amp 𝕜 O V} (hT : Anti T.2) (L : Amp 𝕜 V O) :
    lagTL F I (T, L) = cc_energy T.1 T.2 F.ov I.oovv + pairing (ccsd_simple F I T.1 T.2) L := by
  rw [lagTL, ← C06_lagrangian_from_code F I hI L.1 L.2 T.1 T.2 hT]
  simp only [pairing, mul_comm]
  ring

/-- Antisymmetrisation of amplitudes and multipliers. -/
noncomputable def antiTL : Amp 𝕜 O V × Amp 𝕜 V O →L[𝕜] Amp 𝕜 O V × Amp 𝕜 V O := (antiPC (𝕜 := 𝕜) (O := O) (V := V)).prodMap antiPC

theorem antiTL_of_anti (S : Amp 𝕜 O V) (M : Amp 𝕜 V O) (hS : Anti S.2) (hM : Anti M.2) : antiTL (S, M) = (S, M) :=
  Prod.ext (antiP_of_anti hS) (antiP_of_anti hM)

/-- The Lagrangian is stationary at a solution of the amplitude and Lambda equations. -/
theorem lag_stationary (F : OneE O V 𝕜) (I : TwoE O V 𝕜) (hI : AntiI I) (T : Amp 𝕜 O V) (L : Amp 𝕜 V O) (hT : Anti T.2) (hL : Anti L.2)
    (sol : ccsd_simple F I T.1 T.2 = (fun _ _ => 0, fun _ _ _ _ => 0))
    (lam : ccsd_lambda_simple F I L.1 L.2 T.1 T.2 = (fun _ _ => 0, fun _ _ _ _ => 0)) : fderiv 𝕜 (fun u => lagTL F I (antiTL u)) (T, L) = 0 := by
  have hA := antiTL_of_anti T L hT hL
  have df := (lagTL_smooth F I).differentiable two_ne_zero
  refine ContinuousLinearMap.ext fun u => ?_
  have e1 : HasFDerivAt (fun u => lagTL F I (antiTL u)) ((fderiv 𝕜 (lagTL F I) (antiTL (T, L))).comp antiTL) (T, L) := (df (antiTL (T, L))).hasFDerivAt.comp (T, L) (antiTL (𝕜 := 𝕜) (O := O) (V := V)).hasFDerivAt
  rw [e1.fderiv, hA]
  change fderiv 𝕜 (lagTL F I) (T, L) (antiP u.1, antiP u.2) = 0
  have split : ((antiP u.1, antiP u.2) : Amp 𝕜 O V × Amp 𝕜 V O) = (antiP u.1, 0) + (0, antiP u.2) := by simp
  rw [split, map_add]
  have d1 : fderiv 𝕜 (lagTL F I) (T, L) (antiP u.1, 0) = 0 := by
    have hX := antiP_anti u.1
    have g := C06_lambda_is_gradient F I hI L.1 L.2 hL T.1 T.2 hT (antiP u.1).1 (antiP u.1).2 hX
    rw [lam] at g
    simp only [mul_zero, sum_const_zero, add_zero] at g
    have l : HasDerivAt (fun s : 𝕜 => ((T + s • antiP u.1, L) : Amp 𝕜 O V × Amp 𝕜 V O)) (antiP u.1, 0) 0 := by
      refine HasDerivAt.prodMk ?_ (hasDerivAt_const _ _)
      simpa using ((hasDerivAt_id (0 : 𝕜)).smul_const (antiP u.1)).const_add T
    have f : HasFDerivAt (lagTL F I) (fderiv 𝕜 (lagTL F I) (T, L)) ((T + (0 : 𝕜) • antiP u.1, L) : Amp 𝕜 O V × Amp 𝕜 V O) := by
      rw [zero_smul, add_zero]; exact (df (T, L)).hasFDerivAt
    have g' : HasDerivAt (lagTL F I ∘ fun s : 𝕜 => ((T + s • antiP u.1, L) : Amp 𝕜 O V × Amp 𝕜 V O)) 0 0 := g
    exact (f.comp_hasDerivAt (0 : 𝕜) l).unique g'
  have d2 : fderiv 𝕜 (lagTL F I) (T, L) (0, antiP u.2) = 0 := by
    have l : HasDerivAt (fun s : 𝕜 => ((T, L + s • antiP u.2) : Amp 𝕜 O V × Amp 𝕜 V O)) (0, antiP u.2) 0 := by
      refine HasDerivAt.prodMk (hasDerivAt_const _ _) ?_
      simpa using ((hasDerivAt_id (0 : 𝕜)).smul_const (antiP u.2)).const_add L
    have f : HasFDerivAt (lagTL F I) (fderiv 𝕜 (lagTL F I) (T, L)) ((T, L + (0 : 𝕜) • antiP u.2) : Amp 𝕜 O V × Amp 𝕜 V O) := by
      rw [zero_smul, add_zero]; exact (df (T, L)).hasFDerivAt
    have g := f.comp_hasDerivAt (0 : 𝕜) l
    have e : (lagTL F I ∘ fun s : 𝕜 => ((T, L + s • antiP u.2) : Amp 𝕜 O V × Amp 𝕜 V O)) = fun _ => cc_energy T.1 T.2 F.ov I.oovv := by
      funext s
      change lagTL F I (T, L + s • antiP u.2) = _
      rw [lag_code F I hI hT, sol]
      simp [pairing]
    rw [e] at g
    exact g.unique (hasDerivAt_const _ _)
  rw [d1, d2, add_zero]

/-- C67: near a solution of the amplitude and Lambda equations, the energy obtained by contracting the density matrices with the Hamiltonian differs
from the energy of the solution by at most a constant times the square of the error in amplitudes and multipliers. -/
theorem C67_second_order (F : OneE O V 𝕜) (I : TwoE O V 𝕜) (hI : AntiI I) (T : Amp 𝕜 O V) (L : Amp 𝕜 V O) (hT : Anti T.2) (hL : Anti L.2)
    (sol : ccsd_simple F I T.1 T.2 = (fun _ _ => 0, fun _ _ _ _ => 0))
    (lam : ccsd_lambda_simple F I L.1 L.2 T.1 T.2 = (fun _ _ => 0, fun _ _ _ _ => 0)) (r : ℝ) :
    ∃ C : ℝ, 0 ≤ C ∧ ∀ (T' : Amp 𝕜 O V) (L' : Amp 𝕜 V O), Anti T'.2 → Anti L'.2 → ‖T' - T‖ ≤ r → ‖L' - L‖ ≤ r →
      ‖traceRdm F I L'.1 L'.2 T'.1 T'.2 - cc_energy T.1 T.2 F.ov I.oovv‖ ≤ C * max ‖T' - T‖ ‖L' - L‖ ^ 2 := by
  have sm : ContDiff 𝕜 2 (fun u => lagTL F I (antiTL u)) := (lagTL_smooth F I).comp (antiTL (𝕜 := 𝕜) (O := O) (V := V)).contDiff
  have z := lag_stationary F I hI T L hT hL sol lam
  obtain ⟨C, hC, q⟩ := quadratic sm (T, L) z r
  refine ⟨C, hC, fun T' L' hT' hL' h1 h2 => ?_⟩
  have := q (T', L') (max_le h1 h2)
  rw [antiTL_of_anti T' L' hT' hL', antiTL_of_anti T L hT hL, ← trace_lag F I hI hT' hL', lag_code F I hI hT, sol] at this
  have e0 : pairing ((fun _ _ => 0, fun _ _ _ _ => 0) : Amp 𝕜 O V) L = 0 := by simp [pairing]
  rw [e0, add_zero] at this
  exact this

/-- C67: at weak coupling, `k` updates of the amplitudes and of the multipliers from zero leave an error of the order of `4⁻ᵏ` in the energy from the
density matrices, although amplitudes and multipliers are only converged to `2⁻ᵏ`. -/
theorem C67_iteration [DecidableEq O] [DecidableEq V] (eo : O → 𝕜) (ev : V → 𝕜) (f : OneE O V 𝕜) (I : TwoE O V 𝕜) (hI : AntiI I)
    (g1 : ∀ a i, ev a - eo i ≠ 0) (g2 : ∀ a b i j, ev a + ev b - eo i - eo j ≠ 0) :
    ∃ c₀ : ℝ, 0 < c₀ ∧ ∀ c : 𝕜, ‖c‖ ≤ c₀ → ∃ (T : Amp 𝕜 O V) (C : ℝ),
      ccsd_simple ((diagF eo ev).addMul c f) (I.mul c) T.1 T.2 = (fun _ _ => 0, fun _ _ _ _ => 0) ∧
      ∀ (k : ℕ) (T' : Amp 𝕜 O V) (L' : Amp 𝕜 V O), T' = (update ((diagF eo ev).addMul c f) (I.mul c) eo ev)^[k] 0 →
        L' = (updateL ((diagF eo ev).addMul c f) (I.mul c) eo ev T)^[k] 0 →
        ‖traceRdm ((diagF eo ev).addMul c f) (I.mul c) L'.1 L'.2 T'.1 T'.2 - cc_energy T.1 T.2 ((diagF eo ev).addMul c f).ov (I.mul c).oovv‖ ≤ C * (1 / 4) ^ k := by
  obtain ⟨c1, h1, k1⟩ := C66_converges eo ev f I hI g1 g2 1 one_pos
  obtain ⟨c2, h2, k2⟩ := C66_lambda_converges eo ev f I hI g1 g2 1
  refine ⟨min c1 c2, lt_min h1 h2, fun c hc => ?_⟩
  obtain ⟨T, hT, hn, sol, -, it⟩ := k1 c (hc.trans (min_le_left _ _))
  obtain ⟨L, hL, hsol, itL⟩ := k2 c (hc.trans (min_le_right _ _)) T hT hn
  have lam := (hsol L hL).2 rfl
  have aI := TwoE.mul_anti hI c
  obtain ⟨C, hC, q⟩ := C67_second_order ((diagF eo ev).addMul c f) (I.mul c) aI T L hT hL sol lam (max ‖T‖ ‖L‖)
  refine ⟨T, C * max ‖T‖ ‖L‖ ^ 2, sol, ?_⟩
  rintro k T' L' rfl rfl
  have e1 := it 0 zero_anti' (by simp) k
  have e2 := itL 0 zero_anti' k
  rw [zero_sub, norm_neg] at e1 e2
  have p1 : (1 / 2 : ℝ) ^ k ≤ 1 := pow_le_one₀ (by norm_num) (by norm_num)
  have p0 : (0 : ℝ) ≤ (1 / 2) ^ k := by positivity
  have aL : ∀ k : ℕ, Anti ((updateL ((diagF eo ev).addMul c f) (I.mul c) eo ev T)^[k] 0).2 := by
    intro k
    induction k with
    | zero => exact zero_anti'
    | succ k ih =>
      rw [Function.iterate_succ_apply', updateL_eq]
      exact sub_anti ih (divD_anti _ _ (lamRes_anti _ _ aI T hT ih))
  have b1 := e1.trans (mul_le_mul_of_nonneg_left (le_max_left ‖T‖ ‖L‖) p0)
  have b2 := e2.trans (mul_le_mul_of_nonneg_left (le_max_right ‖T‖ ‖L‖) p0)
  have m0 : 0 ≤ max ‖T‖ ‖L‖ := (norm_nonneg T).trans (le_max_left _ _)
  have p2 : (1 / 2 : ℝ) ^ k * max ‖T‖ ‖L‖ ≤ max ‖T‖ ‖L‖ := mul_le_of_le_one_left m0 p1
  refine (q _ _ (iterate_anti _ _ aI eo ev zero_anti' k) (aL k) (b1.trans p2) (b2.trans p2)).trans ?_
  have m : max ‖(update ((diagF eo ev).addMul c f) (I.mul c) eo ev)^[k] 0 - T‖ ‖(updateL ((diagF eo ev).addMul c f) (I.mul c) eo ev T)^[k] 0 - L‖ ^ 2
      ≤ ((1 / 2) ^ k * max ‖T‖ ‖L‖) ^ 2 := pow_le_pow_left₀ (le_max_of_le_left (norm_nonneg _)) (max_le b1 b2) 2
  refine (mul_le_mul_of_nonneg_left m hC).trans (le_of_eq ?_)
  rw [show (1 / 4 : ℝ) = (1 / 2) ^ 2 by norm_num, ← pow_mul, mul_comm 2 k, pow_mul]
  ring

end

/-- Non-trivial case: the interacting two-level model of C58. -/
example : ∃ c₀ : ℝ, 0 < c₀ ∧ ∀ c : ℝ, ‖c‖ ≤ c₀ → ∃ (T : Amp ℝ (Fin 2) (Fin 2)) (C : ℝ), ∀ (k : ℕ) (T' L' : Amp ℝ (Fin 2) (Fin 2)),
    T' = (update ((diagF (fun _ => 0) (fun _ => 1)).addMul c hfF) ((hfI (-2) 1).mul c) (fun _ => 0) (fun _ => 1))^[k] 0 →
    L' = (updateL ((diagF (fun _ => 0) (fun _ => 1)).addMul c hfF) ((hfI (-2) 1).mul c) (fun _ => 0) (fun _ => 1) T)^[k] 0 →
    ‖traceRdm ((diagF (fun _ => 0) (fun _ => 1)).addMul c hfF) ((hfI (-2) 1).mul c) L'.1 L'.2 T'.1 T'.2
      - cc_energy T.1 T.2 ((diagF (fun _ => 0) (fun _ => 1)).addMul c hfF).ov ((hfI (-2) 1).mul c).oovv‖ ≤ C * (1 / 4) ^ k := by
  obtain ⟨c₀, h, q⟩ := C67_iteration (𝕜 := ℝ) (fun _ : Fin 2 => 0) (fun _ : Fin 2 => 1) hfF (hfI (-2) 1) (hfI_anti _ _)
    (fun _ _ => by norm_num) (fun _ _ _ _ => by norm_num)
  refine ⟨c₀, h, fun c hc => ?_⟩
  obtain ⟨T, C, -, q⟩ := q c hc
  exact ⟨T, C, q⟩
end CC
