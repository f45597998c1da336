import Verif.Props.Lagrange
/-!
# C93: what `k` updates give, in orders of perturbation theory

From zero amplitudes, `k` updates give amplitudes that are correct to order `k` in the perturbation, an energy of `cc_energy` that is correct to order
`k + 1`, and an energy from the density matrices that is correct to order `2 k + 1` (Wigner's rule).
-/
set_option linter.unusedSectionVars false
set_option synthInstance.maxHeartbeats 400000
set_option synthInstance.maxSize 2000
set_option maxHeartbeats 1000000
namespace CC
open Finset Filter Topology Metric

section
variable {K : Type} [Field K] [CharZero K] {O V : Type} [Fintype O] [Fintype V] [DecidableEq O] [DecidableEq V]
theorem mp2_split (eo : O → K) (ev : V → K) (f : OneE O V K) (I : TwoE O V K) (c : K) (t1 : V → O → K) (t2 : V → V → O → O → K) :
    cc_energy (fun a i => -(c * t1 a i)) (fun a b i j => -(c * t2 a b i j)) ((diagF eo ev).addMul c f).ov (I.mul c).oovv
      = mp2_energy (fun a i => -(c * t1 a i)) (fun a b i j => -(c * t2 a b i j)) ((diagF eo ev).addMul c f).ov (I.mul c).oovv
        + c * c * c * ((1 / 2) * cc_energy_s2 t1 I.oovv) := by
  simp only [diagF, OneE.addMul, TwoE.mul]
  tensor

theorem lag_split (F f : OneE O V K) (I : TwoE O V K) (c : K) (L1 : O → V → K) (L2 : O → O → V → V → K) (T1 : V → O → K) (T2 : V → V → O → O → K) :
    Spec.lagrangian (F.addMul c f) (I.mul c) L1 L2 T1 T2 = Spec.lagrangian F (I.mul 0) L1 L2 T1 T2 + c * Spec.lagrangian f I L1 L2 T1 T2 := by
  tensor
end

section
variable {𝕜 : Type} [RCLike 𝕜]

/-- A continuously differentiable map is bounded and Lipschitz on balls. -/
theorem ball_lip {E G : Type} [NormedAddCommGroup E] [NormedSpace 𝕜 E] [FiniteDimensional 𝕜 E] [NormedAddCommGroup G] [NormedSpace 𝕜 G] {f : E → G}
    (h : ContDiff 𝕜 1 f) (r : ℝ) :
    ∃ M : ℝ, 0 < M ∧ (∀ x ∈ closedBall (0 : E) r, ‖f x‖ ≤ M) ∧ ∀ x ∈ closedBall (0 : E) r, ∀ y ∈ closedBall (0 : E) r, ‖f y - f x‖ ≤ M * ‖y - x‖ := by
  let : NormedSpace ℝ E := NormedSpace.restrictScalars ℝ 𝕜 E
  have : ProperSpace E := FiniteDimensional.proper_rclike 𝕜 E
  obtain ⟨M1, h1⟩ := (isCompact_closedBall (0 : E) r).exists_bound_of_continuousOn h.continuous.continuousOn
  obtain ⟨M2, h2⟩ := (isCompact_closedBall (0 : E) r).exists_bound_of_continuousOn (h.continuous_fderiv one_ne_zero).continuousOn
  refine ⟨max (max M1 M2) 1, lt_of_lt_of_le one_pos (le_max_right _ _), fun x hx => (h1 x hx).trans ((le_max_left _ _).trans (le_max_left _ _)), fun x hx y hy => ?_⟩
  have := (convex_closedBall (0 : E) r).norm_image_sub_le_of_norm_fderiv_le (𝕜 := 𝕜) (C := M2) (fun z _ => h.differentiable one_ne_zero z) h2 hx hy
  exact this.trans (mul_le_mul_of_nonneg_right ((le_max_right _ _).trans (le_max_left _ _)) (norm_nonneg _))

/-- Functions with a parameter: where the derivative vanishes the growth is quadratic, with the same constant for all parameters and places in a ball. -/
theorem quadratic_uniform {P E : Type} [NormedAddCommGroup P] [NormedSpace 𝕜 P] [FiniteDimensional 𝕜 P] [NormedAddCommGroup E] [NormedSpace 𝕜 E]
    [FiniteDimensional 𝕜 E] {f : P × E → 𝕜} (h : ContDiff 𝕜 2 f) (r : ℝ) :
    ∃ C : ℝ, 0 < C ∧ ∀ p : P, ‖p‖ ≤ r → ∀ x y : E, ‖x‖ ≤ r → ‖y‖ ≤ r → fderiv 𝕜 (fun z => f (p, z)) x = 0 →
      ‖f (p, y) - f (p, x)‖ ≤ C * ‖y - x‖ ^ 2 := by
  let : NormedSpace ℝ E := NormedSpace.restrictScalars ℝ 𝕜 E
  have h1 : ContDiff 𝕜 1 (fderiv 𝕜 f) := h.fderiv_right (by norm_num)
  obtain ⟨M, hM, -, lip⟩ := ball_lip h1 r
  refine ⟨M, hM, fun p hp x y hx hy hz => ?_⟩
  have dp : ∀ z, HasFDerivAt (fun z => f (p, z)) ((fderiv 𝕜 f (p, z)).comp (ContinuousLinearMap.inr 𝕜 P E)) z := fun z =>
    (h.differentiable two_ne_zero (p, z)).hasFDerivAt.comp z (hasFDerivAt_prodMk_right p z)
  have mem : ∀ z, ‖z‖ ≤ r → (p, z) ∈ closedBall (0 : P × E) r := fun z hz => by
    rw [mem_closedBall, dist_zero_right]; exact max_le hp hz
  have b : ∀ z ∈ closedBall (0 : E) r ∩ closedBall x ‖y - x‖, ‖fderiv 𝕜 (fun z => f (p, z)) z‖ ≤ M * ‖y - x‖ := by
    rintro z ⟨hz1, hz2⟩
    rw [mem_closedBall, dist_zero_right] at hz1
    rw [mem_closedBall, dist_eq_norm] at hz2
    have e : fderiv 𝕜 (fun z => f (p, z)) z = (fderiv 𝕜 f (p, z) - fderiv 𝕜 f (p, x)).comp (ContinuousLinearMap.inr 𝕜 P E) := by
      rw [ContinuousLinearMap.sub_comp, ← (dp x).fderiv, hz, sub_zero, (dp z).fderiv]
    rw [e]
    refine (ContinuousLinearMap.opNorm_comp_le _ _).trans ?_
    have l := lip _ (mem x hx) _ (mem z hz1)
    have n : ‖((p, z) : P × E) - (p, x)‖ = ‖z - x‖ := by simp [Prod.norm_def]
    rw [n] at l
    have i : ‖ContinuousLinearMap.inr 𝕜 P E‖ ≤ 1 := ContinuousLinearMap.opNorm_le_bound _ zero_le_one fun w => by simp [Prod.norm_def]
    calc _ ≤ (M * ‖z - x‖) * 1 := mul_le_mul l i (norm_nonneg _) (by positivity)
      _ ≤ _ := by rw [mul_one]; exact mul_le_mul_of_nonneg_left hz2 hM.le
  have := ((convex_closedBall (0 : E) r).inter (convex_closedBall x ‖y - x‖)).norm_image_sub_le_of_norm_fderiv_le (𝕜 := 𝕜) (C := M * ‖y - x‖)
    (fun w _ => (dp w).differentiableAt) b (x := x) (y := y)
    ⟨by simpa using hx, mem_closedBall_self (norm_nonneg _)⟩ ⟨by simpa using hy, by rw [mem_closedBall, dist_eq_norm]⟩
  rw [pow_two, ← mul_assoc]
  exact this

variable {O V : Type} [Fintype O] [Fintype V] [DecidableEq O] [DecidableEq V]

/-- The update at weak coupling is small and changes little. -/
theorem update_small (eo : O → 𝕜) (ev : V → 𝕜) (f : OneE O V 𝕜) (I : TwoE O V 𝕜) (hI : AntiI I)
    (g1 : ∀ a i, ev a - eo i ≠ 0) (g2 : ∀ a b i j, ev a + ev b - eo i - eo j ≠ 0) : ∃ M : ℝ, 0 < M ∧ ∀ (c : 𝕜) (T T' : Amp 𝕜 O V), Anti T.2 → Anti T'.2 →
      ‖T‖ ≤ 1 → ‖T'‖ ≤ 1 → ‖update ((diagF eo ev).addMul c f) (I.mul c) eo ev T‖ ≤ M * ‖c‖ ∧
      ‖update ((diagF eo ev).addMul c f) (I.mul c) eo ev T' - update ((diagF eo ev).addMul c f) (I.mul c) eo ev T‖ ≤ M * ‖c‖ * ‖T' - T‖ := by
  obtain ⟨M, hM, b1, b2⟩ := ball_lip (gStep_smooth f I eo ev) 1
  refine ⟨M, hM, fun c T T' hT hT' hn hn' => ?_⟩
  rw [update_weak f I hI g1 g2 c hT, update_weak f I hI g1 g2 c hT', norm_neg, norm_smul]
  refine ⟨?_, ?_⟩
  · rw [mul_comm]; exact mul_le_mul_of_nonneg_right (b1 T (by simpa using hn)) (norm_nonneg _)
  · rw [neg_sub_neg, ← smul_sub, norm_smul, norm_sub_rev]
    have := mul_le_mul_of_nonneg_left (b2 T (by simpa using hn) T' (by simpa using hn')) (norm_nonneg c)
    linarith

theorem update_zero (eo : O → 𝕜) (ev : V → 𝕜) (f : OneE O V 𝕜) (I : TwoE O V 𝕜) (hI : AntiI I)
    (g1 : ∀ a i, ev a - eo i ≠ 0) (g2 : ∀ a b i j, ev a + ev b - eo i - eo j ≠ 0) (c : 𝕜) :
    update ((diagF eo ev).addMul c f) (I.mul c) eo ev 0
      = (fun a i => -(c * (f.vo a i / (ev a - eo i))), fun a b i j => -(c * (I.vvoo a b i j / (ev a + ev b - eo i - eo j)))) := by
  rw [update_weak f I hI g1 g2 c zero_anti', gStep_eq f I hI eo ev zero_anti']
  refine Prod.ext ?_ ?_
  · funext a i
    have := simple_zero1 f I a i
    simp only [Prod.fst_neg, Prod.smul_fst, Pi.neg_apply, Pi.smul_apply, smul_eq_mul, divD_apply]
    rw [show (ccsd_simple f I (0 : Amp 𝕜 O V).1 (0 : Amp 𝕜 O V).2).1 a i = f.vo a i from this]
  · funext a b i j
    have := simple_zero2 f I a b i j
    simp only [Prod.snd_neg, Prod.smul_snd, Pi.neg_apply, Pi.smul_apply, smul_eq_mul, divD_apply]
    rw [show (ccsd_simple f I (0 : Amp 𝕜 O V).1 (0 : Amp 𝕜 O V).2).2 a b i j = I.vvoo a b i j from this]

theorem cc_energy_smooth (fov : O → V → 𝕜) (g : O → O → V → V → 𝕜) : ContDiff 𝕜 1 (fun T : Amp 𝕜 O V => cc_energy T.1 T.2 fov g) := by
  unfold cc_energy cc_energy_d cc_energy_s1 cc_energy_s2
  fun_prop

theorem lam_smooth (f : OneE O V 𝕜) (I : TwoE O V 𝕜) : ContDiff 𝕜 1 (fun u : Amp 𝕜 O V × Amp 𝕜 V O => lamRes f I u.1 u.2) := by
  unfold lamRes ccsd_lambda_simple LS_TS LS_LS LS_LSTS LS_LSTD LS_LSTSS LS_LD LS_LDTS LS_LDTD LS_LDTSS LS_LDTSD LS_LDTSSS LD_LS LD_LSTS LD_LD
    LD_LDTS LD_LDTD LD_LDTSS
  dsimp only
  fun_prop

/-- The update of the multipliers at weak coupling is small and changes little with the multipliers and with the amplitudes. -/
theorem updateL_small (eo : O → 𝕜) (ev : V → 𝕜) (f : OneE O V 𝕜) (I : TwoE O V 𝕜)
    (g1 : ∀ a i, ev a - eo i ≠ 0) (g2 : ∀ a b i j, ev a + ev b - eo i - eo j ≠ 0) : ∃ M : ℝ, 0 < M ∧ ∀ (c : 𝕜) (T T' : Amp 𝕜 O V) (L L' : Amp 𝕜 V O),
      Anti L.2 → Anti L'.2 → ‖T‖ ≤ 1 → ‖T'‖ ≤ 1 → ‖L‖ ≤ 1 → ‖L'‖ ≤ 1 → ‖updateL ((diagF eo ev).addMul c f) (I.mul c) eo ev T L‖ ≤ M * ‖c‖ ∧
      ‖updateL ((diagF eo ev).addMul c f) (I.mul c) eo ev T' L' - updateL ((diagF eo ev).addMul c f) (I.mul c) eo ev T L‖
        ≤ M * ‖c‖ * max ‖T' - T‖ ‖L' - L‖ := by
  obtain ⟨M, hM, b1, b2⟩ := ball_lip (lam_smooth f I) 1
  let D := divD (𝕜 := 𝕜) (fun a => -ev a) (fun i => -eo i)
  refine ⟨(‖D‖ + 1) * M, by positivity, fun c T T' L L' hL hL' nT nT' nL nL' => ?_⟩
  have m : ∀ (T : Amp 𝕜 O V) (L : Amp 𝕜 V O), ‖T‖ ≤ 1 → ‖L‖ ≤ 1 → (T, L) ∈ closedBall (0 : Amp 𝕜 O V × Amp 𝕜 V O) 1 := fun T L h h' => by
    rw [mem_closedBall, dist_zero_right]; exact max_le h h'
  rw [updateL_weak f I g1 g2 c T hL, updateL_weak f I g1 g2 c T' hL', norm_neg, norm_smul, neg_sub_neg, ← smul_sub, norm_smul]
  have d : ∀ (x : Amp 𝕜 V O) (B : ℝ), ‖x‖ ≤ B → ‖c‖ * ‖D x‖ ≤ (‖D‖ + 1) * ‖c‖ * B := fun x B h => by
    have h1 := D.le_opNorm x
    have h2 : ‖D‖ * ‖x‖ ≤ (‖D‖ + 1) * B := mul_le_mul (by linarith) h (norm_nonneg _) (by positivity)
    calc _ ≤ ‖c‖ * ((‖D‖ + 1) * B) := mul_le_mul_of_nonneg_left (h1.trans h2) (norm_nonneg _)
      _ = _ := by ring
  refine ⟨(d _ _ (b1 _ (m T L nT nL))).trans (le_of_eq (by ring)), ?_⟩
  have := d _ _ (b2 _ (m T L nT nL) _ (m T' L' nT' nL'))
  rw [map_sub, norm_sub_rev] at this
  refine this.trans (le_of_eq ?_)
  change (‖D‖ + 1) * ‖c‖ * (M * max ‖T' - T‖ ‖L' - L‖) = _
  ring

/-- A constant can be absorbed into the base of a power. -/
theorem absorb {C x : ℝ} (hx : 0 ≤ x) {n : ℕ} (hn : n ≠ 0) : C * x ^ n ≤ (max C 1 * x) ^ n := by
  rw [mul_pow]
  exact mul_le_mul_of_nonneg_right ((le_max_left C 1).trans (le_self_pow₀ (le_max_right C 1) hn)) (by positivity)

/-- What is needed about the updates, with one constant. -/
theorem orders (eo : O → 𝕜) (ev : V → 𝕜) (f : OneE O V 𝕜) (I : TwoE O V 𝕜) (hI : AntiI I)
    (g1 : ∀ a i, ev a - eo i ≠ 0) (g2 : ∀ a b i j, ev a + ev b - eo i - eo j ≠ 0) :
    ∃ M : ℝ, 0 < M ∧ ∀ c : 𝕜, M * ‖c‖ ≤ 1 → ∀ T : Amp 𝕜 O V, Anti T.2 → ‖T‖ ≤ 1 →
      ccsd_simple ((diagF eo ev).addMul c f) (I.mul c) T.1 T.2 = (fun _ _ => 0, fun _ _ _ _ => 0) → ∀ k : ℕ,
        ‖(update ((diagF eo ev).addMul c f) (I.mul c) eo ev)^[k] 0‖ ≤ 1 ∧
        ‖(update ((diagF eo ev).addMul c f) (I.mul c) eo ev)^[k] 0 - T‖ ≤ (M * ‖c‖) ^ (k + 1) := by
  obtain ⟨M, hM, b⟩ := update_small eo ev f I hI g1 g2
  refine ⟨M, hM, fun c hc T hT hn sol k => ?_⟩
  set U := update ((diagF eo ev).addMul c f) (I.mul c) eo ev with hU
  have aI := TwoE.mul_anti hI c
  have fix : U T = T := (update_fixed _ _ g1 g2 T).2 sol
  have q0 : 0 ≤ M * ‖c‖ := by positivity
  induction k with
  | zero =>
    refine ⟨by simp, ?_⟩
    have := (b c T T hT hT hn hn).1
    rw [← hU, fix] at this
    simpa using this
  | succ k ih =>
    have ha : Anti ((U^[k] 0).2) := iterate_anti _ _ aI eo ev zero_anti' k
    rw [Function.iterate_succ_apply']
    have := b c T (U^[k] 0) hT ha hn ih.1
    have h2 := (b c (U^[k] 0) T ha hT ih.1 hn).1
    rw [← hU] at this h2
    rw [fix] at this
    refine ⟨h2.trans hc, this.2.trans ?_⟩
    rw [pow_succ' _ (k + 1)]
    exact mul_le_mul_of_nonneg_left ih.2 q0

/-- C93: from zero amplitudes, `k` updates give the amplitudes up to terms of order `k + 1` and the energy up to terms of order `k + 2` in the
perturbation. -/
theorem C93_orders (eo : O → 𝕜) (ev : V → 𝕜) (f : OneE O V 𝕜) (I : TwoE O V 𝕜) (hI : AntiI I)
    (g1 : ∀ a i, ev a - eo i ≠ 0) (g2 : ∀ a b i j, ev a + ev b - eo i - eo j ≠ 0) :
    ∃ M : ℝ, 0 < M ∧ ∀ c : 𝕜, M * ‖c‖ ≤ 1 → ∀ T : Amp 𝕜 O V, Anti T.2 → ‖T‖ ≤ 1 →
      ccsd_simple ((diagF eo ev).addMul c f) (I.mul c) T.1 T.2 = (fun _ _ => 0, fun _ _ _ _ => 0) →
      ∀ (k : ℕ) (T' : Amp 𝕜 O V), T' = (update ((diagF eo ev).addMul c f) (I.mul c) eo ev)^[k] 0 →
        ‖T' - T‖ ≤ (M * ‖c‖) ^ (k + 1) ∧
        ‖cc_energy T'.1 T'.2 ((diagF eo ev).addMul c f).ov (I.mul c).oovv - cc_energy T.1 T.2 ((diagF eo ev).addMul c f).ov (I.mul c).oovv‖
          ≤ (M * ‖c‖) ^ (k + 2) := by
  obtain ⟨M, hM, b⟩ := orders eo ev f I hI g1 g2
  obtain ⟨N, hN, -, l⟩ := ball_lip (cc_energy_smooth f.ov I.oovv) 1
  refine ⟨max M N, lt_of_lt_of_le hM (le_max_left _ _), fun c hc T hT hn sol k T' hT' => ?_⟩
  have nc := norm_nonneg c
  have m1 : M * ‖c‖ ≤ max M N * ‖c‖ := mul_le_mul_of_nonneg_right (le_max_left _ _) nc
  have m2 : N * ‖c‖ ≤ max M N * ‖c‖ := mul_le_mul_of_nonneg_right (le_max_right _ _) nc
  obtain ⟨h1, h2⟩ := b c (m1.trans hc) T hT hn sol k
  rw [← hT'] at h1 h2
  have h3 := h2.trans (pow_le_pow_left₀ (by positivity) m1 (k + 1))
  refine ⟨h3, ?_⟩
  rw [weak_energy, weak_energy, ← mul_sub, norm_mul]
  have e := l T (by simpa using hn) T' (by simpa using h1)
  rw [pow_succ' _ (k + 1)]
  calc _ ≤ ‖c‖ * (N * ‖T' - T‖) := mul_le_mul_of_nonneg_left e nc
    _ = (N * ‖c‖) * ‖T' - T‖ := by ring
    _ ≤ _ := mul_le_mul m2 h3 (norm_nonneg _) (by positivity)

/-- C93: the CCSD energy is the energy of `mp2_energy` with the first-order amplitudes, up to terms of third order in the perturbation. -/
theorem C93_second_order (eo : O → 𝕜) (ev : V → 𝕜) (f : OneE O V 𝕜) (I : TwoE O V 𝕜) (hI : AntiI I)
    (g1 : ∀ a i, ev a - eo i ≠ 0) (g2 : ∀ a b i j, ev a + ev b - eo i - eo j ≠ 0) :
    ∃ M : ℝ, 0 < M ∧ ∀ c : 𝕜, M * ‖c‖ ≤ 1 → ∀ T : Amp 𝕜 O V, Anti T.2 → ‖T‖ ≤ 1 →
      ccsd_simple ((diagF eo ev).addMul c f) (I.mul c) T.1 T.2 = (fun _ _ => 0, fun _ _ _ _ => 0) →
      ‖cc_energy T.1 T.2 ((diagF eo ev).addMul c f).ov (I.mul c).oovv
          - mp2_energy (fun a i => -(c * f.vo a i) / (ev a - eo i)) (fun a b i j => -(c * I.vvoo a b i j) / (ev a + ev b - eo i - eo j))
              ((diagF eo ev).addMul c f).ov (I.mul c).oovv‖ ≤ (M * ‖c‖) ^ 3 := by
  obtain ⟨M, hM, b⟩ := C93_orders eo ev f I hI g1 g2
  let t1 : V → O → 𝕜 := fun a i => f.vo a i / (ev a - eo i)
  let t2 : V → V → O → O → 𝕜 := fun a b i j => I.vvoo a b i j / (ev a + ev b - eo i - eo j)
  let N : ℝ := ‖(1 / 2) * cc_energy_s2 t1 I.oovv‖
  have hN : 0 ≤ N := norm_nonneg _
  have hMN : M ≤ max (M ^ 3 + N) 1 * max M 1 := by
    have : (1 : ℝ) ≤ max (M ^ 3 + N) 1 := le_max_right _ _
    have h2 : M ≤ max M 1 := le_max_left _ _
    nlinarith
  refine ⟨max (M ^ 3 + N) 1 * max M 1, by positivity, fun c hc T hT hn sol => ?_⟩
  have nc := norm_nonneg c
  have h := (b c ((mul_le_mul_of_nonneg_right hMN nc).trans hc) T hT hn sol 1 _ rfl).2
  rw [Function.iterate_one, update_zero eo ev f I hI g1 g2 c] at h
  have e : cc_energy (fun a i => -(c * (f.vo a i / (ev a - eo i)))) (fun a b i j => -(c * (I.vvoo a b i j / (ev a + ev b - eo i - eo j))))
        ((diagF eo ev).addMul c f).ov (I.mul c).oovv
      = mp2_energy (fun a i => -(c * f.vo a i) / (ev a - eo i)) (fun a b i j => -(c * I.vvoo a b i j) / (ev a + ev b - eo i - eo j))
          ((diagF eo ev).addMul c f).ov (I.mul c).oovv + c ^ 3 * ((1 / 2) * cc_energy_s2 t1 I.oovv) := by
    have e1 : (fun a i => -(c * f.vo a i) / (ev a - eo i)) = fun a i => -(c * t1 a i) := by funext a i; simp only [t1]; ring
    have e2 : (fun a b i j => -(c * I.vvoo a b i j) / (ev a + ev b - eo i - eo j)) = fun a b i j => -(c * t2 a b i j) := by funext a b i j; simp only [t2]; ring
    rw [e1, e2]
    change cc_energy (fun a i => -(c * t1 a i)) (fun a b i j => -(c * t2 a b i j)) _ _ = _
    rw [mp2_split eo ev f I c t1 t2]
    ring
  rw [e] at h
  have tri : ‖cc_energy T.1 T.2 ((diagF eo ev).addMul c f).ov (I.mul c).oovv
          - mp2_energy (fun a i => -(c * f.vo a i) / (ev a - eo i)) (fun a b i j => -(c * I.vvoo a b i j) / (ev a + ev b - eo i - eo j))
              ((diagF eo ev).addMul c f).ov (I.mul c).oovv‖ ≤ (M * ‖c‖) ^ 3 + ‖c ^ 3 * ((1 / 2) * cc_energy_s2 t1 I.oovv)‖ := by
    rw [norm_sub_rev] at h
    refine le_trans (le_of_eq ?_) ((norm_add_le _ _).trans (add_le_add h le_rfl))
    congr 1
    ring
  refine tri.trans ?_
  rw [norm_mul (c ^ 3), norm_pow]
  have e3 : (M * ‖c‖) ^ 3 + ‖c‖ ^ 3 * N = (M ^ 3 + N) * ‖c‖ ^ 3 := by ring
  rw [e3]
  refine (absorb nc (by norm_num)).trans (pow_le_pow_left₀ (by positivity) (mul_le_mul_of_nonneg_right ?_ nc) 3)
  exact le_mul_of_one_le_right (by positivity) (le_max_right _ _)

theorem affine_smooth {E : Type} [NormedAddCommGroup E] [NormedSpace 𝕜 E] {g h : E → 𝕜} (A : E →L[𝕜] E) (hg : ContDiff 𝕜 2 g) (hh : ContDiff 𝕜 2 h) :
    ContDiff 𝕜 2 (fun p : 𝕜 × E => g (A p.2) + p.1 * h (A p.2)) :=
  (hg.comp (A.contDiff.comp contDiff_snd)).add (contDiff_fst.mul (hh.comp (A.contDiff.comp contDiff_snd)))

theorem lagTL_split (F f : OneE O V 𝕜) (I : TwoE O V 𝕜) (c : 𝕜) (u : Amp 𝕜 O V × Amp 𝕜 V O) :
    lagTL (F.addMul c f) (I.mul c) u = lagTL F (I.mul 0) u + c * lagTL f I u := lag_split F f I c _ _ _ _

/-- The Lagrangian as a function of the coupling, the amplitudes and the multipliers. -/
theorem lagC_smooth (eo : O → 𝕜) (ev : V → 𝕜) (f : OneE O V 𝕜) (I : TwoE O V 𝕜) :
    ContDiff 𝕜 2 (fun p : 𝕜 × (Amp 𝕜 O V × Amp 𝕜 V O) => lagTL ((diagF eo ev).addMul p.1 f) (I.mul p.1) (antiTL p.2)) := by
  have e : (fun p : 𝕜 × (Amp 𝕜 O V × Amp 𝕜 V O) => lagTL ((diagF eo ev).addMul p.1 f) (I.mul p.1) (antiTL p.2))
      = fun p => lagTL (diagF eo ev) (I.mul 0) (antiTL p.2) + p.1 * lagTL f I (antiTL p.2) := funext fun p => lagTL_split _ _ _ _ _
  have h1 : ContDiff 𝕜 2 (lagTL (diagF eo ev) (I.mul 0)) := lagTL_smooth (diagF eo ev) (I.mul 0)
  have h2 : ContDiff 𝕜 2 (lagTL f I) := lagTL_smooth f I
  rw [e]
  generalize lagTL (diagF eo ev) (I.mul 0) = g at h1
  generalize lagTL f I = h at h2
  exact affine_smooth antiTL h1 h2

theorem iterateL_anti (F : OneE O V 𝕜) (I : TwoE O V 𝕜) (hI : AntiI I) (eo : O → 𝕜) (ev : V → 𝕜) {T : Amp 𝕜 O V} (hT : Anti T.2) (j : ℕ) :
    Anti ((updateL F I eo ev T)^[j] 0).2 := by
  induction j with
  | zero => exact zero_anti'
  | succ j ih =>
    rw [Function.iterate_succ_apply', updateL_eq]
    exact sub_anti ih (divD_anti _ _ (lamRes_anti _ _ hI T hT ih))

/-- Solutions of the Lambda equations are small at weak coupling. -/
theorem lambda_small (eo : O → 𝕜) (ev : V → 𝕜) (f : OneE O V 𝕜) (I : TwoE O V 𝕜) (hI : AntiI I)
    (g1 : ∀ a i, ev a - eo i ≠ 0) (g2 : ∀ a b i j, ev a + ev b - eo i - eo j ≠ 0) : ∃ M : ℝ, 0 < M ∧ ∀ c : 𝕜, M * ‖c‖ ≤ 1 →
      ∀ (T : Amp 𝕜 O V) (L : Amp 𝕜 V O), Anti T.2 → ‖T‖ ≤ 1 → Anti L.2 →
      ccsd_lambda_simple ((diagF eo ev).addMul c f) (I.mul c) L.1 L.2 T.1 T.2 = (fun _ _ => 0, fun _ _ _ _ => 0) →
      ‖L‖ ≤ 1 ∧ updateL ((diagF eo ev).addMul c f) (I.mul c) eo ev T L = L := by
  obtain ⟨c₀, h0, k⟩ := C66_lambda_converges eo ev f I hI g1 g2 1
  obtain ⟨M, hM, b⟩ := updateL_small eo ev f I g1 g2
  refine ⟨max (2 * M) (1 / c₀), lt_of_lt_of_le (by positivity) (le_max_left _ _), fun c hc T L hT nT hL lam => ?_⟩
  have nc := norm_nonneg c
  have h1 : 2 * M * ‖c‖ ≤ 1 := (mul_le_mul_of_nonneg_right (le_max_left _ _) nc).trans hc
  have h2 : ‖c‖ ≤ c₀ := by
    have := (mul_le_mul_of_nonneg_right (le_max_right (2 * M) (1 / c₀)) nc).trans hc
    rw [one_div, inv_mul_le_iff₀ h0, mul_one] at this
    exact this
  obtain ⟨L', -, u, it⟩ := k c h2 T hT nT
  obtain rfl := (u L hL).1 lam
  refine ⟨?_, ?_⟩
  · have e := it 0 zero_anti' 1
    rw [Function.iterate_one, zero_sub, norm_neg, pow_one] at e
    have s := (b c T T 0 0 zero_anti' zero_anti' nT nT (by simp) (by simp)).1
    have t : ‖L‖ ≤ ‖updateL ((diagF eo ev).addMul c f) (I.mul c) eo ev T 0‖ + ‖updateL ((diagF eo ev).addMul c f) (I.mul c) eo ev T 0 - L‖ := by
      have := norm_sub_le (updateL ((diagF eo ev).addMul c f) (I.mul c) eo ev T 0) (updateL ((diagF eo ev).addMul c f) (I.mul c) eo ev T 0 - L)
      rwa [sub_sub_cancel] at this
    linarith
  · rw [updateL_eq, show lamRes ((diagF eo ev).addMul c f) (I.mul c) T L = 0 from lam, map_zero, sub_zero]

/-- C93: with the amplitudes of `k` updates, `j` updates of the multipliers from zero give the multipliers of the solution up to terms of order
`j + 1` and `k + 2`. -/
theorem C93_multipliers (eo : O → 𝕜) (ev : V → 𝕜) (f : OneE O V 𝕜) (I : TwoE O V 𝕜) (hI : AntiI I)
    (g1 : ∀ a i, ev a - eo i ≠ 0) (g2 : ∀ a b i j, ev a + ev b - eo i - eo j ≠ 0) :
    ∃ M : ℝ, 0 < M ∧ ∀ c : 𝕜, M * ‖c‖ ≤ 1 → ∀ (T : Amp 𝕜 O V) (L : Amp 𝕜 V O), Anti T.2 → ‖T‖ ≤ 1 → Anti L.2 →
      ccsd_simple ((diagF eo ev).addMul c f) (I.mul c) T.1 T.2 = (fun _ _ => 0, fun _ _ _ _ => 0) →
      ccsd_lambda_simple ((diagF eo ev).addMul c f) (I.mul c) L.1 L.2 T.1 T.2 = (fun _ _ => 0, fun _ _ _ _ => 0) →
      ∀ (k j : ℕ) (T' : Amp 𝕜 O V) (L' : Amp 𝕜 V O), T' = (update ((diagF eo ev).addMul c f) (I.mul c) eo ev)^[k] 0 →
        L' = (updateL ((diagF eo ev).addMul c f) (I.mul c) eo ev T')^[j] 0 →
        ‖L' - L‖ ≤ (M * ‖c‖) ^ (min j (k + 1) + 1) := by
  obtain ⟨M1, hM1, b1⟩ := orders eo ev f I hI g1 g2
  obtain ⟨M2, hM2, b2⟩ := updateL_small eo ev f I g1 g2
  obtain ⟨M3, hM3, b3⟩ := lambda_small eo ev f I hI g1 g2
  refine ⟨max M1 (max M2 M3), lt_of_lt_of_le hM1 (le_max_left _ _), fun c hc T L hT nT hL sol lam k j T' L' hT' hL' => ?_⟩
  have nc := norm_nonneg c
  set q := max M1 (max M2 M3) * ‖c‖ with hq
  have q0 : 0 ≤ q := by positivity
  have m1 : M1 * ‖c‖ ≤ q := mul_le_mul_of_nonneg_right (le_max_left _ _) nc
  have m2 : M2 * ‖c‖ ≤ q := mul_le_mul_of_nonneg_right ((le_max_left _ _).trans (le_max_right _ _)) nc
  have m3 : M3 * ‖c‖ ≤ q := mul_le_mul_of_nonneg_right ((le_max_right _ _).trans (le_max_right _ _)) nc
  obtain ⟨nT', eT'⟩ := b1 c (m1.trans hc) T hT nT sol k
  rw [← hT'] at nT' eT'
  replace eT' := eT'.trans (pow_le_pow_left₀ (by positivity) m1 (k + 1))
  obtain ⟨nL, fix⟩ := b3 c (m3.trans hc) T L hT nT hL lam
  have aI := TwoE.mul_anti hI c
  have aT' : Anti T'.2 := hT' ▸ iterate_anti _ _ aI eo ev zero_anti' k
  subst hL'
  have key : ∀ j : ℕ, ‖(updateL ((diagF eo ev).addMul c f) (I.mul c) eo ev T')^[j] 0‖ ≤ 1 ∧
      ‖(updateL ((diagF eo ev).addMul c f) (I.mul c) eo ev T')^[j] 0 - L‖ ≤ q ^ (min j (k + 1) + 1) := by
    intro j
    induction j with
    | zero =>
      refine ⟨by simp, ?_⟩
      have := (b2 c T T L L hL hL nT nT nL nL).1
      rw [fix] at this
      simpa using this.trans m2
    | succ j ih =>
      have aL := iterateL_anti ((diagF eo ev).addMul c f) _ aI eo ev aT' j
      rw [Function.iterate_succ_apply']
      have h1 := (b2 c T' T' _ _ aL aL nT' nT' ih.1 ih.1).1
      have h2 := (b2 c T T' L _ hL aL nT nT' nL ih.1).2
      rw [fix] at h2
      refine ⟨(h1.trans m2).trans hc, h2.trans ?_⟩
      have p1 : ‖T' - T‖ ≤ q ^ (min (j + 1) (k + 1)) := eT'.trans (pow_le_pow_of_le_one q0 hc (min_le_right _ _))
      have p2 : ‖(updateL ((diagF eo ev).addMul c f) (I.mul c) eo ev T')^[j] 0 - L‖ ≤ q ^ (min (j + 1) (k + 1)) :=
        ih.2.trans (pow_le_pow_of_le_one q0 hc (by omega))
      rw [pow_succ']
      exact mul_le_mul m2 (max_le p1 p2) (le_max_of_le_left (norm_nonneg _)) q0
  exact (key j).2

/-- C93, Wigner's rule: the energy from the density matrices of `k` updates of the amplitudes and `k` (or more) updates of the multipliers has an error
of order `2 k + 2` in the perturbation. -/
theorem C93_wigner (eo : O → 𝕜) (ev : V → 𝕜) (f : OneE O V 𝕜) (I : TwoE O V 𝕜) (hI : AntiI I)
    (g1 : ∀ a i, ev a - eo i ≠ 0) (g2 : ∀ a b i j, ev a + ev b - eo i - eo j ≠ 0) :
    ∃ M : ℝ, 0 < M ∧ ∀ c : 𝕜, M * ‖c‖ ≤ 1 → ∀ T : Amp 𝕜 O V, Anti T.2 → ‖T‖ ≤ 1 →
      ccsd_simple ((diagF eo ev).addMul c f) (I.mul c) T.1 T.2 = (fun _ _ => 0, fun _ _ _ _ => 0) →
      ∀ (k j : ℕ) (T' : Amp 𝕜 O V) (L' : Amp 𝕜 V O), k ≤ j → T' = (update ((diagF eo ev).addMul c f) (I.mul c) eo ev)^[k] 0 →
        L' = (updateL ((diagF eo ev).addMul c f) (I.mul c) eo ev T')^[j] 0 →
        ‖traceRdm ((diagF eo ev).addMul c f) (I.mul c) L'.1 L'.2 T'.1 T'.2 - cc_energy T.1 T.2 ((diagF eo ev).addMul c f).ov (I.mul c).oovv‖
          ≤ (M * ‖c‖) ^ (2 * k + 2) := by
  obtain ⟨M1, hM1, b1⟩ := C93_orders eo ev f I hI g1 g2
  obtain ⟨M2, hM2, b2⟩ := C93_multipliers eo ev f I hI g1 g2
  obtain ⟨M3, hM3, b3⟩ := lambda_small eo ev f I hI g1 g2
  obtain ⟨c₀, h0, ex⟩ := C66_lambda_converges eo ev f I hI g1 g2 1
  obtain ⟨C, hC, qd⟩ := quadratic_uniform (lagC_smooth eo ev f I) 2
  let M := max (max M1 M2) (max M3 (max (1 / c₀) 1))
  have hM : 0 < M := lt_of_lt_of_le hM1 ((le_max_left _ _).trans (le_max_left _ _))
  refine ⟨max C 1 * M, by positivity, fun c hc' T hT nT sol k j T' L' hkj hT' hL' => ?_⟩
  have nc := norm_nonneg c
  set q := M * ‖c‖ with hq
  have q0 : 0 ≤ q := by positivity
  have hc : q ≤ 1 := by
    have : (1 : ℝ) * q ≤ max C 1 * q := mul_le_mul_of_nonneg_right (le_max_right _ _) q0
    rw [hq, ← mul_assoc] at this
    linarith
  have m1 : M1 * ‖c‖ ≤ q := mul_le_mul_of_nonneg_right ((le_max_left _ _).trans (le_max_left _ _)) nc
  have m2 : M2 * ‖c‖ ≤ q := mul_le_mul_of_nonneg_right ((le_max_right _ _).trans (le_max_left _ _)) nc
  have m3 : M3 * ‖c‖ ≤ q := mul_le_mul_of_nonneg_right ((le_max_left _ _).trans (le_max_right _ _)) nc
  have m4 : 1 / c₀ * ‖c‖ ≤ q := mul_le_mul_of_nonneg_right (((le_max_left _ _).trans (le_max_right _ _)).trans (le_max_right _ _)) nc
  have m5 : 1 * ‖c‖ ≤ q := mul_le_mul_of_nonneg_right (((le_max_right _ _).trans (le_max_right _ _)).trans (le_max_right _ _)) nc
  have hc0 : ‖c‖ ≤ c₀ := by
    have := m4.trans hc
    rw [one_div, inv_mul_le_iff₀ h0, mul_one] at this
    exact this
  obtain ⟨L, hL, u, -⟩ := ex c hc0 T hT nT
  have lam := (u L hL).2 rfl
  have aI := TwoE.mul_anti hI c
  have aT' : Anti T'.2 := hT' ▸ iterate_anti _ _ aI eo ev zero_anti' k
  have aL' : Anti L'.2 := hL' ▸ iterateL_anti _ _ aI eo ev aT' j
  have eT := ((b1 c (m1.trans hc) T hT nT sol k T' hT').1).trans (pow_le_pow_left₀ (by positivity) m1 (k + 1))
  have eL := (b2 c (m2.trans hc) T L hT nT hL sol lam k j T' L' hT' hL').trans (pow_le_pow_left₀ (by positivity) m2 _)
  have eL' : ‖L' - L‖ ≤ q ^ (k + 1) := eL.trans (pow_le_pow_of_le_one q0 hc (by omega))
  obtain ⟨nL, -⟩ := b3 c (m3.trans hc) T L hT nT hL lam
  have p1 : q ^ (k + 1) ≤ 1 := pow_le_one₀ q0 hc
  have near : ∀ {E : Type} [NormedAddCommGroup E] (x y : E), ‖x‖ ≤ 1 → ‖y - x‖ ≤ 1 → ‖y‖ ≤ 2 := fun x y hx hy => by
    have := norm_add_le x (y - x)
    rw [add_sub_cancel] at this
    linarith
  have st := lag_stationary ((diagF eo ev).addMul c f) (I.mul c) aI T L hT hL sol lam
  have g := qd c (by linarith) (T, L) (T', L') (max_le (by linarith) (by linarith)) (max_le (near T T' nT (eT.trans p1)) (near L L' nL (eL'.trans p1))) st
  simp only [antiTL_of_anti T L hT hL, antiTL_of_anti T' L' aT' aL'] at g
  rw [← trace_lag _ _ aI aT' aL', lag_code _ _ aI hT, sol] at g
  have e0 : pairing ((fun _ _ => 0, fun _ _ _ _ => 0) : Amp 𝕜 O V) L = 0 := by simp [pairing]
  rw [e0, add_zero] at g
  refine g.trans ?_
  have mx : ‖((T', L') : Amp 𝕜 O V × Amp 𝕜 V O) - (T, L)‖ ≤ q ^ (k + 1) := max_le eT eL'
  calc _ ≤ C * (q ^ (k + 1)) ^ 2 := mul_le_mul_of_nonneg_left (pow_le_pow_left₀ (norm_nonneg _) mx 2) hC.le
    _ = C * q ^ (2 * k + 2) := by rw [← pow_mul]; congr 2; ring
    _ ≤ (max C 1 * q) ^ (2 * k + 2) := absorb q0 (by omega)
    _ = _ := by rw [hq, mul_assoc]
end

/-- Non-trivial case of the theorems: the interacting two-level model of C58, where the solutions the theorems speak of exist. -/
example : ∃ M c₀ : ℝ, 0 < M ∧ 0 < c₀ ∧ ∀ c : ℝ, ‖c‖ ≤ c₀ → ∃ T : Amp ℝ (Fin 2) (Fin 2),
    ccsd_simple ((diagF (fun _ => 0) (fun _ => 1)).addMul c hfF) ((hfI (-2) 1).mul c) T.1 T.2 = (fun _ _ => 0, fun _ _ _ _ => 0) ∧
    ∀ (k : ℕ) (T' L' : Amp ℝ (Fin 2) (Fin 2)),
      T' = (update ((diagF (fun _ => 0) (fun _ => 1)).addMul c hfF) ((hfI (-2) 1).mul c) (fun _ => 0) (fun _ => 1))^[k] 0 →
      L' = (updateL ((diagF (fun _ => 0) (fun _ => 1)).addMul c hfF) ((hfI (-2) 1).mul c) (fun _ => 0) (fun _ => 1) T')^[k] 0 →
      ‖cc_energy T'.1 T'.2 ((diagF (fun _ => 0) (fun _ => 1)).addMul c hfF).ov ((hfI (-2) 1).mul c).oovv
        - cc_energy T.1 T.2 ((diagF (fun _ => 0) (fun _ => 1)).addMul c hfF).ov ((hfI (-2) 1).mul c).oovv‖ ≤ (M * ‖c‖) ^ (k + 2) ∧
      ‖traceRdm ((diagF (fun _ => 0) (fun _ => 1)).addMul c hfF) ((hfI (-2) 1).mul c) L'.1 L'.2 T'.1 T'.2
        - cc_energy T.1 T.2 ((diagF (fun _ => 0) (fun _ => 1)).addMul c hfF).ov ((hfI (-2) 1).mul c).oovv‖ ≤ (M * ‖c‖) ^ (2 * k + 2) := by
  have d1 : ∀ a i : Fin 2, (fun _ : Fin 2 => (1 : ℝ)) a - (fun _ : Fin 2 => 0) i ≠ 0 := fun _ _ => by norm_num
  have d2 : ∀ a b i j : Fin 2, (fun _ : Fin 2 => (1 : ℝ)) a + (fun _ : Fin 2 => 1) b - (fun _ : Fin 2 => 0) i - (fun _ : Fin 2 => 0) j ≠ 0 := fun _ _ _ _ => by norm_num
  obtain ⟨c₀, h0, ex⟩ := C66_converges (𝕜 := ℝ) (fun _ : Fin 2 => 0) (fun _ : Fin 2 => 1) hfF (hfI (-2) 1) (hfI_anti _ _) d1 d2 1 one_pos
  obtain ⟨M1, hM1, b1⟩ := C93_orders (𝕜 := ℝ) (fun _ : Fin 2 => 0) (fun _ : Fin 2 => 1) hfF (hfI (-2) 1) (hfI_anti _ _) d1 d2
  obtain ⟨M2, hM2, b2⟩ := C93_wigner (𝕜 := ℝ) (fun _ : Fin 2 => 0) (fun _ : Fin 2 => 1) hfF (hfI (-2) 1) (hfI_anti _ _) d1 d2
  have hM : 0 < max M1 M2 := lt_of_lt_of_le hM1 (le_max_left _ _)
  refine ⟨max M1 M2, min c₀ (1 / max M1 M2), hM, lt_min h0 (by positivity), fun c hc => ?_⟩
  have nc := norm_nonneg c
  obtain ⟨T, hT, nT, sol, -, -⟩ := ex c (hc.trans (min_le_left _ _))
  have hq : max M1 M2 * ‖c‖ ≤ 1 := by
    have := mul_le_mul_of_nonneg_left (hc.trans (min_le_right _ _)) hM.le
    rwa [mul_one_div_cancel hM.ne'] at this
  have m1 : M1 * ‖c‖ ≤ max M1 M2 * ‖c‖ := mul_le_mul_of_nonneg_right (le_max_left _ _) nc
  have m2 : M2 * ‖c‖ ≤ max M1 M2 * ‖c‖ := mul_le_mul_of_nonneg_right (le_max_right _ _) nc
  refine ⟨T, sol, fun k T' L' hT' hL' => ⟨?_, ?_⟩⟩
  · exact ((b1 c (m1.trans hq) T hT nT sol k T' hT').2).trans (pow_le_pow_left₀ (by positivity) m1 _)
  · exact (b2 c (m2.trans hq) T hT nT sol k k T' L' le_rfl hT' hL').trans (pow_le_pow_left₀ (by positivity) m2 _)
end CC
