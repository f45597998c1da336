import Verif.Props.ExistMP
import Verif.Props.Denom
import Mathlib.Topology.MetricSpace.Contracting
import Mathlib.Analysis.RCLike.Lemmas
/-!
# C66: the denominator-weighted iteration converges

The update `T - residual / D`, with the residual of `ccsd_simple` and the denominators of utils.py.
-/
set_option linter.unusedSectionVars false
set_option synthInstance.maxHeartbeats 400000
set_option synthInstance.maxSize 2000
set_option maxHeartbeats 1000000
namespace CC
open Finset Filter Topology Metric
open scoped NNReal

section
variable {K : Type} [Field K] [CharZero K] {O V : Type} [Fintype O] [Fintype V]
theorem lam_split1 (F f : OneE O V K) (I : TwoE O V K) (c : K) (L1 : O → V → K) (L2 : O → O → V → V → K) (T1 : V → O → K) (T2 : V → V → O → O → K) (a : V) (i : O) :
    (ccsd_lambda_simple (F.addMul c f) (I.mul c) L1 L2 T1 T2).1 i a
      = (ccsd_lambda_simple F (I.mul 0) L1 L2 T1 T2).1 i a + c * (ccsd_lambda_simple f I L1 L2 T1 T2).1 i a := by
  tensor

theorem lam_split2 (F f : OneE O V K) (I : TwoE O V K) (c : K) (L1 : O → V → K) (L2 : O → O → V → V → K) (T1 : V → O → K) (T2 : V → V → O → O → K)
    (a b : V) (i j : O) :
    (ccsd_lambda_simple (F.addMul c f) (I.mul c) L1 L2 T1 T2).2 i j a b
      = (ccsd_lambda_simple F (I.mul 0) L1 L2 T1 T2).2 i j a b + c * (ccsd_lambda_simple f I L1 L2 T1 T2).2 i j a b := by
  tensor
end

section
variable {𝕜 : Type} [RCLike 𝕜] {O V : Type} [Fintype O] [Fintype V] [DecidableEq O] [DecidableEq V]

/-- One update of the amplitudes: minus the residual over the energy denominator. -/
def update (F : OneE O V 𝕜) (I : TwoE O V 𝕜) (eo : O → 𝕜) (ev : V → 𝕜) (T : Amp 𝕜 O V) : Amp 𝕜 O V :=
  (fun a i => T.1 a i - (ccsd_simple F I T.1 T.2).1 a i / (ev a - eo i),
   fun a b i j => T.2 a b i j - (ccsd_simple F I T.1 T.2).2 a b i j / (ev a + ev b - eo i - eo j))

/-- Division by the denominators. -/
def divDL (eo : O → 𝕜) (ev : V → 𝕜) : Amp 𝕜 O V →ₗ[𝕜] Amp 𝕜 O V where
  toFun y := (fun a i => y.1 a i / (ev a - eo i), fun a b i j => y.2 a b i j / (ev a + ev b - eo i - eo j))
  map_add' x y := by
    refine Prod.ext ?_ ?_
    · funext a i; simp only [Prod.fst_add, Pi.add_apply, add_div]
    · funext a b i j; simp only [Prod.snd_add, Pi.add_apply, add_div]
  map_smul' c x := by
    refine Prod.ext ?_ ?_
    · funext a i; simp only [Prod.smul_fst, Pi.smul_apply, smul_eq_mul, mul_div_assoc, RingHom.id_apply]
    · funext a b i j; simp only [Prod.smul_snd, Pi.smul_apply, smul_eq_mul, mul_div_assoc, RingHom.id_apply]

noncomputable def divD (eo : O → 𝕜) (ev : V → 𝕜) : Amp 𝕜 O V →L[𝕜] Amp 𝕜 O V := (divDL eo ev).toContinuousLinearMap

theorem divD_apply (eo : O → 𝕜) (ev : V → 𝕜) (y : Amp 𝕜 O V) :
    divD eo ev y = (fun a i => y.1 a i / (ev a - eo i), fun a b i j => y.2 a b i j / (ev a + ev b - eo i - eo j)) := rfl

theorem update_eq (F : OneE O V 𝕜) (I : TwoE O V 𝕜) (eo : O → 𝕜) (ev : V → 𝕜) (T : Amp 𝕜 O V) :
    update F I eo ev T = T - divD eo ev (ccsd_simple F I T.1 T.2) := rfl

theorem divD_anti (eo : O → 𝕜) (ev : V → 𝕜) {y : Amp 𝕜 O V} (h : Anti y.2) : Anti (divD eo ev y).2 := by
  constructor <;> intro a b i j <;> simp only [divD_apply]
  · rw [h.a12 a b i j, show ev b + ev a - eo i - eo j = ev a + ev b - eo i - eo j by ring, neg_div]
  · rw [h.a34 a b i j, show ev a + ev b - eo j - eo i = ev a + ev b - eo i - eo j by ring, neg_div]

theorem divD_injective {eo : O → 𝕜} {ev : V → 𝕜} (g1 : ∀ a i, ev a - eo i ≠ 0) (g2 : ∀ a b i j, ev a + ev b - eo i - eo j ≠ 0) {y : Amp 𝕜 O V}
    (h : divD eo ev y = 0) : y = 0 := by
  refine Prod.ext ?_ ?_
  · funext a i
    exact (div_eq_zero_iff.1 (congrFun (congrFun (Prod.ext_iff.1 h).1 a) i)).resolve_right (g1 a i)
  · funext a b i j
    exact (div_eq_zero_iff.1 (congrFun (congrFun (congrFun (congrFun (Prod.ext_iff.1 h).2 a) b) i) j)).resolve_right (g2 a b i j)

/-- The fixed points of the update are the solutions. -/
theorem update_fixed (F : OneE O V 𝕜) (I : TwoE O V 𝕜) {eo : O → 𝕜} {ev : V → 𝕜} (g1 : ∀ a i, ev a - eo i ≠ 0) (g2 : ∀ a b i j, ev a + ev b - eo i - eo j ≠ 0)
    (T : Amp 𝕜 O V) : update F I eo ev T = T ↔ ccsd_simple F I T.1 T.2 = (fun _ _ => 0, fun _ _ _ _ => 0) := by
  rw [update_eq, sub_eq_self]
  refine ⟨fun h => divD_injective g1 g2 h, fun h => ?_⟩
  rw [h]
  exact map_zero (divD eo ev)

theorem update_anti (F : OneE O V 𝕜) (I : TwoE O V 𝕜) (hI : AntiI I) (eo : O → 𝕜) (ev : V → 𝕜) {T : Amp 𝕜 O V} (h : Anti T.2) : Anti (update F I eo ev T).2 := by
  rw [update_eq]
  exact sub_anti h (divD_anti eo ev (C03_ccsd_simple F I hI T.1 T.2 h))

theorem iterate_anti (F : OneE O V 𝕜) (I : TwoE O V 𝕜) (hI : AntiI I) (eo : O → 𝕜) (ev : V → 𝕜) {T : Amp 𝕜 O V} (h : Anti T.2) (k : ℕ) :
    Anti ((update F I eo ev)^[k] T).2 := by
  induction k with
  | zero => exact h
  | succ k ih => rw [Function.iterate_succ_apply']; exact update_anti F I hI eo ev ih

/-- the update with the amplitudes antisymmetrised first -/
noncomputable def gStep (F : OneE O V 𝕜) (I : TwoE O V 𝕜) (eo : O → 𝕜) (ev : V → 𝕜) (T : Amp 𝕜 O V) : Amp 𝕜 O V :=
  divD eo ev (resPt ((flat1 F, flat2 I), antiP T))

theorem gStep_smooth (F : OneE O V 𝕜) (I : TwoE O V 𝕜) (eo : O → 𝕜) (ev : V → 𝕜) : ContDiff 𝕜 1 (gStep F I eo ev) := by
  have h : ContDiff 𝕜 1 (fun u : Amp 𝕜 O V => antiP u) := (antiPC (𝕜 := 𝕜) (O := O) (V := V)).contDiff
  exact (divD eo ev).contDiff.comp (res_smooth.comp (contDiff_const.prodMk h))

theorem gStep_eq (F : OneE O V 𝕜) (I : TwoE O V 𝕜) (hI : AntiI I) (eo : O → 𝕜) (ev : V → 𝕜) {T : Amp 𝕜 O V} (h : Anti T.2) :
    gStep F I eo ev T = divD eo ev (ccsd_simple F I T.1 T.2) := by
  rw [gStep, antiP_of_anti h, resPt_flat F I hI T h]

/-- A continuously differentiable map is bounded and Lipschitz on balls. -/
theorem ball_bounds {E : Type} [NormedAddCommGroup E] [NormedSpace 𝕜 E] [FiniteDimensional 𝕜 E] {f : E → E} (h : ContDiff 𝕜 1 f) (r : ℝ) :
    ∃ M : ℝ, 0 < M ∧ (∀ x ∈ closedBall (0 : E) r, ‖f x‖ ≤ M) ∧ ∀ x ∈ closedBall (0 : E) r, ∀ y ∈ closedBall (0 : E) r, ‖f y - f x‖ ≤ M * ‖y - x‖ := by
  let : NormedSpace ℝ E := NormedSpace.restrictScalars ℝ 𝕜 E
  have : ProperSpace E := FiniteDimensional.proper_rclike 𝕜 E
  obtain ⟨M1, h1⟩ := (isCompact_closedBall (0 : E) r).exists_bound_of_continuousOn h.continuous.continuousOn
  obtain ⟨M2, h2⟩ := (isCompact_closedBall (0 : E) r).exists_bound_of_continuousOn (h.continuous_fderiv one_ne_zero).continuousOn
  refine ⟨max (max M1 M2) 1, lt_of_lt_of_le one_pos (le_max_right _ _), fun x hx => (h1 x hx).trans ((le_max_left _ _).trans (le_max_left _ _)), fun x hx y hy => ?_⟩
  have := (convex_closedBall (0 : E) r).norm_image_sub_le_of_norm_fderiv_le (𝕜 := 𝕜) (C := M2) (fun z _ => h.differentiable one_ne_zero z) h2 hx hy
  exact this.trans (mul_le_mul_of_nonneg_right ((le_max_right _ _).trans (le_max_left _ _)) (norm_nonneg _))

/-- Split of the update at weak coupling. -/
theorem update_weak (f : OneE O V 𝕜) (I : TwoE O V 𝕜) (hI : AntiI I) {eo : O → 𝕜} {ev : V → 𝕜} (g1 : ∀ a i, ev a - eo i ≠ 0)
    (g2 : ∀ a b i j, ev a + ev b - eo i - eo j ≠ 0) (c : 𝕜) {T : Amp 𝕜 O V} (h : Anti T.2) :
    update ((diagF eo ev).addMul c f) (I.mul c) eo ev T = -(c • gStep f I eo ev T) := by
  rw [gStep_eq f I hI eo ev h]
  refine Prod.ext ?_ ?_
  · funext a i
    simp only [update, simple_split1, diag1 eo ev I hI T.1 T.2 h, divD_apply, Prod.fst_neg, Prod.smul_fst, Pi.neg_apply, Pi.smul_apply, smul_eq_mul]
    field_simp [g1 a i]
    ring
  · funext a b i j
    simp only [update, simple_split2, diag2 eo ev I hI T.1 T.2 h, divD_apply, Prod.snd_neg, Prod.smul_snd, Pi.neg_apply, Pi.smul_apply, smul_eq_mul]
    field_simp [g2 a b i j]
    ring

/-- C66: with a gap in the orbital energies and a weak enough perturbation, the update converges from every antisymmetric start in a ball, at
least halving the error in every step, to the only antisymmetric solution in that ball. -/
theorem C66_converges (eo : O → 𝕜) (ev : V → 𝕜) (f : OneE O V 𝕜) (I : TwoE O V 𝕜) (hI : AntiI I)
    (g1 : ∀ a i, ev a - eo i ≠ 0) (g2 : ∀ a b i j, ev a + ev b - eo i - eo j ≠ 0) (r : ℝ) (hr : 0 < r) :
    ∃ c₀ : ℝ, 0 < c₀ ∧ ∀ c : 𝕜, ‖c‖ ≤ c₀ → ∃ T : Amp 𝕜 O V, Anti T.2 ∧ ‖T‖ ≤ r ∧
      ccsd_simple ((diagF eo ev).addMul c f) (I.mul c) T.1 T.2 = (fun _ _ => 0, fun _ _ _ _ => 0) ∧
      (∀ T' : Amp 𝕜 O V, Anti T'.2 → ‖T'‖ ≤ r →
        ccsd_simple ((diagF eo ev).addMul c f) (I.mul c) T'.1 T'.2 = (fun _ _ => 0, fun _ _ _ _ => 0) → T' = T) ∧
      ∀ T₀ : Amp 𝕜 O V, Anti T₀.2 → ‖T₀‖ ≤ r → ∀ k : ℕ,
        ‖(update ((diagF eo ev).addMul c f) (I.mul c) eo ev)^[k] T₀ - T‖ ≤ (1 / 2) ^ k * ‖T₀ - T‖ := by
  obtain ⟨M, hM, b1, b2⟩ := ball_bounds (gStep_smooth f I eo ev) r
  refine ⟨min (1 / (2 * M)) (r / M), lt_min (by positivity) (by positivity), fun c hc => ?_⟩
  have c1 : ‖c‖ * M ≤ 1 / 2 := by
    have := mul_le_mul_of_nonneg_right (hc.trans (min_le_left _ _)) hM.le
    rwa [show 1 / (2 * M) * M = 1 / 2 by field_simp] at this
  have c2 : ‖c‖ * M ≤ r := by
    have := mul_le_mul_of_nonneg_right (hc.trans (min_le_right _ _)) hM.le
    rwa [show r / M * M = r by field_simp] at this
  set U := update ((diagF eo ev).addMul c f) (I.mul c) eo ev with hU
  let s : Set (Amp 𝕜 O V) := {T | Anti T.2 ∧ ‖T‖ ≤ r}
  have maps : Set.MapsTo U s s := by
    rintro T ⟨hT, hn⟩
    refine ⟨update_anti _ _ (TwoE.mul_anti hI c) eo ev hT, ?_⟩
    rw [hU, update_weak f I hI g1 g2 c hT, norm_neg, norm_smul]
    exact (mul_le_mul_of_nonneg_left (b1 T (by simpa using hn)) (norm_nonneg _)).trans c2
  have lip : ∀ T ∈ s, ∀ T' ∈ s, ‖U T' - U T‖ ≤ 1 / 2 * ‖T' - T‖ := by
    rintro T ⟨hT, hn⟩ T' ⟨hT', hn'⟩
    rw [hU, update_weak f I hI g1 g2 c hT, update_weak f I hI g1 g2 c hT', neg_sub_neg, ← smul_sub, norm_smul, ← norm_sub_rev T T',
      ← norm_sub_rev (gStep f I eo ev T')]
    refine (mul_le_mul_of_nonneg_left (b2 T (by simpa using hn) T' (by simpa using hn')) (norm_nonneg c)).trans ?_
    rw [← mul_assoc, norm_sub_rev T]
    exact mul_le_mul_of_nonneg_right c1 (norm_nonneg _)
  have closed : IsClosed s := by
    have : s = {T : Amp 𝕜 O V | antiP T = T} ∩ closedBall 0 r := by
      ext T
      simp only [s, Set.mem_ofPred_eq, Set.mem_inter_iff, mem_closedBall, dist_zero_right]
      exact and_congr_left fun _ => ⟨antiP_of_anti, fun h => h ▸ antiP_anti T⟩
    rw [this]
    exact (isClosed_eq (antiPC (𝕜 := 𝕜) (O := O) (V := V)).continuous continuous_id).inter isClosed_closedBall
  have zero : (0 : Amp 𝕜 O V) ∈ s := ⟨zero_anti', by simpa using hr.le⟩
  have contr : ContractingWith (1 / 2 : ℝ≥0) (maps.restrict U s s) := by
    refine ⟨by norm_num, LipschitzWith.of_dist_le_mul fun x y => ?_⟩
    have := lip y.1 y.2 x.1 x.2
    simpa [Subtype.dist_eq, dist_eq_norm] using this
  obtain ⟨T, hT, hfix, -, -⟩ := ContractingWith.exists_fixedPoint' closed.isComplete maps contr zero (edist_ne_top _ _)
  have sol := (update_fixed _ _ g1 g2 T).1 hfix
  refine ⟨T, hT.1, hT.2, sol, fun T' ha hn h => ?_, fun T₀ ha hn k => ?_⟩
  · have hf' : U T' = T' := (update_fixed _ _ g1 g2 T').2 h
    have := lip T hT T' ⟨ha, hn⟩
    rw [hf', hfix.eq] at this
    have h0 := norm_nonneg (T' - T)
    exact sub_eq_zero.1 (norm_eq_zero.1 (by linarith))
  · induction k with
    | zero => simp
    | succ k ih =>
      have hm : ∀ k : ℕ, U^[k] T₀ ∈ s := fun k => maps.iterate k ⟨ha, hn⟩
      have h1 := lip T hT _ (hm k)
      rw [hfix.eq] at h1
      rw [Function.iterate_succ_apply']
      calc _ ≤ _ := h1
        _ ≤ 1 / 2 * ((1 / 2) ^ k * ‖T₀ - T‖) := by linarith
        _ = _ := by ring


/-- C66: a solution attracts the update when the derivative of the update contracts antisymmetric changes of the amplitudes; `J` is the derivative
of the residuals of `ccsd_simple` along antisymmetric changes. -/
theorem C66_local (F : OneE O V 𝕜) (I : TwoE O V 𝕜) (hI : AntiI I) (eo : O → 𝕜) (ev : V → 𝕜) (T : Amp 𝕜 O V) (hT : Anti T.2)
    (sol : ccsd_simple F I T.1 T.2 = (fun _ _ => 0, fun _ _ _ _ => 0)) (J : Amp 𝕜 O V → Amp 𝕜 O V)
    (hJ : ∀ X : Amp 𝕜 O V, Anti X.2 → HasDerivAt (fun s : 𝕜 => ccsd_simple F I (fun a i => T.1 a i + s * X.1 a i) (fun a b i j => T.2 a b i j + s * X.2 a b i j)) (J X) 0)
    (ρ : ℝ) (hρ : ρ < 1)
    (contr : ∀ X : Amp 𝕜 O V, Anti X.2 →
      ‖((fun a i => X.1 a i - (J X).1 a i / (ev a - eo i), fun a b i j => X.2 a b i j - (J X).2 a b i j / (ev a + ev b - eo i - eo j)) : Amp 𝕜 O V)‖ ≤ ρ * ‖X‖)
    (σ : ℝ) (hσ : ρ < σ) (hσ1 : σ < 1) (hσ0 : 0 ≤ σ) :
    ∃ δ > 0, ∀ T₀ : Amp 𝕜 O V, Anti T₀.2 → ‖T₀ - T‖ ≤ δ → ∀ k : ℕ, ‖(update F I eo ev)^[k] T₀ - T‖ ≤ σ ^ k * ‖T₀ - T‖ := by
  have sm := (gStep_smooth F I eo ev).contDiffAt (x := T)
  have st := sm.hasStrictFDerivAt one_ne_zero
  have d : ∀ X : Amp 𝕜 O V, Anti X.2 → fderiv 𝕜 (gStep F I eo ev) T X = divD eo ev (J X) := by
    intro X hX
    have h1 : HasDerivAt (fun s : 𝕜 => T + s • X) X 0 := by simpa using ((hasDerivAt_id (0 : 𝕜)).smul_const X).const_add T
    have h2 : HasFDerivAt (gStep F I eo ev) (fderiv 𝕜 (gStep F I eo ev) T) (T + (0 : 𝕜) • X) := by rw [zero_smul, add_zero]; exact st.hasFDerivAt
    have h3 := h2.comp_hasDerivAt (0 : 𝕜) h1
    have h4 := (divD eo ev).hasFDerivAt.comp_hasDerivAt (0 : 𝕜) (hJ X hX)
    refine h3.unique (h4.congr_of_eventuallyEq (Eventually.of_forall fun s => ?_))
    exact gStep_eq F I hI eo ev (line_anti hT hX s)
  have ev' := st.isLittleO.def (sub_pos.2 hσ)
  obtain ⟨δ, hδ, hb⟩ := Metric.eventually_nhds_iff.1 ev'
  have step : ∀ S : Amp 𝕜 O V, Anti S.2 → ‖S - T‖ < δ → ‖update F I eo ev S - T‖ ≤ σ * ‖S - T‖ := by
    intro S hS hn
    have h1 := hb (y := (S, T)) (by rw [Prod.dist_eq, dist_self, dist_eq_norm]; exact max_lt hn hδ)
    have hX := sub_anti hS hT
    have e : fderiv 𝕜 (gStep F I eo ev) T (S - T) = divD eo ev (J (S - T)) := d (S - T) hX
    have h2 : ‖(S - T) - divD eo ev (J (S - T))‖ ≤ ρ * ‖S - T‖ := contr (S - T) hX
    have eS : update F I eo ev S - T = ((S - T) - divD eo ev (J (S - T))) - (gStep F I eo ev S - gStep F I eo ev T - fderiv 𝕜 (gStep F I eo ev) T (S - T)) := by
      have z : gStep F I eo ev T = 0 := by
        rw [gStep_eq F I hI eo ev hT, sol]
        exact map_zero (divD eo ev)
      rw [update_eq, ← gStep_eq F I hI eo ev hS, e, z]
      abel
    rw [eS]
    refine (norm_sub_le _ _).trans ?_
    have h1' : ‖gStep F I eo ev S - gStep F I eo ev T - fderiv 𝕜 (gStep F I eo ev) T (S - T)‖ ≤ (σ - ρ) * ‖S - T‖ := h1
    linarith
  refine ⟨δ / 2, by positivity, fun T₀ h0 hn k => ?_⟩
  induction k with
  | zero => simp
  | succ k ih =>
    rw [Function.iterate_succ_apply']
    have le : ‖(update F I eo ev)^[k] T₀ - T‖ < δ := by
      have : σ ^ k * ‖T₀ - T‖ ≤ 1 * ‖T₀ - T‖ := mul_le_mul_of_nonneg_right (pow_le_one₀ hσ0 hσ1.le) (norm_nonneg _)
      linarith
    refine (step _ (iterate_anti F I hI eo ev h0 k) le).trans ?_
    rw [pow_succ']
    calc _ ≤ σ * (σ ^ k * ‖T₀ - T‖) := mul_le_mul_of_nonneg_left ih hσ0
      _ = _ := by ring

/-! ### multipliers -/

/-- One update of the multipliers. -/
def updateL (F : OneE O V 𝕜) (I : TwoE O V 𝕜) (eo : O → 𝕜) (ev : V → 𝕜) (T : Amp 𝕜 O V) (L : Amp 𝕜 V O) : Amp 𝕜 V O :=
  (fun i a => L.1 i a - (ccsd_lambda_simple F I L.1 L.2 T.1 T.2).1 i a / (ev a - eo i),
   fun i j a b => L.2 i j a b - (ccsd_lambda_simple F I L.1 L.2 T.1 T.2).2 i j a b / (ev a + ev b - eo i - eo j))

theorem updateL_eq (F : OneE O V 𝕜) (I : TwoE O V 𝕜) (eo : O → 𝕜) (ev : V → 𝕜) (T : Amp 𝕜 O V) (L : Amp 𝕜 V O) :
    updateL F I eo ev T L = L - divD (fun a => -ev a) (fun i => -eo i) (lamRes F I T L) := by
  refine Prod.ext ?_ ?_
  · funext i a
    simp only [updateL, divD_apply, Prod.fst_sub, Pi.sub_apply, lamRes]
    rw [show -eo i - -ev a = ev a - eo i by ring]
  · funext i j a b
    simp only [updateL, divD_apply, Prod.snd_sub, Pi.sub_apply, lamRes]
    rw [show -eo i + -eo j - -ev a - -ev b = ev a + ev b - eo i - eo j by ring]

theorem updateL_weak (f : OneE O V 𝕜) (I : TwoE O V 𝕜) {eo : O → 𝕜} {ev : V → 𝕜} (g1 : ∀ a i, ev a - eo i ≠ 0)
    (g2 : ∀ a b i j, ev a + ev b - eo i - eo j ≠ 0) (c : 𝕜) (T : Amp 𝕜 O V) {L : Amp 𝕜 V O} (h : Anti L.2) :
    updateL ((diagF eo ev).addMul c f) (I.mul c) eo ev T L = -(c • divD (fun a => -ev a) (fun i => -eo i) (lamRes f I T L)) := by
  have e : I.mul 0 = Heap.noI O V 𝕜 := by simp only [TwoE.mul, zero_mul, Heap.noI]
  have d := Heap.ccsd_lambda_simple_diag eo ev L.1 L.2 T.1 T.2 h
  refine Prod.ext ?_ ?_
  · funext i a
    have s := lam_split1 (diagF eo ev) f I c L.1 L.2 T.1 T.2 a i
    rw [e, show diagF eo ev = Heap.diagE eo ev from rfl, d] at s
    simp only [updateL, divD_apply, Prod.fst_neg, Prod.smul_fst, Pi.neg_apply, Pi.smul_apply, smul_eq_mul, lamRes]
    rw [show diagF eo ev = Heap.diagE eo ev from rfl, s, show -eo i - -ev a = ev a - eo i by ring]
    field_simp [g1 a i]
    ring
  · funext i j a b
    have s := lam_split2 (diagF eo ev) f I c L.1 L.2 T.1 T.2 a b i j
    rw [e, show diagF eo ev = Heap.diagE eo ev from rfl, d] at s
    simp only [updateL, divD_apply, Prod.snd_neg, Prod.smul_snd, Pi.neg_apply, Pi.smul_apply, smul_eq_mul, lamRes]
    rw [show diagF eo ev = Heap.diagE eo ev from rfl, s, show -eo i + -eo j - -ev a - -ev b = ev a + ev b - eo i - eo j by ring]
    field_simp [g2 a b i j]
    ring

theorem lam_cont (f : OneE O V 𝕜) (I : TwoE O V 𝕜) : Continuous (fun u : Amp 𝕜 O V × Amp 𝕜 V O => lamRes f I u.1 u.2) := by
  unfold lamRes ccsd_lambda_simple LS_TS LS_LS LS_LSTS LS_LSTD LS_LSTSS LS_LD LS_LDTS LS_LDTD LS_LDTSS LS_LDTSD LS_LDTSSS LD_LS LD_LSTS LD_LD
    LD_LDTS LD_LDTD LD_LDTSS
  dsimp only
  fun_prop

/-- The linear part of the Lambda equations is bounded uniformly on balls of amplitudes. -/
theorem lam_bound (f : OneE O V 𝕜) (I : TwoE O V 𝕜) (r : ℝ) :
    ∃ M : ℝ, 0 < M ∧ ∀ T : Amp 𝕜 O V, ‖T‖ ≤ r → ∀ L : Amp 𝕜 V O, ‖lamL f I T L‖ ≤ M * ‖L‖ := by
  have hl := lam_cont f I
  have hc : Continuous (fun u : Amp 𝕜 O V × Amp 𝕜 V O => lamL f I u.1 u.2) := by
    generalize hg : lamRes f I = g at hl
    have e : (fun u : Amp 𝕜 O V × Amp 𝕜 V O => lamL f I u.1 u.2) = fun u => g u.1 u.2 - g u.1 0 := by
      funext u
      rw [lamL_apply, hg]
    rw [e]
    exact hl.sub (hl.comp (continuous_fst.prodMk continuous_const))
  have : ProperSpace (Amp 𝕜 O V) := FiniteDimensional.proper_rclike 𝕜 _
  have : ProperSpace (Amp 𝕜 V O) := FiniteDimensional.proper_rclike 𝕜 _
  obtain ⟨M, hM⟩ := ((isCompact_closedBall (0 : Amp 𝕜 O V) r).prod (isCompact_closedBall (0 : Amp 𝕜 V O) 1)).exists_bound_of_continuousOn hc.continuousOn
  refine ⟨max M 1, lt_of_lt_of_le one_pos (le_max_right _ _), fun T hT L => ?_⟩
  rcases eq_or_ne L 0 with rfl | hL
  · simp
  have hn : ‖L‖ ≠ 0 := norm_ne_zero_iff.2 hL
  have h := hM (T, ((‖L‖ : 𝕜)⁻¹) • L) ⟨by simpa using hT, by simp [norm_smul, hn]⟩
  have h' : ‖lamL f I T (((‖L‖ : 𝕜)⁻¹) • L)‖ ≤ M := h
  rw [map_smul, norm_smul, norm_inv, RCLike.norm_ofReal, abs_of_nonneg (norm_nonneg L), inv_mul_le_iff₀ (by positivity), mul_comm] at h'
  exact h'.trans (mul_le_mul_of_nonneg_right (le_max_left _ _) (norm_nonneg _))

/-- C66: with a gap and weak coupling the update of the multipliers converges from every antisymmetric start to the only antisymmetric solution of the
Lambda equations, for all antisymmetric amplitudes in a ball. -/
theorem C66_lambda_converges (eo : O → 𝕜) (ev : V → 𝕜) (f : OneE O V 𝕜) (I : TwoE O V 𝕜) (hI : AntiI I)
    (g1 : ∀ a i, ev a - eo i ≠ 0) (g2 : ∀ a b i j, ev a + ev b - eo i - eo j ≠ 0) (r : ℝ) :
    ∃ c₀ : ℝ, 0 < c₀ ∧ ∀ c : 𝕜, ‖c‖ ≤ c₀ → ∀ T : Amp 𝕜 O V, Anti T.2 → ‖T‖ ≤ r → ∃ L : Amp 𝕜 V O, Anti L.2 ∧
      (∀ L' : Amp 𝕜 V O, Anti L'.2 →
        (ccsd_lambda_simple ((diagF eo ev).addMul c f) (I.mul c) L'.1 L'.2 T.1 T.2 = (fun _ _ => 0, fun _ _ _ _ => 0) ↔ L' = L)) ∧
      ∀ L₀ : Amp 𝕜 V O, Anti L₀.2 → ∀ k : ℕ,
        ‖(updateL ((diagF eo ev).addMul c f) (I.mul c) eo ev T)^[k] L₀ - L‖ ≤ (1 / 2) ^ k * ‖L₀ - L‖ := by
  obtain ⟨M, hM, b⟩ := lam_bound f I r
  let N : ℝ := ‖divD (𝕜 := 𝕜) (fun a => -ev a) (fun i => -eo i)‖ + 1
  have hN : 0 < N := by positivity
  refine ⟨1 / (2 * (N * M)), by positivity, fun c hc T hT hr => ?_⟩
  have c1 : ‖c‖ * (N * M) ≤ 1 / 2 := by
    have := mul_le_mul_of_nonneg_right hc (by positivity : 0 ≤ N * M)
    rwa [show 1 / (2 * (N * M)) * (N * M) = 1 / 2 by field_simp] at this
  have gL1 : ∀ i a, (fun i => -eo i) i - (fun a => -ev a) a ≠ 0 := fun i a h => g1 a i (by linear_combination h)
  have gL2 : ∀ i j a b, (fun i => -eo i) i + (fun i => -eo i) j - (fun a => -ev a) a - (fun a => -ev a) b ≠ 0 := fun i j a b h => g2 a b i j (by linear_combination h)
  set U := updateL ((diagF eo ev).addMul c f) (I.mul c) eo ev T with hU
  have fixed : ∀ L : Amp 𝕜 V O, U L = L ↔ ccsd_lambda_simple ((diagF eo ev).addMul c f) (I.mul c) L.1 L.2 T.1 T.2 = (fun _ _ => 0, fun _ _ _ _ => 0) := by
    intro L
    rw [hU, updateL_eq, sub_eq_self]
    refine ⟨fun h => divD_injective gL1 gL2 h, fun h => ?_⟩
    rw [show lamRes ((diagF eo ev).addMul c f) (I.mul c) T L = 0 from h]
    exact map_zero _
  let s : Set (Amp 𝕜 V O) := {L | Anti L.2}
  have maps : Set.MapsTo U s s := by
    intro L hL
    change Anti (U L).2
    rw [hU, updateL_eq]
    exact sub_anti hL (divD_anti _ _ (lamRes_anti _ _ (TwoE.mul_anti hI c) T hT hL))
  have lip : ∀ L ∈ s, ∀ L' ∈ s, ‖U L' - U L‖ ≤ 1 / 2 * ‖L' - L‖ := by
    intro L hL L' hL'
    have e : U L' - U L = -(c • divD (fun a => -ev a) (fun i => -eo i) (lamL f I T (L' - L))) := by
      rw [hU, updateL_weak f I g1 g2 c T hL, updateL_weak f I g1 g2 c T hL', map_sub (lamL f I T), lamL_apply, lamL_apply,
        sub_sub_sub_cancel_right, map_sub, smul_sub]
      abel
    rw [e, norm_neg, norm_smul]
    have h1 := (divD (𝕜 := 𝕜) (fun a => -ev a) (fun i => -eo i)).le_opNorm (lamL f I T (L' - L))
    have h2 := b T hr (L' - L)
    have h3 : ‖divD (𝕜 := 𝕜) (fun a => -ev a) (fun i => -eo i) (lamL f I T (L' - L))‖ ≤ N * (M * ‖L' - L‖) :=
      h1.trans (mul_le_mul (by simp [N]) h2 (norm_nonneg _) hN.le)
    calc _ ≤ ‖c‖ * (N * (M * ‖L' - L‖)) := mul_le_mul_of_nonneg_left h3 (norm_nonneg _)
      _ = (‖c‖ * (N * M)) * ‖L' - L‖ := by ring
      _ ≤ _ := mul_le_mul_of_nonneg_right c1 (norm_nonneg _)
  have closed : IsClosed s := by
    have : s = {L : Amp 𝕜 V O | antiP L = L} := by
      ext L
      exact ⟨antiP_of_anti, fun h => by
        have h' : antiP L = L := h
        change Anti L.2
        exact h' ▸ antiP_anti L⟩
    rw [this]
    exact isClosed_eq (antiPC (𝕜 := 𝕜) (O := V) (V := O)).continuous continuous_id
  have zero : (0 : Amp 𝕜 V O) ∈ s := zero_anti'
  have contr : ContractingWith (1 / 2 : ℝ≥0) (maps.restrict U s s) := by
    refine ⟨by norm_num, LipschitzWith.of_dist_le_mul fun x y => ?_⟩
    have := lip y.1 y.2 x.1 x.2
    simpa [Subtype.dist_eq, dist_eq_norm] using this
  obtain ⟨L, hL, hfix, -, -⟩ := ContractingWith.exists_fixedPoint' closed.isComplete maps contr zero (edist_ne_top _ _)
  refine ⟨L, hL, fun L' hL' => ?_, fun L₀ h0 k => ?_⟩
  · rw [← fixed L']
    refine ⟨fun h => ?_, fun h => h ▸ hfix⟩
    have := lip L hL L' hL'
    rw [h, hfix.eq] at this
    have h0 := norm_nonneg (L' - L)
    exact sub_eq_zero.1 (norm_eq_zero.1 (by linarith))
  · induction k with
    | zero => simp
    | succ k ih =>
      have hm : ∀ k : ℕ, U^[k] L₀ ∈ s := fun k => maps.iterate k h0
      have h1 := lip L hL _ (hm k)
      rw [hfix.eq] at h1
      rw [Function.iterate_succ_apply']
      calc _ ≤ _ := h1
        _ ≤ 1 / 2 * ((1 / 2) ^ k * ‖L₀ - L‖) := by linarith
        _ = _ := by ring

end

/-- Non-trivial case of `C66_converges` and `C66_lambda_converges`: the model of C58, with interactions between all levels. -/
example (r : ℝ) (hr : 0 < r) : ∃ c₀ : ℝ, 0 < c₀ ∧ ∀ c : ℝ, ‖c‖ ≤ c₀ → ∃ T : Amp ℝ (Fin 2) (Fin 2),
    ccsd_simple ((diagF (fun _ => 0) (fun _ => 1)).addMul c hfF) ((hfI (-2) 1).mul c) T.1 T.2 = (fun _ _ => 0, fun _ _ _ _ => 0) ∧
    ∀ k : ℕ, ‖(update ((diagF (fun _ => 0) (fun _ => 1)).addMul c hfF) ((hfI (-2) 1).mul c) (fun _ => 0) (fun _ => 1))^[k] 0 - T‖ ≤ (1 / 2) ^ k * ‖T‖ := by
  obtain ⟨c₀, h0, h⟩ := C66_converges (𝕜 := ℝ) (fun _ : Fin 2 => 0) (fun _ : Fin 2 => 1) hfF (hfI (-2) 1) (hfI_anti _ _)
    (fun _ _ => by norm_num) (fun _ _ _ _ => by norm_num) r hr
  refine ⟨c₀, h0, fun c hc => ?_⟩
  obtain ⟨T, -, -, sol, -, it⟩ := h c hc
  refine ⟨T, sol, fun k => ?_⟩
  have := it 0 zero_anti' (by simpa using hr.le) k
  rwa [zero_sub, norm_neg] at this

/-- Non-trivial case of `C66_local`: an update with denominators twice too large converges at the rate one half and not faster than its hypothesis says. -/
example : ∃ δ > 0, ∀ T₀ : Amp ℝ (Fin 2) (Fin 2), Anti T₀.2 → ‖T₀ - 0‖ ≤ δ → ∀ k : ℕ,
    ‖(update (diagF (fun _ => 0) (fun _ => 1)) ((hfI (-2) 1).mul 0) (fun _ => 0) (fun _ => 2))^[k] T₀ - 0‖ ≤ (3 / 4) ^ k * ‖T₀ - 0‖ := by
  refine C66_local (𝕜 := ℝ) (diagF (fun _ => 0) (fun _ => 1)) ((hfI (-2) 1).mul 0) (TwoE.mul_anti (hfI_anti _ _) 0) (fun _ => 0) (fun _ => 2) 0 zero_anti' ?_
    (fun X => (fun a i => X.1 a i, fun a b i j => 2 * X.2 a b i j)) ?_ (1 / 2) (by norm_num) ?_ (3 / 4) (by norm_num) (by norm_num) (by norm_num)
  · refine Prod.ext ?_ ?_
    · funext a i
      have := diag1 (fun _ => (0 : ℝ)) (fun _ => 1) (hfI (-2) 1) (hfI_anti _ _) (0 : Amp ℝ (Fin 2) (Fin 2)).1 (0 : Amp ℝ (Fin 2) (Fin 2)).2 zero_anti' a i
      rw [this]; simp
    · funext a b i j
      have := diag2 (fun _ => (0 : ℝ)) (fun _ => 1) (hfI (-2) 1) (hfI_anti _ _) (0 : Amp ℝ (Fin 2) (Fin 2)).1 (0 : Amp ℝ (Fin 2) (Fin 2)).2 zero_anti' a b i j
      rw [this]; simp
  · intro X hX
    have e : (fun s : ℝ => ccsd_simple (diagF (fun _ => 0) (fun _ => 1)) ((hfI (-2) 1).mul 0) (fun a i => (0 : Amp ℝ (Fin 2) (Fin 2)).1 a i + s * X.1 a i)
        (fun a b i j => (0 : Amp ℝ (Fin 2) (Fin 2)).2 a b i j + s * X.2 a b i j)) = fun s => s • ((fun a i => X.1 a i, fun a b i j => 2 * X.2 a b i j) : Amp ℝ (Fin 2) (Fin 2)) := by
      funext s
      have hs : Anti (fun a b i j => (0 : Amp ℝ (Fin 2) (Fin 2)).2 a b i j + s * X.2 a b i j) := line_anti (T := 0) zero_anti' hX s
      refine Prod.ext ?_ ?_
      · funext a i
        rw [diag1 _ _ _ (hfI_anti _ _) _ _ hs]; simp
      · funext a b i j
        rw [diag2 _ _ _ (hfI_anti _ _) _ _ hs]; simp; ring
    rw [e]
    simpa using (hasDerivAt_id (0 : ℝ)).smul_const ((fun a i => X.1 a i, fun a b i j => 2 * X.2 a b i j) : Amp ℝ (Fin 2) (Fin 2))
  · intro X hX
    have e : ((fun a i => X.1 a i - X.1 a i / ((2 : ℝ) - 0), fun a b i j => X.2 a b i j - 2 * X.2 a b i j / (2 + 2 - 0 - 0)) : Amp ℝ (Fin 2) (Fin 2)) = (1 / 2 : ℝ) • X := by
      refine Prod.ext ?_ ?_
      · funext a i; simp; ring
      · funext a b i j; simp; ring
    refine le_of_eq ?_
    rw [show ((fun a i => X.1 a i - X.1 a i / ((2 : ℝ) - 0), fun a b i j => X.2 a b i j - 2 * X.2 a b i j / (2 + 2 - 0 - 0)) : Amp ℝ (Fin 2) (Fin 2)) = (1 / 2 : ℝ) • X from e, norm_smul]
    norm_num
end CC
