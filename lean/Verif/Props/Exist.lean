import Verif.Props.Response
import Mathlib.Analysis.Calculus.ImplicitFunction.ProdDomain
import Mathlib.Analysis.Calculus.ContDiff.RCLike
import Mathlib.Analysis.Calculus.ContDiff.Operations
import Mathlib.Topology.Algebra.Module.FiniteDimension
import Mathlib.Analysis.Normed.Operator.BoundedLinearMaps
/-!
# C58: existence, differentiability and response of CCSD solutions

The density-matrix theorem C56 takes the solution of the amplitude equations and of the Lambda equations as given and differentiable.
Here both are consequences of one condition at a single point, `Nonsingular`: no antisymmetric change of the amplitudes leaves all
residuals returned by `ccsd_simple` stationary.

* `C58_solution_persists`: the solution continues to nearby integrals, differentiably, and is the only antisymmetric solution nearby
  (implicit function theorem on the textbook residual, carried to the code by C01).
* `C58_lambda_unique`: `ccsd_lambda_simple` has exactly one antisymmetric zero (its linear part is the transposed Jacobian, C06).
* `C58_energy_response`, `C58_nonsingular_open`, `C58_continuation`: hence the energy of the solution is differentiable, at the point and at all
  nearby values of the parameter, with the density-matrix contraction as derivative.
-/
set_option linter.unusedSectionVars false
namespace CC
open Finset Filter Topology

section
variable {𝕜 : Type} [RCLike 𝕜] {O V : Type} [Fintype O] [Fintype V]

/-- Amplitudes as a normed space. -/
abbrev Amp (𝕜 O V : Type) := (V → O → 𝕜) × (V → V → O → O → 𝕜)

/-- residuals of the textbook equations as a function on `Pt` -/
def resPt (x : Pt 𝕜 O V) : Amp 𝕜 O V :=
  (fun a i => Spec.singles (unflat1 x.1.1) (unflat2 x.1.2) x.2.1 x.2.2 a i, fun a b i j => Spec.doubles (unflat1 x.1.1) (unflat2 x.1.2) x.2.1 x.2.2 a b i j)

set_option synthInstance.maxHeartbeats 400000 in
set_option synthInstance.maxSize 2000 in
set_option maxHeartbeats 4000000 in
theorem res_smooth : ContDiff 𝕜 1 (resPt (𝕜 := 𝕜) (O := O) (V := V)) := by
  unfold resPt
  refine ContDiff.prodMk (contDiff_pi.2 fun a => contDiff_pi.2 fun i => ?_)
    (contDiff_pi.2 fun a => contDiff_pi.2 fun b => contDiff_pi.2 fun i => contDiff_pi.2 fun j => ?_)
  · unfold Spec.singles unflat1 unflat2 Spec.ovvo Spec.ovvv Spec.oovo
    fun_prop
  · unfold Spec.doubles unflat1 unflat2 Spec.ovvo Spec.ovvv Spec.oovo Spec.ovoo Spec.ovov Spec.Pij Spec.Pab
    fun_prop
end

set_option synthInstance.maxHeartbeats 400000
set_option synthInstance.maxSize 2000
set_option maxHeartbeats 4000000

section
variable {𝕜 : Type} [RCLike 𝕜] {O V : Type} [Fintype O] [Fintype V]

/-- antisymmetriser of doubles -/
def antiP (y : Amp 𝕜 O V) : Amp 𝕜 O V :=
  (y.1, fun a b i j => (1/4) * (y.2 a b i j - y.2 b a i j - y.2 a b j i + y.2 b a j i))

theorem antiP_anti (y : Amp 𝕜 O V) : Anti (antiP y).2 := by
  constructor <;> intro a b i j <;> simp only [antiP] <;> ring

theorem antiP_of_anti {y : Amp 𝕜 O V} (h : Anti y.2) : antiP y = y := by
  refine Prod.ext rfl ?_
  funext a b i j
  have e1 := h.a12 a b i j
  have e2 := h.a34 a b i j
  have e3 := h.a34 b a i j
  simp only [antiP]
  rw [e3, e2, e1]; ring

/-- `antiP` as a linear map -/
def antiPL : Amp 𝕜 O V →ₗ[𝕜] Amp 𝕜 O V where
  toFun := antiP
  map_add' x y := by
    refine Prod.ext rfl ?_
    funext a b i j; simp only [antiP, Prod.snd_add, Pi.add_apply]; ring
  map_smul' c x := by
    refine Prod.ext rfl ?_
    funext a b i j; simp only [antiP, Prod.smul_snd, Pi.smul_apply, smul_eq_mul, RingHom.id_apply]; ring

noncomputable def antiPC : Amp 𝕜 O V →L[𝕜] Amp 𝕜 O V := antiPL.toContinuousLinearMap

theorem antiPC_apply (y : Amp 𝕜 O V) : antiPC y = antiP y := rfl

/-- residual with the amplitudes projected -/
def resG (u : Pt 𝕜 O V) : Amp 𝕜 O V :=
  resPt (u.1, antiP u.2) + (u.2 - antiP u.2)

theorem resG_smooth : ContDiff 𝕜 1 (resG (𝕜 := 𝕜) (O := O) (V := V)) := by
  have h : ContDiff 𝕜 1 (fun u : Pt 𝕜 O V => antiP u.2) :=
    (antiPC (𝕜 := 𝕜) (O := O) (V := V)).contDiff.comp contDiff_snd
  exact (res_smooth.comp (contDiff_fst.prodMk h)).add (contDiff_snd.sub h)

theorem resPt_flat (F : OneE O V 𝕜) (I : TwoE O V 𝕜) (hI : AntiI I) (T : Amp 𝕜 O V) (hT : Anti T.2) :
    resPt ((flat1 F, flat2 I), T) = ccsd_simple F I T.1 T.2 := by
  refine Prod.ext ?_ ?_
  · funext a i; exact (C01_simple_singles_textbook F I hI T.1 T.2 hT a i).symm
  · funext a b i j; exact (C01_simple_doubles_textbook F I hI T.1 T.2 hT a b i j).symm

/-- A solution is non-singular when no antisymmetric change of the amplitudes leaves all residuals of `ccsd_simple` unchanged to first order. -/
def Nonsingular (F : OneE O V 𝕜) (I : TwoE O V 𝕜) (T1 : V → O → 𝕜) (T2 : V → V → O → O → 𝕜) : Prop :=
  ∀ (X1 : V → O → 𝕜) (X2 : V → V → O → O → 𝕜), Anti X2 →
    (∀ a i, HasDerivAt (fun s : 𝕜 => (ccsd_simple F I (fun a i => T1 a i + s * X1 a i) (fun a b i j => T2 a b i j + s * X2 a b i j)).1 a i) 0 0) →
    (∀ a b i j, HasDerivAt (fun s : 𝕜 => (ccsd_simple F I (fun a i => T1 a i + s * X1 a i) (fun a b i j => T2 a b i j + s * X2 a b i j)).2 a b i j) 0 0) →
    (∀ a i, X1 a i = 0) ∧ ∀ a b i j, X2 a b i j = 0

/-- Jacobian of the residual in the direction of the amplitudes -/
noncomputable def jac (F : OneE O V 𝕜) (I : TwoE O V 𝕜) (T : Amp 𝕜 O V) : Amp 𝕜 O V →L[𝕜] Amp 𝕜 O V :=
  (fderiv 𝕜 resPt ((flat1 F, flat2 I), T)).comp (ContinuousLinearMap.inr 𝕜 _ _)

theorem line_anti {T X : Amp 𝕜 O V} (hT : Anti T.2) (hX : Anti X.2) (s : 𝕜) : Anti (T + s • X).2 := by
  constructor <;> intro a b i j <;> simp only [Prod.snd_add, Prod.smul_snd, Pi.add_apply, Pi.smul_apply, smul_eq_mul]
  · rw [hT.a12 a b, hX.a12 a b]; ring
  · rw [hT.a34 a b i j, hX.a34 a b i j]; ring

theorem jac_deriv (F : OneE O V 𝕜) (I : TwoE O V 𝕜) (T X : Amp 𝕜 O V) :
    HasDerivAt (fun s : 𝕜 => resPt ((flat1 F, flat2 I), T + s • X)) (jac F I T X) 0 := by
  have h := (res_smooth.differentiable one_ne_zero ((flat1 F, flat2 I), T)).hasFDerivAt
  have l : HasDerivAt (fun s : 𝕜 => (((flat1 F, flat2 I), T + s • X) : Pt 𝕜 O V)) (0, X) 0 := by
    refine (hasDerivAt_const _ _).prodMk ?_
    simpa using ((hasDerivAt_id (0 : 𝕜)).smul_const X).const_add T
  have h' : HasFDerivAt resPt (fderiv 𝕜 resPt ((flat1 F, flat2 I), T)) (((flat1 F, flat2 I), T + (0 : 𝕜) • X) : Pt 𝕜 O V) := by
    rw [zero_smul, add_zero]; exact h
  exact h'.comp_hasDerivAt (0 : 𝕜) l

theorem jac_code (F : OneE O V 𝕜) (I : TwoE O V 𝕜) (hI : AntiI I) (T X : Amp 𝕜 O V) (hT : Anti T.2) (hX : Anti X.2) :
    HasDerivAt (fun s : 𝕜 => ccsd_simple F I (fun a i => T.1 a i + s * X.1 a i) (fun a b i j => T.2 a b i j + s * X.2 a b i j)) (jac F I T X) 0 := by
  have h := jac_deriv F I T X
  have e : (fun s : 𝕜 => resPt ((flat1 F, flat2 I), T + s • X))
      = fun s : 𝕜 => ccsd_simple F I (fun a i => T.1 a i + s * X.1 a i) (fun a b i j => T.2 a b i j + s * X.2 a b i j) := by
    funext s
    rw [resPt_flat F I hI _ (line_anti hT hX s)]
    rfl
  rw [e] at h
  exact h

theorem comp1 {f : 𝕜 → Amp 𝕜 O V} {d : Amp 𝕜 O V} {x : 𝕜} (h : HasDerivAt f d x) (a : V) (i : O) : HasDerivAt (fun s => (f s).1 a i) (d.1 a i) x :=
  hasDerivAt_pi.1 (hasDerivAt_pi.1 h.fst a) i
theorem comp2 {f : 𝕜 → Amp 𝕜 O V} {d : Amp 𝕜 O V} {x : 𝕜} (h : HasDerivAt f d x) (a b : V) (i j : O) :
    HasDerivAt (fun s => (f s).2 a b i j) (d.2 a b i j) x :=
  hasDerivAt_pi.1 (hasDerivAt_pi.1 (hasDerivAt_pi.1 (hasDerivAt_pi.1 h.snd a) b) i) j

theorem jac_anti (F : OneE O V 𝕜) (I : TwoE O V 𝕜) (hI : AntiI I) (T X : Amp 𝕜 O V) (hT : Anti T.2) (hX : Anti X.2) : Anti (jac F I T X).2 := by
  have h := jac_code F I hI T X hT hX
  refine anti_deriv (T := fun s : 𝕜 => (ccsd_simple F I (fun a i => T.1 a i + s * X.1 a i) (fun a b i j => T.2 a b i j + s * X.2 a b i j)).2)
    (fun a b i j => comp2 h a b i j) fun s => ?_
  exact C03_ccsd_simple _ _ hI _ _ (line_anti hT hX s)

theorem jac_injective (F : OneE O V 𝕜) (I : TwoE O V 𝕜) (hI : AntiI I) (T : Amp 𝕜 O V) (hT : Anti T.2) (ns : Nonsingular F I T.1 T.2)
    {X : Amp 𝕜 O V} (hX : Anti X.2) (h0 : jac F I T X = 0) : X = 0 := by
  have h := jac_code F I hI T X hT hX
  rw [h0] at h
  obtain ⟨e1, e2⟩ := ns X.1 X.2 hX (fun a i => comp1 h a i) (fun a b i j => comp2 h a b i j)
  refine Prod.ext ?_ ?_
  · funext a i; exact e1 a i
  · funext a b i j; exact e2 a b i j

/-- the Jacobian extended to all changes of the amplitudes -/
noncomputable def jacP (F : OneE O V 𝕜) (I : TwoE O V 𝕜) (T : Amp 𝕜 O V) : Amp 𝕜 O V →L[𝕜] Amp 𝕜 O V :=
  (jac F I T).comp antiPC + (ContinuousLinearMap.id 𝕜 _ - antiPC)

theorem jacP_injective (F : OneE O V 𝕜) (I : TwoE O V 𝕜) (hI : AntiI I) (T : Amp 𝕜 O V) (hT : Anti T.2) (ns : Nonsingular F I T.1 T.2) :
    Function.Injective (jacP F I T) := by
  rw [injective_iff_map_eq_zero]
  intro y hy
  have e : jac F I T (antiP y) + (y - antiP y) = 0 := hy
  have e2 : antiP (jac F I T (antiP y) + (y - antiP y)) = jac F I T (antiP y) := by
    change antiPL _ = _
    rw [map_add, map_sub]
    change antiP _ + (antiP y - antiP (antiP y)) = _
    rw [antiP_of_anti (jac_anti F I hI T _ hT (antiP_anti y)), antiP_of_anti (antiP_anti y)]
    simp
  rw [e] at e2
  have z : antiP (0 : Amp 𝕜 O V) = 0 := map_zero antiPL
  rw [z] at e2
  have e3 := jac_injective F I hI T hT ns (antiP_anti y) e2.symm
  rw [← e2, e3] at e
  simpa using e

theorem jacP_invertible (F : OneE O V 𝕜) (I : TwoE O V 𝕜) (hI : AntiI I) (T : Amp 𝕜 O V) (hT : Anti T.2) (ns : Nonsingular F I T.1 T.2) :
    (jacP F I T).IsInvertible := by
  have hi := jacP_injective F I hI T hT ns
  exact ⟨(LinearEquiv.ofInjectiveEndo (jacP F I T).toLinearMap hi).toContinuousLinearEquiv, ContinuousLinearMap.ext fun y => rfl⟩


theorem resG_deriv (F : OneE O V 𝕜) (I : TwoE O V 𝕜) (T : Amp 𝕜 O V) (hT : Anti T.2) :
    (fderiv 𝕜 resG (((flat1 F, flat2 I), T) : Pt 𝕜 O V)).comp (ContinuousLinearMap.inr 𝕜 _ _) = jacP F I T := by
  refine ContinuousLinearMap.ext fun y => ?_
  have h := (resG_smooth.differentiable one_ne_zero (((flat1 F, flat2 I), T) : Pt 𝕜 O V)).hasFDerivAt
  have l : HasDerivAt (fun s : 𝕜 => (((flat1 F, flat2 I), T + s • y) : Pt 𝕜 O V)) (0, y) 0 := by
    refine (hasDerivAt_const _ _).prodMk ?_
    simpa using ((hasDerivAt_id (0 : 𝕜)).smul_const y).const_add T
  have h' : HasFDerivAt resG (fderiv 𝕜 resG ((flat1 F, flat2 I), T)) (((flat1 F, flat2 I), T + (0 : 𝕜) • y) : Pt 𝕜 O V) := by
    rw [zero_smul, add_zero]; exact h
  have h1 := h'.comp_hasDerivAt (0 : 𝕜) l
  have e : (resG ∘ fun s : 𝕜 => (((flat1 F, flat2 I), T + s • y) : Pt 𝕜 O V))
      = fun s : 𝕜 => resPt ((flat1 F, flat2 I), T + s • antiP y) + s • (y - antiP y) := by
    funext s
    have e1 : antiP (T + s • y) = T + s • antiP y := by
      change antiPL _ = _
      rw [map_add, map_smul]
      change antiP T + s • antiP y = _
      rw [antiP_of_anti hT]
    simp only [Function.comp, resG]
    rw [e1, smul_sub]
    congr 1
    abel
  rw [e] at h1
  have h2 := (jac_deriv F I T (antiP y)).add ((hasDerivAt_id (0 : 𝕜)).smul_const (y - antiP y))
  rw [one_smul] at h2
  exact h1.unique h2

/-- C58: near a non-singular solution of the CCSD equations the solution persists when the integrals change: there is a
solution for all nearby values of the parameter, it depends differentiably on it, and there is no other antisymmetric solution nearby. -/
theorem C58_solution_persists {F : 𝕜 → OneE O V 𝕜} {F' : OneE O V 𝕜} {I : 𝕜 → TwoE O V 𝕜} {I' : TwoE O V 𝕜} {x : 𝕜}
    (hF : OneE.HasDeriv F F' x) (hI : TwoE.HasDeriv I I' x) (aI : ∀ ε, AntiI (I ε)) (T1 : V → O → 𝕜) (T2 : V → V → O → O → 𝕜) (aT : Anti T2)
    (h0 : ccsd_simple (F x) (I x) T1 T2 = (fun _ _ => 0, fun _ _ _ _ => 0)) (ns : Nonsingular (F x) (I x) T1 T2) :
    ∃ (t1 : 𝕜 → V → O → 𝕜) (t2 : 𝕜 → V → V → O → O → 𝕜), t1 x = T1 ∧ t2 x = T2 ∧ (∀ ε, Anti (t2 ε)) ∧
      (∀ a i, DifferentiableAt 𝕜 (fun ε => t1 ε a i) x) ∧ (∀ a b i j, DifferentiableAt 𝕜 (fun ε => t2 ε a b i j) x) ∧
      (∀ᶠ ε in 𝓝 x, ccsd_simple (F ε) (I ε) (t1 ε) (t2 ε) = (fun _ _ => 0, fun _ _ _ _ => 0)) ∧
      (∀ᶠ p in 𝓝 (x, (T1, T2)), Anti p.2.2 → ccsd_simple (F p.1) (I p.1) p.2.1 p.2.2 = (fun _ _ => 0, fun _ _ _ _ => 0) → p.2 = (t1 p.1, t2 p.1)) := by
  let u : Pt 𝕜 O V := ((flat1 (F x), flat2 (I x)), (T1, T2))
  have dfu : HasStrictFDerivAt resG (fderiv 𝕜 resG u) u := resG_smooth.contDiffAt.hasStrictFDerivAt one_ne_zero
  have inv : ((fderiv 𝕜 resG u).comp (ContinuousLinearMap.inr 𝕜 _ _)).IsInvertible := by
    rw [resG_deriv (F x) (I x) (T1, T2) aT]
    exact jacP_invertible (F x) (I x) (aI x) (T1, T2) aT ns
  have u0 : resG u = 0 := by
    have e : antiP (T1, T2) = (T1, T2) := antiP_of_anti aT
    simp only [resG, u]
    rw [e, resPt_flat (F x) (I x) (aI x) (T1, T2) aT, h0, sub_self, add_zero]
    rfl
  let ψ := dfu.implicitFunctionOfProdDomain inv
  have hψ : HasStrictFDerivAt ψ _ u.1 := dfu.hasStrictFDerivAt_implicitFunctionOfProdDomain inv
  have ψ0 : ψ u.1 = u.2 := (dfu.eventually_apply_eq_iff_implicitFunctionOfProdDomain inv).self_of_nhds.1 rfl
  let c : 𝕜 → (O ⊕ V → O ⊕ V → 𝕜) × (O ⊕ V → O ⊕ V → O ⊕ V → O ⊕ V → 𝕜) := fun ε => (flat1 (F ε), flat2 (I ε))
  have hc : HasDerivAt c (flat1 F', flat2 I') x := hF.flat.prodMk hI.flat
  have cx : c x = u.1 := rfl
  -- solutions of the projected equations are antisymmetric solutions
  have sol : ∀ ε (t : Amp 𝕜 O V), resG (c ε, t) = 0 → antiP t = t := fun ε t ht => by
    have e : antiP (resG (c ε, t)) = resPt (c ε, antiP t) := by
      change antiPL (resPt (c ε, antiP t) + (t - antiP t)) = _
      rw [map_add, map_sub]
      change antiP _ + (antiP t - antiP (antiP t)) = _
      rw [antiP_of_anti (antiP_anti t), resPt_flat (F ε) (I ε) (aI ε) (antiP t) (antiP_anti t), sub_self, add_zero]
      exact antiP_of_anti (C03_ccsd_simple _ _ (aI ε) _ _ (antiP_anti t))
    rw [ht] at e
    have z : antiP (0 : Amp 𝕜 O V) = 0 := map_zero antiPL
    rw [z] at e
    have e' : resPt (c ε, antiP t) + (t - antiP t) = 0 := ht
    rw [← e, zero_add, sub_eq_zero] at e'
    exact e'.symm
  have ev : ∀ᶠ ε in 𝓝 x, resG (c ε, ψ (c ε)) = 0 := by
    have h1 := dfu.eventually_apply_implicitFunctionOfProdDomain inv
    have h2 : Tendsto c (𝓝 x) (𝓝 u.1) := by rw [← cx]; exact hc.continuousAt
    filter_upwards [h2.eventually h1] with ε hε
    rw [← u0]; exact hε
  obtain ⟨d, dψ⟩ : ∃ d, HasDerivAt (fun ε => antiP (ψ (c ε))) d x := by
    have h1 : HasFDerivAt ψ _ (c x) := hψ.hasFDerivAt
    exact ⟨_, (antiPC (𝕜 := 𝕜) (O := O) (V := V)).hasFDerivAt.comp_hasDerivAt x (h1.comp_hasDerivAt x hc)⟩
  have e0 : antiP (ψ (c x)) = (T1, T2) := by rw [cx, ψ0]; exact antiP_of_anti aT
  refine ⟨fun ε => (antiP (ψ (c ε))).1, fun ε => (antiP (ψ (c ε))).2, congrArg Prod.fst e0, congrArg Prod.snd e0, fun ε => antiP_anti _,
    fun a i => (comp1 dψ a i).differentiableAt, fun a b i j => (comp2 dψ a b i j).differentiableAt, ?_, ?_⟩
  · filter_upwards [ev] with ε hε
    rw [← resPt_flat (F ε) (I ε) (aI ε) (antiP (ψ (c ε))) (antiP_anti _)]
    have e1 := sol ε _ hε
    have e' : resPt (c ε, antiP (ψ (c ε))) + (ψ (c ε) - antiP (ψ (c ε))) = 0 := hε
    rw [e1, sub_self, add_zero] at e'
    rw [e1]; exact e'
  · have h1 := dfu.eventually_apply_eq_iff_implicitFunctionOfProdDomain inv
    have h2 : Tendsto (fun p : 𝕜 × Amp 𝕜 O V => ((c p.1, p.2) : Pt 𝕜 O V)) (𝓝 (x, (T1, T2))) (𝓝 u) := by
      have : ContinuousAt (fun p : 𝕜 × Amp 𝕜 O V => ((c p.1, p.2) : Pt 𝕜 O V)) (x, (T1, T2)) :=
        (ContinuousAt.comp (f := Prod.fst) (g := c) hc.continuousAt continuousAt_fst).prodMk continuousAt_snd
      exact this
    filter_upwards [h2.eventually h1] with p hp aP sP
    have e1 : resG (c p.1, p.2) = resG u := by
      rw [u0]
      change resPt (c p.1, antiP p.2) + (p.2 - antiP p.2) = 0
      rw [antiP_of_anti aP, resPt_flat (F p.1) (I p.1) (aI p.1) p.2 aP, sP, sub_self, add_zero]
      rfl
    have e2 : ψ (c p.1) = p.2 := hp.1 e1
    change p.2 = antiP (ψ (c p.1))
    rw [e2, antiP_of_anti aP]

end
section
variable {K : Type} [Field K] [CharZero K] {O V : Type} [Fintype O] [Fintype V]

theorem lam_affine1 (F : OneE O V K) (I : TwoE O V K) (L1 M1 : O → V → K) (L2 M2 : O → O → V → V → K) (T1 : V → O → K) (T2 : V → V → O → O → K) (c : K) (i : O) (a : V) :
    (ccsd_lambda_simple F I (fun i a => L1 i a + c * M1 i a) (fun i j a b => L2 i j a b + c * M2 i j a b) T1 T2).1 i a
      + c * (ccsd_lambda_simple F I (fun _ _ => 0) (fun _ _ _ _ => 0) T1 T2).1 i a
      = (ccsd_lambda_simple F I L1 L2 T1 T2).1 i a + c * (ccsd_lambda_simple F I M1 M2 T1 T2).1 i a := by
  tensor

theorem lam_affine2 (F : OneE O V K) (I : TwoE O V K) (L1 M1 : O → V → K) (L2 M2 : O → O → V → V → K) (T1 : V → O → K) (T2 : V → V → O → O → K) (c : K) (i j : O) (a b : V) :
    (ccsd_lambda_simple F I (fun i a => L1 i a + c * M1 i a) (fun i j a b => L2 i j a b + c * M2 i j a b) T1 T2).2 i j a b
      + c * (ccsd_lambda_simple F I (fun _ _ => 0) (fun _ _ _ _ => 0) T1 T2).2 i j a b
      = (ccsd_lambda_simple F I L1 L2 T1 T2).2 i j a b + c * (ccsd_lambda_simple F I M1 M2 T1 T2).2 i j a b := by
  tensor
end

section
variable {𝕜 : Type} [RCLike 𝕜] {O V : Type} [Fintype O] [Fintype V]

/-- the Lambda residual returned by the code -/
def lamRes (F : OneE O V 𝕜) (I : TwoE O V 𝕜) (T : Amp 𝕜 O V) (L : Amp 𝕜 V O) : Amp 𝕜 V O := ccsd_lambda_simple F I L.1 L.2 T.1 T.2

theorem lam_affine (F : OneE O V 𝕜) (I : TwoE O V 𝕜) (T : Amp 𝕜 O V) (L M : Amp 𝕜 V O) (c : 𝕜) :
    lamRes F I T (L + c • M) + c • lamRes F I T 0 = lamRes F I T L + c • lamRes F I T M := by
  refine Prod.ext ?_ ?_
  · funext i a; exact lam_affine1 F I L.1 M.1 L.2 M.2 T.1 T.2 c i a
  · funext i j a b; exact lam_affine2 F I L.1 M.1 L.2 M.2 T.1 T.2 c i j a b

/-- linear part of the Lambda equations -/
def lamL (F : OneE O V 𝕜) (I : TwoE O V 𝕜) (T : Amp 𝕜 O V) : Amp 𝕜 V O →ₗ[𝕜] Amp 𝕜 V O where
  toFun L := lamRes F I T L - lamRes F I T 0
  map_add' L M := by
    have h := lam_affine F I T L M 1
    rw [one_smul, one_smul, one_smul] at h
    rw [eq_sub_of_add_eq h]; abel
  map_smul' c L := by
    have h := lam_affine F I T 0 L c
    rw [zero_add] at h
    rw [eq_sub_of_add_eq h, RingHom.id_apply, smul_sub]; abel

theorem lamL_apply (F : OneE O V 𝕜) (I : TwoE O V 𝕜) (T : Amp 𝕜 O V) (L : Amp 𝕜 V O) : lamL F I T L = lamRes F I T L - lamRes F I T 0 := rfl

/-- pairing of amplitudes with multipliers -/
def pairing (X : Amp 𝕜 O V) (L : Amp 𝕜 V O) : 𝕜 := (∑ i, ∑ a, X.1 a i * L.1 i a) + (1/4) * (∑ i, ∑ j, ∑ a, ∑ b, X.2 a b i j * L.2 i j a b)

theorem pairing_add (X : Amp 𝕜 O V) (L M : Amp 𝕜 V O) : pairing X (L + M) = pairing X L + pairing X M := by
  simp only [pairing, Prod.fst_add, Prod.snd_add, Pi.add_apply, mul_add, sum_add_distrib]; ring
theorem pairing_sub (X : Amp 𝕜 O V) (L M : Amp 𝕜 V O) : pairing X (L - M) = pairing X L - pairing X M := by
  simp only [pairing, Prod.fst_sub, Prod.snd_sub, Pi.sub_apply, mul_sub, sum_sub_distrib]; ring

theorem pairing_nondeg {L : Amp 𝕜 V O} (hL : Anti L.2) (h : ∀ X : Amp 𝕜 O V, Anti X.2 → pairing X L = 0) : L = 0 := by
  have h0 := h (fun a i => star (L.1 i a), fun a b i j => star (L.2 i j a b))
    ⟨fun a b i j => by simp only [hL.a34 i j a b, star_neg], fun a b i j => by simp only [hL.a12 i j a b, star_neg]⟩
  have e : ((((∑ i, ∑ a, ‖L.1 i a‖ ^ 2) + (1/4) * ∑ i, ∑ j, ∑ a, ∑ b, ‖L.2 i j a b‖ ^ 2 : ℝ)) : 𝕜) = 0 := by
    rw [← h0]
    simp only [pairing, RCLike.star_def, RCLike.conj_mul]
    push_cast
    rfl
  have e' := RCLike.ofReal_eq_zero.1 e
  have p1 : 0 ≤ ∑ i, ∑ a, ‖L.1 i a‖ ^ 2 := by positivity
  have p2 : 0 ≤ ∑ i, ∑ j, ∑ a, ∑ b, ‖L.2 i j a b‖ ^ 2 := by positivity
  have e1 : ∑ i, ∑ a, ‖L.1 i a‖ ^ 2 = 0 := by linarith
  have e2 : ∑ i, ∑ j, ∑ a, ∑ b, ‖L.2 i j a b‖ ^ 2 = 0 := by linarith
  refine Prod.ext ?_ ?_
  · funext i a
    have q := (sum_eq_zero_iff_of_nonneg fun i _ => by positivity).1 e1 i (mem_univ _)
    have q := (sum_eq_zero_iff_of_nonneg fun i _ => by positivity).1 q a (mem_univ _)
    simpa using q
  · funext i j a b
    have q := (sum_eq_zero_iff_of_nonneg fun i _ => by positivity).1 e2 i (mem_univ _)
    have q := (sum_eq_zero_iff_of_nonneg fun i _ => by positivity).1 q j (mem_univ _)
    have q := (sum_eq_zero_iff_of_nonneg fun i _ => by positivity).1 q a (mem_univ _)
    have q := (sum_eq_zero_iff_of_nonneg fun i _ => by positivity).1 q b (mem_univ _)
    simpa using q

theorem zero_anti' {A B : Type} : Anti (fun (_ _ : A) (_ _ : B) => (0 : 𝕜)) := ⟨fun _ _ _ _ => by simp, fun _ _ _ _ => by simp⟩

/-- The linear part of the Lambda equations is the transposed Jacobian. -/
theorem lam_transpose (F : OneE O V 𝕜) (I : TwoE O V 𝕜) (hI : AntiI I) (T X : Amp 𝕜 O V) (hT : Anti T.2) (hX : Anti X.2) (L : Amp 𝕜 V O) (hL : Anti L.2) :
    pairing X (lamL F I T L) = pairing (jac F I T X) L := by
  have h1 := C06_lambda_is_gradient F I hI L.1 L.2 hL T.1 T.2 hT X.1 X.2 hX
  have h2 := C06_lambda_is_gradient F I hI (fun _ _ => 0) (fun _ _ _ _ => 0) zero_anti' T.1 T.2 hT X.1 X.2 hX
  have h3 := HasDerivAt.fun_sub h1 h2
  have j := jac_code F I hI T X hT hX
  have h4 : HasDerivAt (fun s : 𝕜 => (∑ i, ∑ a, L.1 i a * (ccsd_simple F I (fun a i => T.1 a i + s * X.1 a i) (fun a b i j => T.2 a b i j + s * X.2 a b i j)).1 a i)
      + (1/4) * (∑ i, ∑ j, ∑ a, ∑ b, L.2 i j a b * (ccsd_simple F I (fun a i => T.1 a i + s * X.1 a i) (fun a b i j => T.2 a b i j + s * X.2 a b i j)).2 a b i j))
      ((∑ i, ∑ a, L.1 i a * (jac F I T X).1 a i) + (1/4) * (∑ i, ∑ j, ∑ a, ∑ b, L.2 i j a b * (jac F I T X).2 a b i j)) 0 := by
    refine HasDerivAt.fun_add (HasDerivAt.fun_sum fun i _ => HasDerivAt.fun_sum fun a _ => (comp1 j a i).const_mul _) (HasDerivAt.const_mul _ ?_)
    exact HasDerivAt.fun_sum fun i _ => HasDerivAt.fun_sum fun j' _ => HasDerivAt.fun_sum fun a _ => HasDerivAt.fun_sum fun b _ => (comp2 j a b i j').const_mul _
  have e : (fun s : 𝕜 => (∑ i, ∑ a, L.1 i a * (ccsd_simple F I (fun a i => T.1 a i + s * X.1 a i) (fun a b i j => T.2 a b i j + s * X.2 a b i j)).1 a i)
      + (1/4) * (∑ i, ∑ j, ∑ a, ∑ b, L.2 i j a b * (ccsd_simple F I (fun a i => T.1 a i + s * X.1 a i) (fun a b i j => T.2 a b i j + s * X.2 a b i j)).2 a b i j))
      = fun s => Spec.lagrangian F I L.1 L.2 (fun a i => T.1 a i + s * X.1 a i) (fun a b i j => T.2 a b i j + s * X.2 a b i j)
        - Spec.lagrangian F I (fun _ _ => 0) (fun _ _ _ _ => 0) (fun a i => T.1 a i + s * X.1 a i) (fun a b i j => T.2 a b i j + s * X.2 a b i j) := by
    funext s
    have a : Anti (fun a b i j => T.2 a b i j + s * X.2 a b i j) := line_anti hT hX s
    rw [← C06_lagrangian_from_code F I hI L.1 L.2 _ _ a, ← C06_lagrangian_from_code F I hI (fun _ _ => 0) (fun _ _ _ _ => 0) _ _ a]
    simp only [zero_mul, sum_const_zero]
    ring
  rw [e] at h4
  have key := h3.unique h4
  rw [lamL_apply, pairing_sub]
  refine Eq.trans key ?_
  simp only [pairing, mul_comm]

theorem jac_surj (F : OneE O V 𝕜) (I : TwoE O V 𝕜) (hI : AntiI I) (T : Amp 𝕜 O V) (hT : Anti T.2) (ns : Nonsingular F I T.1 T.2)
    {Y : Amp 𝕜 O V} (hY : Anti Y.2) : ∃ X : Amp 𝕜 O V, Anti X.2 ∧ jac F I T X = Y := by
  obtain ⟨y, hy⟩ := (jacP_invertible F I hI T hT ns).surjective Y
  have e : jac F I T (antiP y) + (y - antiP y) = Y := hy
  have e2 : antiP (jac F I T (antiP y) + (y - antiP y)) = jac F I T (antiP y) := by
    change antiPL _ = _
    rw [map_add, map_sub]
    change antiP _ + (antiP y - antiP (antiP y)) = _
    rw [antiP_of_anti (jac_anti F I hI T _ hT (antiP_anti y)), antiP_of_anti (antiP_anti y)]
    simp
  rw [e, antiP_of_anti hY] at e2
  exact ⟨antiP y, antiP_anti y, e2.symm⟩

theorem lam_injective (F : OneE O V 𝕜) (I : TwoE O V 𝕜) (hI : AntiI I) (T : Amp 𝕜 O V) (hT : Anti T.2) (ns : Nonsingular F I T.1 T.2)
    {L : Amp 𝕜 V O} (hL : Anti L.2) (h0 : lamL F I T L = 0) : L = 0 := by
  refine pairing_nondeg hL fun Y hY => ?_
  obtain ⟨X, hX, rfl⟩ := jac_surj F I hI T hT ns hY
  rw [← lam_transpose F I hI T X hT hX L hL, h0]
  simp [pairing]

theorem sub_anti {A B : Type} {f g : A → A → B → B → 𝕜} (hf : Anti f) (hg : Anti g) : Anti (f - g) where
  a12 a b i j := by simp only [Pi.sub_apply]; rw [hf.a12 a b, hg.a12 a b]; ring
  a34 a b i j := by simp only [Pi.sub_apply]; rw [hf.a34 a b i j, hg.a34 a b i j]; ring

theorem lamRes_anti (F : OneE O V 𝕜) (I : TwoE O V 𝕜) (hI : AntiI I) (T : Amp 𝕜 O V) (hT : Anti T.2) {L : Amp 𝕜 V O} (hL : Anti L.2) : Anti (lamRes F I T L).2 :=
  C08_simple F I hI L.1 L.2 hL T.1 T.2 hT

theorem lamL_anti (F : OneE O V 𝕜) (I : TwoE O V 𝕜) (hI : AntiI I) (T : Amp 𝕜 O V) (hT : Anti T.2) {L : Amp 𝕜 V O} (hL : Anti L.2) : Anti (lamL F I T L).2 :=
  sub_anti (lamRes_anti F I hI T hT hL) (lamRes_anti F I hI T hT (L := 0) zero_anti')

/-- `lamL` extended to all multipliers -/
def lamP (F : OneE O V 𝕜) (I : TwoE O V 𝕜) (T : Amp 𝕜 O V) : Amp 𝕜 V O →ₗ[𝕜] Amp 𝕜 V O := (lamL F I T).comp antiPL + (LinearMap.id - antiPL)

theorem lamP_proj (F : OneE O V 𝕜) (I : TwoE O V 𝕜) (hI : AntiI I) (T : Amp 𝕜 O V) (hT : Anti T.2) (y : Amp 𝕜 V O) :
    antiP (lamP F I T y) = lamL F I T (antiP y) := by
  change antiPL (lamL F I T (antiP y) + (y - antiP y)) = _
  rw [map_add, map_sub]
  change antiP _ + (antiP y - antiP (antiP y)) = _
  rw [antiP_of_anti (lamL_anti F I hI T hT (antiP_anti y)), antiP_of_anti (antiP_anti y)]
  simp

/-- C58: at non-singular amplitudes the Lambda equations have exactly one antisymmetric solution. -/
theorem C58_lambda_unique (F : OneE O V 𝕜) (I : TwoE O V 𝕜) (hI : AntiI I) (T1 : V → O → 𝕜) (T2 : V → V → O → O → 𝕜) (hT : Anti T2) (ns : Nonsingular F I T1 T2) :
    ∃! L : (O → V → 𝕜) × (O → O → V → V → 𝕜), Anti L.2 ∧ ccsd_lambda_simple F I L.1 L.2 T1 T2 = (fun _ _ => 0, fun _ _ _ _ => 0) := by
  let T : Amp 𝕜 O V := (T1, T2)
  have inj : Function.Injective (lamP F I T) := by
    rw [injective_iff_map_eq_zero]
    intro y hy
    have e2 := lamP_proj F I hI T hT y
    rw [hy] at e2
    have z : antiP (0 : Amp 𝕜 V O) = 0 := map_zero antiPL
    rw [z] at e2
    have e3 := lam_injective F I hI T hT ns (antiP_anti y) e2.symm
    have e : lamL F I T (antiP y) + (y - antiP y) = 0 := hy
    rw [← e2, e3] at e
    simpa using e
  obtain ⟨y, hy⟩ := LinearMap.surjective_of_injective inj (-lamRes F I T 0)
  have e2 := lamP_proj F I hI T hT y
  have a0 : Anti (-lamRes F I T 0 : Amp 𝕜 V O).2 := by
    have h := sub_anti (f := fun _ _ _ _ => 0) zero_anti' (lamRes_anti F I hI T hT (L := 0) zero_anti')
    have e : ((fun _ _ _ _ => 0) - (lamRes F I T 0).2 : O → O → V → V → 𝕜) = (-lamRes F I T 0 : Amp 𝕜 V O).2 := by
      funext i j a b; simp
    rw [e] at h; exact h
  rw [hy, antiP_of_anti a0, lamL_apply] at e2
  refine ⟨antiP y, ⟨antiP_anti y, ?_⟩, ?_⟩
  · have : lamRes F I T (antiP y) = 0 := by
      have := sub_eq_iff_eq_add.1 e2.symm
      rw [this]; simp
    exact this
  · rintro L ⟨hL, h0⟩
    have h0' : lamRes F I T L = 0 := h0
    have : lamL F I T (L - antiP y) = 0 := by
      rw [map_sub, lamL_apply, lamL_apply, ← e2, h0']; simp
    exact sub_eq_zero.1 (lam_injective F I hI T hT ns (sub_anti hL (antiP_anti y)) this)

/-- C58: at a non-singular solution the energy of the solution is differentiable with respect to the integrals, and its derivative is the contraction of
the differentiated integrals with the density matrices made with the multipliers that solve the Lambda equations. -/
theorem C58_energy_response {F : 𝕜 → OneE O V 𝕜} {F' : OneE O V 𝕜} {I : 𝕜 → TwoE O V 𝕜} {I' : TwoE O V 𝕜} {x : 𝕜}
    (hF : OneE.HasDeriv F F' x) (hI : TwoE.HasDeriv I I' x) (aI : ∀ ε, AntiI (I ε)) (T1 : V → O → 𝕜) (T2 : V → V → O → O → 𝕜) (aT : Anti T2)
    (h0 : ccsd_simple (F x) (I x) T1 T2 = (fun _ _ => 0, fun _ _ _ _ => 0)) (ns : Nonsingular (F x) (I x) T1 T2) :
    ∃ (t1 : 𝕜 → V → O → 𝕜) (t2 : 𝕜 → V → V → O → O → 𝕜) (L1 : O → V → 𝕜) (L2 : O → O → V → V → 𝕜), t1 x = T1 ∧ t2 x = T2 ∧ (∀ ε, Anti (t2 ε)) ∧
      (∀ᶠ ε in 𝓝 x, ccsd_simple (F ε) (I ε) (t1 ε) (t2 ε) = (fun _ _ => 0, fun _ _ _ _ => 0)) ∧
      Anti L2 ∧ ccsd_lambda_simple (F x) (I x) L1 L2 T1 T2 = (fun _ _ => 0, fun _ _ _ _ => 0) ∧
      HasDerivAt (fun ε => cc_energy (t1 ε) (t2 ε) (F ε).ov (I ε).oovv) (traceRdm F' I' L1 L2 T1 T2) x := by
  obtain ⟨t1, t2, e1, e2, a2, d1, d2, hR, -⟩ := C58_solution_persists hF hI aI T1 T2 aT h0 ns
  obtain ⟨⟨L1, L2⟩, ⟨aL, hL⟩, -⟩ := C58_lambda_unique (F x) (I x) (aI x) T1 T2 aT ns
  subst e1 e2
  exact ⟨t1, t2, L1, L2, rfl, rfl, a2, hR, aL, hL, C56_energy_derivative L1 L2 hF hI d1 d2 aI a2 aL hR hL⟩
end
section
variable {𝕜 : Type} [RCLike 𝕜] {O V : Type} [Fintype O] [Fintype V]

theorem nonsingular_of_invertible (F : OneE O V 𝕜) (I : TwoE O V 𝕜) (hI : AntiI I) (T : Amp 𝕜 O V) (hT : Anti T.2) (h : (jacP F I T).IsInvertible) :
    Nonsingular F I T.1 T.2 := by
  intro X1 X2 hX h1 h2
  have j := jac_code F I hI T (X1, X2) hT hX
  have z : jac F I T (X1, X2) = 0 := by
    refine Prod.ext ?_ ?_
    · funext a i; exact (comp1 j a i).unique (h1 a i)
    · funext a b i j'; exact (comp2 j a b i j').unique (h2 a b i j')
  have e : jacP F I T (X1, X2) = 0 := by
    change jac F I T (antiP (X1, X2)) + ((X1, X2) - antiP (X1, X2)) = 0
    have e1 : antiP ((X1, X2) : Amp 𝕜 O V) = (X1, X2) := antiP_of_anti hX
    rw [e1, z, sub_self, add_zero]
  have e2 : ((X1, X2) : Amp 𝕜 O V) = 0 := h.injective (by rw [e, map_zero])
  refine ⟨fun a i => ?_, fun a b i j => ?_⟩
  · exact congrFun (congrFun (congrArg Prod.fst e2) a) i
  · exact congrFun (congrFun (congrFun (congrFun (congrArg Prod.snd e2) a) b) i) j

/-- C58: solutions near a non-singular one are non-singular. -/
theorem C58_nonsingular_open {F : 𝕜 → OneE O V 𝕜} {F' : OneE O V 𝕜} {I : 𝕜 → TwoE O V 𝕜} {I' : TwoE O V 𝕜} {x : 𝕜}
    (hF : OneE.HasDeriv F F' x) (hI : TwoE.HasDeriv I I' x) (aI : ∀ ε, AntiI (I ε)) {t1 : 𝕜 → V → O → 𝕜} {t2 : 𝕜 → V → V → O → O → 𝕜} (a2 : ∀ ε, Anti (t2 ε))
    (c1 : ∀ a i, ContinuousAt (fun ε => t1 ε a i) x) (c2 : ∀ a b i j, ContinuousAt (fun ε => t2 ε a b i j) x) (ns : Nonsingular (F x) (I x) (t1 x) (t2 x)) :
    ∀ᶠ ε in 𝓝 x, Nonsingular (F ε) (I ε) (t1 ε) (t2 ε) := by
  have c : ContinuousAt (fun ε => (((flat1 (F ε), flat2 (I ε)), (t1 ε, t2 ε)) : Pt 𝕜 O V)) x := by
    refine (hF.flat.continuousAt.prodMk hI.flat.continuousAt).prodMk (ContinuousAt.prodMk ?_ ?_)
    · exact continuousAt_pi.2 fun a => continuousAt_pi.2 fun i => c1 a i
    · exact continuousAt_pi.2 fun a => continuousAt_pi.2 fun b => continuousAt_pi.2 fun i => continuousAt_pi.2 fun j => c2 a b i j
  have cf : ContinuousAt (fun ε => (fderiv 𝕜 resG (((flat1 (F ε), flat2 (I ε)), (t1 ε, t2 ε)) : Pt 𝕜 O V)).comp (ContinuousLinearMap.inr 𝕜 _ _)) x := by
    have h := (resG_smooth (𝕜 := 𝕜) (O := O) (V := V)).continuous_fderiv one_ne_zero
    exact (ContinuousAt.comp (f := fun ε => (((flat1 (F ε), flat2 (I ε)), (t1 ε, t2 ε)) : Pt 𝕜 O V)) h.continuousAt c).clm_comp continuousAt_const
  have e : ∀ ε, (fderiv 𝕜 resG (((flat1 (F ε), flat2 (I ε)), (t1 ε, t2 ε)) : Pt 𝕜 O V)).comp (ContinuousLinearMap.inr 𝕜 _ _) = jacP (F ε) (I ε) (t1 ε, t2 ε) :=
    fun ε => resG_deriv (F ε) (I ε) (t1 ε, t2 ε) (a2 ε)
  simp only [e] at cf
  obtain ⟨M, hM⟩ := jacP_invertible (F x) (I x) (aI x) (t1 x, t2 x) (a2 x) ns
  have o := ContinuousLinearEquiv.nhds M
  rw [hM] at o
  filter_upwards [cf.eventually o] with ε hε
  obtain ⟨N, hN⟩ := hε
  exact nonsingular_of_invertible (F ε) (I ε) (aI ε) (t1 ε, t2 ε) (a2 ε) ⟨N, hN⟩

/-- C58: at all values of the parameter close to that of a non-singular solution the amplitude and Lambda equations have (non-singular) solutions
that vary differentiably, and the energy of the solution has the density-matrix contraction as derivative. -/
theorem C58_continuation {F F' : 𝕜 → OneE O V 𝕜} {I I' : 𝕜 → TwoE O V 𝕜} {x : 𝕜}
    (hF : ∀ ε, OneE.HasDeriv F (F' ε) ε) (hI : ∀ ε, TwoE.HasDeriv I (I' ε) ε) (aI : ∀ ε, AntiI (I ε)) (T1 : V → O → 𝕜) (T2 : V → V → O → O → 𝕜) (aT : Anti T2)
    (h0 : ccsd_simple (F x) (I x) T1 T2 = (fun _ _ => 0, fun _ _ _ _ => 0)) (ns : Nonsingular (F x) (I x) T1 T2) :
    ∃ (t1 : 𝕜 → V → O → 𝕜) (t2 : 𝕜 → V → V → O → O → 𝕜), t1 x = T1 ∧ t2 x = T2 ∧ (∀ ε, Anti (t2 ε)) ∧
      (∀ᶠ p in 𝓝 (x, (T1, T2)), Anti p.2.2 → ccsd_simple (F p.1) (I p.1) p.2.1 p.2.2 = (fun _ _ => 0, fun _ _ _ _ => 0) → p.2 = (t1 p.1, t2 p.1)) ∧
      ∀ᶠ ε in 𝓝 x, ccsd_simple (F ε) (I ε) (t1 ε) (t2 ε) = (fun _ _ => 0, fun _ _ _ _ => 0) ∧
        (∀ a i, DifferentiableAt 𝕜 (fun η => t1 η a i) ε) ∧ (∀ a b i j, DifferentiableAt 𝕜 (fun η => t2 η a b i j) ε) ∧
        Nonsingular (F ε) (I ε) (t1 ε) (t2 ε) ∧
        ∃ (L1 : O → V → 𝕜) (L2 : O → O → V → V → 𝕜), Anti L2 ∧ ccsd_lambda_simple (F ε) (I ε) L1 L2 (t1 ε) (t2 ε) = (fun _ _ => 0, fun _ _ _ _ => 0) ∧
          HasDerivAt (fun η => cc_energy (t1 η) (t2 η) (F η).ov (I η).oovv) (traceRdm (F' ε) (I' ε) L1 L2 (t1 ε) (t2 ε)) ε := by
  obtain ⟨t1, t2, e1, e2, a2, d1, d2, hR, hU⟩ := C58_solution_persists (hF x) (hI x) aI T1 T2 aT h0 ns
  subst e1 e2
  refine ⟨t1, t2, rfl, rfl, a2, hU, ?_⟩
  have c1 : ContinuousAt t1 x := continuousAt_pi.2 fun a => continuousAt_pi.2 fun i => (d1 a i).continuousAt
  have c2 : ContinuousAt t2 x := continuousAt_pi.2 fun a => continuousAt_pi.2 fun b => continuousAt_pi.2 fun i => continuousAt_pi.2 fun j => (d2 a b i j).continuousAt
  have cc : ContinuousAt (fun ε => (ε, ((t1 ε, t2 ε) : Amp 𝕜 O V))) x := continuousAt_id.prodMk (c1.prodMk c2)
  have hU' := cc.eventually (eventually_eventually_nhds.2 hU)
  have hN := C58_nonsingular_open (hF x) (hI x) aI a2 (fun a i => (d1 a i).continuousAt) (fun a b i j => (d2 a b i j).continuousAt) ns
  filter_upwards [eventually_eventually_nhds.2 hR, hU', hN] with ε hRε hUε hNε
  obtain ⟨s1, s2, f1, f2, b2, q1, q2, hS, -⟩ := C58_solution_persists (hF ε) (hI ε) aI (t1 ε) (t2 ε) (a2 ε) hRε.self_of_nhds hNε
  have k1 : ContinuousAt s1 ε := continuousAt_pi.2 fun a => continuousAt_pi.2 fun i => (q1 a i).continuousAt
  have k2 : ContinuousAt s2 ε := continuousAt_pi.2 fun a => continuousAt_pi.2 fun b => continuousAt_pi.2 fun i => continuousAt_pi.2 fun j => (q2 a b i j).continuousAt
  have kk : Tendsto (fun η => (η, ((s1 η, s2 η) : Amp 𝕜 O V))) (𝓝 ε) (𝓝 (ε, (t1 ε, t2 ε))) := by
    have : ContinuousAt (fun η => (η, ((s1 η, s2 η) : Amp 𝕜 O V))) ε := continuousAt_id.prodMk (k1.prodMk k2)
    rw [← f1, ← f2]; exact this
  have same : ∀ᶠ η in 𝓝 ε, ((s1 η, s2 η) : Amp 𝕜 O V) = (t1 η, t2 η) := by
    filter_upwards [kk.eventually hUε, hS] with η h1 h2
    exact h1 (b2 η) h2
  have r1 : ∀ a i, DifferentiableAt 𝕜 (fun η => t1 η a i) ε := fun a i => by
    refine (q1 a i).congr_of_eventuallyEq ?_
    filter_upwards [same] with η h
    exact congrFun (congrFun (congrArg Prod.fst h.symm) a) i
  have r2 : ∀ a b i j, DifferentiableAt 𝕜 (fun η => t2 η a b i j) ε := fun a b i j => by
    refine (q2 a b i j).congr_of_eventuallyEq ?_
    filter_upwards [same] with η h
    exact congrFun (congrFun (congrFun (congrFun (congrArg Prod.snd h.symm) a) b) i) j
  obtain ⟨⟨L1, L2⟩, ⟨aL, hL⟩, -⟩ := C58_lambda_unique (F ε) (I ε) (aI ε) (t1 ε) (t2 ε) (a2 ε) hNε
  exact ⟨hRε.self_of_nhds, r1, r2, hNε, L1, L2, aL, hL, C56_energy_derivative L1 L2 (hF ε) (hI ε) r1 r2 aI a2 aL hRε hL⟩
end
end CC
