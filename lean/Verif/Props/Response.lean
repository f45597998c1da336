import Verif.Props.LDeriv
import Verif.Props.GRdm
import Verif.Props.GT
import Mathlib.Analysis.Calculus.FDeriv.Mul
import Mathlib.Analysis.Calculus.FDeriv.Add
import Mathlib.Analysis.Calculus.FDeriv.Prod
import Mathlib.Analysis.Calculus.FDeriv.Pi
import Mathlib.Analysis.Calculus.Deriv.Comp
import Mathlib.Analysis.Calculus.Deriv.Prod
import Mathlib.Analysis.Calculus.Deriv.Pi
import Mathlib.Analysis.Calculus.Deriv.Polynomial
/-!
# C56: derivatives of the coupled-cluster energy are density-matrix contractions

For integrals that depend on a parameter, with the amplitude equations solved for every value of it and the Lambda equations at one of them.
-/
set_option linter.unusedSectionVars false
namespace CC
open Finset
/-- Contraction of one- and two-electron integrals with the density matrices returned by the code (`Λ` itself for the blocks `vo` and `vvoo`). -/
def traceRdm {K O V : Type} [Field K] [Fintype O] [Fintype V] (F : OneE O V K) (I : TwoE O V K) (L1 : O → V → K) (L2 : O → O → V → V → K) (T1 : V → O → K) (T2 : V → V → O → O → K) : K :=
  (∑ a, ∑ b, F.vv a b * ccsd_1rdm_ba T1 T2 L1 L2 b a)
    + (∑ i, ∑ j, F.oo i j * ccsd_1rdm_ji T1 T2 L1 L2 j i)
    + (∑ a, ∑ i, F.vo a i * L1 i a)
    + (∑ i, ∑ a, F.ov i a * ccsd_1rdm_ai T1 T2 L1 L2 1 a i)
    + (1/4) * (∑ a, ∑ b, ∑ i, ∑ j, I.vvoo a b i j * L2 i j a b)
    + (1/4) * (∑ i, ∑ j, ∑ a, ∑ b, I.oovv i j a b * ccsd_2rdm_abij T1 T2 L1 L2 1 a b i j)
    + (1/4) * (∑ a, ∑ b, ∑ c, ∑ d, I.vvvv a b c d * ccsd_2rdm_cdab T1 T2 L1 L2 c d a b)
    + (1/2) * (∑ a, ∑ b, ∑ c, ∑ i, I.vvvo a b c i * ccsd_2rdm_ciab T1 T2 L1 L2 c i a b)
    + (1/2) * (∑ a, ∑ i, ∑ b, ∑ c, I.vovv a i b c * ccsd_2rdm_bcai T1 T2 L1 L2 b c a i)
    + (∑ a, ∑ i, ∑ b, ∑ j, I.vovo a i b j * ccsd_2rdm_bjai T1 T2 L1 L2 b j a i)
    + (1/2) * (∑ a, ∑ i, ∑ j, ∑ k, I.vooo a i j k * ccsd_2rdm_jkai T1 T2 L1 L2 j k a i)
    + (1/2) * (∑ i, ∑ j, ∑ k, ∑ a, I.ooov i j k a * ccsd_2rdm_kaij T1 T2 L1 L2 k a i j)
    + (1/4) * (∑ i, ∑ j, ∑ k, ∑ l, I.oooo i j k l * ccsd_2rdm_klij T1 T2 L1 L2 k l i j)

section
variable {𝕜 : Type} [NontriviallyNormedField 𝕜] {O V : Type} [Fintype O] [Fintype V]

/-- Componentwise derivative of the blocks of a one-electron operator that depends on a parameter. -/
structure OneE.HasDeriv (F : 𝕜 → OneE O V 𝕜) (F' : OneE O V 𝕜) (x : 𝕜) : Prop where
  oo : ∀ i j, HasDerivAt (fun ε => (F ε).oo i j) (F'.oo i j) x
  ov : ∀ i a, HasDerivAt (fun ε => (F ε).ov i a) (F'.ov i a) x
  vo : ∀ a i, HasDerivAt (fun ε => (F ε).vo a i) (F'.vo a i) x
  vv : ∀ a b, HasDerivAt (fun ε => (F ε).vv a b) (F'.vv a b) x

/-- Componentwise derivative of the blocks of two-electron integrals that depend on a parameter. -/
structure TwoE.HasDeriv (I : 𝕜 → TwoE O V 𝕜) (I' : TwoE O V 𝕜) (x : 𝕜) : Prop where
  vvvv : ∀ a b c d, HasDerivAt (fun ε => (I ε).vvvv a b c d) (I'.vvvv a b c d) x
  vvvo : ∀ a b c i, HasDerivAt (fun ε => (I ε).vvvo a b c i) (I'.vvvo a b c i) x
  vovv : ∀ a i b c, HasDerivAt (fun ε => (I ε).vovv a i b c) (I'.vovv a i b c) x
  vvoo : ∀ a b i j, HasDerivAt (fun ε => (I ε).vvoo a b i j) (I'.vvoo a b i j) x
  vovo : ∀ a i b j, HasDerivAt (fun ε => (I ε).vovo a i b j) (I'.vovo a i b j) x
  oovv : ∀ i j a b, HasDerivAt (fun ε => (I ε).oovv i j a b) (I'.oovv i j a b) x
  vooo : ∀ a i j k, HasDerivAt (fun ε => (I ε).vooo a i j k) (I'.vooo a i j k) x
  ooov : ∀ i j k a, HasDerivAt (fun ε => (I ε).ooov i j k a) (I'.ooov i j k a) x
  oooo : ∀ i j k l, HasDerivAt (fun ε => (I ε).oooo i j k l) (I'.oooo i j k l) x

/-! ### The Lagrangian as a function on a normed space -/

def flat1 (F : OneE O V 𝕜) : O ⊕ V → O ⊕ V → 𝕜
  | .inl i, .inl j => F.oo i j
  | .inl i, .inr a => F.ov i a
  | .inr a, .inl i => F.vo a i
  | .inr a, .inr b => F.vv a b

def flat2 (I : TwoE O V 𝕜) : O ⊕ V → O ⊕ V → O ⊕ V → O ⊕ V → 𝕜
  | .inr a, .inr b, .inr c, .inr d => I.vvvv a b c d
  | .inr a, .inr b, .inr c, .inl i => I.vvvo a b c i
  | .inr a, .inl i, .inr b, .inr c => I.vovv a i b c
  | .inr a, .inr b, .inl i, .inl j => I.vvoo a b i j
  | .inr a, .inl i, .inr b, .inl j => I.vovo a i b j
  | .inl i, .inl j, .inr a, .inr b => I.oovv i j a b
  | .inr a, .inl i, .inl j, .inl k => I.vooo a i j k
  | .inl i, .inl j, .inl k, .inr a => I.ooov i j k a
  | .inl i, .inl j, .inl k, .inl l => I.oooo i j k l
  | _, _, _, _ => 0

def unflat1 (h : O ⊕ V → O ⊕ V → 𝕜) : OneE O V 𝕜 where
  oo := fun i j => h (.inl i) (.inl j)
  ov := fun i a => h (.inl i) (.inr a)
  vo := fun a i => h (.inr a) (.inl i)
  vv := fun a b => h (.inr a) (.inr b)

def unflat2 (v : O ⊕ V → O ⊕ V → O ⊕ V → O ⊕ V → 𝕜) : TwoE O V 𝕜 where
  vvvv := fun a b c d => v (.inr a) (.inr b) (.inr c) (.inr d)
  vvvo := fun a b c i => v (.inr a) (.inr b) (.inr c) (.inl i)
  vovv := fun a i c d => v (.inr a) (.inl i) (.inr c) (.inr d)
  vvoo := fun a b i j => v (.inr a) (.inr b) (.inl i) (.inl j)
  vovo := fun a i b j => v (.inr a) (.inl i) (.inr b) (.inl j)
  oovv := fun i j a b => v (.inl i) (.inl j) (.inr a) (.inr b)
  vooo := fun a i j k => v (.inr a) (.inl i) (.inl j) (.inl k)
  ooov := fun i j k a => v (.inl i) (.inl j) (.inl k) (.inr a)
  oooo := fun i j k l => v (.inl i) (.inl j) (.inl k) (.inl l)

theorem unflat_flat1 (F : OneE O V 𝕜) : unflat1 (flat1 F) = F := rfl
theorem unflat_flat2 (I : TwoE O V 𝕜) : unflat2 (flat2 I) = I := rfl

abbrev Pt (𝕜 O V : Type) := ((O ⊕ V → O ⊕ V → 𝕜) × (O ⊕ V → O ⊕ V → O ⊕ V → O ⊕ V → 𝕜)) × (V → O → 𝕜) × (V → V → O → O → 𝕜)

def lagPt (L1 : O → V → 𝕜) (L2 : O → O → V → V → 𝕜) (x : Pt 𝕜 O V) : 𝕜 :=
  Spec.lagrangian (unflat1 x.1.1) (unflat2 x.1.2) L1 L2 x.2.1 x.2.2

set_option synthInstance.maxHeartbeats 400000 in
set_option synthInstance.maxSize 2000 in
set_option maxHeartbeats 4000000 in
theorem lag_diff' (L1 : O → V → 𝕜) (L2 : O → O → V → V → 𝕜) :
    Differentiable 𝕜 (fun x : Pt 𝕜 O V => Spec.lagrangian (unflat1 x.1.1) (unflat2 x.1.2) L1 L2 x.2.1 x.2.2) := by
  unfold Spec.lagrangian
  refine Differentiable.fun_add (E := Pt 𝕜 O V) (Differentiable.fun_add ?_ ?_) ?_
  · unfold Spec.energy unflat1 unflat2; fun_prop
  · refine Differentiable.fun_sum fun i _ => Differentiable.fun_sum fun a _ => Differentiable.const_mul ?_ _
    unfold Spec.singles unflat1 unflat2 Spec.ovvo Spec.ovvv Spec.oovo
    fun_prop
  · refine Differentiable.const_mul ?_ _
    refine Differentiable.fun_sum fun i _ => Differentiable.fun_sum fun j _ => Differentiable.fun_sum fun a _ => Differentiable.fun_sum fun b _ => Differentiable.const_mul ?_ _
    unfold Spec.doubles unflat1 unflat2 Spec.ovvo Spec.ovvv Spec.oovo Spec.ovoo Spec.ovov Spec.Pij Spec.Pab
    fun_prop

theorem lag_diff (L1 : O → V → 𝕜) (L2 : O → O → V → V → 𝕜) : Differentiable 𝕜 (lagPt (𝕜 := 𝕜) L1 L2) := lag_diff' L1 L2

theorem OneE.HasDeriv.flat {F : 𝕜 → OneE O V 𝕜} {F' : OneE O V 𝕜} {x : 𝕜} (h : OneE.HasDeriv F F' x) :
    HasDerivAt (fun ε => flat1 (F ε)) (flat1 F') x := by
  refine hasDerivAt_pi.2 fun p => hasDerivAt_pi.2 fun q => ?_
  rcases p with p | p <;> rcases q with q | q
  exacts [h.oo _ _, h.ov _ _, h.vo _ _, h.vv _ _]

theorem TwoE.HasDeriv.flat {I : 𝕜 → TwoE O V 𝕜} {I' : TwoE O V 𝕜} {x : 𝕜} (h : TwoE.HasDeriv I I' x) :
    HasDerivAt (fun ε => flat2 (I ε)) (flat2 I') x := by
  refine hasDerivAt_pi.2 fun p => hasDerivAt_pi.2 fun q => hasDerivAt_pi.2 fun r => hasDerivAt_pi.2 fun s => ?_
  rcases p with p | p <;> rcases q with q | q <;> rcases r with r | r <;> rcases s with s | s
  all_goals first
    | exact h.vvvv _ _ _ _ | exact h.vvvo _ _ _ _ | exact h.vovv _ _ _ _ | exact h.vvoo _ _ _ _ | exact h.vovo _ _ _ _
    | exact h.oovv _ _ _ _ | exact h.vooo _ _ _ _ | exact h.ooov _ _ _ _ | exact h.oooo _ _ _ _ | exact hasDerivAt_const _ _

/-- The derivative along a curve is the derivative along its tangent line. -/
theorem curve {E : Type} [NormedAddCommGroup E] [NormedSpace 𝕜 E] {f : E → 𝕜} {c : 𝕜 → E} {c' : E} {d : 𝕜} {x : 𝕜}
    (hf : DifferentiableAt 𝕜 f (c x)) (hc : HasDerivAt c c' x) (hl : HasDerivAt (fun ε : 𝕜 => f (c x + ε • c')) d 0) :
    HasDerivAt (fun ε => f (c ε)) d x := by
  have h1 := hf.hasFDerivAt.comp_hasDerivAt x hc
  have h2 : HasDerivAt (fun ε : 𝕜 => c x + ε • c') c' 0 := by
    simpa using ((hasDerivAt_id (0 : 𝕜)).smul_const c').const_add (c x)
  have hf' : DifferentiableAt 𝕜 f (c x + (0 : 𝕜) • c') := by simpa using hf
  have h3 := hf'.hasFDerivAt.comp_hasDerivAt (0 : 𝕜) h2
  have : d = fderiv 𝕜 f (c x) c' := by
    have := hl.unique h3
    simpa using this
  rw [this]
  exact h1

theorem line {E : Type} [NormedAddCommGroup E] [NormedSpace 𝕜 E] {f : E → 𝕜} {x u v : E} {d e : 𝕜}
    (hf : DifferentiableAt 𝕜 f x) (hu : HasDerivAt (fun ε : 𝕜 => f (x + ε • u)) d 0) (hv : HasDerivAt (fun ε : 𝕜 => f (x + ε • v)) e 0) :
    HasDerivAt (fun ε : 𝕜 => f (x + ε • (u + v))) (d + e) 0 := by
  have key : ∀ w, HasDerivAt (fun ε : 𝕜 => f (x + ε • w)) (fderiv 𝕜 f x w) 0 := fun w => by
    have h2 : HasDerivAt (fun ε : 𝕜 => x + ε • w) w 0 := by
      simpa using ((hasDerivAt_id (0 : 𝕜)).smul_const w).const_add x
    have hf' : DifferentiableAt 𝕜 f (x + (0 : 𝕜) • w) := by simpa using hf
    have h3 := hf'.hasFDerivAt.comp_hasDerivAt (0 : 𝕜) h2
    rw [zero_smul, add_zero] at h3
    exact h3
  rw [hu.unique (key u), hv.unique (key v), ← map_add]
  exact key _

variable [CharZero 𝕜]

theorem lag_linear (F F' : OneE O V 𝕜) (I I' : TwoE O V 𝕜) (L1 : O → V → 𝕜) (L2 : O → O → V → V → 𝕜) (T1 : V → O → 𝕜)
    (T2 : V → V → O → O → 𝕜) (ε : 𝕜) :
    Spec.lagrangian (unflat1 (fun p q => flat1 F p q + ε * flat1 F' p q)) (unflat2 (fun p q r s => flat2 I p q r s + ε * flat2 I' p q r s)) L1 L2 T1 T2
      = Spec.lagrangian F I L1 L2 T1 T2 + ε * Spec.lagrangian F' I' L1 L2 T1 T2 := by
  simp only [unflat1, unflat2, flat1, flat2]
  tensor

theorem lag_linear' (F F' : OneE O V 𝕜) (I I' : TwoE O V 𝕜) (L1 : O → V → 𝕜) (L2 : O → O → V → V → 𝕜) (T1 : V → O → 𝕜)
    (T2 : V → V → O → O → 𝕜) (ε : 𝕜) :
    lagPt L1 L2 ((flat1 F + ε • flat1 F', flat2 I + ε • flat2 I'), (T1, T2))
      = Spec.lagrangian F I L1 L2 T1 T2 + ε * Spec.lagrangian F' I' L1 L2 T1 T2 := by
  rw [← lag_linear]
  rfl

theorem lagPt_flat (F : OneE O V 𝕜) (I : TwoE O V 𝕜) (L1 : O → V → 𝕜) (L2 : O → O → V → V → 𝕜) (T1 : V → O → 𝕜) (T2 : V → V → O → O → 𝕜) :
    lagPt L1 L2 ((flat1 F, flat2 I), (T1, T2)) = Spec.lagrangian F I L1 L2 T1 T2 := rfl

set_option synthInstance.maxHeartbeats 400000 in
set_option synthInstance.maxSize 2000 in
set_option maxHeartbeats 4000000 in
attribute [local irreducible] Spec.lagrangian ccsd_lambda_simple lagPt in
/-- Derivative of the Lagrangian along a curve of integrals and amplitudes. -/
theorem lag_curve {F : 𝕜 → OneE O V 𝕜} {F' : OneE O V 𝕜} {I : 𝕜 → TwoE O V 𝕜} {I' : TwoE O V 𝕜} {T1 : 𝕜 → V → O → 𝕜} {T1' : V → O → 𝕜}
    {T2 : 𝕜 → V → V → O → O → 𝕜} {T2' : V → V → O → O → 𝕜} (L1 : O → V → 𝕜) (L2 : O → O → V → V → 𝕜) {x : 𝕜}
    (hF : OneE.HasDeriv F F' x) (hI : TwoE.HasDeriv I I' x) (h1 : ∀ a i, HasDerivAt (fun ε => T1 ε a i) (T1' a i) x)
    (h2 : ∀ a b i j, HasDerivAt (fun ε => T2 ε a b i j) (T2' a b i j) x)
    (aI : AntiI (I x)) (aL : Anti L2) (aT : Anti (T2 x)) (aX : Anti T2') :
    HasDerivAt (fun ε => Spec.lagrangian (F ε) (I ε) L1 L2 (T1 ε) (T2 ε))
      (Spec.lagrangian F' I' L1 L2 (T1 x) (T2 x)
        + ((∑ i, ∑ a, T1' a i * (ccsd_lambda_simple (F x) (I x) L1 L2 (T1 x) (T2 x)).1 i a)
        + (1/4) * (∑ i, ∑ j, ∑ a, ∑ b, T2' a b i j * (ccsd_lambda_simple (F x) (I x) L1 L2 (T1 x) (T2 x)).2 i j a b))) x := by
  have c : HasDerivAt (fun ε : 𝕜 => (((flat1 (F ε), flat2 (I ε)), (T1 ε, T2 ε)) : Pt 𝕜 O V)) ((flat1 F', flat2 I'), (T1', T2')) x :=
    (hF.flat.prodMk hI.flat).prodMk ((hasDerivAt_pi.2 fun a => hasDerivAt_pi.2 fun i => h1 a i).prodMk
      (hasDerivAt_pi.2 fun a => hasDerivAt_pi.2 fun b => hasDerivAt_pi.2 fun i => hasDerivAt_pi.2 fun j => h2 a b i j))
  have l1 : HasDerivAt (fun ε : 𝕜 => lagPt L1 L2 (((flat1 (F x), flat2 (I x)), (T1 x, T2 x)) + ε • ((flat1 F', flat2 I'), (0, 0))))
      (Spec.lagrangian F' I' L1 L2 (T1 x) (T2 x)) 0 := by
    have e : (fun ε : 𝕜 => lagPt L1 L2 (((flat1 (F x), flat2 (I x)), (T1 x, T2 x)) + ε • ((flat1 F', flat2 I'), (0, 0))))
        = fun ε => Spec.lagrangian (F x) (I x) L1 L2 (T1 x) (T2 x) + ε * Spec.lagrangian F' I' L1 L2 (T1 x) (T2 x) := by
      funext ε
      rw [← lag_linear']
      simp only [Prod.smul_mk, Prod.mk_add_mk, smul_zero, add_zero]
    rw [e]
    exact hasDerivAt_of_eqMod _ _ _ (Verif.Tensor.EqMod.refl 2 _)
  have l2 : HasDerivAt (fun ε : 𝕜 => lagPt L1 L2 (((flat1 (F x), flat2 (I x)), (T1 x, T2 x)) + ε • ((0, 0), (T1', T2'))))
      ((∑ i, ∑ a, T1' a i * (ccsd_lambda_simple (F x) (I x) L1 L2 (T1 x) (T2 x)).1 i a)
        + (1/4) * (∑ i, ∑ j, ∑ a, ∑ b, T2' a b i j * (ccsd_lambda_simple (F x) (I x) L1 L2 (T1 x) (T2 x)).2 i j a b)) 0 := by
    have e : (fun ε : 𝕜 => lagPt L1 L2 (((flat1 (F x), flat2 (I x)), (T1 x, T2 x)) + ε • ((0, 0), (T1', T2'))))
        = fun ε => Spec.lagrangian (F x) (I x) L1 L2 (fun a i => T1 x a i + ε * T1' a i) (fun a b i j => T2 x a b i j + ε * T2' a b i j) := by
      funext ε
      rw [← lagPt_flat]
      simp only [Prod.smul_mk, Prod.mk_add_mk, smul_zero, add_zero]
      rfl
    rw [e]
    exact C06_lambda_is_gradient (F x) (I x) aI L1 L2 aL (T1 x) (T2 x) aT T1' T2' aX
  have l3 := line (f := lagPt L1 L2) (lag_diff L1 L2 _) l1 l2
  have e : (((flat1 F', flat2 I'), (0, 0)) + ((0, 0), (T1', T2')) : Pt 𝕜 O V) = ((flat1 F', flat2 I'), (T1', T2')) := by simp
  rw [e] at l3
  have l4 := curve (f := lagPt L1 L2) (lag_diff L1 L2 _) c l3
  simp only [lagPt_flat] at l4
  exact l4


theorem antiI_deriv {I : 𝕜 → TwoE O V 𝕜} {I' : TwoE O V 𝕜} {x : 𝕜} (h : TwoE.HasDeriv I I' x) (hI : ∀ ε, AntiI (I ε)) : AntiI I' where
  vvvv12 a b c d := (h.vvvv _ _ _ _).unique (by simpa only [(hI _).vvvv12 a b c d] using (h.vvvv a b c d).fun_neg)
  vvvv34 a b c d := (h.vvvv _ _ _ _).unique (by simpa only [(hI _).vvvv34 a b c d] using (h.vvvv a b c d).fun_neg)
  vvvo12 a b c d := (h.vvvo _ _ _ _).unique (by simpa only [(hI _).vvvo12 a b c d] using (h.vvvo a b c d).fun_neg)
  vovv34 a b c d := (h.vovv _ _ _ _).unique (by simpa only [(hI _).vovv34 a b c d] using (h.vovv a b c d).fun_neg)
  vvoo12 a b c d := (h.vvoo _ _ _ _).unique (by simpa only [(hI _).vvoo12 a b c d] using (h.vvoo a b c d).fun_neg)
  vvoo34 a b c d := (h.vvoo _ _ _ _).unique (by simpa only [(hI _).vvoo34 a b c d] using (h.vvoo a b c d).fun_neg)
  oovv12 a b c d := (h.oovv _ _ _ _).unique (by simpa only [(hI _).oovv12 a b c d] using (h.oovv a b c d).fun_neg)
  oovv34 a b c d := (h.oovv _ _ _ _).unique (by simpa only [(hI _).oovv34 a b c d] using (h.oovv a b c d).fun_neg)
  vooo34 a b c d := (h.vooo _ _ _ _).unique (by simpa only [(hI _).vooo34 a b c d] using (h.vooo a b c d).fun_neg)
  ooov12 a b c d := (h.ooov _ _ _ _).unique (by simpa only [(hI _).ooov12 a b c d] using (h.ooov a b c d).fun_neg)
  oooo12 a b c d := (h.oooo _ _ _ _).unique (by simpa only [(hI _).oooo12 a b c d] using (h.oooo a b c d).fun_neg)
  oooo34 a b c d := (h.oooo _ _ _ _).unique (by simpa only [(hI _).oooo34 a b c d] using (h.oooo a b c d).fun_neg)

theorem anti_deriv {A B : Type} {T : 𝕜 → A → A → B → B → 𝕜} {T' : A → A → B → B → 𝕜} {x : 𝕜}
    (h : ∀ a b i j, HasDerivAt (fun ε => T ε a b i j) (T' a b i j) x) (hT : ∀ ε, Anti (T ε)) : Anti T' where
  a12 a b i j := (h _ _ _ _).unique (by simpa only [(hT _).a12 a b i j] using (h a b i j).fun_neg)
  a34 a b i j := (h _ _ _ _).unique (by simpa only [(hT _).a34 a b i j] using (h a b i j).fun_neg)

attribute [local irreducible] Spec.lagrangian in
/-- C56 (Hellmann-Feynman theorem): if integrals and amplitudes depend differentiably on a parameter, the amplitudes solve the CCSD equations
near `x`, and the multipliers solve the Lambda equations at `x`, then the derivative of `cc_energy` at `x` is the contraction of the derivatives of
the integrals with the density matrices: the derivatives of the amplitudes do not enter. -/
theorem C56_energy_derivative {F : 𝕜 → OneE O V 𝕜} {F' : OneE O V 𝕜} {I : 𝕜 → TwoE O V 𝕜} {I' : TwoE O V 𝕜}
    {T1 : 𝕜 → V → O → 𝕜} {T2 : 𝕜 → V → V → O → O → 𝕜} (L1 : O → V → 𝕜) (L2 : O → O → V → V → 𝕜) {x : 𝕜}
    (hF : OneE.HasDeriv F F' x) (hI : TwoE.HasDeriv I I' x) (h1 : ∀ a i, DifferentiableAt 𝕜 (fun ε => T1 ε a i) x)
    (h2 : ∀ a b i j, DifferentiableAt 𝕜 (fun ε => T2 ε a b i j) x)
    (aI : ∀ ε, AntiI (I ε)) (aT : ∀ ε, Anti (T2 ε)) (aL : Anti L2)
    (hR : ∀ᶠ ε in nhds x, ccsd_simple (F ε) (I ε) (T1 ε) (T2 ε) = (fun _ _ => 0, fun _ _ _ _ => 0))
    (hL : ccsd_lambda_simple (F x) (I x) L1 L2 (T1 x) (T2 x) = (fun _ _ => 0, fun _ _ _ _ => 0)) :
    HasDerivAt (fun ε => cc_energy (T1 ε) (T2 ε) (F ε).ov (I ε).oovv) (traceRdm F' I' L1 L2 (T1 x) (T2 x)) x := by
  have d2 := fun a b i j => (h2 a b i j).hasDerivAt
  have c := lag_curve L1 L2 hF hI (fun a i => (h1 a i).hasDerivAt) d2 (aI x) aL (aT x) (anti_deriv d2 aT)
  rw [hL] at c
  simp only [mul_zero, sum_const_zero, add_zero] at c
  rw [← C10_densities_give_lagrangian _ _ (aT x) _ _ aL _ _ (antiI_deriv hI aI)] at c
  refine c.congr_of_eventuallyEq ?_
  filter_upwards [hR] with ε hε
  rw [← C06_lagrangian_from_code _ _ (aI ε) L1 L2 _ _ (aT ε), hε]
  simp

/-- C56 with the implementations that use intermediates. -/
theorem C56_energy_derivative_stanton {F : 𝕜 → OneE O V 𝕜} {F' : OneE O V 𝕜} {I : 𝕜 → TwoE O V 𝕜} {I' : TwoE O V 𝕜}
    {T1 : 𝕜 → V → O → 𝕜} {T2 : 𝕜 → V → V → O → O → 𝕜} (L1 : O → V → 𝕜) (L2 : O → O → V → V → 𝕜) {x : 𝕜}
    (hF : OneE.HasDeriv F F' x) (hI : TwoE.HasDeriv I I' x) (h1 : ∀ a i, DifferentiableAt 𝕜 (fun ε => T1 ε a i) x)
    (h2 : ∀ a b i j, DifferentiableAt 𝕜 (fun ε => T2 ε a b i j) x)
    (aI : ∀ ε, AntiI (I ε)) (aT : ∀ ε, Anti (T2 ε)) (aL : Anti L2)
    (hR : ∀ᶠ ε in nhds x, ccsd_stanton (F ε) (I ε) (T1 ε) (T2 ε) = (fun _ _ => 0, fun _ _ _ _ => 0))
    (hL : ccsd_lambda_opt (F x) (I x) L1 L2 (T1 x) (T2 x) = (fun _ _ => 0, fun _ _ _ _ => 0)) :
    HasDerivAt (fun ε => cc_energy (T1 ε) (T2 ε) (F ε).ov (I ε).oovv) (traceRdm F' I' L1 L2 (T1 x) (T2 x)) x := by
  refine C56_energy_derivative L1 L2 hF hI h1 h2 aI aT aL ?_ ?_
  · filter_upwards [hR] with ε hε
    rw [← C01_ccsd_stanton_eq_simple _ _ (aI ε) _ _ (aT ε), hε]
  · rw [← C05_opt_eq_simple _ _ (aI x) _ _ aL _ _ (aT x), hL]
end

/-! ### Non-vacuity: two electrons in four spin orbitals with `⟨ab||ij⟩` depending on the parameter -/

/-- antisymmetric symbol -/
def hfEps (x y : Fin 2) : ℝ := ((y : ℕ) : ℝ) - ((x : ℕ) : ℝ)

def hfF : OneE (Fin 2) (Fin 2) ℝ := ⟨fun _ _ => 0, fun _ _ => 0, fun _ _ => 0, fun a b => if a = b then 1 else 0⟩

def hfI (c d : ℝ) : TwoE (Fin 2) (Fin 2) ℝ where
  vvvv := fun _ _ _ _ => 0
  vvvo := fun _ _ _ _ => 0
  vovv := fun _ _ _ _ => 0
  vvoo := fun a b i j => c * (hfEps a b * hfEps i j)
  vovo := fun _ _ _ _ => 0
  oovv := fun i j a b => d * (hfEps i j * hfEps a b)
  vooo := fun _ _ _ _ => 0
  ooov := fun _ _ _ _ => 0
  oooo := fun _ _ _ _ => 0

def prodT {A B C D : Type} (f : A → B → ℝ) (g : C → D → ℝ) (c : ℝ) : A → B → C → D → ℝ := fun a b i j => c * (f a b * g i j)

theorem prodT_anti (c : ℝ) : Anti (prodT hfEps hfEps c) := by
  constructor <;> intro a b i j <;> simp only [prodT, hfEps] <;> ring

theorem hfI_anti (c d : ℝ) : AntiI (hfI c d) := by
  constructor <;> intro a b i j <;> simp only [hfI, hfEps] <;> ring

set_option maxHeartbeats 2000000 in
theorem hfI_solved (ε : ℝ) : ccsd_simple hfF (hfI (ε ^ 2 - 2 * ε) 1) (fun _ _ => 0) (prodT hfEps hfEps ε) = (fun _ _ => 0, fun _ _ _ _ => 0) := by
  have e : ∀ a b i j, Spec.doubles hfF (hfI (ε ^ 2 - 2 * ε) 1) (fun _ _ => 0) (prodT hfEps hfEps ε) a b i j = 0 := fun a b i j => by
    fin_cases a <;> fin_cases b <;> fin_cases i <;> fin_cases j <;>
      simp [Spec.doubles, Spec.Pij, Spec.Pab, Spec.ovvo, Spec.ovvv, Spec.oovo, Spec.ovoo, Spec.ovov, hfF, hfI, prodT, hfEps, Fin.sum_univ_two]
    all_goals ring
  refine Prod.ext ?_ ?_
  · funext a i
    rw [C01_simple_singles_textbook _ _ (hfI_anti _ _) _ _ (prodT_anti _)]
    simp [Spec.singles, hfF, hfI, prodT, Spec.ovvo, Spec.ovvv, Spec.oovo]
  · funext a b i j
    rw [C01_simple_doubles_textbook _ _ (hfI_anti _ _) _ _ (prodT_anti _)]
    exact e a b i j

set_option maxHeartbeats 2000000 in
theorem hfI_lambda : ccsd_lambda_simple hfF (hfI (0 ^ 2 - 2 * 0) 1) (fun _ _ => 0) (prodT hfEps hfEps (-1/2)) (fun _ _ => 0) (prodT hfEps hfEps 0)
    = (fun _ _ => 0, fun _ _ _ _ => 0) := by
  have e : ∀ i j a b, LD_LD (hfI (0 ^ 2 - 2 * 0) 1).oovv hfF (hfI (0 ^ 2 - 2 * 0) 1) (prodT hfEps hfEps (-1/2)) 1 i j a b = 0 := fun i j a b => by
    fin_cases a <;> fin_cases b <;> fin_cases i <;> fin_cases j <;> simp [LD_LD, hfF, hfI, prodT, hfEps]
    all_goals norm_num
  refine Prod.ext ?_ ?_
  · funext i a
    simp [ccsd_lambda_simple, LS_TS, LS_LS, LS_LSTS, LS_LSTD, LS_LSTSS, LS_LD, LS_LDTS, LS_LDTD, LS_LDTSS, LS_LDTSD, LS_LDTSSS, hfF, hfI, prodT]
  · funext i j a b
    refine Eq.trans ?_ (e i j a b)
    simp [ccsd_lambda_simple, LD_LS, LD_LSTS, LD_LDTS, LD_LDTD, LD_LDTD_ladder, LD_LDTSS, prodT]

theorem hfI_deriv : TwoE.HasDeriv (fun ε => hfI (ε ^ 2 - 2 * ε) 1) (hfI (-2) 0) 0 := by
  refine ⟨fun _ _ _ _ => hasDerivAt_const _ _, fun _ _ _ _ => hasDerivAt_const _ _, fun _ _ _ _ => hasDerivAt_const _ _, fun a b i j => ?_,
    fun _ _ _ _ => hasDerivAt_const _ _, fun i j a b => ?_, fun _ _ _ _ => hasDerivAt_const _ _, fun _ _ _ _ => hasDerivAt_const _ _,
    fun _ _ _ _ => hasDerivAt_const _ _⟩
  · have : HasDerivAt (fun ε : ℝ => ε ^ 2 - 2 * ε) (-2) 0 := by
      simpa using ((hasDerivAt_pow 2 (0 : ℝ)).fun_sub ((hasDerivAt_id (0 : ℝ)).const_mul 2))
    exact this.mul_const _
  · simpa [hfI] using hasDerivAt_const (0 : ℝ) (hfEps i j * hfEps a b)

theorem hfI_trace : traceRdm (⟨fun _ _ => 0, fun _ _ => 0, fun _ _ => 0, fun _ _ => 0⟩ : OneE (Fin 2) (Fin 2) ℝ) (hfI (-2) 0) (fun _ _ => 0)
    (prodT hfEps hfEps (-1/2)) (fun _ _ => 0) (prodT hfEps hfEps 0) = 1 := by
  simp [traceRdm, hfI, prodT, hfEps, Fin.sum_univ_two]
  norm_num

example : HasDerivAt (fun ε : ℝ => cc_energy (fun _ _ => 0) (prodT hfEps hfEps ε) hfF.ov (hfI (ε ^ 2 - 2 * ε) 1).oovv) 1 0 := by
  have key := C56_energy_derivative (𝕜 := ℝ) (O := Fin 2) (V := Fin 2) (x := 0) (F := fun _ => hfF)
    (F' := ⟨fun _ _ => 0, fun _ _ => 0, fun _ _ => 0, fun _ _ => 0⟩) (I := fun ε => hfI (ε ^ 2 - 2 * ε) 1) (I' := hfI (-2) 0)
    (T1 := fun _ _ _ => 0) (T2 := fun ε => prodT hfEps hfEps ε) (fun _ _ => 0) (prodT hfEps hfEps (-1/2))
    ⟨fun _ _ => hasDerivAt_const _ _, fun _ _ => hasDerivAt_const _ _, fun _ _ => hasDerivAt_const _ _, fun _ _ => hasDerivAt_const _ _⟩
    hfI_deriv (fun _ _ => differentiableAt_const _) (fun _ _ _ _ => differentiableAt_id.mul_const _) (fun _ => hfI_anti _ _) (fun _ => prodT_anti _)
    (prodT_anti _) (Filter.Eventually.of_forall fun ε => hfI_solved ε) hfI_lambda
  rw [hfI_trace] at key
  exact key

end CC
