import Verif.Tensor.Tactic
import Verif.Model.CCGL
import Verif.Spec.Sym
import Verif.Spec.Lagrangian
import Verif.Props.GL
import Mathlib.Analysis.Calculus.Deriv.Pow
import Mathlib.Analysis.Calculus.Deriv.Add
import Mathlib.Analysis.Calculus.Deriv.Mul
import Mathlib.Analysis.Normed.Field.Lemmas
import Mathlib.Analysis.Normed.Ring.Lemmas
/-!
# C06, C07: the Lambda equations are the derivative of the Lagrangian
-/
set_option linter.unusedVariables false
namespace CC
open Verif.Tensor

section algebra
variable {K : Type} [Field K] [CharZero K] {O V : Type} [Fintype O] [Fintype V]

/-- Expansion of the Lagrangian around `(T1, T2)` in the direction `(X1, X2)`, to first order. -/
theorem C06_expansion (F : OneE O V K) (I : TwoE O V K) (hI : AntiI I)
    (L1 : O → V → K) (L2 : O → O → V → V → K) (hL : Anti L2)
    (T1 X1 : V → O → K) (T2 X2 : V → V → O → O → K) (hT : Anti T2) (hX : Anti X2) :
    EqMod 2
      (fun ε => Spec.lagrangian F I L1 L2 (fun a i => T1 a i + ε * X1 a i)
        (fun a b i j => T2 a b i j + ε * X2 a b i j))
      (fun ε => Spec.lagrangian F I L1 L2 T1 T2
        + ε * ((∑ i, ∑ a, X1 a i * (ccsd_lambda_simple F I L1 L2 T1 T2).1 i a)
          + (1/4) * (∑ i, ∑ j, ∑ a, ∑ b, X2 a b i j * (ccsd_lambda_simple F I L1 L2 T1 T2).2 i j a b))) := by
  obtain ⟨_, _⟩ := hT
  obtain ⟨_, _⟩ := hX
  obtain ⟨_, _⟩ := hL
  obtain ⟨_, _, _, _, _, _, _, _, _, _, _, _⟩ := hI
  tensor_mod

/-- The Lagrangian of the specification is the one built from the project's own energy and residual
routines. -/
theorem C06_lagrangian_from_code (F : OneE O V K) (I : TwoE O V K) (hI : AntiI I)
    (L1 : O → V → K) (L2 : O → O → V → V → K) (T1 : V → O → K) (T2 : V → V → O → O → K) (hT : Anti T2) :
    cc_energy T1 T2 F.ov I.oovv
      + (∑ i, ∑ a, L1 i a * (ccsd_simple F I T1 T2).1 a i)
      + (1/4) * (∑ i, ∑ j, ∑ a, ∑ b, L2 i j a b * (ccsd_simple F I T1 T2).2 a b i j)
      = Spec.lagrangian F I L1 L2 T1 T2 := by
  obtain ⟨_, _⟩ := hT
  obtain ⟨_, _, _, _, _, _, _, _, _, _, _, _⟩ := hI
  tensor

end algebra

/-- The linear coefficient of an expansion to first order is the derivative. -/
theorem hasDerivAt_of_eqMod {𝕜 : Type} [NontriviallyNormedField 𝕜] (f : 𝕜 → 𝕜) (A B : 𝕜)
    (h : EqMod 2 f (fun ε => A + ε * B)) : HasDerivAt f B 0 := by
  obtain ⟨N, c, h⟩ := h
  have hf : f = fun ε => (A + ε * B) + ∑ k ∈ Finset.range N, c k * ε ^ (2 + k) := funext h
  rw [hf]
  have h1 : HasDerivAt (fun ε : 𝕜 => A + ε * B) B 0 := by
    have := ((hasDerivAt_id (0 : 𝕜)).mul_const B).const_add A
    simpa using this
  have h2 : HasDerivAt (fun ε : 𝕜 => ∑ k ∈ Finset.range N, c k * ε ^ (2 + k)) 0 0 := by
    have : HasDerivAt (fun ε : 𝕜 => ∑ k ∈ Finset.range N, c k * ε ^ (2 + k))
        (∑ k ∈ Finset.range N, c k * ((2 + k : ℕ) * (0 : 𝕜) ^ (2 + k - 1))) 0 :=
      HasDerivAt.fun_sum fun k _ => ((hasDerivAt_pow (2 + k) (0 : 𝕜)).const_mul (c k))
    have e : (∑ k ∈ Finset.range N, c k * ((2 + k : ℕ) * (0 : 𝕜) ^ (2 + k - 1))) = 0 :=
      Finset.sum_eq_zero fun k _ => by
        rw [zero_pow (by omega)]; ring
    rwa [e] at this
  have h3 := h1.add h2
  rw [add_zero] at h3
  exact h3

/-- Kronecker delta -/
def dl {𝕜 X : Type} [Field 𝕜] [DecidableEq X] (x y : X) : 𝕜 := if x = y then 1 else 0

theorem sum_dl {𝕜 O V : Type} [Field 𝕜] [Fintype O] [Fintype V] [DecidableEq O] [DecidableEq V]
    (R : O → O → V → V → 𝕜) (i j : O) (a b : V) :
    ∑ i', ∑ j', ∑ a', ∑ b', dl b' b * dl a' a * dl j' j * dl i' i * R i' j' a' b' = R i j a b := by
  simp [dl]

section analysis
variable {𝕜 : Type} [NontriviallyNormedField 𝕜] [CharZero 𝕜] {O V : Type} [Fintype O] [Fintype V]

/-- Directional derivative of the Lagrangian with respect to the amplitudes. -/
def Spec.IsLagDeriv (F : OneE O V 𝕜) (I : TwoE O V 𝕜) (L1 : O → V → 𝕜) (L2 : O → O → V → V → 𝕜)
    (T1 : V → O → 𝕜) (T2 : V → V → O → O → 𝕜) (X1 : V → O → 𝕜) (X2 : V → V → O → O → 𝕜) (d : 𝕜) : Prop :=
  HasDerivAt (fun ε : 𝕜 => Spec.lagrangian F I L1 L2 (fun a i => T1 a i + ε * X1 a i)
    (fun a b i j => T2 a b i j + ε * X2 a b i j)) d 0

variable (F : OneE O V 𝕜) (I : TwoE O V 𝕜) (hI : AntiI I)
  (L1 : O → V → 𝕜) (L2 : O → O → V → V → 𝕜) (hL : Anti L2)
  (T1 : V → O → 𝕜) (T2 : V → V → O → O → 𝕜) (hT : Anti T2)
include hI hL hT

/-- C06: the Lambda residuals are the gradient of the Lagrangian (singles: plain derivative; doubles: with
the weight 1/4 that corresponds to the pairs of an antisymmetric tensor). -/
theorem C06_lambda_is_gradient (X1 : V → O → 𝕜) (X2 : V → V → O → O → 𝕜) (hX : Anti X2) :
    Spec.IsLagDeriv F I L1 L2 T1 T2 X1 X2
      ((∑ i, ∑ a, X1 a i * (ccsd_lambda_simple F I L1 L2 T1 T2).1 i a)
        + (1/4) * (∑ i, ∑ j, ∑ a, ∑ b, X2 a b i j * (ccsd_lambda_simple F I L1 L2 T1 T2).2 i j a b)) :=
  hasDerivAt_of_eqMod _ _ _ (C06_expansion F I hI L1 L2 hL T1 X1 T2 X2 hT hX)

/-- C06 for the other three implementations. -/
theorem C06_all_implementations (X1 : V → O → 𝕜) (X2 : V → V → O → O → 𝕜) (hX : Anti X2)
    (R : (O → V → 𝕜) × (O → O → V → V → 𝕜))
    (hR : R = ccsd_lambda_opt F I L1 L2 T1 T2 ∨ R = ccsd_lambda_stanton F I L1 L2 T1 T2
      ∨ R = ccsd_lambda_opt_int F I L1 L2 T1 T2 (lambda_int F I T1 T2)) :
    Spec.IsLagDeriv F I L1 L2 T1 T2 X1 X2
      ((∑ i, ∑ a, X1 a i * R.1 i a) + (1/4) * (∑ i, ∑ j, ∑ a, ∑ b, X2 a b i j * R.2 i j a b)) := by
  have h := C06_lambda_is_gradient F I hI L1 L2 hL T1 T2 hT X1 X2 hX
  rcases hR with rfl | rfl | rfl
  · rw [C05_opt_eq_simple F I hI L1 L2 hL T1 T2 hT]; exact h
  · rw [C05_stanton_eq_simple F I hI L1 L2 hL T1 T2 hT]; exact h
  · rw [C05_opt_int_eq_simple F I hI L1 L2 hL T1 T2 hT]; exact h

/-- C06: both Lambda residuals vanish exactly at the stationary points of the Lagrangian. -/
theorem C06_lambda_zero_iff_stationary [DecidableEq O] [DecidableEq V] :
    ((∀ i a, (ccsd_lambda_simple F I L1 L2 T1 T2).1 i a = 0) ∧
      ∀ i j a b, (ccsd_lambda_simple F I L1 L2 T1 T2).2 i j a b = 0) ↔
    ∀ X1 X2, Anti X2 → Spec.IsLagDeriv F I L1 L2 T1 T2 X1 X2 0 := by
  constructor
  · rintro ⟨h1, h2⟩ X1 X2 hX
    have := C06_lambda_is_gradient F I hI L1 L2 hL T1 T2 hT X1 X2 hX
    simpa [h1, h2] using this
  · intro h
    have key : ∀ (X1 : V → O → 𝕜) (X2 : V → V → O → O → 𝕜), Anti X2 →
        ((∑ i, ∑ a, X1 a i * (ccsd_lambda_simple F I L1 L2 T1 T2).1 i a)
        + (1/4) * (∑ i, ∑ j, ∑ a, ∑ b, X2 a b i j * (ccsd_lambda_simple F I L1 L2 T1 T2).2 i j a b)) = 0 :=
      fun X1 X2 hX => (C06_lambda_is_gradient F I hI L1 L2 hL T1 T2 hT X1 X2 hX).unique (h X1 X2 hX)
    have hz : Anti (fun (_ : V) (_ : V) (_ : O) (_ : O) => (0 : 𝕜)) :=
      ⟨fun _ _ _ _ => by simp, fun _ _ _ _ => by simp⟩
    constructor
    · intro i a
      have := key (fun b j => if b = a ∧ j = i then 1 else 0) _ hz
      simpa [ite_and] using this
    · intro i j a b
      obtain ⟨A12, A34⟩ := C08_simple F I hI L1 L2 hL T1 T2 hT
      have hX : Anti (fun (a' b' : V) (i' j' : O) =>
          dl b' b * dl a' a * dl j' j * dl i' i - dl a' b * dl b' a * dl j' j * dl i' i
          - dl b' b * dl a' a * dl i' j * dl j' i + dl a' b * dl b' a * dl i' j * dl j' i : V → V → O → O → 𝕜) :=
        ⟨fun _ _ _ _ => by ring, fun _ _ _ _ => by ring⟩
      have := key (fun _ _ => 0) _ hX
      have e1 : (∑ i', ∑ j', ∑ a', ∑ b', (dl b' b * dl a' a * dl j' j * dl i' i - dl a' b * dl b' a * dl j' j * dl i' i
          - dl b' b * dl a' a * dl i' j * dl j' i + dl a' b * dl b' a * dl i' j * dl j' i)
            * (ccsd_lambda_simple F I L1 L2 T1 T2).2 i' j' a' b')
          = 4 * (ccsd_lambda_simple F I L1 L2 T1 T2).2 i j a b := by
        generalize (ccsd_lambda_simple F I L1 L2 T1 T2).2 = R at A12 A34 ⊢
        have s1 := sum_dl R i j a b
        have s2 := sum_dl R i j b a
        have s3 := sum_dl R j i a b
        have s4 := sum_dl R j i b a
        have e : ∀ i' j' a' b', (dl b' b * dl a' a * dl j' j * dl i' i - dl a' b * dl b' a * dl j' j * dl i' i
          - dl b' b * dl a' a * dl i' j * dl j' i + dl a' b * dl b' a * dl i' j * dl j' i) * R i' j' a' b'
          = dl b' b * dl a' a * dl j' j * dl i' i * R i' j' a' b' - dl b' a * dl a' b * dl j' j * dl i' i * R i' j' a' b'
          - dl b' b * dl a' a * dl j' i * dl i' j * R i' j' a' b'
          + dl b' a * dl a' b * dl j' i * dl i' j * R i' j' a' b' := fun _ _ _ _ => by ring
        simp only [e, Finset.sum_add_distrib, Finset.sum_sub_distrib, s1, s2, s3, s4]
        have a1 := A34 i j a b
        have a2 := A12 i j a b
        have a3 := A12 i j b a
        linear_combination -a1 - a2 + a3 - a1
      rw [e1] at this
      have h4 : (4 : 𝕜) ≠ 0 := by
        have : ((4 : ℕ) : 𝕜) ≠ 0 := by exact_mod_cast (by decide : (4 : ℕ) ≠ 0)
        exact_mod_cast this
      simp only [zero_mul, Finset.sum_const_zero, zero_add] at this
      have h3 : (1 / 4 : 𝕜) * (4 * (ccsd_lambda_simple F I L1 L2 T1 T2).2 i j a b)
          = (ccsd_lambda_simple F I L1 L2 T1 T2).2 i j a b := by field_simp
      rw [← h3]; exact this

omit hI hL hT in
/-- C07: the CCD Lambda residual is the gradient of the CCD Lagrangian
`E(0, T2) + 1/4 ∑ Λ2·R2(0, T2)` with respect to the doubles. -/
theorem C07_ccd_lambda_is_gradient (hI : AntiI I) (hL : Anti L2) (hT : Anti T2)
    (X2 : V → V → O → O → 𝕜) (hX : Anti X2) :
    HasDerivAt (fun ε : 𝕜 =>
        Spec.energy F I (fun _ _ => 0) (fun a b i j => T2 a b i j + ε * X2 a b i j)
        + (1/4) * ∑ i, ∑ j, ∑ a, ∑ b, L2 i j a b *
            Spec.doubles F I (fun _ _ => 0) (fun a b i j => T2 a b i j + ε * X2 a b i j) a b i j)
      ((1/4) * (∑ i, ∑ j, ∑ a, ∑ b, X2 a b i j * ccd_lambda_simple F I L2 T2 i j a b)) 0 := by
  have h := C06_lambda_is_gradient F I hI (fun _ _ => 0) L2 hL (fun _ _ => 0) T2 hT (fun _ _ => 0) X2 hX
  rw [C07_ccd_lambda] at h
  simpa [Spec.IsLagDeriv, Spec.lagrangian] using h

end analysis

/-! The hypotheses are satisfied by the data of `Verif/Spec/Sym.lean`, where neither residual vanishes. -/
example : AntiI I0 ∧ Anti T20 ∧ Anti L20 ∧ (ccsd_lambda_simple F0 I0 L10 L20 T10 T20).1 0 1 ≠ 0
    ∧ (ccsd_lambda_simple F0 I0 L10 L20 T10 T20).2 0 1 0 1 ≠ 0 :=
  ⟨I0_anti, T20_anti, L20_anti, by decide +kernel, by decide +kernel⟩

example : Spec.IsLagDeriv F0 I0 L10 L20 T10 T20 T10 T20
    ((∑ i, ∑ a, T10 a i * (ccsd_lambda_simple F0 I0 L10 L20 T10 T20).1 i a)
      + (1/4) * (∑ i, ∑ j, ∑ a, ∑ b, T20 a b i j * (ccsd_lambda_simple F0 I0 L10 L20 T10 T20).2 i j a b)) :=
  C06_lambda_is_gradient F0 I0 I0_anti L10 L20 L20_anti T10 T20 T20_anti T10 T20 T20_anti

end CC
