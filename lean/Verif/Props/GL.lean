import Verif.Tensor.Tactic
import Verif.Model.CCGL
import Verif.Spec.Sym
/-!
# C05, C07, C08: Lambda equations, generalized spin-orbitals
-/
set_option linter.unusedVariables false
namespace CC
open Verif.Tensor

variable {K : Type} [Field K] [CharZero K] {O V : Type} [Fintype O] [Fintype V]

section C05
variable (F : OneE O V K) (I : TwoE O V K) (hI : AntiI I)
  (L1 : O → V → K) (L2 : O → O → V → V → K) (hL : Anti L2)
  (T1 : V → O → K) (T2 : V → V → O → O → K) (hT : Anti T2)
include hI hL hT

/-- C05: `ccsd_lambda_opt` agrees with `ccsd_lambda_simple`. -/
theorem C05_opt_eq_simple :
    ccsd_lambda_opt F I L1 L2 T1 T2 = ccsd_lambda_simple F I L1 L2 T1 T2 := by
  obtain ⟨_, _⟩ := hT
  obtain ⟨_, _⟩ := hL
  obtain ⟨_, _, _, _, _, _, _, _, _, _, _, _⟩ := hI
  refine Prod.ext ?_ ?_
  · funext i a; tensor
  · funext i j a b; tensor

/-- C05: `ccsd_lambda_stanton` agrees with `ccsd_lambda_simple`. -/
theorem C05_stanton_eq_simple :
    ccsd_lambda_stanton F I L1 L2 T1 T2 = ccsd_lambda_simple F I L1 L2 T1 T2 := by
  obtain ⟨_, _⟩ := hT
  obtain ⟨_, _⟩ := hL
  obtain ⟨_, _, _, _, _, _, _, _, _, _, _, _⟩ := hI
  refine Prod.ext ?_ ?_
  · funext i a; tensor
  · funext i j a b; tensor

/-- C05: `ccsd_lambda_opt_int` with the precomputed intermediates `lambda_int(F,I,T1,T2)` agrees with
`ccsd_lambda_simple`. -/
theorem C05_opt_int_eq_simple :
    ccsd_lambda_opt_int F I L1 L2 T1 T2 (lambda_int F I T1 T2)
      = ccsd_lambda_simple F I L1 L2 T1 T2 := by
  obtain ⟨_, _⟩ := hT
  obtain ⟨_, _⟩ := hL
  obtain ⟨_, _, _, _, _, _, _, _, _, _, _, _⟩ := hI
  refine Prod.ext ?_ ?_
  · funext i a; tensor
  · funext i j a b; tensor

end C05

example : AntiI I0 ∧ Anti T20 ∧ Anti L20 ∧ (ccsd_lambda_simple F0 I0 L10 L20 T10 T20).1 0 1 ≠ 0 :=
  ⟨I0_anti, T20_anti, L20_anti, by decide +kernel⟩

/-! ## C07 -/

/-- C07: CCD Lambda is CCSD Lambda at zero singles (amplitudes and multipliers). -/
theorem C07_ccd_lambda (F : OneE O V K) (I : TwoE O V K) (L2 : O → O → V → V → K)
    (T2 : V → V → O → O → K) :
    (ccsd_lambda_simple F I (fun _ _ => 0) L2 (fun _ _ => 0) T2).2 = ccd_lambda_simple F I L2 T2 := by
  funext i j a b; tensor

example : (ccd_lambda_simple F0 I0 L20 T20) 0 1 0 1 ≠ 0 := by decide +kernel

/-! ## C08 -/

theorem C08_simple (F : OneE O V K) (I : TwoE O V K) (hI : AntiI I)
    (L1 : O → V → K) (L2 : O → O → V → V → K) (hL : Anti L2)
    (T1 : V → O → K) (T2 : V → V → O → O → K) (hT : Anti T2) :
    Anti (ccsd_lambda_simple F I L1 L2 T1 T2).2 := by
  obtain ⟨_, _⟩ := hT
  obtain ⟨_, _⟩ := hL
  obtain ⟨_, _, _, _, _, _, _, _, _, _, _, _⟩ := hI
  constructor
  · intro i j a b; tensor
  · intro i j a b; tensor

/-- C08 for all four CCSD implementations. -/
theorem C08_all (F : OneE O V K) (I : TwoE O V K) (hI : AntiI I)
    (L1 : O → V → K) (L2 : O → O → V → V → K) (hL : Anti L2)
    (T1 : V → O → K) (T2 : V → V → O → O → K) (hT : Anti T2) :
    Anti (ccsd_lambda_opt F I L1 L2 T1 T2).2 ∧ Anti (ccsd_lambda_stanton F I L1 L2 T1 T2).2 ∧
    Anti (ccsd_lambda_opt_int F I L1 L2 T1 T2 (lambda_int F I T1 T2)).2 := by
  rw [C05_opt_eq_simple F I hI L1 L2 hL T1 T2 hT, C05_stanton_eq_simple F I hI L1 L2 hL T1 T2 hT,
    C05_opt_int_eq_simple F I hI L1 L2 hL T1 T2 hT]
  have h := C08_simple F I hI L1 L2 hL T1 T2 hT
  exact ⟨h, h, h⟩

theorem C08_ccd (F : OneE O V K) (I : TwoE O V K) (hI : AntiI I)
    (L2 : O → O → V → V → K) (hL : Anti L2) (T2 : V → V → O → O → K) (hT : Anti T2) :
    Anti (ccd_lambda_simple F I L2 T2) := by
  rw [← C07_ccd_lambda]; exact C08_simple F I hI _ L2 hL _ T2 hT

/-- C08, histories: any damped, denominator-weighted Lambda iteration stays antisymmetric. -/
theorem C08_iterates (F : OneE O V K) (I : TwoE O V K) (hI : AntiI I)
    (T1 : V → O → K) (T2 : V → V → O → O → K) (hT : Anti T2)
    (d : O → O → V → V → K) (hd1 : ∀ i j a b, d j i a b = d i j a b)
    (hd2 : ∀ i j a b, d i j b a = d i j a b) (w v : ℕ → K)
    (L1 : ℕ → O → V → K) (L2 : ℕ → O → O → V → V → K) (h0 : Anti (L2 0))
    (hs : ∀ n i j a b, L2 (n+1) i j a b
      = w n * L2 n i j a b + v n * ((ccsd_lambda_opt F I (L1 n) (L2 n) T1 T2).2 i j a b * d i j a b)) :
    ∀ n, Anti (L2 n) := by
  intro n
  induction n with
  | zero => exact h0
  | succ n ih =>
    have h := (C08_all F I hI (L1 n) (L2 n) ih T1 T2 hT).1
    constructor
    · intro i j a b
      rw [hs, hs, ih.a12 i j, h.a12 i j, hd1 i j]; ring
    · intro i j a b
      rw [hs, hs, ih.a34 i j a b, h.a34 i j a b, hd2 i j]; ring

example : AntiI I0 ∧ Anti T20 ∧ Anti L20 ∧ ∃ d : Fin 3 → Fin 3 → Fin 2 → Fin 2 → ℚ,
    (∀ a b i j, d b a i j = d a b i j) ∧ (∀ a b i j, d a b j i = d a b i j) ∧ d 0 1 0 1 ≠ 0 :=
  ⟨I0_anti, T20_anti, L20_anti, fun a b i j => 1 / (1 + (a : ℕ) + (b : ℕ) + (i : ℕ) + (j : ℕ)),
    by intros; ring, by intros; ring, by norm_num⟩

end CC
