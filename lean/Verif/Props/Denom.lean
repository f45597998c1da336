import Verif.Props.LinearCC
import Verif.Props.UT
import Verif.Props.UL
import Verif.Model.Util
import Mathlib.Tactic.Linarith
/-!
# C65: orbital energies enter the residuals through the denominators only

Adding a diagonal matrix of orbital energies to the Fock matrix adds the denominators of utils.py times the amplitudes to the residuals.
-/

set_option linter.unusedSimpArgs false
set_option linter.unusedVariables false
set_option linter.unusedSectionVars false

namespace Heap
open CC Verif.Tensor
variable {n : ℕ → ℕ} {K : Type} [Field K]

section
variable {O V : Type} [DecidableEq O] [DecidableEq V] {P Q : Type}

/-- A diagonal Fock matrix. -/
def diagE (eo : O → K) (ev : V → K) : OneE O V K :=
  ⟨fun i j => if i = j then eo i else 0, fun _ _ => 0, fun _ _ => 0, fun a b => if a = b then ev a else 0⟩

/-- The Fock matrix with orbital energies added on the diagonal. -/
def _root_.CC.OneE.addDiag (F : OneE O V K) (eo : O → K) (ev : V → K) : OneE O V K :=
  ⟨fun i j => F.oo i j + if i = j then eo i else 0, F.ov, F.vo, fun a b => F.vv a b + if a = b then ev a else 0⟩

def noI (O V K : Type) [Field K] : TwoE O V K :=
  ⟨fun _ _ _ _ => 0, fun _ _ _ _ => 0, fun _ _ _ _ => 0, fun _ _ _ _ => 0, fun _ _ _ _ => 0, fun _ _ _ _ => 0, fun _ _ _ _ => 0, fun _ _ _ _ => 0,
    fun _ _ _ _ => 0⟩

def noJ (O V P Q K : Type) [Field K] : TwoEFull O V P Q K :=
  ⟨fun _ _ _ _ => 0, fun _ _ _ _ => 0, fun _ _ _ _ => 0, fun _ _ _ _ => 0, fun _ _ _ _ => 0, fun _ _ _ _ => 0, fun _ _ _ _ => 0, fun _ _ _ _ => 0,
    fun _ _ _ _ => 0, fun _ _ _ _ => 0, fun _ _ _ _ => 0, fun _ _ _ _ => 0, fun _ _ _ _ => 0, fun _ _ _ _ => 0, fun _ _ _ _ => 0, fun _ _ _ _ => 0⟩

theorem lin2_def {A B : Type} (f g : A → B → K) (x y : K) : lin2 x y f g = fun i j => x * f i j + y * g i j := rfl
theorem lin4_def {A B C D : Type} (f g : A → B → C → D → K) (x y : K) : lin4 x y f g = fun i j a b => x * f i j a b + y * g i j a b := rfl

theorem addDiag_lin (F : OneE O V K) (eo : O → K) (ev : V → K) : F.addDiag eo ev = F.lin 1 1 (diagE eo ev) := by
  simp only [OneE.addDiag, OneE.lin, diagE, lin2_def, one_mul, add_zero]

theorem noI_lin (I : TwoE O V K) : I.lin 1 1 (noI O V K) = I := by simp only [TwoE.lin, noI, lin4_def, one_mul, add_zero]
theorem noJ_lin (I : TwoEFull O V P Q K) : I.lin 1 1 (noJ O V P Q K) = I := by simp only [TwoEFull.lin, noJ, lin4_def, one_mul, add_zero]
theorem noI_anti : AntiI (noI O V K) := by constructor <;> intro _ _ _ _ <;> simp [noI]
end

section
variable {O V : Type} [Fintype O] [Fintype V] [DecidableEq O] [DecidableEq V]

/-! ### residuals of a diagonal Fock matrix without interaction -/

theorem ccsd_simple_diag (eo : O → K) (ev : V → K) (T1 : V → O → K) (T2 : V → V → O → O → K) (hX : Anti T2) :
    ccsd_simple (diagE eo ev) (noI O V K) T1 T2 = (fun a i => (ev a - eo i) * T1 a i, fun a b i j => (ev a + ev b - eo i - eo j) * T2 a b i j) := by
  refine Prod.ext ?_ ?_
  · funext x y
    simp [ccsd_simple, S_S, S_D, S_SS, S_SD, S_SSS, D_S, D_D, D_D_ladder, D_D_ring, D_SS, D_SD, D_DD, D_DD_ladder, D_DD_ring, D_SSS, D_SSD, D_SSSS, Stanton, Stanton_ccd, LS_TS, LS_LS, LS_LSTS, LS_LSTD, LS_LSTSS, LS_LD, LS_LDTS, LS_LDTD, LS_LDTSS, LS_LDTSD, LS_LDTSSS, LD_LS, LD_LSTS, LD_LD, LD_LD_ladder, LD_LDTS, LD_LDTD, LD_LDTD_ladder, LD_LDTSS, Lambda_Stanton, Lambda_opt, Lambda_opt_int, diagE, noI, ite_mul, mul_ite]
    ring
  · funext a b i j
    simp [ccsd_simple, S_S, S_D, S_SS, S_SD, S_SSS, D_S, D_D, D_D_ladder, D_D_ring, D_SS, D_SD, D_DD, D_DD_ladder, D_DD_ring, D_SSS, D_SSD, D_SSSS, Stanton, Stanton_ccd, LS_TS, LS_LS, LS_LSTS, LS_LSTD, LS_LSTSS, LS_LD, LS_LDTS, LS_LDTD, LS_LDTSS, LS_LDTSD, LS_LDTSSS, LD_LS, LD_LSTS, LD_LD, LD_LD_ladder, LD_LDTS, LD_LDTD, LD_LDTD_ladder, LD_LDTSS, Lambda_Stanton, Lambda_opt, Lambda_opt_int, diagE, noI, ite_mul, mul_ite]
    linear_combination (-ev a) * hX.a12 a b i j + eo i * hX.a34 a b i j

theorem ccsd_stanton_diag (eo : O → K) (ev : V → K) (T1 : V → O → K) (T2 : V → V → O → O → K) (hX : Anti T2) :
    ccsd_stanton (diagE eo ev) (noI O V K) T1 T2 = (fun a i => (ev a - eo i) * T1 a i, fun a b i j => (ev a + ev b - eo i - eo j) * T2 a b i j) := by
  refine Prod.ext ?_ ?_
  · funext x y
    simp [ccsd_stanton, S_S, S_D, S_SS, S_SD, S_SSS, D_S, D_D, D_D_ladder, D_D_ring, D_SS, D_SD, D_DD, D_DD_ladder, D_DD_ring, D_SSS, D_SSD, D_SSSS, Stanton, Stanton_ccd, LS_TS, LS_LS, LS_LSTS, LS_LSTD, LS_LSTSS, LS_LD, LS_LDTS, LS_LDTD, LS_LDTSS, LS_LDTSD, LS_LDTSSS, LD_LS, LD_LSTS, LD_LD, LD_LD_ladder, LD_LDTS, LD_LDTD, LD_LDTD_ladder, LD_LDTSS, Lambda_Stanton, Lambda_opt, Lambda_opt_int, diagE, noI, ite_mul, mul_ite]
    ring
  · funext a b i j
    simp [ccsd_stanton, S_S, S_D, S_SS, S_SD, S_SSS, D_S, D_D, D_D_ladder, D_D_ring, D_SS, D_SD, D_DD, D_DD_ladder, D_DD_ring, D_SSS, D_SSD, D_SSSS, Stanton, Stanton_ccd, LS_TS, LS_LS, LS_LSTS, LS_LSTD, LS_LSTSS, LS_LD, LS_LDTS, LS_LDTD, LS_LDTSS, LS_LDTSD, LS_LDTSSS, LD_LS, LD_LSTS, LD_LD, LD_LD_ladder, LD_LDTS, LD_LDTD, LD_LDTD_ladder, LD_LDTSS, Lambda_Stanton, Lambda_opt, Lambda_opt_int, diagE, noI, ite_mul, mul_ite]
    linear_combination (-ev a) * hX.a12 a b i j + eo i * hX.a34 a b i j

theorem lccsd_simple_diag (eo : O → K) (ev : V → K) (T1 : V → O → K) (T2 : V → V → O → O → K) (hX : Anti T2) :
    lccsd_simple (diagE eo ev) (noI O V K) T1 T2 = (fun a i => (ev a - eo i) * T1 a i, fun a b i j => (ev a + ev b - eo i - eo j) * T2 a b i j) := by
  refine Prod.ext ?_ ?_
  · funext x y
    simp [lccsd_simple, S_S, S_D, S_SS, S_SD, S_SSS, D_S, D_D, D_D_ladder, D_D_ring, D_SS, D_SD, D_DD, D_DD_ladder, D_DD_ring, D_SSS, D_SSD, D_SSSS, Stanton, Stanton_ccd, LS_TS, LS_LS, LS_LSTS, LS_LSTD, LS_LSTSS, LS_LD, LS_LDTS, LS_LDTD, LS_LDTSS, LS_LDTSD, LS_LDTSSS, LD_LS, LD_LSTS, LD_LD, LD_LD_ladder, LD_LDTS, LD_LDTD, LD_LDTD_ladder, LD_LDTSS, Lambda_Stanton, Lambda_opt, Lambda_opt_int, diagE, noI, ite_mul, mul_ite]
    ring
  · funext a b i j
    simp [lccsd_simple, S_S, S_D, S_SS, S_SD, S_SSS, D_S, D_D, D_D_ladder, D_D_ring, D_SS, D_SD, D_DD, D_DD_ladder, D_DD_ring, D_SSS, D_SSD, D_SSSS, Stanton, Stanton_ccd, LS_TS, LS_LS, LS_LSTS, LS_LSTD, LS_LSTSS, LS_LD, LS_LDTS, LS_LDTD, LS_LDTSS, LS_LDTSD, LS_LDTSSS, LD_LS, LD_LSTS, LD_LD, LD_LD_ladder, LD_LDTS, LD_LDTD, LD_LDTD_ladder, LD_LDTSS, Lambda_Stanton, Lambda_opt, Lambda_opt_int, diagE, noI, ite_mul, mul_ite]
    linear_combination (-ev a) * hX.a12 a b i j + eo i * hX.a34 a b i j

theorem ccd_simple_diag (eo : O → K) (ev : V → K) (T2 : V → V → O → O → K) (hX : Anti T2) :
    ccd_simple (diagE eo ev) (noI O V K) T2 = fun a b i j => (ev a + ev b - eo i - eo j) * T2 a b i j := by
  
  funext a b i j
  simp [ccd_simple, S_S, S_D, S_SS, S_SD, S_SSS, D_S, D_D, D_D_ladder, D_D_ring, D_SS, D_SD, D_DD, D_DD_ladder, D_DD_ring, D_SSS, D_SSD, D_SSSS, Stanton, Stanton_ccd, LS_TS, LS_LS, LS_LSTS, LS_LSTD, LS_LSTSS, LS_LD, LS_LDTS, LS_LDTD, LS_LDTSS, LS_LDTSD, LS_LDTSSS, LD_LS, LD_LSTS, LD_LD, LD_LD_ladder, LD_LDTS, LD_LDTD, LD_LDTD_ladder, LD_LDTSS, Lambda_Stanton, Lambda_opt, Lambda_opt_int, diagE, noI, ite_mul, mul_ite]
  linear_combination (-ev a) * hX.a12 a b i j + eo i * hX.a34 a b i j

theorem ccd_stanton_diag (eo : O → K) (ev : V → K) (T2 : V → V → O → O → K) (hX : Anti T2) :
    ccd_stanton (diagE eo ev) (noI O V K) T2 = fun a b i j => (ev a + ev b - eo i - eo j) * T2 a b i j := by
  
  funext a b i j
  simp [ccd_stanton, S_S, S_D, S_SS, S_SD, S_SSS, D_S, D_D, D_D_ladder, D_D_ring, D_SS, D_SD, D_DD, D_DD_ladder, D_DD_ring, D_SSS, D_SSD, D_SSSS, Stanton, Stanton_ccd, LS_TS, LS_LS, LS_LSTS, LS_LSTD, LS_LSTSS, LS_LD, LS_LDTS, LS_LDTD, LS_LDTSS, LS_LDTSD, LS_LDTSSS, LD_LS, LD_LSTS, LD_LD, LD_LD_ladder, LD_LDTS, LD_LDTD, LD_LDTD_ladder, LD_LDTSS, Lambda_Stanton, Lambda_opt, Lambda_opt_int, diagE, noI, ite_mul, mul_ite]
  linear_combination (-ev a) * hX.a12 a b i j + eo i * hX.a34 a b i j

theorem lccd_simple_diag (eo : O → K) (ev : V → K) (T2 : V → V → O → O → K) (hX : Anti T2) :
    lccd_simple (diagE eo ev) (noI O V K) T2 = fun a b i j => (ev a + ev b - eo i - eo j) * T2 a b i j := by
  
  funext a b i j
  simp [lccd_simple, S_S, S_D, S_SS, S_SD, S_SSS, D_S, D_D, D_D_ladder, D_D_ring, D_SS, D_SD, D_DD, D_DD_ladder, D_DD_ring, D_SSS, D_SSD, D_SSSS, Stanton, Stanton_ccd, LS_TS, LS_LS, LS_LSTS, LS_LSTD, LS_LSTSS, LS_LD, LS_LDTS, LS_LDTD, LS_LDTSS, LS_LDTSD, LS_LDTSSS, LD_LS, LD_LSTS, LD_LD, LD_LD_ladder, LD_LDTS, LD_LDTD, LD_LDTD_ladder, LD_LDTSS, Lambda_Stanton, Lambda_opt, Lambda_opt_int, diagE, noI, ite_mul, mul_ite]
  linear_combination (-ev a) * hX.a12 a b i j + eo i * hX.a34 a b i j

theorem ccsd_lambda_simple_diag (eo : O → K) (ev : V → K) (L1 : O → V → K) (L2 : O → O → V → V → K) (T1 : V → O → K) (T2 : V → V → O → O → K) (hX : Anti L2) :
    ccsd_lambda_simple (diagE eo ev) (noI O V K) L1 L2 T1 T2 = (fun i a => (ev a - eo i) * L1 i a, fun i j a b => (ev a + ev b - eo i - eo j) * L2 i j a b) := by
  refine Prod.ext ?_ ?_
  · funext x y
    simp [ccsd_lambda_simple, S_S, S_D, S_SS, S_SD, S_SSS, D_S, D_D, D_D_ladder, D_D_ring, D_SS, D_SD, D_DD, D_DD_ladder, D_DD_ring, D_SSS, D_SSD, D_SSSS, Stanton, Stanton_ccd, LS_TS, LS_LS, LS_LSTS, LS_LSTD, LS_LSTSS, LS_LD, LS_LDTS, LS_LDTD, LS_LDTSS, LS_LDTSD, LS_LDTSSS, LD_LS, LD_LSTS, LD_LD, LD_LD_ladder, LD_LDTS, LD_LDTD, LD_LDTD_ladder, LD_LDTSS, Lambda_Stanton, Lambda_opt, Lambda_opt_int, diagE, noI, ite_mul, mul_ite]
    ring
  · funext i j a b
    simp [ccsd_lambda_simple, S_S, S_D, S_SS, S_SD, S_SSS, D_S, D_D, D_D_ladder, D_D_ring, D_SS, D_SD, D_DD, D_DD_ladder, D_DD_ring, D_SSS, D_SSD, D_SSSS, Stanton, Stanton_ccd, LS_TS, LS_LS, LS_LSTS, LS_LSTD, LS_LSTSS, LS_LD, LS_LDTS, LS_LDTD, LS_LDTSS, LS_LDTSD, LS_LDTSSS, LD_LS, LD_LSTS, LD_LD, LD_LD_ladder, LD_LDTS, LD_LDTD, LD_LDTD_ladder, LD_LDTSS, Lambda_Stanton, Lambda_opt, Lambda_opt_int, diagE, noI, ite_mul, mul_ite]
    linear_combination (-ev a) * hX.a34 i j a b + eo i * hX.a12 i j a b

theorem ccsd_lambda_opt_diag (eo : O → K) (ev : V → K) (L1 : O → V → K) (L2 : O → O → V → V → K) (T1 : V → O → K) (T2 : V → V → O → O → K) (hX : Anti L2) :
    ccsd_lambda_opt (diagE eo ev) (noI O V K) L1 L2 T1 T2 = (fun i a => (ev a - eo i) * L1 i a, fun i j a b => (ev a + ev b - eo i - eo j) * L2 i j a b) := by
  refine Prod.ext ?_ ?_
  · funext x y
    simp [ccsd_lambda_opt, S_S, S_D, S_SS, S_SD, S_SSS, D_S, D_D, D_D_ladder, D_D_ring, D_SS, D_SD, D_DD, D_DD_ladder, D_DD_ring, D_SSS, D_SSD, D_SSSS, Stanton, Stanton_ccd, LS_TS, LS_LS, LS_LSTS, LS_LSTD, LS_LSTSS, LS_LD, LS_LDTS, LS_LDTD, LS_LDTSS, LS_LDTSD, LS_LDTSSS, LD_LS, LD_LSTS, LD_LD, LD_LD_ladder, LD_LDTS, LD_LDTD, LD_LDTD_ladder, LD_LDTSS, Lambda_Stanton, Lambda_opt, Lambda_opt_int, diagE, noI, ite_mul, mul_ite]
    ring
  · funext i j a b
    simp [ccsd_lambda_opt, S_S, S_D, S_SS, S_SD, S_SSS, D_S, D_D, D_D_ladder, D_D_ring, D_SS, D_SD, D_DD, D_DD_ladder, D_DD_ring, D_SSS, D_SSD, D_SSSS, Stanton, Stanton_ccd, LS_TS, LS_LS, LS_LSTS, LS_LSTD, LS_LSTSS, LS_LD, LS_LDTS, LS_LDTD, LS_LDTSS, LS_LDTSD, LS_LDTSSS, LD_LS, LD_LSTS, LD_LD, LD_LD_ladder, LD_LDTS, LD_LDTD, LD_LDTD_ladder, LD_LDTSS, Lambda_Stanton, Lambda_opt, Lambda_opt_int, diagE, noI, ite_mul, mul_ite]
    linear_combination (-ev a) * hX.a34 i j a b + eo i * hX.a12 i j a b

theorem ccsd_lambda_stanton_diag (eo : O → K) (ev : V → K) (L1 : O → V → K) (L2 : O → O → V → V → K) (T1 : V → O → K) (T2 : V → V → O → O → K) (hX : Anti L2) :
    ccsd_lambda_stanton (diagE eo ev) (noI O V K) L1 L2 T1 T2 = (fun i a => (ev a - eo i) * L1 i a, fun i j a b => (ev a + ev b - eo i - eo j) * L2 i j a b) := by
  refine Prod.ext ?_ ?_
  · funext x y
    simp [ccsd_lambda_stanton, S_S, S_D, S_SS, S_SD, S_SSS, D_S, D_D, D_D_ladder, D_D_ring, D_SS, D_SD, D_DD, D_DD_ladder, D_DD_ring, D_SSS, D_SSD, D_SSSS, Stanton, Stanton_ccd, LS_TS, LS_LS, LS_LSTS, LS_LSTD, LS_LSTSS, LS_LD, LS_LDTS, LS_LDTD, LS_LDTSS, LS_LDTSD, LS_LDTSSS, LD_LS, LD_LSTS, LD_LD, LD_LD_ladder, LD_LDTS, LD_LDTD, LD_LDTD_ladder, LD_LDTSS, Lambda_Stanton, Lambda_opt, Lambda_opt_int, diagE, noI, ite_mul, mul_ite]
    ring
  · funext i j a b
    simp [ccsd_lambda_stanton, S_S, S_D, S_SS, S_SD, S_SSS, D_S, D_D, D_D_ladder, D_D_ring, D_SS, D_SD, D_DD, D_DD_ladder, D_DD_ring, D_SSS, D_SSD, D_SSSS, Stanton, Stanton_ccd, LS_TS, LS_LS, LS_LSTS, LS_LSTD, LS_LSTSS, LS_LD, LS_LDTS, LS_LDTD, LS_LDTSS, LS_LDTSD, LS_LDTSSS, LD_LS, LD_LSTS, LD_LD, LD_LD_ladder, LD_LDTS, LD_LDTD, LD_LDTD_ladder, LD_LDTSS, Lambda_Stanton, Lambda_opt, Lambda_opt_int, diagE, noI, ite_mul, mul_ite]
    linear_combination (-ev a) * hX.a34 i j a b + eo i * hX.a12 i j a b

theorem ccd_lambda_simple_diag (eo : O → K) (ev : V → K) (L2 : O → O → V → V → K) (T2 : V → V → O → O → K) (hX : Anti L2) :
    ccd_lambda_simple (diagE eo ev) (noI O V K) L2 T2 = fun i j a b => (ev a + ev b - eo i - eo j) * L2 i j a b := by
  
  funext i j a b
  simp [ccd_lambda_simple, S_S, S_D, S_SS, S_SD, S_SSS, D_S, D_D, D_D_ladder, D_D_ring, D_SS, D_SD, D_DD, D_DD_ladder, D_DD_ring, D_SSS, D_SSD, D_SSSS, Stanton, Stanton_ccd, LS_TS, LS_LS, LS_LSTS, LS_LSTD, LS_LSTSS, LS_LD, LS_LDTS, LS_LDTD, LS_LDTSS, LS_LDTSD, LS_LDTSSS, LD_LS, LD_LSTS, LD_LD, LD_LD_ladder, LD_LDTS, LD_LDTD, LD_LDTD_ladder, LD_LDTSS, Lambda_Stanton, Lambda_opt, Lambda_opt_int, diagE, noI, ite_mul, mul_ite]
  linear_combination (-ev a) * hX.a34 i j a b + eo i * hX.a12 i j a b


theorem rccsd_stanton_diag (eo : O → K) (ev : V → K) (T1 : V → O → K) (T2 : V → V → O → O → K) (hX : PairSym T2) :
    rccsd_stanton (diagE eo ev) (noJ O V O V K) T1 T2 =
      (fun a i => (ev a - eo i) * T1 a i, fun a b i j => (ev a + ev b - eo i - eo j) * T2 a b i j) := by
  refine Prod.ext ?_ ?_
  · funext x y
    simp [rccsd_stanton, r_Stanton, r_Stanton, r_LS_TS, rccsd_Lambda_opt, diagE, noJ, ite_mul, mul_ite]
    ring
  · funext a b i j
    simp [rccsd_stanton, r_Stanton, r_Stanton, r_LS_TS, rccsd_Lambda_opt, diagE, noJ, ite_mul, mul_ite]
    linear_combination (ev a - eo i) * hX a b i j

theorem rccsd_lambda_opt_diag (eo : O → K) (ev : V → K) (L1 : O → V → K) (L2 : O → O → V → V → K) (T1 : V → O → K) (T2 : V → V → O → O → K) (hX : PairSym L2) :
    rccsd_lambda_opt (diagE eo ev) (noJ O V O V K) L1 L2 T1 T2 =
      (fun i a => (ev a - eo i) * L1 i a, fun i j a b => (ev a + ev b - eo i - eo j) * L2 i j a b) := by
  refine Prod.ext ?_ ?_
  · funext x y
    simp [rccsd_lambda_opt, r_Stanton, r_Stanton, r_LS_TS, rccsd_Lambda_opt, diagE, noJ, ite_mul, mul_ite]
    ring
  · funext a b i j
    simp [rccsd_lambda_opt, r_Stanton, r_Stanton, r_LS_TS, rccsd_Lambda_opt, diagE, noJ, ite_mul, mul_ite]
    linear_combination (ev j - eo b) * hX a b i j
end

section
variable {Oa Va Ob Vb : Type} [Fintype Oa] [Fintype Va] [Fintype Ob] [Fintype Vb] [DecidableEq Oa] [DecidableEq Va] [DecidableEq Ob] [DecidableEq Vb]

theorem diagE_spin (eoa : Oa → K) (eva : Va → K) (eob : Ob → K) (evb : Vb → K) :
    F_to_spin (diagE eoa eva) (diagE eob evb) = diagE (Sum.elim eoa eob) (Sum.elim eva evb) := by
  simp only [F_to_spin, diagE, OneE.mk.injEq]
  refine ⟨?_, ?_, ?_, ?_⟩ <;> funext x y <;> rcases x with x | x <;> rcases y with y | y <;> simp [blk2]

theorem noI_spin : int_to_spin2 (noI Oa Va K) (noI Ob Vb K) (noJ Oa Va Ob Vb K) = noI (Oa ⊕ Ob) (Va ⊕ Vb) K := by
  simp only [int_to_spin2, noI, noJ, TwoE.mk.injEq]
  refine ⟨?_, ?_, ?_, ?_, ?_, ?_, ?_, ?_, ?_⟩ <;> funext x y z w <;> rcases x with x | x <;> rcases y with y | y <;> rcases z with z | z <;>
    rcases w with w | w <;> simp [int_to_spin_block]

omit [Fintype Oa] [Fintype Va] [Fintype Ob] [Fintype Vb] in
theorem T2_to_spin_anti {T2aa : Va → Va → Oa → Oa → K} {T2ab : Va → Vb → Oa → Ob → K} {T2bb : Vb → Vb → Ob → Ob → K} (ha : Anti T2aa) (hb : Anti T2bb) :
    Anti (T2_to_spin T2aa T2ab T2bb) := by
  constructor <;> intro x y z w <;> rcases x with x | x <;> rcases y with y | y <;> rcases z with z | z <;> rcases w with w | w <;>
    first | exact ha.a12 x y z w | exact hb.a12 x y z w | exact ha.a34 x y z w | exact hb.a34 x y z w | simp [T2_to_spin]

variable [CharZero K] (eoa : Oa → K) (eva : Va → K) (eob : Ob → K) (evb : Vb → K)

theorem uccsd_stanton_diag (T1 : (Va → Oa → K) × (Vb → Ob → K)) (T2 : (Va → Va → Oa → Oa → K) × (Va → Vb → Oa → Ob → K) × (Vb → Vb → Ob → Ob → K))
    (ha : Anti T2.1) (hb : Anti T2.2.2) :
    uccsd_stanton (diagE eoa eva) (diagE eob evb) (noI Oa Va K) (noI Ob Vb K) (noJ Oa Va Ob Vb K) T1 T2 =
      ((fun a i => (eva a - eoa i) * T1.1 a i, fun a i => (evb a - eob i) * T1.2 a i),
       (fun a b i j => (eva a + eva b - eoa i - eoa j) * T2.1 a b i j, fun a b i j => (eva a + evb b - eoa i - eob j) * T2.2.1 a b i j,
        fun a b i j => (evb a + evb b - eob i - eob j) * T2.2.2 a b i j)) := by
  obtain ⟨T1a, T1b⟩ := T1
  obtain ⟨T2aa, T2ab, T2bb⟩ := T2
  rw [← C13_uccsd_extract _ _ _ _ _ _ _ _ _ _ noI_anti noI_anti ha hb, diagE_spin, noI_spin, ccsd_simple_diag _ _ _ _ (T2_to_spin_anti ha hb)]
  rfl

theorem uccsd_lambda_opt_diag (L1 : (Oa → Va → K) × (Ob → Vb → K)) (L2 : (Oa → Oa → Va → Va → K) × (Oa → Ob → Va → Vb → K) × (Ob → Ob → Vb → Vb → K))
    (T1 : (Va → Oa → K) × (Vb → Ob → K)) (T2 : (Va → Va → Oa → Oa → K) × (Va → Vb → Oa → Ob → K) × (Vb → Vb → Ob → Ob → K))
    (hLa : Anti L2.1) (hLb : Anti L2.2.2) (ha : Anti T2.1) (hb : Anti T2.2.2) :
    uccsd_lambda_opt (diagE eoa eva) (diagE eob evb) (noI Oa Va K) (noI Ob Vb K) (noJ Oa Va Ob Vb K) L1 L2 T1 T2 =
      ((fun i a => (eva a - eoa i) * L1.1 i a, fun i a => (evb a - eob i) * L1.2 i a),
       (fun i j a b => (eva a + eva b - eoa i - eoa j) * L2.1 i j a b, fun i j a b => (eva a + evb b - eoa i - eob j) * L2.2.1 i j a b,
        fun i j a b => (evb a + evb b - eob i - eob j) * L2.2.2 i j a b)) := by
  obtain ⟨T1a, T1b⟩ := T1
  obtain ⟨T2aa, T2ab, T2bb⟩ := T2
  obtain ⟨L1a, L1b⟩ := L1
  obtain ⟨L2aa, L2ab, L2bb⟩ := L2
  rw [← C15_uccsd_lambda_extract _ _ _ _ _ _ _ _ _ _ _ _ _ _ _ noI_anti noI_anti ha hb hLa hLb, diagE_spin, noI_spin,
    ccsd_lambda_simple_diag _ _ _ _ _ _ (T2_to_spin_anti hLa hLb)]
  rfl
end

/-! ### C65: the routines -/

section
variable (eo ev : ℕ → K) (F : OneE (Fin (n 0)) (Fin (n 1)) K)

theorem C65_ccsd_simple (I : TwoE (Fin (n 0)) (Fin (n 1)) K) (T1 : Fin (n 1) → Fin (n 0) → K) (T2 : Fin (n 1) → Fin (n 1) → Fin (n 0) → Fin (n 0) → K) (hX : Anti T2) :
    ccsd_simple (F.addDiag (fun i => eo i) (fun a => ev a)) I T1 T2 =
      (fun a i => (ccsd_simple F I T1 T2).1 a i + Num.D1 ev eo a i * T1 a i, fun a b i j => (ccsd_simple F I T1 T2).2 a b i j + Num.D2 ev eo a b i j * T2 a b i j) := by
  have h := C64_ccsd_simple (n := n) (x := 1) (y := 1) F (diagE (fun i => eo i) (fun a => ev a)) I (noI _ _ K) T1 T2
  rw [← addDiag_lin, noI_lin, ccsd_simple_diag _ _ _ _ hX] at h
  rw [h]
  simp only [lin2_def, lin4_def, one_mul, Num.D1, Num.D2]

theorem C65_ccsd_stanton (I : TwoE (Fin (n 0)) (Fin (n 1)) K) (T1 : Fin (n 1) → Fin (n 0) → K) (T2 : Fin (n 1) → Fin (n 1) → Fin (n 0) → Fin (n 0) → K) (hX : Anti T2) :
    ccsd_stanton (F.addDiag (fun i => eo i) (fun a => ev a)) I T1 T2 =
      (fun a i => (ccsd_stanton F I T1 T2).1 a i + Num.D1 ev eo a i * T1 a i, fun a b i j => (ccsd_stanton F I T1 T2).2 a b i j + Num.D2 ev eo a b i j * T2 a b i j) := by
  have h := C64_ccsd_stanton (n := n) (x := 1) (y := 1) F (diagE (fun i => eo i) (fun a => ev a)) I (noI _ _ K) T1 T2
  rw [← addDiag_lin, noI_lin, ccsd_stanton_diag _ _ _ _ hX] at h
  rw [h]
  simp only [lin2_def, lin4_def, one_mul, Num.D1, Num.D2]

theorem C65_lccsd_simple (I : TwoE (Fin (n 0)) (Fin (n 1)) K) (T1 : Fin (n 1) → Fin (n 0) → K) (T2 : Fin (n 1) → Fin (n 1) → Fin (n 0) → Fin (n 0) → K) (hX : Anti T2) :
    lccsd_simple (F.addDiag (fun i => eo i) (fun a => ev a)) I T1 T2 =
      (fun a i => (lccsd_simple F I T1 T2).1 a i + Num.D1 ev eo a i * T1 a i, fun a b i j => (lccsd_simple F I T1 T2).2 a b i j + Num.D2 ev eo a b i j * T2 a b i j) := by
  have h := C64_lccsd_simple (n := n) (x := 1) (y := 1) F (diagE (fun i => eo i) (fun a => ev a)) I (noI _ _ K) T1 T2
  rw [← addDiag_lin, noI_lin, lccsd_simple_diag _ _ _ _ hX] at h
  rw [h]
  simp only [lin2_def, lin4_def, one_mul, Num.D1, Num.D2]

theorem C65_ccd_simple (I : TwoE (Fin (n 0)) (Fin (n 1)) K) (T2 : Fin (n 1) → Fin (n 1) → Fin (n 0) → Fin (n 0) → K) (hX : Anti T2) :
    ccd_simple (F.addDiag (fun i => eo i) (fun a => ev a)) I T2 =
      fun a b i j => (ccd_simple F I T2) a b i j + Num.D2 ev eo a b i j * T2 a b i j := by
  have h := C64_ccd_simple (n := n) (x := 1) (y := 1) F (diagE (fun i => eo i) (fun a => ev a)) I (noI _ _ K) T2
  rw [← addDiag_lin, noI_lin, ccd_simple_diag _ _ _ hX] at h
  rw [h]
  simp only [lin2_def, lin4_def, one_mul, Num.D1, Num.D2]

theorem C65_ccd_stanton (I : TwoE (Fin (n 0)) (Fin (n 1)) K) (T2 : Fin (n 1) → Fin (n 1) → Fin (n 0) → Fin (n 0) → K) (hX : Anti T2) :
    ccd_stanton (F.addDiag (fun i => eo i) (fun a => ev a)) I T2 =
      fun a b i j => (ccd_stanton F I T2) a b i j + Num.D2 ev eo a b i j * T2 a b i j := by
  have h := C64_ccd_stanton (n := n) (x := 1) (y := 1) F (diagE (fun i => eo i) (fun a => ev a)) I (noI _ _ K) T2
  rw [← addDiag_lin, noI_lin, ccd_stanton_diag _ _ _ hX] at h
  rw [h]
  simp only [lin2_def, lin4_def, one_mul, Num.D1, Num.D2]

theorem C65_lccd_simple (I : TwoE (Fin (n 0)) (Fin (n 1)) K) (T2 : Fin (n 1) → Fin (n 1) → Fin (n 0) → Fin (n 0) → K) (hX : Anti T2) :
    lccd_simple (F.addDiag (fun i => eo i) (fun a => ev a)) I T2 =
      fun a b i j => (lccd_simple F I T2) a b i j + Num.D2 ev eo a b i j * T2 a b i j := by
  have h := C64_lccd_simple (n := n) (x := 1) (y := 1) F (diagE (fun i => eo i) (fun a => ev a)) I (noI _ _ K) T2
  rw [← addDiag_lin, noI_lin, lccd_simple_diag _ _ _ hX] at h
  rw [h]
  simp only [lin2_def, lin4_def, one_mul, Num.D1, Num.D2]

theorem C65_ccsd_lambda_simple (I : TwoE (Fin (n 0)) (Fin (n 1)) K) (L1 : Fin (n 0) → Fin (n 1) → K) (L2 : Fin (n 0) → Fin (n 0) → Fin (n 1) → Fin (n 1) → K) (T1 : Fin (n 1) → Fin (n 0) → K) (T2 : Fin (n 1) → Fin (n 1) → Fin (n 0) → Fin (n 0) → K) (hX : Anti L2) :
    ccsd_lambda_simple (F.addDiag (fun i => eo i) (fun a => ev a)) I L1 L2 T1 T2 =
      (fun i a => (ccsd_lambda_simple F I L1 L2 T1 T2).1 i a + Num.D1 ev eo a i * L1 i a, fun i j a b => (ccsd_lambda_simple F I L1 L2 T1 T2).2 i j a b + Num.D2 ev eo a b i j * L2 i j a b) := by
  have h := C64_ccsd_lambda_simple (n := n) (x := 1) (y := 1) F (diagE (fun i => eo i) (fun a => ev a)) I (noI _ _ K) L1 L2 T1 T2
  rw [← addDiag_lin, noI_lin, ccsd_lambda_simple_diag _ _ _ _ _ _ hX] at h
  rw [h]
  simp only [lin2_def, lin4_def, one_mul, Num.D1, Num.D2]

theorem C65_ccsd_lambda_opt (I : TwoE (Fin (n 0)) (Fin (n 1)) K) (L1 : Fin (n 0) → Fin (n 1) → K) (L2 : Fin (n 0) → Fin (n 0) → Fin (n 1) → Fin (n 1) → K) (T1 : Fin (n 1) → Fin (n 0) → K) (T2 : Fin (n 1) → Fin (n 1) → Fin (n 0) → Fin (n 0) → K) (hX : Anti L2) :
    ccsd_lambda_opt (F.addDiag (fun i => eo i) (fun a => ev a)) I L1 L2 T1 T2 =
      (fun i a => (ccsd_lambda_opt F I L1 L2 T1 T2).1 i a + Num.D1 ev eo a i * L1 i a, fun i j a b => (ccsd_lambda_opt F I L1 L2 T1 T2).2 i j a b + Num.D2 ev eo a b i j * L2 i j a b) := by
  have h := C64_ccsd_lambda_opt (n := n) (x := 1) (y := 1) F (diagE (fun i => eo i) (fun a => ev a)) I (noI _ _ K) L1 L2 T1 T2
  rw [← addDiag_lin, noI_lin, ccsd_lambda_opt_diag _ _ _ _ _ _ hX] at h
  rw [h]
  simp only [lin2_def, lin4_def, one_mul, Num.D1, Num.D2]

theorem C65_ccsd_lambda_stanton (I : TwoE (Fin (n 0)) (Fin (n 1)) K) (L1 : Fin (n 0) → Fin (n 1) → K) (L2 : Fin (n 0) → Fin (n 0) → Fin (n 1) → Fin (n 1) → K) (T1 : Fin (n 1) → Fin (n 0) → K) (T2 : Fin (n 1) → Fin (n 1) → Fin (n 0) → Fin (n 0) → K) (hX : Anti L2) :
    ccsd_lambda_stanton (F.addDiag (fun i => eo i) (fun a => ev a)) I L1 L2 T1 T2 =
      (fun i a => (ccsd_lambda_stanton F I L1 L2 T1 T2).1 i a + Num.D1 ev eo a i * L1 i a, fun i j a b => (ccsd_lambda_stanton F I L1 L2 T1 T2).2 i j a b + Num.D2 ev eo a b i j * L2 i j a b) := by
  have h := C64_ccsd_lambda_stanton (n := n) (x := 1) (y := 1) F (diagE (fun i => eo i) (fun a => ev a)) I (noI _ _ K) L1 L2 T1 T2
  rw [← addDiag_lin, noI_lin, ccsd_lambda_stanton_diag _ _ _ _ _ _ hX] at h
  rw [h]
  simp only [lin2_def, lin4_def, one_mul, Num.D1, Num.D2]

theorem C65_ccd_lambda_simple (I : TwoE (Fin (n 0)) (Fin (n 1)) K) (L2 : Fin (n 0) → Fin (n 0) → Fin (n 1) → Fin (n 1) → K) (T2 : Fin (n 1) → Fin (n 1) → Fin (n 0) → Fin (n 0) → K) (hX : Anti L2) :
    ccd_lambda_simple (F.addDiag (fun i => eo i) (fun a => ev a)) I L2 T2 =
      fun i j a b => (ccd_lambda_simple F I L2 T2) i j a b + Num.D2 ev eo a b i j * L2 i j a b := by
  have h := C64_ccd_lambda_simple (n := n) (x := 1) (y := 1) F (diagE (fun i => eo i) (fun a => ev a)) I (noI _ _ K) L2 T2
  rw [← addDiag_lin, noI_lin, ccd_lambda_simple_diag _ _ _ _ hX] at h
  rw [h]
  simp only [lin2_def, lin4_def, one_mul, Num.D1, Num.D2]

theorem C65_rccsd_stanton (I : TwoEFull (Fin (n 0)) (Fin (n 1)) (Fin (n 0)) (Fin (n 1)) K) (T1 : Fin (n 1) → Fin (n 0) → K) (T2 : Fin (n 1) → Fin (n 1) → Fin (n 0) → Fin (n 0) → K) (hX : PairSym T2) :
    rccsd_stanton (F.addDiag (fun i => eo i) (fun a => ev a)) I T1 T2 =
      (fun a i => (rccsd_stanton F I T1 T2).1 a i + Num.D1 ev eo a i * T1 a i, fun a b i j => (rccsd_stanton F I T1 T2).2 a b i j + Num.D2 ev eo a b i j * T2 a b i j) := by
  have h := C64_rccsd_stanton (n := n) (x := 1) (y := 1) F (diagE (fun i => eo i) (fun a => ev a)) I (noJ _ _ _ _ K) T1 T2
  rw [← addDiag_lin, noJ_lin, rccsd_stanton_diag _ _ _ _ hX] at h
  rw [h]
  simp only [lin2_def, lin4_def, one_mul, Num.D1, Num.D2]

theorem C65_rccsd_lambda_opt (I : TwoEFull (Fin (n 0)) (Fin (n 1)) (Fin (n 0)) (Fin (n 1)) K) (L1 : Fin (n 0) → Fin (n 1) → K) (L2 : Fin (n 0) → Fin (n 0) → Fin (n 1) → Fin (n 1) → K) (T1 : Fin (n 1) → Fin (n 0) → K) (T2 : Fin (n 1) → Fin (n 1) → Fin (n 0) → Fin (n 0) → K) (hX : PairSym L2) :
    rccsd_lambda_opt (F.addDiag (fun i => eo i) (fun a => ev a)) I L1 L2 T1 T2 =
      (fun i a => (rccsd_lambda_opt F I L1 L2 T1 T2).1 i a + Num.D1 ev eo a i * L1 i a, fun i j a b => (rccsd_lambda_opt F I L1 L2 T1 T2).2 i j a b + Num.D2 ev eo a b i j * L2 i j a b) := by
  have h := C64_rccsd_lambda_opt (n := n) (x := 1) (y := 1) F (diagE (fun i => eo i) (fun a => ev a)) I (noJ _ _ _ _ K) L1 L2 T1 T2
  rw [← addDiag_lin, noJ_lin, rccsd_lambda_opt_diag _ _ _ _ _ _ hX] at h
  rw [h]
  simp only [lin2_def, lin4_def, one_mul, Num.D1, Num.D2]

end

section
variable [CharZero K] (eoa eva eob evb : ℕ → K) (Fa : OneE (Fin (n 0)) (Fin (n 1)) K) (Fb : OneE (Fin (n 2)) (Fin (n 3)) K)
  (Ia : TwoE (Fin (n 0)) (Fin (n 1)) K) (Ib : TwoE (Fin (n 2)) (Fin (n 3)) K) (Iab : TwoEFull (Fin (n 0)) (Fin (n 1)) (Fin (n 2)) (Fin (n 3)) K)

theorem C65_uccsd_stanton (T1 : (Fin (n 1) → Fin (n 0) → K) × (Fin (n 3) → Fin (n 2) → K)) (T2 : (Fin (n 1) → Fin (n 1) → Fin (n 0) → Fin (n 0) → K) × (Fin (n 1) → Fin (n 3) → Fin (n 0) → Fin (n 2) → K) × (Fin (n 3) → Fin (n 3) → Fin (n 2) → Fin (n 2) → K)) (ha : Anti T2.1) (hb : Anti T2.2.2) :
    uccsd_stanton (Fa.addDiag (fun i => eoa i) (fun a => eva a)) (Fb.addDiag (fun i => eob i) (fun a => evb a)) Ia Ib Iab T1 T2 =
      ((fun a i => (uccsd_stanton Fa Fb Ia Ib Iab T1 T2).1.1 a i + Num.D1 eva eoa a i * T1.1 a i,
        fun a i => (uccsd_stanton Fa Fb Ia Ib Iab T1 T2).1.2 a i + Num.D1 evb eob a i * T1.2 a i),
       (fun a b i j => (uccsd_stanton Fa Fb Ia Ib Iab T1 T2).2.1 a b i j + Num.D2 eva eoa a b i j * T2.1 a b i j,
        fun a b i j => (uccsd_stanton Fa Fb Ia Ib Iab T1 T2).2.2.1 a b i j + Num.D2u eva evb eoa eob a b i j * T2.2.1 a b i j,
        fun a b i j => (uccsd_stanton Fa Fb Ia Ib Iab T1 T2).2.2.2 a b i j + Num.D2 evb eob a b i j * T2.2.2 a b i j)) := by
  have h := C64_uccsd_stanton (n := n) (x := 1) (y := 1) Fa (diagE (fun i => eoa i) (fun a => eva a)) Fb (diagE (fun i => eob i) (fun a => evb a))
    Ia (noI _ _ K) Ib (noI _ _ K) Iab (noJ _ _ _ _ K) T1 T2
  rw [← addDiag_lin, ← addDiag_lin, noI_lin, noI_lin, noJ_lin, uccsd_stanton_diag _ _ _ _ _ _ ha hb] at h
  rw [h]
  simp only [lin2_def, lin4_def, one_mul, Num.D1, Num.D2, Num.D2u]

theorem C65_uccsd_lambda_opt (L1 : (Fin (n 0) → Fin (n 1) → K) × (Fin (n 2) → Fin (n 3) → K)) (L2 : (Fin (n 0) → Fin (n 0) → Fin (n 1) → Fin (n 1) → K) × (Fin (n 0) → Fin (n 2) → Fin (n 1) → Fin (n 3) → K) × (Fin (n 2) → Fin (n 2) → Fin (n 3) → Fin (n 3) → K)) (T1 : (Fin (n 1) → Fin (n 0) → K) × (Fin (n 3) → Fin (n 2) → K)) (T2 : (Fin (n 1) → Fin (n 1) → Fin (n 0) → Fin (n 0) → K) × (Fin (n 1) → Fin (n 3) → Fin (n 0) → Fin (n 2) → K) × (Fin (n 3) → Fin (n 3) → Fin (n 2) → Fin (n 2) → K)) (hLa : Anti L2.1) (hLb : Anti L2.2.2) (ha : Anti T2.1) (hb : Anti T2.2.2) :
    uccsd_lambda_opt (Fa.addDiag (fun i => eoa i) (fun a => eva a)) (Fb.addDiag (fun i => eob i) (fun a => evb a)) Ia Ib Iab L1 L2 T1 T2 =
      ((fun i a => (uccsd_lambda_opt Fa Fb Ia Ib Iab L1 L2 T1 T2).1.1 i a + Num.D1 eva eoa a i * L1.1 i a,
        fun i a => (uccsd_lambda_opt Fa Fb Ia Ib Iab L1 L2 T1 T2).1.2 i a + Num.D1 evb eob a i * L1.2 i a),
       (fun i j a b => (uccsd_lambda_opt Fa Fb Ia Ib Iab L1 L2 T1 T2).2.1 i j a b + Num.D2 eva eoa a b i j * L2.1 i j a b,
        fun i j a b => (uccsd_lambda_opt Fa Fb Ia Ib Iab L1 L2 T1 T2).2.2.1 i j a b + Num.D2u eva evb eoa eob a b i j * L2.2.1 i j a b,
        fun i j a b => (uccsd_lambda_opt Fa Fb Ia Ib Iab L1 L2 T1 T2).2.2.2 i j a b + Num.D2 evb eob a b i j * L2.2.2 i j a b)) := by
  have h := C64_uccsd_lambda_opt (n := n) (x := 1) (y := 1) Fa (diagE (fun i => eoa i) (fun a => eva a)) Fb (diagE (fun i => eob i) (fun a => evb a))
    Ia (noI _ _ K) Ib (noI _ _ K) Iab (noJ _ _ _ _ K) L1 L2 T1 T2
  rw [← addDiag_lin, ← addDiag_lin, noI_lin, noI_lin, noJ_lin, uccsd_lambda_opt_diag _ _ _ _ _ _ _ _ hLa hLb ha hb] at h
  rw [h]
  simp only [lin2_def, lin4_def, one_mul, Num.D1, Num.D2, Num.D2u]

end

/-! ### C65: consequences -/

section
variable (F : OneE (Fin (n 0)) (Fin (n 1)) K) (I : TwoE (Fin (n 0)) (Fin (n 1)) K) (L1 : Fin (n 0) → Fin (n 1) → K)
  (L2 : Fin (n 0) → Fin (n 0) → Fin (n 1) → Fin (n 1) → K) (T1 : Fin (n 1) → Fin (n 0) → K) (T2 : Fin (n 1) → Fin (n 1) → Fin (n 0) → Fin (n 0) → K)

/-- C65: moving all orbital energies by the same amount changes no residual, so it changes no solution. -/
theorem C65_shift (c : K) (hT : Anti T2) (hL : Anti L2) :
    ccsd_simple (F.addDiag (fun _ => c) (fun _ => c)) I T1 T2 = ccsd_simple F I T1 T2 ∧
    ccsd_stanton (F.addDiag (fun _ => c) (fun _ => c)) I T1 T2 = ccsd_stanton F I T1 T2 ∧
    ccsd_lambda_simple (F.addDiag (fun _ => c) (fun _ => c)) I L1 L2 T1 T2 = ccsd_lambda_simple F I L1 L2 T1 T2 ∧
    ccsd_lambda_opt (F.addDiag (fun _ => c) (fun _ => c)) I L1 L2 T1 T2 = ccsd_lambda_opt F I L1 L2 T1 T2 := by
  have h1 := C65_ccsd_simple (n := n) (fun _ => c) (fun _ => c) F I T1 T2 hT
  have h2 := C65_ccsd_stanton (n := n) (fun _ => c) (fun _ => c) F I T1 T2 hT
  have h3 := C65_ccsd_lambda_simple (n := n) (fun _ => c) (fun _ => c) F I L1 L2 T1 T2 hL
  have h4 := C65_ccsd_lambda_opt (n := n) (fun _ => c) (fun _ => c) F I L1 L2 T1 T2 hL
  simp only [Num.D1, Num.D2, sub_self, add_sub_cancel_right, zero_mul, add_zero] at h1 h2 h3 h4
  exact ⟨h1, h2, h3, h4⟩

/-- C65: amplitudes solve the CCSD equations exactly if the usual update, minus the residual without the orbital energies divided by the
denominators of utils.py, leaves them unchanged. -/
theorem C65_fixed_point (eo ev : ℕ → K) (hT : Anti T2) (h1 : ∀ (a : Fin (n 1)) (i : Fin (n 0)), Num.D1 ev eo a i ≠ 0)
    (h2 : ∀ (a b : Fin (n 1)) (i j : Fin (n 0)), Num.D2 ev eo a b i j ≠ 0) :
    ccsd_simple (F.addDiag (fun i => eo i) (fun a => ev a)) I T1 T2 = (fun _ _ => 0, fun _ _ _ _ => 0) ↔
    (∀ a i, T1 a i = -(ccsd_simple F I T1 T2).1 a i / Num.D1 ev eo a i) ∧
    (∀ a b i j, T2 a b i j = -(ccsd_simple F I T1 T2).2 a b i j / Num.D2 ev eo a b i j) := by
  rw [C65_ccsd_simple (n := n) eo ev F I T1 T2 hT, Prod.ext_iff]
  simp only [funext_iff, eq_div_iff (h1 _ _), eq_div_iff (h2 _ _ _ _)]
  refine and_congr (forall_congr' fun a => forall_congr' fun i => ?_)
    (forall_congr' fun a => forall_congr' fun b => forall_congr' fun i => forall_congr' fun j => ?_)
  · exact ⟨fun h => by linear_combination h, fun h => by linear_combination h⟩
  · exact ⟨fun h => by linear_combination h, fun h => by linear_combination h⟩

/-- C65: the same for the multipliers. -/
theorem C65_lambda_fixed_point (eo ev : ℕ → K) (hL : Anti L2) (h1 : ∀ (a : Fin (n 1)) (i : Fin (n 0)), Num.D1 ev eo a i ≠ 0)
    (h2 : ∀ (a b : Fin (n 1)) (i j : Fin (n 0)), Num.D2 ev eo a b i j ≠ 0) :
    ccsd_lambda_opt (F.addDiag (fun i => eo i) (fun a => ev a)) I L1 L2 T1 T2 = (fun _ _ => 0, fun _ _ _ _ => 0) ↔
    (∀ i a, L1 i a = -(ccsd_lambda_opt F I L1 L2 T1 T2).1 i a / Num.D1 ev eo a i) ∧
    (∀ i j a b, L2 i j a b = -(ccsd_lambda_opt F I L1 L2 T1 T2).2 i j a b / Num.D2 ev eo a b i j) := by
  rw [C65_ccsd_lambda_opt (n := n) eo ev F I L1 L2 T1 T2 hL, Prod.ext_iff]
  simp only [funext_iff, eq_div_iff (h1 _ _), eq_div_iff (h2 _ _ _ _)]
  refine and_congr (forall_congr' fun i => forall_congr' fun a => ?_)
    (forall_congr' fun i => forall_congr' fun j => forall_congr' fun a => forall_congr' fun b => ?_)
  · exact ⟨fun h => by linear_combination h, fun h => by linear_combination h⟩
  · exact ⟨fun h => by linear_combination h, fun h => by linear_combination h⟩

/-- C65: without amplitudes the residuals are the bare integrals, so the first update gives the amplitudes of second-order perturbation theory. -/
theorem C65_start :
    ccsd_simple F I (fun _ _ => 0) (fun _ _ _ _ => 0) = (F.vo, I.vvoo) ∧ ccsd_stanton F I (fun _ _ => 0) (fun _ _ _ _ => 0) = (F.vo, I.vvoo) := by
  refine ⟨Prod.ext ?_ ?_, Prod.ext ?_ ?_⟩
  · funext a i
    simp [ccsd_simple, S_S, S_D, S_SS, S_SD, S_SSS, D_S, D_D, D_D_ladder, D_D_ring, D_SS, D_SD, D_DD, D_DD_ladder, D_DD_ring, D_SSS, D_SSD, D_SSSS, Stanton, Stanton_ccd]
  · funext a b i j
    simp [ccsd_simple, S_S, S_D, S_SS, S_SD, S_SSS, D_S, D_D, D_D_ladder, D_D_ring, D_SS, D_SD, D_DD, D_DD_ladder, D_DD_ring, D_SSS, D_SSD, D_SSSS, Stanton, Stanton_ccd]
  · funext a i
    simp [ccsd_stanton, S_S, S_D, S_SS, S_SD, S_SSS, D_S, D_D, D_D_ladder, D_D_ring, D_SS, D_SD, D_DD, D_DD_ladder, D_DD_ring, D_SSS, D_SSD, D_SSSS, Stanton, Stanton_ccd]
  · funext a b i j
    simp [ccsd_stanton, S_S, S_D, S_SS, S_SD, S_SSS, D_S, D_D, D_D_ladder, D_D_ring, D_SS, D_SD, D_DD, D_DD_ladder, D_DD_ring, D_SSS, D_SSD, D_SSSS, Stanton, Stanton_ccd]
end

section
variable [CharZero K] (Fa : OneE (Fin (n 0)) (Fin (n 1)) K) (Fb : OneE (Fin (n 2)) (Fin (n 3)) K)
  (Ia : TwoE (Fin (n 0)) (Fin (n 1)) K) (Ib : TwoE (Fin (n 2)) (Fin (n 3)) K) (Iab : TwoEFull (Fin (n 0)) (Fin (n 1)) (Fin (n 2)) (Fin (n 3)) K)

/-- C65: the unrestricted routines allow a separate shift for each spin. -/
theorem C65_spin_shift (ca cb : K) (T1 : (Fin (n 1) → Fin (n 0) → K) × (Fin (n 3) → Fin (n 2) → K))
    (T2 : (Fin (n 1) → Fin (n 1) → Fin (n 0) → Fin (n 0) → K) × (Fin (n 1) → Fin (n 3) → Fin (n 0) → Fin (n 2) → K) ×
      (Fin (n 3) → Fin (n 3) → Fin (n 2) → Fin (n 2) → K))
    (L1 : (Fin (n 0) → Fin (n 1) → K) × (Fin (n 2) → Fin (n 3) → K))
    (L2 : (Fin (n 0) → Fin (n 0) → Fin (n 1) → Fin (n 1) → K) × (Fin (n 0) → Fin (n 2) → Fin (n 1) → Fin (n 3) → K) ×
      (Fin (n 2) → Fin (n 2) → Fin (n 3) → Fin (n 3) → K))
    (ha : Anti T2.1) (hb : Anti T2.2.2) (hLa : Anti L2.1) (hLb : Anti L2.2.2) :
    uccsd_stanton (Fa.addDiag (fun _ => ca) (fun _ => ca)) (Fb.addDiag (fun _ => cb) (fun _ => cb)) Ia Ib Iab T1 T2 =
      uccsd_stanton Fa Fb Ia Ib Iab T1 T2 ∧
    uccsd_lambda_opt (Fa.addDiag (fun _ => ca) (fun _ => ca)) (Fb.addDiag (fun _ => cb) (fun _ => cb)) Ia Ib Iab L1 L2 T1 T2 =
      uccsd_lambda_opt Fa Fb Ia Ib Iab L1 L2 T1 T2 := by
  have h1 := C65_uccsd_stanton (n := n) (fun _ => ca) (fun _ => ca) (fun _ => cb) (fun _ => cb) Fa Fb Ia Ib Iab T1 T2 ha hb
  have h2 := C65_uccsd_lambda_opt (n := n) (fun _ => ca) (fun _ => ca) (fun _ => cb) (fun _ => cb) Fa Fb Ia Ib Iab L1 L2 T1 T2 hLa hLb ha hb
  have e : ca + cb - ca - cb = 0 := by ring
  simp only [Num.D1, Num.D2, Num.D2u, e, sub_self, add_sub_cancel_right, zero_mul, add_zero] at h1 h2
  exact ⟨h1, h2⟩
end

/-- Non-vacuity: antisymmetric amplitudes that are not zero, orbital energies with non-zero denominators. -/
example : Anti (fun a b i j : Fin 2 => ((a : ℕ) - (b : ℕ) : ℚ) * ((i : ℕ) - (j : ℕ) : ℚ)) ∧
    (∀ a i : Fin 2, Num.D1 (fun x => (1 + x : ℚ)) (fun x => (-1 - x : ℚ)) a i ≠ 0) ∧
    (∀ a b i j : Fin 2, Num.D2 (fun x => (1 + x : ℚ)) (fun x => (-1 - x : ℚ)) a b i j ≠ 0) := by
  refine ⟨⟨fun a b i j => by ring, fun a b i j => by ring⟩, fun a i => ?_, fun a b i j => ?_⟩
  · have : (0 : ℚ) < 1 + (a : ℕ) - (-1 - (i : ℕ)) := by
      have h1 : (0 : ℚ) ≤ ((a : ℕ) : ℚ) := Nat.cast_nonneg _
      have h2 : (0 : ℚ) ≤ ((i : ℕ) : ℚ) := Nat.cast_nonneg _
      linarith
    exact this.ne'
  · have : (0 : ℚ) < (1 + (a : ℕ)) + (1 + (b : ℕ)) - (-1 - (i : ℕ)) - (-1 - (j : ℕ)) := by
      have h1 : (0 : ℚ) ≤ ((a : ℕ) : ℚ) := Nat.cast_nonneg _
      have h2 : (0 : ℚ) ≤ ((i : ℕ) : ℚ) := Nat.cast_nonneg _
      have h3 : (0 : ℚ) ≤ ((b : ℕ) : ℚ) := Nat.cast_nonneg _
      have h4 : (0 : ℚ) ≤ ((j : ℕ) : ℚ) := Nat.cast_nonneg _
      linarith
    exact this.ne'

/-- The amplitudes of the update are not trivial: residuals and shift do matter when occupied and virtual energies move differently. -/
example : ccsd_simple ((diagE (fun _ => 0) (fun _ => 0) : OneE (Fin 2) (Fin 2) ℚ).addDiag (fun _ => -1) (fun _ => 1)) (noI _ _ ℚ) (fun _ _ => 1) (fun _ _ _ _ => 0) ≠
    ccsd_simple (diagE (fun _ => 0) (fun _ => 0) : OneE (Fin 2) (Fin 2) ℚ) (noI _ _ ℚ) (fun _ _ => 1) (fun _ _ _ _ => 0) := by
  rw [C65_ccsd_simple (n := fun _ => 2) (fun _ => -1) (fun _ => 1) _ _ _ _ ⟨fun _ _ _ _ => by simp, fun _ _ _ _ => by simp⟩]
  intro h
  have := congrFun (congrFun (Prod.ext_iff.1 h).1 0) 0
  simp [Num.D1] at this

end Heap
