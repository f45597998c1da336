import Verif.Tensor.Tactic
import Verif.Model.CCURdm
import Verif.Model.CCRRdm
import Verif.Spec.Closed
/-!
# C19: restricted density matrices are the closed-shell unrestricted ones

Each statement determines every array returned by the unrestricted routine: the mixed-spin blocks are the arrays
returned by the restricted routine and the same-spin blocks are antisymmetrised restricted arrays.
-/
set_option linter.unusedVariables false
namespace CC
open Verif.Tensor

variable {K : Type} [Field K] [CharZero K] {O V : Type} [Fintype O] [Fintype V]

variable (T1 : V → O → K) (T2 : V → V → O → O → K) (L1 : O → V → K) (L2 : O → O → V → V → K) (tfac : K)
variable (hL : PairSym L2) (hT : PairSym T2)
include hL hT

/-- C19: `rccsd_1rdm_ba`. -/
theorem C19_1rdm_ba :
    uccsd_1rdm_ba T1 T1 (asym2 T2) T2 (asym2 T2) L1 L1 (asym2 L2) L2 (asym2 L2)
    = (rccsd_1rdm_ba T1 T2 L1 L2 tfac, rccsd_1rdm_ba T1 T2 L1 L2 tfac) := by
  refine Prod.ext ?_ ?_ <;> funext b a <;> tensor

/-- C19: `rccsd_1rdm_ji`. -/
theorem C19_1rdm_ji :
    uccsd_1rdm_ji T1 T1 (asym2 T2) T2 (asym2 T2) L1 L1 (asym2 L2) L2 (asym2 L2)
    = (rccsd_1rdm_ji T1 T2 L1 L2 tfac, rccsd_1rdm_ji T1 T2 L1 L2 tfac) := by
  refine Prod.ext ?_ ?_ <;> funext j i <;> tensor

/-- C19: `rccsd_1rdm_ai`. -/
theorem C19_1rdm_ai :
    uccsd_1rdm_ai T1 T1 (asym2 T2) T2 (asym2 T2) L1 L1 (asym2 L2) L2 (asym2 L2) tfac
    = (rccsd_1rdm_ai T1 T2 L1 L2 tfac, rccsd_1rdm_ai T1 T2 L1 L2 tfac) := by
  refine Prod.ext ?_ ?_ <;> funext a i <;> tensor

/-- C19: `rccsd_2rdm_ciab`. -/
theorem C19_2rdm_ciab :
    uccsd_2rdm_ciab T1 T1 (asym2 T2) T2 (asym2 T2) L1 L1 (asym2 L2) L2 (asym2 L2)
    = ((fun c i a b => rccsd_2rdm_ciab T1 T2 L1 L2 c i a b - rccsd_2rdm_ciab T1 T2 L1 L2 c i b a),
       (fun c i a b => rccsd_2rdm_ciab T1 T2 L1 L2 c i a b - rccsd_2rdm_ciab T1 T2 L1 L2 c i b a),
       rccsd_2rdm_ciab T1 T2 L1 L2,
       rccsd_2rdm_ciab T1 T2 L1 L2) := by
  refine Prod.ext ?_ (Prod.ext ?_ (Prod.ext ?_ ?_)) <;> funext c i a b <;> tensor

/-- C19: `rccsd_2rdm_jkai`. -/
theorem C19_2rdm_jkai :
    uccsd_2rdm_jkai T1 T1 (asym2 T2) T2 (asym2 T2) L1 L1 (asym2 L2) L2 (asym2 L2)
    = ((fun j k a i => rccsd_2rdm_jkai T1 T2 L1 L2 j k a i - rccsd_2rdm_jkai T1 T2 L1 L2 k j a i),
       (fun j k a i => rccsd_2rdm_jkai T1 T2 L1 L2 j k a i - rccsd_2rdm_jkai T1 T2 L1 L2 k j a i),
       rccsd_2rdm_jkai T1 T2 L1 L2,
       rccsd_2rdm_jkai T1 T2 L1 L2) := by
  refine Prod.ext ?_ (Prod.ext ?_ (Prod.ext ?_ ?_)) <;> funext j k a i <;> tensor

/-- C19: `rccsd_2rdm_cdab`. -/
theorem C19_2rdm_cdab :
    uccsd_2rdm_cdab T1 T1 (asym2 T2) T2 (asym2 T2) L1 L1 (asym2 L2) L2 (asym2 L2)
    = ((fun c d a b => rccsd_2rdm_cdab T1 T2 L1 L2 c d a b - rccsd_2rdm_cdab T1 T2 L1 L2 c d b a),
       (fun c d a b => rccsd_2rdm_cdab T1 T2 L1 L2 c d a b - rccsd_2rdm_cdab T1 T2 L1 L2 c d b a),
       rccsd_2rdm_cdab T1 T2 L1 L2) := by
  refine Prod.ext ?_ (Prod.ext ?_ ?_) <;> funext c d a b <;> tensor

/-- C19: `rccsd_2rdm_klij`. -/
theorem C19_2rdm_klij :
    uccsd_2rdm_klij T1 T1 (asym2 T2) T2 (asym2 T2) L1 L1 (asym2 L2) L2 (asym2 L2)
    = ((fun k l i j => rccsd_2rdm_klij T1 T2 L1 L2 k l i j - rccsd_2rdm_klij T1 T2 L1 L2 k l j i),
       (fun k l i j => rccsd_2rdm_klij T1 T2 L1 L2 k l i j - rccsd_2rdm_klij T1 T2 L1 L2 k l j i),
       rccsd_2rdm_klij T1 T2 L1 L2) := by
  refine Prod.ext ?_ (Prod.ext ?_ ?_) <;> funext k l i j <;> tensor

/-- C19: `rccsd_2rdm_bcai`. -/
theorem C19_2rdm_bcai :
    uccsd_2rdm_bcai T1 T1 (asym2 T2) T2 (asym2 T2) L1 L1 (asym2 L2) L2 (asym2 L2)
    = ((fun b c a i => rccsd_2rdm_bcai T1 T2 L1 L2 b c a i - rccsd_2rdm_bcai T1 T2 L1 L2 c b a i),
       (fun b c a i => rccsd_2rdm_bcai T1 T2 L1 L2 b c a i - rccsd_2rdm_bcai T1 T2 L1 L2 c b a i),
       rccsd_2rdm_bcai T1 T2 L1 L2,
       rccsd_2rdm_bcai T1 T2 L1 L2) := by
  refine Prod.ext ?_ (Prod.ext ?_ (Prod.ext ?_ ?_)) <;> funext b c a i <;> tensor

/-- C19: `rccsd_2rdm_kaij`. -/
theorem C19_2rdm_kaij :
    uccsd_2rdm_kaij T1 T1 (asym2 T2) T2 (asym2 T2) L1 L1 (asym2 L2) L2 (asym2 L2)
    = ((fun k a i j => rccsd_2rdm_kaij T1 T2 L1 L2 k a i j - rccsd_2rdm_kaij T1 T2 L1 L2 k a j i),
       (fun k a i j => rccsd_2rdm_kaij T1 T2 L1 L2 k a i j - rccsd_2rdm_kaij T1 T2 L1 L2 k a j i),
       rccsd_2rdm_kaij T1 T2 L1 L2,
       rccsd_2rdm_kaij T1 T2 L1 L2) := by
  refine Prod.ext ?_ (Prod.ext ?_ (Prod.ext ?_ ?_)) <;> funext k a i j <;> tensor

/-- C19: `rccsd_2rdm_bjai` and `rccsd_2rdm_bjia`. -/
theorem C19_2rdm_bjai :
    uccsd_2rdm_bjai T1 T1 (asym2 T2) T2 (asym2 T2) L1 L1 (asym2 L2) L2 (asym2 L2)
    = ((fun b j a i => rccsd_2rdm_bjai T1 T2 L1 L2 b j a i - rccsd_2rdm_bjia T1 T2 L1 L2 b j i a),
       (fun b j a i => rccsd_2rdm_bjai T1 T2 L1 L2 b j a i - rccsd_2rdm_bjia T1 T2 L1 L2 b j i a),
       rccsd_2rdm_bjai T1 T2 L1 L2,
       (fun b j a i => -rccsd_2rdm_bjia T1 T2 L1 L2 b j i a),
       (fun b j a i => -rccsd_2rdm_bjia T1 T2 L1 L2 b j i a),
       rccsd_2rdm_bjai T1 T2 L1 L2) := by
  refine Prod.ext ?_ (Prod.ext ?_ (Prod.ext ?_ (Prod.ext ?_ (Prod.ext ?_ ?_)))) <;> funext b j a i <;> tensor

/-- C19: `rccsd_2rdm_abij` (which has no `tfac` argument; the unrestricted routine is called with 1). -/
theorem C19_2rdm_abij :
    uccsd_2rdm_abij T1 T1 (asym2 T2) T2 (asym2 T2) L1 L1 (asym2 L2) L2 (asym2 L2) 1
    = (asym2 (rccsd_2rdm_abij T1 T2 L1 L2), asym2 (rccsd_2rdm_abij T1 T2 L1 L2), rccsd_2rdm_abij T1 T2 L1 L2) := by
  refine Prod.ext ?_ (Prod.ext ?_ ?_) <;> funext a b i j <;> tensor

/-! Concrete closed-shell data with a non-zero result. -/
omit [CharZero K] [Fintype O] [Fintype V] hL hT in
example : PairSym (TR 3 2 1) ∧ PairSym (TR 2 3 4) ∧
    rccsd_1rdm_ba (SG 3 2 1) (TR 3 2 1) (SG 2 3 2) (TR 2 3 4) 1 0 1 ≠ 0 ∧
    rccsd_2rdm_abij (SG 3 2 1) (TR 3 2 1) (SG 2 3 2) (TR 2 3 4) 0 1 1 0 ≠ 0 :=
  ⟨TR_pair _ _ _, TR_pair _ _ _, by decide +kernel, by decide +kernel⟩

end CC
