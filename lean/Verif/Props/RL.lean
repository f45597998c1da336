import Verif.Tensor.Tactic
import Verif.Model.CCUL
import Verif.Model.CCRL
import Verif.Spec.Closed
/-!
# C16, C43: restricted Lambda equations
-/
set_option linter.unusedVariables false
namespace CC
open Verif.Tensor

variable {K : Type} [Field K] [CharZero K] {O V : Type} [Fintype O] [Fintype V]

variable (F : OneE O V K) (I : TwoEFull O V O V K) (L1 : O → V → K) (L2 : O → O → V → V → K)
  (T1 : V → O → K) (T2 : V → V → O → O → K)
variable (hI : PairI I) (hL : PairSym L2) (hT : PairSym T2)
include hI hL hT

/-- C16, singles. -/
theorem C16_singles :
    (uccsd_lambda_opt F F (asymI I) (asymI I) I (L1, L1) (asym2 L2, L2, asym2 L2) (T1, T1) (asym2 T2, T2, asym2 T2)).1
    = ((rccsd_lambda_opt F I L1 L2 T1 T2).1, (rccsd_lambda_opt F I L1 L2 T1 T2).1) := by
  pair_elim hI I
  refine Prod.ext ?_ ?_
  · funext i a; tensor
  · funext i a; tensor

/-- C16, doubles. -/
theorem C16_doubles :
    (uccsd_lambda_opt F F (asymI I) (asymI I) I (L1, L1) (asym2 L2, L2, asym2 L2) (T1, T1) (asym2 T2, T2, asym2 T2)).2
    = (asym2 (rccsd_lambda_opt F I L1 L2 T1 T2).2, (rccsd_lambda_opt F I L1 L2 T1 T2).2, asym2 (rccsd_lambda_opt F I L1 L2 T1 T2).2) := by
  pair_elim hI I
  refine Prod.ext ?_ (Prod.ext ?_ ?_)
  · funext i j a b; tensor
  · funext i j a b; tensor
  · funext i j a b; tensor

/-- C16: on closed-shell input the unrestricted Lambda update is the restricted one. -/
theorem C16_rccsd_lambda :
    uccsd_lambda_opt F F (asymI I) (asymI I) I (L1, L1) (asym2 L2, L2, asym2 L2) (T1, T1) (asym2 T2, T2, asym2 T2)
    = (((rccsd_lambda_opt F I L1 L2 T1 T2).1, (rccsd_lambda_opt F I L1 L2 T1 T2).1),
       (asym2 (rccsd_lambda_opt F I L1 L2 T1 T2).2, (rccsd_lambda_opt F I L1 L2 T1 T2).2, asym2 (rccsd_lambda_opt F I L1 L2 T1 T2).2)) :=
  Prod.ext (C16_singles F I L1 L2 T1 T2 hI hL hT) (C16_doubles F I L1 L2 T1 T2 hI hL hT)

/-- C43: the multipliers returned are again symmetric under exchange of the electrons. -/
theorem C43_rccsd_lambda_pair : PairSym (rccsd_lambda_opt F I L1 L2 T1 T2).2 := by
  pair_elim hI I
  intro i j a b
  tensor

omit hL in
/-- C43, histories: closed-shell symmetry holds along any damped, denominator-weighted Lambda iteration. -/
theorem C43_rccsd_lambda_iterates (d : O → O → V → V → K) (hd : PairSym d) (w v : ℕ → K)
    (l1 : ℕ → O → V → K) (l2 : ℕ → O → O → V → V → K) (h0 : PairSym (l2 0))
    (hs : ∀ n i j a b, l2 (n+1) i j a b = w n * l2 n i j a b
      + v n * ((rccsd_lambda_opt F I (l1 n) (l2 n) T1 T2).2 i j a b * d i j a b)) :
    ∀ n, PairSym (l2 n) := by
  intro n
  induction n with
  | zero => exact h0
  | succ n ih =>
    intro i j a b
    rw [hs, hs, ih i j a b, C43_rccsd_lambda_pair F I (l1 n) (l2 n) T1 T2 hI ih hT i j a b, hd i j a b]

/-! Concrete closed-shell data with a non-zero result. -/
omit [CharZero K] [Fintype O] [Fintype V] hI hL hT in
example : PairI (IR 2 2) ∧ PairSym (TR 2 2 1) ∧ PairSym (TR 2 2 3) ∧
    (rccsd_lambda_opt (FG 2 2 1) (IR 2 2) (SG 2 2 1) (TR 2 2 3) (SG 2 2 1) (TR 2 2 1)).2 0 1 0 1 ≠ 0 :=
  ⟨IR_pair .., TR_pair _ _ _, TR_pair _ _ _, by decide +kernel⟩

end CC
