import Verif.Tensor.Tactic
import Verif.Model.CCGT
import Verif.Model.CCGL
import Verif.Model.CCGRdm
import Verif.Spec.Separate
/-!
# C52, Lambda equations and density matrices of separated systems
-/
set_option linter.unusedVariables false
namespace CC
open Verif.Tensor

variable {K : Type} [Field K] [CharZero K] {O V O' V' : Type} [Fintype O] [Fintype V] [Fintype O'] [Fintype V']
  (F : OneE O V K) (G : OneE O' V' K) (I : TwoE O V K) (J : TwoE O' V' K)
  (T1 : V → O → K) (U1 : V' → O' → K) (T2 : V → V → O → O → K) (U2 : V' → V' → O' → O' → K)
  (L1 : O → V → K) (M1 : O' → V' → K) (L2 : O → O → V → V → K) (M2 : O' → O' → V' → V' → K) (X : O → O' → V → V' → K)

/-- C52: the Lambda equations for the singles separate, whatever the multipliers `X` that couple the subsystems. -/
theorem C52_lambda_singles :
    (ccsd_lambda_simple (Sep.one F G) (Sep.int I J) (Sep.two L1 M1) (Sep.fourX L2 M2 X) (Sep.two T1 U1) (Sep.four T2 U2)).1
    = Sep.two (ccsd_lambda_simple F I L1 L2 T1 T2).1 (ccsd_lambda_simple G J M1 M2 U1 U2).1 := by
  funext i a
  rcases i with i | i <;> rcases a with a | a <;> tensor_split [Sep.two, Sep.four, Sep.fourX, Sep.one, Sep.int]

/-- C52: so do those for the doubles within each subsystem. -/
theorem C52_lambda_doubles (i j : O) (a b : V) :
    (ccsd_lambda_simple (Sep.one F G) (Sep.int I J) (Sep.two L1 M1) (Sep.fourX L2 M2 X) (Sep.two T1 U1) (Sep.four T2 U2)).2 (.inl i) (.inl j) (.inl a) (.inl b)
    = (ccsd_lambda_simple F I L1 L2 T1 T2).2 i j a b := by
  tensor_split [Sep.two, Sep.four, Sep.fourX, Sep.one, Sep.int]

theorem C52_lambda_doubles' (i j : O') (a b : V') :
    (ccsd_lambda_simple (Sep.one F G) (Sep.int I J) (Sep.two L1 M1) (Sep.fourX L2 M2 X) (Sep.two T1 U1) (Sep.four T2 U2)).2 (.inr i) (.inr j) (.inr a) (.inr b)
    = (ccsd_lambda_simple G J M1 M2 U1 U2).2 i j a b := by
  tensor_split [Sep.two, Sep.four, Sep.fourX, Sep.one, Sep.int]

/-- C52: unlike the amplitudes, multipliers that couple the subsystems do not stay zero: their equation has the source `F̄(i,a) λ(j,b)`. -/
theorem C52_lambda_coupling (i : O) (j : O') (a : V) (b : V') :
    (ccsd_lambda_simple (Sep.one F G) (Sep.int I J) (Sep.two L1 M1) (Sep.four L2 M2) (Sep.two T1 U1) (Sep.four T2 U2)).2 (.inl i) (.inr j) (.inl a) (.inr b)
    = (F.ov i a + ∑ k, ∑ c, I.oovv i k a c * T1 c k) * M1 j b + L1 i a * (G.ov j b + ∑ k, ∑ c, J.oovv j k b c * U1 c k) := by
  tensor_split [Sep.two, Sep.four, Sep.fourX, Sep.one, Sep.int]

/-- C52: block `ba` of the one-particle density matrix separates, whatever the coupling multipliers. -/
theorem C52_1rdm_ba :
    ccsd_1rdm_ba (Sep.two T1 U1) (Sep.four T2 U2) (Sep.two L1 M1) (Sep.fourX L2 M2 X)
    = Sep.two (ccsd_1rdm_ba T1 T2 L1 L2) (ccsd_1rdm_ba U1 U2 M1 M2) := by
  funext p q
  rcases p with p | p <;> rcases q with q | q <;> tensor_split [Sep.two, Sep.four, Sep.fourX, Sep.one, Sep.int]

/-- C52: block `ba` of the one-particle density matrix separates, whatever the coupling multipliers. -/
theorem C52_1rdm_ba_opt :
    ccsd_1rdm_ba_opt (Sep.two T1 U1) (Sep.four T2 U2) (Sep.two L1 M1) (Sep.fourX L2 M2 X)
    = Sep.two (ccsd_1rdm_ba_opt T1 T2 L1 L2) (ccsd_1rdm_ba_opt U1 U2 M1 M2) := by
  funext p q
  rcases p with p | p <;> rcases q with q | q <;> tensor_split [Sep.two, Sep.four, Sep.fourX, Sep.one, Sep.int]

/-- C52: block `ji` of the one-particle density matrix separates, whatever the coupling multipliers. -/
theorem C52_1rdm_ji :
    ccsd_1rdm_ji (Sep.two T1 U1) (Sep.four T2 U2) (Sep.two L1 M1) (Sep.fourX L2 M2 X)
    = Sep.two (ccsd_1rdm_ji T1 T2 L1 L2) (ccsd_1rdm_ji U1 U2 M1 M2) := by
  funext p q
  rcases p with p | p <;> rcases q with q | q <;> tensor_split [Sep.two, Sep.four, Sep.fourX, Sep.one, Sep.int]

/-- C52: block `ji` of the one-particle density matrix separates, whatever the coupling multipliers. -/
theorem C52_1rdm_ji_opt :
    ccsd_1rdm_ji_opt (Sep.two T1 U1) (Sep.four T2 U2) (Sep.two L1 M1) (Sep.fourX L2 M2 X)
    = Sep.two (ccsd_1rdm_ji_opt T1 T2 L1 L2) (ccsd_1rdm_ji_opt U1 U2 M1 M2) := by
  funext p q
  rcases p with p | p <;> rcases q with q | q <;> tensor_split [Sep.two, Sep.four, Sep.fourX, Sep.one, Sep.int]

/-- C52: block `ai` of the one-particle density matrix separates, whatever the coupling multipliers. -/
theorem C52_1rdm_ai (tfac : K) :
    ccsd_1rdm_ai (Sep.two T1 U1) (Sep.four T2 U2) (Sep.two L1 M1) (Sep.fourX L2 M2 X) tfac
    = Sep.two (ccsd_1rdm_ai T1 T2 L1 L2 tfac) (ccsd_1rdm_ai U1 U2 M1 M2 tfac) := by
  funext p q
  rcases p with p | p <;> rcases q with q | q <;> tensor_split [Sep.two, Sep.four, Sep.fourX, Sep.one, Sep.int]

/-- C52: block `ai` of the one-particle density matrix separates, whatever the coupling multipliers. -/
theorem C52_1rdm_ai_opt (tfac : K) :
    ccsd_1rdm_ai_opt (Sep.two T1 U1) (Sep.four T2 U2) (Sep.two L1 M1) (Sep.fourX L2 M2 X) tfac
    = Sep.two (ccsd_1rdm_ai_opt T1 T2 L1 L2 tfac) (ccsd_1rdm_ai_opt U1 U2 M1 M2 tfac) := by
  funext p q
  rcases p with p | p <;> rcases q with q | q <;> tensor_split [Sep.two, Sep.four, Sep.fourX, Sep.one, Sep.int]

/-- the source of the coupling multipliers is not zero in general -/
example : (ccsd_lambda_simple (Sep.one F0 F0) (Sep.int I0 I0) (Sep.two L10 L10) (Sep.four L20 L20) (Sep.two T10 T10) (Sep.four T20 T20)).2
    (.inl 0) (.inr 1) (.inl 0) (.inr 1) ≠ 0 := by
  rw [C52_lambda_coupling]
  decide +kernel

end CC
