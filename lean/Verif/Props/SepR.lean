import Verif.Tensor.Tactic
import Verif.Model.CCRT
import Verif.Model.CCEnergy
import Verif.Spec.Separate
/-!
# C52 for the restricted (closed-shell) routines
-/
set_option linter.unusedVariables false
namespace CC
open Verif.Tensor

variable {K : Type} [Field K] [CharZero K] {O V O' V' : Type} [Fintype O] [Fintype V] [Fintype O'] [Fintype V']
  (F : OneE O V K) (G : OneE O' V' K) (I : TwoEFull O V O V K) (J : TwoEFull O' V' O' V' K)
  (T1 : V → O → K) (U1 : V' → O' → K) (T2 : V → V → O → O → K) (U2 : V' → V' → O' → O' → K)

/-- C52: restricted energies add. -/
theorem C52_rcc_energy :
    rcc_energy (Sep.two T1 U1) (Sep.four T2 U2) (Sep.one F G).ov (Sep.full I J).oovv
    = rcc_energy T1 T2 F.ov I.oovv + rcc_energy U1 U2 G.ov J.oovv := by
  tensor_split [Sep.two, Sep.four, Sep.one, Sep.full]

/-- C52: the restricted CCSD equations separate. -/
theorem C52_rccsd :
    rccsd_stanton (Sep.one F G) (Sep.full I J) (Sep.two T1 U1) (Sep.four T2 U2)
    = (Sep.two (rccsd_stanton F I T1 T2).1 (rccsd_stanton G J U1 U2).1,
       Sep.four (rccsd_stanton F I T1 T2).2 (rccsd_stanton G J U1 U2).2) := by
  refine Prod.ext ?_ ?_
  · funext a i
    rcases a with a | a <;> rcases i with i | i <;> tensor_split [Sep.two, Sep.four, Sep.one, Sep.full]
  · funext a b i j
    rcases a with a | a <;> rcases b with b | b <;> rcases i with i | i <;> rcases j with j | j <;>
      tensor_split [Sep.two, Sep.four, Sep.one, Sep.full]

end CC
