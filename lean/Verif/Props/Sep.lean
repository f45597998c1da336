import Verif.Tensor.Tactic
import Verif.Model.CCGT
import Verif.Model.CCEnergy
import Verif.Model.CCGL
import Verif.Spec.Separate
import Verif.Props.GT
/-!
# C52: coupled cluster is size consistent
-/
set_option linter.unusedVariables false
namespace CC
open Verif.Tensor

variable {K : Type} [Field K] [CharZero K] {O V O' V' : Type} [Fintype O] [Fintype V] [Fintype O'] [Fintype V']

section
variable (F : OneE O V K) (G : OneE O' V' K) (I : TwoE O V K) (J : TwoE O' V' K)
  (T1 : V → O → K) (U1 : V' → O' → K) (T2 : V → V → O → O → K) (U2 : V' → V' → O' → O' → K)

/-- C52: the energy of the separated system is the sum of the energies. -/
theorem C52_energy :
    cc_energy (Sep.two T1 U1) (Sep.four T2 U2) (Sep.one F G).ov (Sep.int I J).oovv
    = cc_energy T1 T2 F.ov I.oovv + cc_energy U1 U2 G.ov J.oovv := by
  tensor_split [Sep.two, Sep.four, Sep.one, Sep.int]

/-- C52: the CCSD equations of the separated system are those of the subsystems, and no equation couples them. -/
theorem C52_ccsd_simple :
    ccsd_simple (Sep.one F G) (Sep.int I J) (Sep.two T1 U1) (Sep.four T2 U2)
    = (Sep.two (ccsd_simple F I T1 T2).1 (ccsd_simple G J U1 U2).1,
       Sep.four (ccsd_simple F I T1 T2).2 (ccsd_simple G J U1 U2).2) := by
  refine Prod.ext ?_ ?_
  · funext a i
    rcases a with a | a <;> rcases i with i | i <;> tensor_split [Sep.two, Sep.four, Sep.one, Sep.int]
  · funext a b i j
    rcases a with a | a <;> rcases b with b | b <;> rcases i with i | i <;> rcases j with j | j <;>
      tensor_split [Sep.two, Sep.four, Sep.one, Sep.int]

/-- C52 for the implementation with intermediates (no symmetry of the tensors is needed). -/
theorem C52_ccsd_stanton :
    ccsd_stanton (Sep.one F G) (Sep.int I J) (Sep.two T1 U1) (Sep.four T2 U2)
    = (Sep.two (ccsd_stanton F I T1 T2).1 (ccsd_stanton G J U1 U2).1,
       Sep.four (ccsd_stanton F I T1 T2).2 (ccsd_stanton G J U1 U2).2) := by
  refine Prod.ext ?_ ?_
  · funext a i
    rcases a with a | a <;> rcases i with i | i <;> tensor_split [Sep.two, Sep.four, Sep.one, Sep.int]
  · funext a b i j
    rcases a with a | a <;> rcases b with b | b <;> rcases i with i | i <;> rcases j with j | j <;>
      tensor_split [Sep.two, Sep.four, Sep.one, Sep.int]

/-- C52 for linearised CCSD. -/
theorem C52_lccsd :
    lccsd_simple (Sep.one F G) (Sep.int I J) (Sep.two T1 U1) (Sep.four T2 U2)
    = (Sep.two (lccsd_simple F I T1 T2).1 (lccsd_simple G J U1 U2).1,
       Sep.four (lccsd_simple F I T1 T2).2 (lccsd_simple G J U1 U2).2) := by
  refine Prod.ext ?_ ?_
  · funext a i
    rcases a with a | a <;> rcases i with i | i <;> tensor_split [Sep.two, Sep.four, Sep.one, Sep.int]
  · funext a b i j
    rcases a with a | a <;> rcases b with b | b <;> rcases i with i | i <;> rcases j with j | j <;>
      tensor_split [Sep.two, Sep.four, Sep.one, Sep.int]

/-- C52 for CCD. -/
theorem C52_ccd_simple :
    ccd_simple (Sep.one F G) (Sep.int I J) (Sep.four T2 U2)
    = Sep.four (ccd_simple F I T2) (ccd_simple G J U2) := by
  funext a b i j
  rcases a with a | a <;> rcases b with b | b <;> rcases i with i | i <;> rcases j with j | j <;>
    tensor_split [Sep.two, Sep.four, Sep.one, Sep.int]

/-- C52 for CCD with intermediates. -/
theorem C52_ccd_stanton :
    ccd_stanton (Sep.one F G) (Sep.int I J) (Sep.four T2 U2)
    = Sep.four (ccd_stanton F I T2) (ccd_stanton G J U2) := by
  funext a b i j
  rcases a with a | a <;> rcases b with b | b <;> rcases i with i | i <;> rcases j with j | j <;>
    tensor_split [Sep.two, Sep.four, Sep.one, Sep.int]

/-- C52 for linearised CCD. -/
theorem C52_lccd :
    lccd_simple (Sep.one F G) (Sep.int I J) (Sep.four T2 U2)
    = Sep.four (lccd_simple F I T2) (lccd_simple G J U2) := by
  funext a b i j
  rcases a with a | a <;> rcases b with b | b <;> rcases i with i | i <;> rcases j with j | j <;>
    tensor_split [Sep.two, Sep.four, Sep.one, Sep.int]

/-- C52 for ladder CCD. -/
theorem C52_ladder :
    ccd_ladder_simple (Sep.int I J) (Sep.four T2 U2)
    = Sep.four (ccd_ladder_simple I T2) (ccd_ladder_simple J U2) := by
  funext a b i j
  rcases a with a | a <;> rcases b with b | b <;> rcases i with i | i <;> rcases j with j | j <;>
    tensor_split [Sep.two, Sep.four, Sep.one, Sep.int]

/-- C52 for ring CCD. -/
theorem C52_ring :
    ccd_ring_simple (Sep.int I J) (Sep.four T2 U2)
    = Sep.four (ccd_ring_simple I T2) (ccd_ring_simple J U2) := by
  funext a b i j
  rcases a with a | a <;> rcases b with b | b <;> rcases i with i | i <;> rcases j with j | j <;>
    tensor_split [Sep.two, Sep.four, Sep.one, Sep.int]

/-- C52: amplitudes solving the equations of the subsystems solve those of the combined system, with the sum of the energies. -/
theorem C52_solutions (hT : ∀ a i, (ccsd_stanton F I T1 T2).1 a i = 0) (hT2 : ∀ a b i j, (ccsd_stanton F I T1 T2).2 a b i j = 0)
    (hU : ∀ a i, (ccsd_stanton G J U1 U2).1 a i = 0) (hU2 : ∀ a b i j, (ccsd_stanton G J U1 U2).2 a b i j = 0) :
    (∀ a i, (ccsd_stanton (Sep.one F G) (Sep.int I J) (Sep.two T1 U1) (Sep.four T2 U2)).1 a i = 0) ∧
    (∀ a b i j, (ccsd_stanton (Sep.one F G) (Sep.int I J) (Sep.two T1 U1) (Sep.four T2 U2)).2 a b i j = 0) ∧
    cc_energy (Sep.two T1 U1) (Sep.four T2 U2) (Sep.one F G).ov (Sep.int I J).oovv
      = cc_energy T1 T2 F.ov I.oovv + cc_energy U1 U2 G.ov J.oovv := by
  refine ⟨?_, ?_, C52_energy F G I J T1 U1 T2 U2⟩
  · rw [C52_ccsd_stanton]
    rintro (a | a) (i | i) <;> simp only [Sep.two, hT, hU]
  · rw [C52_ccsd_stanton]
    rintro (a | a) (b | b) (i | i) (j | j) <;> simp only [Sep.four, hT2, hU2]

end

/-- subsystems with different energies and a combined system with couplings inside each -/
example : cc_energy T10 T20 F0.ov I0.oovv ≠ 0 ∧
    (ccsd_stanton (Sep.one F0 F0) (Sep.int I0 I0) (Sep.two T10 T10) (Sep.four T20 T20)).2 (.inr 0) (.inr 1) (.inr 0) (.inr 1) ≠ 0 := by
  constructor
  · decide +kernel
  · rw [C52_ccsd_stanton]
    decide +kernel

end CC
