import Verif.Model.CCGT
import Verif.Model.CCEnergy
import Verif.Spec.CCSD
/-!
# Specification: the CC Lagrangian

`E(T) + ∑ Λ1·R1(T) + 1/4 ∑ Λ2·R2(T)` with the residuals of the textbook equations.
-/
namespace CC.Spec
open Finset
variable {K : Type} [Field K] {O V : Type} [Fintype O] [Fintype V]

/-- CC energy functional in textbook form. -/
def energy (F : OneE O V K) (I : TwoE O V K) (t : V → O → K) (t2 : V → V → O → O → K) : K :=
  ∑ i, ∑ a, F.ov i a * t a i + (1/4) * ∑ i, ∑ j, ∑ a, ∑ b, I.oovv i j a b * t2 a b i j
    + (1/2) * ∑ i, ∑ j, ∑ a, ∑ b, I.oovv i j a b * t a i * t b j

/-- CCSD Lagrangian built on the textbook residuals. -/
def lagrangian (F : OneE O V K) (I : TwoE O V K) (L1 : O → V → K) (L2 : O → O → V → V → K)
    (t : V → O → K) (t2 : V → V → O → O → K) : K :=
  energy F I t t2 + ∑ i, ∑ a, L1 i a * singles F I t t2 a i
    + (1/4) * ∑ i, ∑ j, ∑ a, ∑ b, L2 i j a b * doubles F I t t2 a b i j

end CC.Spec
