import Verif.Props.Proj
/-!
# Projection of the dressed Hamiltonian on singles
-/
set_option linter.unusedSectionVars false
set_option linter.unusedSimpArgs false
namespace Sq
open Finset CC Verif.Tensor

variable {K O V M : Type} [Field K] [CharZero K] [DecidableEq O] [DecidableEq V] [AddCommGroup M] [Module K M]
  [Fintype O] [Fintype V] {C : CAR K (O ⊕ V) M} (Φ : Ref C) {t : V → O → K} {t2 : V → V → O → O → K}

set_option maxHeartbeats 40000000 in
theorem proj_s (A : OneE O V K) (I : TwoE O V K) (hI : AntiI I) (hT : Anti t2) (a : V) (i : O) :
    Φ.vev (C.g i * C.d a * bar C t t2 (ham C (one A) (full I))) = Spec.singles (fock (one A) (full I)) I t t2 a i := by
  rw [bar_ham C t t2 hT]
  vev_simp C hT
  dl_simp
  obtain ⟨h1, h2⟩ := hT
  obtain ⟨_, _, _, _, _, _, _, _, _, _, _, _⟩ := hI
  simp only [refEnergy, fock, one, full]
  tensor

end Sq
