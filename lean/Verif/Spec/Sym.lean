import Verif.Model.Blocks
import Verif.Tensor.Ix
/-!
# Symmetry vocabulary used in the property statements

`Anti12`, `Anti34`, `PairSym` (from `Verif.Tensor.Ix`) are plain statements about index exchange.
-/

namespace CC
open Verif.Tensor

variable {K : Type} [Field K] {O V Oa Va Ob Vb : Type}

/-- Blocks of an antisymmetrised two-electron integral `⟨pq||rs⟩`: exchange of two indices of the
same kind in the bra or in the ket changes the sign.  Nothing is assumed about bra-ket exchange. -/
structure AntiI (I : TwoE O V K) : Prop where
  vvvv12 : Anti12 I.vvvv
  vvvv34 : Anti34 I.vvvv
  vvvo12 : Anti12 I.vvvo
  vovv34 : Anti34 I.vovv
  vvoo12 : Anti12 I.vvoo
  vvoo34 : Anti34 I.vvoo
  oovv12 : Anti12 I.oovv
  oovv34 : Anti34 I.oovv
  vooo34 : Anti34 I.vooo
  ooov12 : Anti12 I.ooov
  oooo12 : Anti12 I.oooo
  oooo34 : Anti34 I.oooo

/-- Both index pairs antisymmetric: doubles amplitudes and multipliers. -/
structure Anti {P Q : Type} (T : P → P → Q → Q → K) : Prop where
  a12 : Anti12 T
  a34 : Anti34 T

/-- A concrete, non-zero family of antisymmetric integrals used in the non-vacuity examples. -/
def I0 : TwoE (Fin 3) (Fin 2) ℚ where
  vvvv := fun a b c d => ((a : ℕ) - (b : ℕ) : ℚ) * ((c : ℕ) - (d : ℕ) : ℚ)
  vvvo := fun a b c i => ((a : ℕ) - (b : ℕ) : ℚ) * ((c : ℕ) + 2 * (i : ℕ) : ℚ)
  vovv := fun a i c d => ((a : ℕ) + 3 * (i : ℕ) + 1 : ℚ) * ((c : ℕ) - (d : ℕ) : ℚ)
  vvoo := fun a b i j => ((a : ℕ) - (b : ℕ) : ℚ) * ((i : ℕ) - (j : ℕ) : ℚ)
  vovo := fun a i b j => (a : ℕ) + 2 * (i : ℕ) - (b : ℕ) * (j : ℕ)
  oovv := fun i j a b => 5 * ((i : ℕ) - (j : ℕ) : ℚ) * ((a : ℕ) - (b : ℕ) : ℚ)
  vooo := fun a i j k => ((a : ℕ) + (i : ℕ) : ℚ) * ((j : ℕ) - (k : ℕ) : ℚ)
  ooov := fun i j k a => ((i : ℕ) - (j : ℕ) : ℚ) * ((k : ℕ) + (a : ℕ) : ℚ)
  oooo := fun i j k l => 7 * ((i : ℕ) - (j : ℕ) : ℚ) * ((k : ℕ) - (l : ℕ) : ℚ)

theorem I0_anti : AntiI I0 := by
  constructor <;> intro a b c d <;> simp only [I0] <;> ring

/-- Doubles amplitudes for the examples. -/
def T20 : Fin 2 → Fin 2 → Fin 3 → Fin 3 → ℚ :=
  fun a b i j => ((a : ℕ) - (b : ℕ) : ℚ) * ((i : ℕ) - (j : ℕ) : ℚ) * (1 + (i : ℕ) + (j : ℕ))

theorem T20_anti : Anti T20 := by
  constructor <;> intro a b c d <;> simp only [T20] <;> ring

/-- Doubles multipliers for the examples. -/
def L20 : Fin 3 → Fin 3 → Fin 2 → Fin 2 → ℚ :=
  fun i j a b => ((a : ℕ) - (b : ℕ) : ℚ) * ((i : ℕ) - (j : ℕ) : ℚ) * (2 + (i : ℕ) + (j : ℕ))

theorem L20_anti : Anti L20 := by
  constructor <;> intro a b c d <;> simp only [L20] <;> ring

/-- Singles amplitudes for the examples. -/
def T10 : Fin 2 → Fin 3 → ℚ := fun a i => 1 + (a : ℕ) - 2 * (i : ℕ)
/-- Singles multipliers for the examples. -/
def L10 : Fin 3 → Fin 2 → ℚ := fun i a => 2 + (a : ℕ) - (i : ℕ)

/-- Fock blocks for the examples. -/
def F0 : OneE (Fin 3) (Fin 2) ℚ where
  oo := fun i j => (i : ℕ) + 2 * (j : ℕ)
  ov := fun i a => 1 + (i : ℕ) - (a : ℕ)
  vo := fun a i => 1 + (a : ℕ) * (i : ℕ)
  vv := fun a b => 3 + (a : ℕ) - (b : ℕ)

end CC
