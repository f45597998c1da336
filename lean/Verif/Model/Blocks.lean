/-
Containers for blocked integrals, cqcpy/ov_blocks.py.
-/
import Mathlib.Algebra.Field.Defs
import Mathlib.Algebra.BigOperators.Group.Finset.Basic
import Mathlib.Data.Fintype.Basic

namespace CC

/-- `one_e_blocks`, ov_blocks.py:1-6.  Blocks of a one-electron operator; index types `O`
(occupied) and `V` (virtual) replace the array extents. -/
structure OneE (O V K : Type) where
  oo : O → O → K
  ov : O → V → K
  vo : V → O → K
  vv : V → V → K

/-- `two_e_blocks`, ov_blocks.py:9-21 (nine blocks). -/
structure TwoE (O V K : Type) where
  vvvv : V → V → V → V → K
  vvvo : V → V → V → O → K
  vovv : V → O → V → V → K
  vvoo : V → V → O → O → K
  vovo : V → O → V → O → K
  oovv : O → O → V → V → K
  vooo : V → O → O → O → K
  ooov : O → O → O → V → K
  oooo : O → O → O → O → K

/-- `two_e_blocks_full`, ov_blocks.py:44-65 (all sixteen blocks).  The index types of electron 1
(positions 1 and 3) and electron 2 (positions 2 and 4) may differ, as for the mixed-spin
integrals `Iabab`. -/
structure TwoEFull (O₁ V₁ O₂ V₂ K : Type) where
  oooo : O₁ → O₂ → O₁ → O₂ → K
  ooov : O₁ → O₂ → O₁ → V₂ → K
  oovo : O₁ → O₂ → V₁ → O₂ → K
  oovv : O₁ → O₂ → V₁ → V₂ → K
  ovoo : O₁ → V₂ → O₁ → O₂ → K
  ovov : O₁ → V₂ → O₁ → V₂ → K
  ovvo : O₁ → V₂ → V₁ → O₂ → K
  ovvv : O₁ → V₂ → V₁ → V₂ → K
  vooo : V₁ → O₂ → O₁ → O₂ → K
  voov : V₁ → O₂ → O₁ → V₂ → K
  vovo : V₁ → O₂ → V₁ → O₂ → K
  vovv : V₁ → O₂ → V₁ → V₂ → K
  vvoo : V₁ → V₂ → O₁ → O₂ → K
  vvov : V₁ → V₂ → O₁ → V₂ → K
  vvvo : V₁ → V₂ → V₁ → O₂ → K
  vvvv : V₁ → V₂ → V₁ → V₂ → K

end CC
