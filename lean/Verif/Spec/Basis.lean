import Verif.Model.Blocks
import Mathlib.Algebra.BigOperators.Ring.Finset
import Mathlib.Algebra.Field.Defs
/-!
# Changes of the orbital basis
-/

namespace CC
open scoped BigOperators

/-- From the orbitals `A` to the orbitals `B`: indices of bras are transformed with `bra`, indices of kets with `ket`, and
`bra† ket` is the identity on `A`.  For orbitals `φ'_x = ∑ C i x φ_i` with a unitary matrix `C`, `bra x i = conj (C i x)` and `ket i x = C i x`.
`B` may have more orbitals than `A`. -/
structure Change (A B K : Type) [Field K] [Fintype B] [DecidableEq A] where
  bra : B → A → K
  ket : A → B → K
  inv : ∀ i j, ∑ x, bra x i * ket j x = if i = j then 1 else 0

variable {A B C D A' B' C' D' O V O' V' P Q P' Q' K : Type} [Field K]
variable [Fintype A] [Fintype B] [Fintype C] [Fintype D] [Fintype A'] [Fintype B'] [Fintype C'] [Fintype D']
variable [DecidableEq A] [DecidableEq B] [DecidableEq C] [DecidableEq D]
variable [Fintype O] [Fintype V] [Fintype P] [Fintype Q] [Fintype O'] [Fintype V'] [Fintype P'] [Fintype Q']
variable [DecidableEq O] [DecidableEq V] [DecidableEq P] [DecidableEq Q]

/-- `⟨a|t|b⟩` in the new basis. -/
def rot2 (a : Change A A' K) (b : Change B B' K) (t : A → B → K) : A' → B' → K :=
  fun x y => ∑ i, ∑ j, a.bra x i * b.ket j y * t i j

/-- `⟨ab|t|cd⟩` in the new basis. -/
def rot4 (a : Change A A' K) (b : Change B B' K) (c : Change C C' K) (d : Change D D' K) (t : A → B → C → D → K) : A' → B' → C' → D' → K :=
  fun x y z w => ∑ i, ∑ j, ∑ k, ∑ l, a.bra x i * b.bra y j * c.ket k z * d.ket l w * t i j k l

/-- The Fock matrix in the new basis. -/
def OneE.rot (o : Change O O' K) (v : Change V V' K) (F : OneE O V K) : OneE O' V' K where
  oo := rot2 o o F.oo
  ov := rot2 o v F.ov
  vo := rot2 v o F.vo
  vv := rot2 v v F.vv

/-- The integrals in the new basis. -/
def TwoE.rot (o : Change O O' K) (v : Change V V' K) (I : TwoE O V K) : TwoE O' V' K where
  vvvv := rot4 v v v v I.vvvv
  vvvo := rot4 v v v o I.vvvo
  vovv := rot4 v o v v I.vovv
  vvoo := rot4 v v o o I.vvoo
  vovo := rot4 v o v o I.vovo
  oovv := rot4 o o v v I.oovv
  vooo := rot4 v o o o I.vooo
  ooov := rot4 o o o v I.ooov
  oooo := rot4 o o o o I.oooo

def TwoEFull.rot (o : Change O O' K) (v : Change V V' K) (p : Change P P' K) (q : Change Q Q' K) (I : TwoEFull O V P Q K) :
    TwoEFull O' V' P' Q' K where
  oooo := rot4 o p o p I.oooo
  ooov := rot4 o p o q I.ooov
  oovo := rot4 o p v p I.oovo
  oovv := rot4 o p v q I.oovv
  ovoo := rot4 o q o p I.ovoo
  ovov := rot4 o q o q I.ovov
  ovvo := rot4 o q v p I.ovvo
  ovvv := rot4 o q v q I.ovvv
  vooo := rot4 v p o p I.vooo
  voov := rot4 v p o q I.voov
  vovo := rot4 v p v p I.vovo
  vovv := rot4 v p v q I.vovv
  vvoo := rot4 v q o p I.vvoo
  vvov := rot4 v q o q I.vvov
  vvvo := rot4 v q v p I.vvvo
  vvvv := rot4 v q v q I.vvvv

end CC
