import Verif.Model.Blocks
import Verif.Model.CCGL
import Mathlib.Algebra.Group.Basic
/-!
# Selection rules

Orbitals are labelled by elements of a commutative group: irreducible representations of an Abelian point group, crystal momenta, projections
of the spin.  A matrix element is allowed when the labels of the bra add up to those of the ket.
-/

namespace CC
variable {B C D E O V P Q K A : Type} [Zero K] [AddCommGroup A]

/-- `⟨b|t|c⟩ = 0` unless the labels agree. -/
def Allowed2 (b : B → A) (c : C → A) (t : B → C → K) : Prop := ∀ x y, t x y ≠ 0 → b x = c y

/-- `⟨bc|t|de⟩ = 0` unless the sums of the labels agree. -/
def Allowed4 (b : B → A) (c : C → A) (d : D → A) (e : E → A) (t : B → C → D → E → K) : Prop :=
  ∀ x y z w, t x y z w ≠ 0 → b x + c y = d z + e w

/-- The Fock matrix conserves the labels. -/
structure OneE.Allowed (o : O → A) (v : V → A) (F : OneE O V K) : Prop where
  oo : Allowed2 o o F.oo
  ov : Allowed2 o v F.ov
  vo : Allowed2 v o F.vo
  vv : Allowed2 v v F.vv

/-- The interaction conserves the labels. -/
structure TwoE.Allowed (o : O → A) (v : V → A) (I : TwoE O V K) : Prop where
  vvvv : Allowed4 v v v v I.vvvv
  vvvo : Allowed4 v v v o I.vvvo
  vovv : Allowed4 v o v v I.vovv
  vvoo : Allowed4 v v o o I.vvoo
  vovo : Allowed4 v o v o I.vovo
  oovv : Allowed4 o o v v I.oovv
  vooo : Allowed4 v o o o I.vooo
  ooov : Allowed4 o o o v I.ooov
  oooo : Allowed4 o o o o I.oooo

structure TwoEFull.Allowed (o : O → A) (v : V → A) (p : P → A) (q : Q → A) (I : TwoEFull O V P Q K) : Prop where
  oooo : Allowed4 o p o p I.oooo
  ooov : Allowed4 o p o q I.ooov
  oovo : Allowed4 o p v p I.oovo
  oovv : Allowed4 o p v q I.oovv
  ovoo : Allowed4 o q o p I.ovoo
  ovov : Allowed4 o q o q I.ovov
  ovvo : Allowed4 o q v p I.ovvo
  ovvv : Allowed4 o q v q I.ovvv
  vooo : Allowed4 v p o p I.vooo
  voov : Allowed4 v p o q I.voov
  vovo : Allowed4 v p v p I.vovo
  vovv : Allowed4 v p v q I.vovv
  vvoo : Allowed4 v q o p I.vvoo
  vvov : Allowed4 v q o q I.vvov
  vvvo : Allowed4 v q v p I.vvvo
  vvvv : Allowed4 v q v q I.vvvv

/-- The precomputed intermediates of the Λ equations conserve the labels.  `IToovv` and `IToovv2` keep the amplitude `⟨ab|t|ij⟩` contracted
with an integral in the order `ijab` in which the bra is not the first pair. -/
structure LambdaInt.Allowed (o : O → A) (v : V → A) (W : LambdaInt O V K) : Prop where
  IooovT : Allowed4 o o o v W.IooovT
  IvovvT : Allowed4 v o v v W.IvovvT
  IovT : Allowed2 o v W.IovT
  IToo : Allowed2 o o W.IToo
  ITvv : Allowed2 v v W.ITvv
  ITvovo : Allowed4 v o v o W.ITvovo
  IToovv : ∀ i j a b, W.IToovv i j a b ≠ 0 → o i + v b = o j + v a
  ITvooo : Allowed4 v o o o W.ITvooo
  ITvvvo : Allowed4 v v v o W.ITvvvo
  ITov : Allowed2 o v W.ITov
  ITvovv : Allowed4 v o v v W.ITvovv
  ITooov : Allowed4 o o o v W.ITooov
  ITvovo2 : Allowed4 v o v o W.ITvovo2
  ITvvvv : Allowed4 v v v v W.ITvvvv
  IToooo : Allowed4 o o o o W.IToooo
  IToovv2 : ∀ i j a b, W.IToovv2 i j a b ≠ 0 → o j + v a = o i + v b

end CC
