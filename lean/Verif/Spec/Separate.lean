import Verif.Spec.Sym
/-!
# Two subsystems that do not interact

The orbitals of the combined system are those of the two subsystems (disjoint unions of the index types).  Tensors of the combined system
are zero unless all indices belong to the same subsystem.
-/
namespace CC.Sep

variable {K : Type} [Field K] {O V O' V' : Type}

def two {P Q P' Q' : Type} (A : P → Q → K) (B : P' → Q' → K) : P ⊕ P' → Q ⊕ Q' → K
  | .inl x, .inl y => A x y
  | .inr x, .inr y => B x y
  | _, _ => 0

def four {P Q R S P' Q' R' S' : Type} (A : P → Q → R → S → K) (B : P' → Q' → R' → S' → K) :
    P ⊕ P' → Q ⊕ Q' → R ⊕ R' → S ⊕ S' → K
  | .inl x, .inl y, .inl z, .inl w => A x y z w
  | .inr x, .inr y, .inr z, .inr w => B x y z w
  | _, _, _, _ => 0

def one (F : OneE O V K) (G : OneE O' V' K) : OneE (O ⊕ O') (V ⊕ V') K where
  oo := two F.oo G.oo
  ov := two F.ov G.ov
  vo := two F.vo G.vo
  vv := two F.vv G.vv

def int (I : TwoE O V K) (J : TwoE O' V' K) : TwoE (O ⊕ O') (V ⊕ V') K where
  vvvv := four I.vvvv J.vvvv
  vvvo := four I.vvvo J.vvvo
  vovv := four I.vovv J.vovv
  vvoo := four I.vvoo J.vvoo
  vovo := four I.vovo J.vovo
  oovv := four I.oovv J.oovv
  vooo := four I.vooo J.vooo
  ooov := four I.ooov J.ooov
  oooo := four I.oooo J.oooo

/-- The same with, in addition, elements in which each subsystem has one index of each pair (`X`); they are antisymmetric. -/
def fourX {P R P' R' : Type} (A : P → P → R → R → K) (B : P' → P' → R' → R' → K) (X : P → P' → R → R' → K) :
    P ⊕ P' → P ⊕ P' → R ⊕ R' → R ⊕ R' → K
  | .inl x, .inl y, .inl z, .inl w => A x y z w
  | .inr x, .inr y, .inr z, .inr w => B x y z w
  | .inl x, .inr y, .inl z, .inr w => X x y z w
  | .inr x, .inl y, .inr z, .inl w => X y x w z
  | .inl x, .inr y, .inr z, .inl w => -X x y w z
  | .inr x, .inl y, .inl z, .inr w => -X y x z w
  | _, _, _, _ => 0

def full (I : TwoEFull O V O V K) (J : TwoEFull O' V' O' V' K) : TwoEFull (O ⊕ O') (V ⊕ V') (O ⊕ O') (V ⊕ V') K where
  oooo := four I.oooo J.oooo
  ooov := four I.ooov J.ooov
  oovo := four I.oovo J.oovo
  oovv := four I.oovv J.oovv
  ovoo := four I.ovoo J.ovoo
  ovov := four I.ovov J.ovov
  ovvo := four I.ovvo J.ovvo
  ovvv := four I.ovvv J.ovvv
  vooo := four I.vooo J.vooo
  voov := four I.voov J.voov
  vovo := four I.vovo J.vovo
  vovv := four I.vovv J.vovv
  vvoo := four I.vvoo J.vvoo
  vvov := four I.vvov J.vvov
  vvvo := four I.vvvo J.vvvo
  vvvv := four I.vvvv J.vvvv

end CC.Sep
