/-
Conversions between spin-orbital and spin-blocked tensors, cqcpy/spin_utils.py.

Axes: an axis of extent `na + nb` whose first `na` entries are alpha (slice `[:na]`) and whose
last `nb` entries are beta (slice `[na:]`) is modelled by the disjoint union of the two index
types; the slices are then the two constructors.  The numeric version (`Fin (na + nb)`, slice tests on
the index value) and its agreement with this one are in `Verif/Model/SpinFin.lean`.
The extents `noa nva nob nvb` passed to the functions are therefore implicit in the types.
The bodies of `int_to_spin` and `int_to_spin2` were transcribed mechanically.
-/
import Verif.Model.Blocks
import Mathlib.Algebra.Ring.Defs

namespace CC

variable {K : Type} [Field K] {Oa Va Ob Vb : Type}

/-- A matrix with two diagonal blocks: the statement pattern
`X = numpy.zeros((p, q)); X[:na, :ma] = A; X[na:, ma:] = B` of spin_utils.py:10-24, 51-53. -/
def blk2 {P Q R S : Type} (A : P → Q → K) (B : R → S → K) : P ⊕ R → Q ⊕ S → K
  | .inl x, .inl y => A x y
  | .inr x, .inr y => B x y
  | _, _ => 0

/-- `F_to_spin`, spin_utils.py:7-26. -/
def F_to_spin (Faa : OneE Oa Va K) (Fbb : OneE Ob Vb K) : OneE (Oa ⊕ Ob) (Va ⊕ Vb) K where
  oo := blk2 Faa.oo Fbb.oo
  ov := blk2 Faa.ov Fbb.ov
  vo := blk2 Faa.vo Fbb.vo
  vv := blk2 Faa.vv Fbb.vv

/-- `F_to_spatial`, spin_utils.py:29-45. -/
def F_to_spatial (F : OneE (Oa ⊕ Ob) (Va ⊕ Vb) K) : OneE Oa Va K × OneE Ob Vb K :=
  (⟨fun i j => F.oo (.inl i) (.inl j), fun i a => F.ov (.inl i) (.inl a),
    fun a i => F.vo (.inl a) (.inl i), fun a b => F.vv (.inl a) (.inl b)⟩,
   ⟨fun i j => F.oo (.inr i) (.inr j), fun i a => F.ov (.inr i) (.inr a),
    fun a i => F.vo (.inr a) (.inr i), fun a b => F.vv (.inr a) (.inr b)⟩)

/-- `T1_to_spin`, spin_utils.py:48-54. -/
def T1_to_spin (Ta : Va → Oa → K) (Tb : Vb → Ob → K) : Va ⊕ Vb → Oa ⊕ Ob → K := blk2 Ta Tb

/-- `T1_to_spatial`, spin_utils.py:57-60. -/
def T1_to_spatial (T : Va ⊕ Vb → Oa ⊕ Ob → K) : (Va → Oa → K) × (Vb → Ob → K) :=
  (fun a i => T (.inl a) (.inl i), fun a i => T (.inr a) (.inr i))

/-- `T2_to_spin`, spin_utils.py:87-97. -/
def T2_to_spin (Taa : Va → Va → Oa → Oa → K) (Tab : Va → Vb → Oa → Ob → K) (Tbb : Vb → Vb → Ob → Ob → K) :
    Va ⊕ Vb → Va ⊕ Vb → Oa ⊕ Ob → Oa ⊕ Ob → K
  | .inl a, .inl b, .inl i, .inl j => Taa a b i j
  | .inr a, .inr b, .inr i, .inr j => Tbb a b i j
  | .inl a, .inr b, .inl i, .inr j => Tab a b i j
  | .inr a, .inl b, .inr i, .inl j => Tab b a j i
  | .inl a, .inr b, .inr i, .inl j => -Tab a b j i
  | .inr a, .inl b, .inl i, .inr j => -Tab b a i j
  | _, _, _, _ => 0

/-- `D2_to_spin`, spin_utils.py:100-110. -/
def D2_to_spin (Daa : Va → Va → Oa → Oa → K) (Dab : Va → Vb → Oa → Ob → K) (Dbb : Vb → Vb → Ob → Ob → K) :
    Va ⊕ Vb → Va ⊕ Vb → Oa ⊕ Ob → Oa ⊕ Ob → K
  | .inl a, .inl b, .inl i, .inl j => Daa a b i j
  | .inr a, .inr b, .inr i, .inr j => Dbb a b i j
  | .inl a, .inr b, .inl i, .inr j => Dab a b i j
  | .inr a, .inl b, .inr i, .inl j => Dab b a j i
  | .inl a, .inr b, .inr i, .inl j => Dab a b j i
  | .inr a, .inl b, .inl i, .inr j => Dab b a i j
  | _, _, _, _ => 0

/-- `T2_to_spatial`, spin_utils.py:113-117. -/
def T2_to_spatial (T : Va ⊕ Vb → Va ⊕ Vb → Oa ⊕ Ob → Oa ⊕ Ob → K) :
    (Va → Va → Oa → Oa → K) × (Va → Vb → Oa → Ob → K) × (Vb → Vb → Ob → Ob → K) :=
  (fun a b i j => T (.inl a) (.inl b) (.inl i) (.inl j),
   fun a b i j => T (.inl a) (.inr b) (.inl i) (.inr j),
   fun a b i j => T (.inr a) (.inr b) (.inr i) (.inr j))

/-- `int_to_spin_block`, spin_utils.py:120-133. -/
def int_to_spin_block {P P' Q Q' R R' S S' : Type} (aaaa : P → Q → R → S → K) (bbbb : P' → Q' → R' → S' → K)
    (abab : P → Q' → R → S' → K) (baba : P' → Q → R' → S → K) (abba : P → Q' → R' → S → K)
    (baab : P' → Q → R → S' → K) : P ⊕ P' → Q ⊕ Q' → R ⊕ R' → S ⊕ S' → K
  | .inl x, .inl y, .inl z, .inl w => aaaa x y z w
  | .inr x, .inr y, .inr z, .inr w => bbbb x y z w
  | .inl x, .inr y, .inl z, .inr w => abab x y z w
  | .inl x, .inr y, .inr z, .inl w => abba x y z w
  | .inr x, .inl y, .inl z, .inr w => baab x y z w
  | .inr x, .inl y, .inr z, .inl w => baba x y z w
  | _, _, _, _ => 0

/-- `int_to_spin`, spin_utils.py:136-239. -/
def int_to_spin (I_aaaa : TwoEFull Oa Va Oa Va K) (I_bbbb : TwoEFull Ob Vb Ob Vb K) (I_abab : TwoEFull Oa Va Ob Vb K) :
    TwoE (Oa ⊕ Ob) (Va ⊕ Vb) K where
  vvvv := int_to_spin_block
    (fun x y z w => I_aaaa.vvvv x y z w - I_aaaa.vvvv x y w z)
    (fun x y z w => I_bbbb.vvvv x y z w - I_bbbb.vvvv x y w z)
    (fun x y z w => I_abab.vvvv x y z w)
    (fun x y z w => I_abab.vvvv y x w z)
    (fun x y z w => -I_abab.vvvv x y w z)
    (fun x y z w => -I_abab.vvvv y x z w)
  vvvo := int_to_spin_block
    (fun x y z w => I_aaaa.vvvo x y z w - I_aaaa.vvov x y w z)
    (fun x y z w => I_bbbb.vvvo x y z w - I_bbbb.vvov x y w z)
    (fun x y z w => I_abab.vvvo x y z w)
    (fun x y z w => I_abab.vvov y x w z)
    (fun x y z w => -I_abab.vvov x y w z)
    (fun x y z w => -I_abab.vvvo y x z w)
  vovv := int_to_spin_block
    (fun x y z w => I_aaaa.vovv x y z w - I_aaaa.vovv x y w z)
    (fun x y z w => I_bbbb.vovv x y z w - I_bbbb.vovv x y w z)
    (fun x y z w => I_abab.vovv x y z w)
    (fun x y z w => I_abab.ovvv y x w z)
    (fun x y z w => -I_abab.vovv x y w z)
    (fun x y z w => -I_abab.ovvv y x z w)
  vvoo := int_to_spin_block
    (fun x y z w => I_aaaa.vvoo x y z w - I_aaaa.vvoo x y w z)
    (fun x y z w => I_bbbb.vvoo x y z w - I_bbbb.vvoo x y w z)
    (fun x y z w => I_abab.vvoo x y z w)
    (fun x y z w => I_abab.vvoo y x w z)
    (fun x y z w => -I_abab.vvoo x y w z)
    (fun x y z w => -I_abab.vvoo y x z w)
  vovo := int_to_spin_block
    (fun x y z w => I_aaaa.vovo x y z w - I_aaaa.voov x y w z)
    (fun x y z w => I_bbbb.vovo x y z w - I_bbbb.voov x y w z)
    (fun x y z w => I_abab.vovo x y z w)
    (fun x y z w => I_abab.ovov y x w z)
    (fun x y z w => -I_abab.voov x y w z)
    (fun x y z w => -I_abab.ovvo y x z w)
  oovv := int_to_spin_block
    (fun x y z w => I_aaaa.oovv x y z w - I_aaaa.oovv x y w z)
    (fun x y z w => I_bbbb.oovv x y z w - I_bbbb.oovv x y w z)
    (fun x y z w => I_abab.oovv x y z w)
    (fun x y z w => I_abab.oovv y x w z)
    (fun x y z w => -I_abab.oovv x y w z)
    (fun x y z w => -I_abab.oovv y x z w)
  vooo := int_to_spin_block
    (fun x y z w => I_aaaa.vooo x y z w - I_aaaa.vooo x y w z)
    (fun x y z w => I_bbbb.vooo x y z w - I_bbbb.vooo x y w z)
    (fun x y z w => I_abab.vooo x y z w)
    (fun x y z w => I_abab.ovoo y x w z)
    (fun x y z w => -I_abab.vooo x y w z)
    (fun x y z w => -I_abab.ovoo y x z w)
  ooov := int_to_spin_block
    (fun x y z w => I_aaaa.ooov x y z w - I_aaaa.oovo x y w z)
    (fun x y z w => I_bbbb.ooov x y z w - I_bbbb.oovo x y w z)
    (fun x y z w => I_abab.ooov x y z w)
    (fun x y z w => I_abab.oovo y x w z)
    (fun x y z w => -I_abab.oovo x y w z)
    (fun x y z w => -I_abab.ooov y x z w)
  oooo := int_to_spin_block
    (fun x y z w => I_aaaa.oooo x y z w - I_aaaa.oooo x y w z)
    (fun x y z w => I_bbbb.oooo x y z w - I_bbbb.oooo x y w z)
    (fun x y z w => I_abab.oooo x y z w)
    (fun x y z w => I_abab.oooo y x w z)
    (fun x y z w => -I_abab.oooo x y w z)
    (fun x y z w => -I_abab.oooo y x z w)

/-- `int_to_spin2`, spin_utils.py:242-345. -/
def int_to_spin2 (I_aaaa : TwoE Oa Va K) (I_bbbb : TwoE Ob Vb K) (I_abab : TwoEFull Oa Va Ob Vb K) :
    TwoE (Oa ⊕ Ob) (Va ⊕ Vb) K where
  vvvv := int_to_spin_block
    (fun x y z w => I_aaaa.vvvv x y z w)
    (fun x y z w => I_bbbb.vvvv x y z w)
    (fun x y z w => I_abab.vvvv x y z w)
    (fun x y z w => I_abab.vvvv y x w z)
    (fun x y z w => -I_abab.vvvv x y w z)
    (fun x y z w => -I_abab.vvvv y x z w)
  vvvo := int_to_spin_block
    (fun x y z w => I_aaaa.vvvo x y z w)
    (fun x y z w => I_bbbb.vvvo x y z w)
    (fun x y z w => I_abab.vvvo x y z w)
    (fun x y z w => I_abab.vvov y x w z)
    (fun x y z w => -I_abab.vvov x y w z)
    (fun x y z w => -I_abab.vvvo y x z w)
  vovv := int_to_spin_block
    (fun x y z w => I_aaaa.vovv x y z w)
    (fun x y z w => I_bbbb.vovv x y z w)
    (fun x y z w => I_abab.vovv x y z w)
    (fun x y z w => I_abab.ovvv y x w z)
    (fun x y z w => -I_abab.vovv x y w z)
    (fun x y z w => -I_abab.ovvv y x z w)
  vvoo := int_to_spin_block
    (fun x y z w => I_aaaa.vvoo x y z w)
    (fun x y z w => I_bbbb.vvoo x y z w)
    (fun x y z w => I_abab.vvoo x y z w)
    (fun x y z w => I_abab.vvoo y x w z)
    (fun x y z w => -I_abab.vvoo x y w z)
    (fun x y z w => -I_abab.vvoo y x z w)
  vovo := int_to_spin_block
    (fun x y z w => I_aaaa.vovo x y z w)
    (fun x y z w => I_bbbb.vovo x y z w)
    (fun x y z w => I_abab.vovo x y z w)
    (fun x y z w => I_abab.ovov y x w z)
    (fun x y z w => -I_abab.voov x y w z)
    (fun x y z w => -I_abab.ovvo y x z w)
  oovv := int_to_spin_block
    (fun x y z w => I_aaaa.oovv x y z w)
    (fun x y z w => I_bbbb.oovv x y z w)
    (fun x y z w => I_abab.oovv x y z w)
    (fun x y z w => I_abab.oovv y x w z)
    (fun x y z w => -I_abab.oovv x y w z)
    (fun x y z w => -I_abab.oovv y x z w)
  vooo := int_to_spin_block
    (fun x y z w => I_aaaa.vooo x y z w)
    (fun x y z w => I_bbbb.vooo x y z w)
    (fun x y z w => I_abab.vooo x y z w)
    (fun x y z w => I_abab.ovoo y x w z)
    (fun x y z w => -I_abab.vooo x y w z)
    (fun x y z w => -I_abab.ovoo y x z w)
  ooov := int_to_spin_block
    (fun x y z w => I_aaaa.ooov x y z w)
    (fun x y z w => I_bbbb.ooov x y z w)
    (fun x y z w => I_abab.ooov x y z w)
    (fun x y z w => I_abab.oovo y x w z)
    (fun x y z w => -I_abab.oovo x y w z)
    (fun x y z w => -I_abab.ooov y x z w)
  oooo := int_to_spin_block
    (fun x y z w => I_aaaa.oooo x y z w)
    (fun x y z w => I_bbbb.oooo x y z w)
    (fun x y z w => I_abab.oooo x y z w)
    (fun x y z w => I_abab.oooo y x w z)
    (fun x y z w => -I_abab.oooo x y w z)
    (fun x y z w => -I_abab.oooo y x z w)

/-- `int_to_spatial`, spin_utils.py:348-397.  (The python function takes its extents in the order
`noa, nob, nva, nvb`, unlike the other functions of the module.) -/
def int_to_spatial (I : TwoE (Oa ⊕ Ob) (Va ⊕ Vb) K) :
    TwoE Oa Va K × TwoE Ob Vb K × TwoEFull Oa Va Ob Vb K :=
  ({ vvvv := fun x y z w => I.vvvv (.inl x) (.inl y) (.inl z) (.inl w)
     vvvo := fun x y z w => I.vvvo (.inl x) (.inl y) (.inl z) (.inl w)
     vovv := fun x y z w => I.vovv (.inl x) (.inl y) (.inl z) (.inl w)
     vvoo := fun x y z w => I.vvoo (.inl x) (.inl y) (.inl z) (.inl w)
     vovo := fun x y z w => I.vovo (.inl x) (.inl y) (.inl z) (.inl w)
     oovv := fun x y z w => I.oovv (.inl x) (.inl y) (.inl z) (.inl w)
     vooo := fun x y z w => I.vooo (.inl x) (.inl y) (.inl z) (.inl w)
     ooov := fun x y z w => I.ooov (.inl x) (.inl y) (.inl z) (.inl w)
     oooo := fun x y z w => I.oooo (.inl x) (.inl y) (.inl z) (.inl w) },
   { vvvv := fun x y z w => I.vvvv (.inr x) (.inr y) (.inr z) (.inr w)
     vvvo := fun x y z w => I.vvvo (.inr x) (.inr y) (.inr z) (.inr w)
     vovv := fun x y z w => I.vovv (.inr x) (.inr y) (.inr z) (.inr w)
     vvoo := fun x y z w => I.vvoo (.inr x) (.inr y) (.inr z) (.inr w)
     vovo := fun x y z w => I.vovo (.inr x) (.inr y) (.inr z) (.inr w)
     oovv := fun x y z w => I.oovv (.inr x) (.inr y) (.inr z) (.inr w)
     vooo := fun x y z w => I.vooo (.inr x) (.inr y) (.inr z) (.inr w)
     ooov := fun x y z w => I.ooov (.inr x) (.inr y) (.inr z) (.inr w)
     oooo := fun x y z w => I.oooo (.inr x) (.inr y) (.inr z) (.inr w) },
   { vvvv := fun x y z w => I.vvvv (.inl x) (.inr y) (.inl z) (.inr w)
     vvvo := fun x y z w => I.vvvo (.inl x) (.inr y) (.inl z) (.inr w)
     vvov := fun x y z w => -I.vvvo (.inl x) (.inr y) (.inr w) (.inl z)
     vovv := fun x y z w => I.vovv (.inl x) (.inr y) (.inl z) (.inr w)
     ovvv := fun x y z w => -I.vovv (.inr y) (.inl x) (.inl z) (.inr w)
     vvoo := fun x y z w => I.vvoo (.inl x) (.inr y) (.inl z) (.inr w)
     vovo := fun x y z w => I.vovo (.inl x) (.inr y) (.inl z) (.inr w)
     voov := fun x y z w => -I.vovo (.inl x) (.inr y) (.inr w) (.inl z)
     ovov := fun x y z w => I.vovo (.inr y) (.inl x) (.inr w) (.inl z)
     ovvo := fun x y z w => -I.vovo (.inr y) (.inl x) (.inl z) (.inr w)
     oovv := fun x y z w => I.oovv (.inl x) (.inr y) (.inl z) (.inr w)
     vooo := fun x y z w => I.vooo (.inl x) (.inr y) (.inl z) (.inr w)
     ovoo := fun x y z w => -I.vooo (.inr y) (.inl x) (.inl z) (.inr w)
     ooov := fun x y z w => I.ooov (.inl x) (.inr y) (.inl z) (.inr w)
     oovo := fun x y z w => -I.ooov (.inl x) (.inr y) (.inr w) (.inl z)
     oooo := fun x y z w => I.oooo (.inl x) (.inr y) (.inl z) (.inr w) })

end CC
