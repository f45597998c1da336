import Verif.Model.Integrals
import Verif.Model.Spin
/-!
# cqcpy/integrals.py and `int_to_spin` in rounded arithmetic

The functions of `Verif.Model.Integrals` once more, with two parameters: the array that pyscf returns for four sets of orbitals, as a function of the
four sets only (it may depend on all orbitals of a call, and need not have the symmetries of the integrals; two calls with the same arguments return
the same array), and the subtraction of the machine.  Changing signs, transposing and copying are exact.
-/

set_option linter.unusedVariables false
namespace Eri
variable {K V : Type} [Field K]

/-- `mol_ao2mo.general(mol, (o1, o2, o3, o4), compact=False).reshape(n1, n2, n3, n4)` as computed (pyscf). -/
abbrev Kernel (V K : Type) := List V → List V → List V → List V → Arr K

/-- `A - B` with the subtraction `sub`: equal shapes are required -/
def Arr.subBy (sub : K → K → K) (A B : Arr K) : R (Arr K) :=
  if A.n1 = B.n1 ∧ A.n2 = B.n2 ∧ A.n3 = B.n3 ∧ A.n4 = B.n4 then
    .ok ⟨A.n1, A.n2, A.n3, A.n4, fun p q r s => sub (A.val p q r s) (B.val p q r s)⟩
  else .error .value

variable (sub : K → K → K) (k : Kernel V K)

/-- cqcpy/integrals.py:6-19 (`get_chem`); also :135-148 (`get_chem_sol`). -/
def fl_get_chem (o1 o2 o3 o4 : List V) (anti : Bool := false) : R (Arr K) :=
  let Id := k o1 o2 o3 o4
  if anti then
    let Ix := k o1 o4 o3 o2
    Id.subBy sub Ix.t0321
  else .ok Id

/-- cqcpy/integrals.py:28-30 (`get_phys`); also :183-184 (`get_phys_sol`). -/
def fl_get_phys (o1 o2 o3 o4 : List V) (anti : Bool := false) : R (Arr K) := do
  return (← fl_get_chem sub k o1 o3 o2 o4 anti).t0213

/-- cqcpy/integrals.py:39-70 (`get_chemu`); also :232-263 (`get_chemu_sol`). -/
def fl_get_chemu (o1 o2 o3 o4 p1 p2 p3 p4 : List V) (anti : Bool := false) : R (Arr K) := do
  let Ia ← fl_get_chem sub k o1 o2 o3 o4 anti
  let Ib ← fl_get_chem sub k p1 p2 p3 p4 anti
  let Iaabb ← fl_get_chem sub k o1 o2 p3 p4
  let Ibbaa ← fl_get_chem sub k p1 p2 o3 o4
  let a1 := o1.length
  let a2 := o2.length
  let a3 := o3.length
  let a4 := o4.length
  let b1 := p1.length
  let b2 := p2.length
  let b3 := p3.length
  let b4 := p4.length
  let I := Arr.zeros (a1 + b1) (a2 + b2) (a3 + b3) (a4 + b4)
  let I ← I.put (.upto a1) (.upto a2) (.upto a3) (.upto a4) Ia
  let I ← I.put (.fro a1) (.fro a2) (.fro a3) (.fro a4) Ib
  let I ← I.put (.upto a1) (.upto a2) (.fro a3) (.fro a4) Iaabb
  let I ← I.put (.fro a1) (.fro a2) (.upto a3) (.upto a4) Ibbaa
  if anti then
    let Iaabbx ← fl_get_chem sub k o1 o4 p3 p2
    let Ibbaax ← fl_get_chem sub k p1 p4 o3 o2
    let I ← I.put (.upto a1) (.fro a2) (.fro a3) (.upto a4) Iaabbx.t0321.neg
    let I ← I.put (.fro a1) (.upto a2) (.upto a3) (.fro a4) Ibbaax.t0321.neg
    return I
  else return I

/-- cqcpy/integrals.py:127-132 (`get_phys_antiu`) with :73-77 (`get_chem_antiu`); also :270-275 (`get_phys_antiu_sol`). -/
def fl_get_phys_antiu (o1 o2 o3 o4 p1 p2 p3 p4 : List V) : R (Arr K) := do
  return (← fl_get_chemu sub k o1 o3 o2 o4 p1 p3 p2 p4 true).t0213

/-- cqcpy/integrals.py:80-102 (`get_chemu_all`); also :278-299 (`get_chemu_all_sol`). -/
def fl_get_chemu_all (oa ob : List V) (anti : Bool := false) : R (Arr K) := do
  let na := oa.length
  let nb := ob.length
  let n := na + nb
  let Ia := k oa oa oa oa
  let Ib := k ob ob ob ob
  let Iab := k oa oa ob ob
  let Id := Arr.zeros n n n n
  let Id ← Id.put (.upto na) (.upto na) (.upto na) (.upto na) Ia
  let Id ← Id.put (.fro na) (.fro na) (.fro na) (.fro na) Ib
  let Id ← Id.put (.upto na) (.upto na) (.fro na) (.fro na) Iab
  let Id ← Id.put (.fro na) (.fro na) (.upto na) (.upto na) Iab.t2301
  if anti then Id.subBy sub Id.t0321 else return Id

/-- cqcpy/integrals.py:112-117 (`get_physu_all`); also :302-303 (`get_physu_all_sol`). -/
def fl_get_physu_all (oa ob : List V) (anti : Bool := false) : R (Arr K) := do
  return (← fl_get_chemu_all sub k oa ob anti).t0213

/-- cqcpy/integrals.py:404-422 (`_build_integrals_mol`) and :424-444 (`_build_integrals_sol`). -/
def fl_build_integrals (has : ℕ → Bool) (oa ob va vb : List V) : R (EriBlocks K) := do
  let vvvv ← ifHas (has 1) (fl_get_phys_antiu sub k va va va va vb vb vb vb)
  let vvvo ← ifHas (has 2) (fl_get_phys_antiu sub k va va va oa vb vb vb ob)
  let vovv ← ifHas (has 3) (fl_get_phys_antiu sub k va oa va va vb ob vb vb)
  let vvoo ← ifHas (has 4) (fl_get_phys_antiu sub k va va oa oa vb vb ob ob)
  let vovo ← ifHas (has 5) (fl_get_phys_antiu sub k va oa va oa vb ob vb ob)
  let oovv ← ifHas (has 6) (fl_get_phys_antiu sub k oa oa va va ob ob vb vb)
  let vooo ← ifHas (has 7) (fl_get_phys_antiu sub k va oa oa oa vb ob ob ob)
  let ooov ← ifHas (has 8) (fl_get_phys_antiu sub k oa oa oa va ob ob ob vb)
  let oooo ← ifHas (has 9) (fl_get_phys_antiu sub k oa oa oa oa ob ob ob ob)
  return ⟨vvvv, vvvo, vovv, vvoo, vovo, oovv, vooo, ooov, oooo⟩

end Eri

namespace CC
variable {K : Type} [Field K] {Oa Va Ob Vb : Type}

/-- `int_to_spin`, spin_utils.py:136-239, with the subtraction of the machine; the blocks of different spins are copied, with or without a change of sign. -/
def fl_int_to_spin (sub : K → K → K) (I_aaaa : TwoEFull Oa Va Oa Va K) (I_bbbb : TwoEFull Ob Vb Ob Vb K) (I_abab : TwoEFull Oa Va Ob Vb K) :
    TwoE (Oa ⊕ Ob) (Va ⊕ Vb) K where
  vvvv := int_to_spin_block
    (fun x y z w => sub (I_aaaa.vvvv x y z w) (I_aaaa.vvvv x y w z))
    (fun x y z w => sub (I_bbbb.vvvv x y z w) (I_bbbb.vvvv x y w z))
    (fun x y z w => I_abab.vvvv x y z w)
    (fun x y z w => I_abab.vvvv y x w z)
    (fun x y z w => -I_abab.vvvv x y w z)
    (fun x y z w => -I_abab.vvvv y x z w)
  vvvo := int_to_spin_block
    (fun x y z w => sub (I_aaaa.vvvo x y z w) (I_aaaa.vvov x y w z))
    (fun x y z w => sub (I_bbbb.vvvo x y z w) (I_bbbb.vvov x y w z))
    (fun x y z w => I_abab.vvvo x y z w)
    (fun x y z w => I_abab.vvov y x w z)
    (fun x y z w => -I_abab.vvov x y w z)
    (fun x y z w => -I_abab.vvvo y x z w)
  vovv := int_to_spin_block
    (fun x y z w => sub (I_aaaa.vovv x y z w) (I_aaaa.vovv x y w z))
    (fun x y z w => sub (I_bbbb.vovv x y z w) (I_bbbb.vovv x y w z))
    (fun x y z w => I_abab.vovv x y z w)
    (fun x y z w => I_abab.ovvv y x w z)
    (fun x y z w => -I_abab.vovv x y w z)
    (fun x y z w => -I_abab.ovvv y x z w)
  vvoo := int_to_spin_block
    (fun x y z w => sub (I_aaaa.vvoo x y z w) (I_aaaa.vvoo x y w z))
    (fun x y z w => sub (I_bbbb.vvoo x y z w) (I_bbbb.vvoo x y w z))
    (fun x y z w => I_abab.vvoo x y z w)
    (fun x y z w => I_abab.vvoo y x w z)
    (fun x y z w => -I_abab.vvoo x y w z)
    (fun x y z w => -I_abab.vvoo y x z w)
  vovo := int_to_spin_block
    (fun x y z w => sub (I_aaaa.vovo x y z w) (I_aaaa.voov x y w z))
    (fun x y z w => sub (I_bbbb.vovo x y z w) (I_bbbb.voov x y w z))
    (fun x y z w => I_abab.vovo x y z w)
    (fun x y z w => I_abab.ovov y x w z)
    (fun x y z w => -I_abab.voov x y w z)
    (fun x y z w => -I_abab.ovvo y x z w)
  oovv := int_to_spin_block
    (fun x y z w => sub (I_aaaa.oovv x y z w) (I_aaaa.oovv x y w z))
    (fun x y z w => sub (I_bbbb.oovv x y z w) (I_bbbb.oovv x y w z))
    (fun x y z w => I_abab.oovv x y z w)
    (fun x y z w => I_abab.oovv y x w z)
    (fun x y z w => -I_abab.oovv x y w z)
    (fun x y z w => -I_abab.oovv y x z w)
  vooo := int_to_spin_block
    (fun x y z w => sub (I_aaaa.vooo x y z w) (I_aaaa.vooo x y w z))
    (fun x y z w => sub (I_bbbb.vooo x y z w) (I_bbbb.vooo x y w z))
    (fun x y z w => I_abab.vooo x y z w)
    (fun x y z w => I_abab.ovoo y x w z)
    (fun x y z w => -I_abab.vooo x y w z)
    (fun x y z w => -I_abab.ovoo y x z w)
  ooov := int_to_spin_block
    (fun x y z w => sub (I_aaaa.ooov x y z w) (I_aaaa.oovo x y w z))
    (fun x y z w => sub (I_bbbb.ooov x y z w) (I_bbbb.oovo x y w z))
    (fun x y z w => I_abab.ooov x y z w)
    (fun x y z w => I_abab.oovo y x w z)
    (fun x y z w => -I_abab.oovo x y w z)
    (fun x y z w => -I_abab.ooov y x z w)
  oooo := int_to_spin_block
    (fun x y z w => sub (I_aaaa.oooo x y z w) (I_aaaa.oooo x y w z))
    (fun x y z w => sub (I_bbbb.oooo x y z w) (I_bbbb.oooo x y w z))
    (fun x y z w => I_abab.oooo x y z w)
    (fun x y z w => I_abab.oooo y x w z)
    (fun x y z w => -I_abab.oooo x y w z)
    (fun x y z w => -I_abab.oooo y x z w)

end CC
