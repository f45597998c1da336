import Verif.Props.RotRun
import Verif.Model.HeapProg
import Verif.Model.CCEnergy
import Verif.Model.CCGT
import Verif.Model.CCGL
import Verif.Model.CCGRdm
/-!
# C55: the spin-orbital routines and changes of the orbital basis

Generated by `tools/gen_rot.py`.  The result of a routine called with integrals and amplitudes in a new basis is the result in the old basis,
transformed.
-/

set_option linter.unusedVariables false
set_option linter.unusedSectionVars false

namespace Heap
open CC
variable {O V P Q O' V' P' Q' K : Type} [Field K] [Fintype O] [Fintype V] [Fintype P] [Fintype Q]
variable [Fintype O'] [Fintype V'] [Fintype P'] [Fintype Q'] [DecidableEq O] [DecidableEq V] [DecidableEq P] [DecidableEq Q]

/-- The precomputed intermediates in the new basis. -/
def _root_.CC.LambdaInt.rot (o : Change O O' K) (v : Change V V' K) (W : LambdaInt O V K) : LambdaInt O' V' K where
  IooovT := rot4 o o o v W.IooovT
  IvovvT := rot4 v o v v W.IvovvT
  IovT := rot2 o v W.IovT
  IToo := rot2 o o W.IToo
  ITvv := rot2 v v W.ITvv
  ITvovo := rot4 v o v o W.ITvovo
  IToovv := fun i j a b => ∑ x, ∑ y, ∑ z, ∑ w, o.bra i x * o.ket y j * v.ket z a * v.bra b w * W.IToovv x y z w
  ITvooo := rot4 v o o o W.ITvooo
  ITvvvo := rot4 v v v o W.ITvvvo
  ITov := rot2 o v W.ITov
  ITvovv := rot4 v o v v W.ITvovv
  ITooov := rot4 o o o v W.ITooov
  ITvovo2 := rot4 v o v o W.ITvovo2
  ITvvvv := rot4 v v v v W.ITvvvv
  IToooo := rot4 o o o o W.IToooo
  IToovv2 := fun i j a b => ∑ x, ∑ y, ∑ z, ∑ w, o.ket x i * o.bra j y * v.bra a z * v.ket w b * W.IToovv2 x y z w

attribute [ext] LambdaInt

theorem sorted_cc_energy_d (t2 : V → V → O → O → K) (eri : O → O → V → V → K) :
    Prog.cc_energy_d.nrun (sorted (X := fam O V O V)) [sfour 1 1 0 0 t2, sfour 0 0 1 1 eri] =
      .ok [snum (CC.cc_energy_d t2 eri)] := by krfl

theorem C55_cc_energy_d (o : Change O O' K) (v : Change V V' K) (t2 : V → V → O → O → K) (eri : O → O → V → V → K) :
    CC.cc_energy_d (rot4 v v o o t2) (rot4 o o v v eri) =
      (CC.cc_energy_d t2 eri) := by
  have h := rotates (chg o v o v) Prog.cc_energy_d
    (bs := [tfour 1 1 0 0 (rot4 v v o o t2), tfour 0 0 1 1 (rot4 o o v v eri)])
    (ds := [tnum (CC.cc_energy_d (rot4 v v o o t2) (rot4 o o v v eri))])
    (sorted_cc_energy_d t2 eri) (by krfl) (by
      refine .cons ((rot_four _ _ _).2 rfl) ?_
      refine .cons ((rot_four _ _ _).2 rfl) ?_
      exact .nil)
  have h0 := rotRes1 h
  exact ((rot_num _ _ _).1 h0)

theorem sorted_cc_energy_s1 (t1 : V → O → K) (f : O → V → K) :
    Prog.cc_energy_s1.nrun (sorted (X := fam O V O V)) [stwo 1 0 t1, stwo 0 1 f] =
      .ok [snum (CC.cc_energy_s1 t1 f)] := by krfl

theorem C55_cc_energy_s1 (o : Change O O' K) (v : Change V V' K) (t1 : V → O → K) (f : O → V → K) :
    CC.cc_energy_s1 (rot2 v o t1) (rot2 o v f) =
      (CC.cc_energy_s1 t1 f) := by
  have h := rotates (chg o v o v) Prog.cc_energy_s1
    (bs := [ttwo 1 0 (rot2 v o t1), ttwo 0 1 (rot2 o v f)])
    (ds := [tnum (CC.cc_energy_s1 (rot2 v o t1) (rot2 o v f))])
    (sorted_cc_energy_s1 t1 f) (by krfl) (by
      refine .cons ((rot_two _ _ _).2 rfl) ?_
      refine .cons ((rot_two _ _ _).2 rfl) ?_
      exact .nil)
  have h0 := rotRes1 h
  exact ((rot_num _ _ _).1 h0)

theorem sorted_cc_energy_s2 (t1 : V → O → K) (eri : O → O → V → V → K) :
    Prog.cc_energy_s2.nrun (sorted (X := fam O V O V)) [stwo 1 0 t1, sfour 0 0 1 1 eri] =
      .ok [snum (CC.cc_energy_s2 t1 eri)] := by krfl

theorem C55_cc_energy_s2 (o : Change O O' K) (v : Change V V' K) (t1 : V → O → K) (eri : O → O → V → V → K) :
    CC.cc_energy_s2 (rot2 v o t1) (rot4 o o v v eri) =
      (CC.cc_energy_s2 t1 eri) := by
  have h := rotates (chg o v o v) Prog.cc_energy_s2
    (bs := [ttwo 1 0 (rot2 v o t1), tfour 0 0 1 1 (rot4 o o v v eri)])
    (ds := [tnum (CC.cc_energy_s2 (rot2 v o t1) (rot4 o o v v eri))])
    (sorted_cc_energy_s2 t1 eri) (by krfl) (by
      refine .cons ((rot_two _ _ _).2 rfl) ?_
      refine .cons ((rot_four _ _ _).2 rfl) ?_
      exact .nil)
  have h0 := rotRes1 h
  exact ((rot_num _ _ _).1 h0)

theorem sorted_cc_energy_s2_a (t11 : V → O → K) (t12 : V → O → K) (eri : O → O → V → V → K) :
    Prog.cc_energy_s2_a.nrun (sorted (X := fam O V O V)) [stwo 1 0 t11, stwo 1 0 t12, sfour 0 0 1 1 eri] =
      .ok [snum (CC.cc_energy_s2_a t11 t12 eri)] := by krfl

theorem C55_cc_energy_s2_a (o : Change O O' K) (v : Change V V' K) (t11 : V → O → K) (t12 : V → O → K) (eri : O → O → V → V → K) :
    CC.cc_energy_s2_a (rot2 v o t11) (rot2 v o t12) (rot4 o o v v eri) =
      (CC.cc_energy_s2_a t11 t12 eri) := by
  have h := rotates (chg o v o v) Prog.cc_energy_s2_a
    (bs := [ttwo 1 0 (rot2 v o t11), ttwo 1 0 (rot2 v o t12), tfour 0 0 1 1 (rot4 o o v v eri)])
    (ds := [tnum (CC.cc_energy_s2_a (rot2 v o t11) (rot2 v o t12) (rot4 o o v v eri))])
    (sorted_cc_energy_s2_a t11 t12 eri) (by krfl) (by
      refine .cons ((rot_two _ _ _).2 rfl) ?_
      refine .cons ((rot_two _ _ _).2 rfl) ?_
      refine .cons ((rot_four _ _ _).2 rfl) ?_
      exact .nil)
  have h0 := rotRes1 h
  exact ((rot_num _ _ _).1 h0)

theorem sorted_cc_energy (t1 : V → O → K) (t2 : V → V → O → O → K) (f : O → V → K) (eri : O → O → V → V → K) :
    Prog.cc_energy.nrun (sorted (X := fam O V O V)) [stwo 1 0 t1, sfour 1 1 0 0 t2, stwo 0 1 f, sfour 0 0 1 1 eri] =
      .ok [snum (CC.cc_energy t1 t2 f eri)] := by krfl

theorem C55_cc_energy (o : Change O O' K) (v : Change V V' K) (t1 : V → O → K) (t2 : V → V → O → O → K) (f : O → V → K) (eri : O → O → V → V → K) :
    CC.cc_energy (rot2 v o t1) (rot4 v v o o t2) (rot2 o v f) (rot4 o o v v eri) =
      (CC.cc_energy t1 t2 f eri) := by
  have h := rotates (chg o v o v) Prog.cc_energy
    (bs := [ttwo 1 0 (rot2 v o t1), tfour 1 1 0 0 (rot4 v v o o t2), ttwo 0 1 (rot2 o v f), tfour 0 0 1 1 (rot4 o o v v eri)])
    (ds := [tnum (CC.cc_energy (rot2 v o t1) (rot4 v v o o t2) (rot2 o v f) (rot4 o o v v eri))])
    (sorted_cc_energy t1 t2 f eri) (by krfl) (by
      refine .cons ((rot_two _ _ _).2 rfl) ?_
      refine .cons ((rot_four _ _ _).2 rfl) ?_
      refine .cons ((rot_two _ _ _).2 rfl) ?_
      refine .cons ((rot_four _ _ _).2 rfl) ?_
      exact .nil)
  have h0 := rotRes1 h
  exact ((rot_num _ _ _).1 h0)

theorem sorted_mp2_energy (t1 : V → O → K) (t2 : V → V → O → O → K) (f : O → V → K) (eri : O → O → V → V → K) :
    Prog.mp2_energy.nrun (sorted (X := fam O V O V)) [stwo 1 0 t1, sfour 1 1 0 0 t2, stwo 0 1 f, sfour 0 0 1 1 eri] =
      .ok [snum (CC.mp2_energy t1 t2 f eri)] := by krfl

theorem C55_mp2_energy (o : Change O O' K) (v : Change V V' K) (t1 : V → O → K) (t2 : V → V → O → O → K) (f : O → V → K) (eri : O → O → V → V → K) :
    CC.mp2_energy (rot2 v o t1) (rot4 v v o o t2) (rot2 o v f) (rot4 o o v v eri) =
      (CC.mp2_energy t1 t2 f eri) := by
  have h := rotates (chg o v o v) Prog.mp2_energy
    (bs := [ttwo 1 0 (rot2 v o t1), tfour 1 1 0 0 (rot4 v v o o t2), ttwo 0 1 (rot2 o v f), tfour 0 0 1 1 (rot4 o o v v eri)])
    (ds := [tnum (CC.mp2_energy (rot2 v o t1) (rot4 v v o o t2) (rot2 o v f) (rot4 o o v v eri))])
    (sorted_mp2_energy t1 t2 f eri) (by krfl) (by
      refine .cons ((rot_two _ _ _).2 rfl) ?_
      refine .cons ((rot_four _ _ _).2 rfl) ?_
      refine .cons ((rot_two _ _ _).2 rfl) ?_
      refine .cons ((rot_four _ _ _).2 rfl) ?_
      exact .nil)
  have h0 := rotRes1 h
  exact ((rot_num _ _ _).1 h0)

theorem sorted_lccd_simple (F : OneE O V K) (I : TwoE O V K) (T2old : V → V → O → O → K) :
    Prog.lccd_simple.nrun (sorted (X := fam O V O V)) [stwo 0 0 F.oo, stwo 1 1 F.vv, sfour 0 0 0 0 I.oooo, sfour 1 0 1 0 I.vovo, sfour 1 1 0 0 I.vvoo, sfour 1 1 1 1 I.vvvv, sfour 1 1 0 0 T2old] =
      .ok [sfour 1 1 0 0 (CC.lccd_simple F I T2old)] := by krfl

theorem C55_lccd_simple (o : Change O O' K) (v : Change V V' K) (F : OneE O V K) (I : TwoE O V K) (T2old : V → V → O → O → K) :
    CC.lccd_simple (F.rot o v) (I.rot o v) (rot4 v v o o T2old) =
      (rot4 v v o o (CC.lccd_simple F I T2old)) := by
  have h := rotates (chg o v o v) Prog.lccd_simple
    (bs := [ttwo 0 0 (F.rot o v).oo, ttwo 1 1 (F.rot o v).vv, tfour 0 0 0 0 (I.rot o v).oooo, tfour 1 0 1 0 (I.rot o v).vovo, tfour 1 1 0 0 (I.rot o v).vvoo, tfour 1 1 1 1 (I.rot o v).vvvv, tfour 1 1 0 0 (rot4 v v o o T2old)])
    (ds := [tfour 1 1 0 0 (CC.lccd_simple (F.rot o v) (I.rot o v) (rot4 v v o o T2old))])
    (sorted_lccd_simple F I T2old) (by krfl) (by
      refine .cons ((rot_two _ _ _).2 rfl) ?_
      refine .cons ((rot_two _ _ _).2 rfl) ?_
      refine .cons ((rot_four _ _ _).2 rfl) ?_
      refine .cons ((rot_four _ _ _).2 rfl) ?_
      refine .cons ((rot_four _ _ _).2 rfl) ?_
      refine .cons ((rot_four _ _ _).2 rfl) ?_
      refine .cons ((rot_four _ _ _).2 rfl) ?_
      exact .nil)
  have h0 := rotRes1 h
  exact ((rot_four _ _ _).1 h0)

theorem sorted_lccsd_simple (F : OneE O V K) (I : TwoE O V K) (T1old : V → O → K) (T2old : V → V → O → O → K) :
    Prog.lccsd_simple.nrun (sorted (X := fam O V O V)) [stwo 0 0 F.oo, stwo 0 1 F.ov, stwo 1 0 F.vo, stwo 1 1 F.vv, sfour 0 0 0 0 I.oooo, sfour 0 0 0 1 I.ooov, sfour 1 0 0 0 I.vooo, sfour 1 0 1 0 I.vovo, sfour 1 0 1 1 I.vovv, sfour 1 1 0 0 I.vvoo, sfour 1 1 1 0 I.vvvo, sfour 1 1 1 1 I.vvvv, stwo 1 0 T1old, sfour 1 1 0 0 T2old] =
      .ok [stwo 1 0 (CC.lccsd_simple F I T1old T2old).1, sfour 1 1 0 0 (CC.lccsd_simple F I T1old T2old).2] := by krfl

theorem C55_lccsd_simple (o : Change O O' K) (v : Change V V' K) (F : OneE O V K) (I : TwoE O V K) (T1old : V → O → K) (T2old : V → V → O → O → K) :
    CC.lccsd_simple (F.rot o v) (I.rot o v) (rot2 v o T1old) (rot4 v v o o T2old) =
      ((rot2 v o (CC.lccsd_simple F I T1old T2old).1), (rot4 v v o o (CC.lccsd_simple F I T1old T2old).2)) := by
  have h := rotates (chg o v o v) Prog.lccsd_simple
    (bs := [ttwo 0 0 (F.rot o v).oo, ttwo 0 1 (F.rot o v).ov, ttwo 1 0 (F.rot o v).vo, ttwo 1 1 (F.rot o v).vv, tfour 0 0 0 0 (I.rot o v).oooo, tfour 0 0 0 1 (I.rot o v).ooov, tfour 1 0 0 0 (I.rot o v).vooo, tfour 1 0 1 0 (I.rot o v).vovo, tfour 1 0 1 1 (I.rot o v).vovv, tfour 1 1 0 0 (I.rot o v).vvoo, tfour 1 1 1 0 (I.rot o v).vvvo, tfour 1 1 1 1 (I.rot o v).vvvv, ttwo 1 0 (rot2 v o T1old), tfour 1 1 0 0 (rot4 v v o o T2old)])
    (ds := [ttwo 1 0 (CC.lccsd_simple (F.rot o v) (I.rot o v) (rot2 v o T1old) (rot4 v v o o T2old)).1, tfour 1 1 0 0 (CC.lccsd_simple (F.rot o v) (I.rot o v) (rot2 v o T1old) (rot4 v v o o T2old)).2])
    (sorted_lccsd_simple F I T1old T2old) (by krfl) (by
      refine .cons ((rot_two _ _ _).2 rfl) ?_
      refine .cons ((rot_two _ _ _).2 rfl) ?_
      refine .cons ((rot_two _ _ _).2 rfl) ?_
      refine .cons ((rot_two _ _ _).2 rfl) ?_
      refine .cons ((rot_four _ _ _).2 rfl) ?_
      refine .cons ((rot_four _ _ _).2 rfl) ?_
      refine .cons ((rot_four _ _ _).2 rfl) ?_
      refine .cons ((rot_four _ _ _).2 rfl) ?_
      refine .cons ((rot_four _ _ _).2 rfl) ?_
      refine .cons ((rot_four _ _ _).2 rfl) ?_
      refine .cons ((rot_four _ _ _).2 rfl) ?_
      refine .cons ((rot_four _ _ _).2 rfl) ?_
      refine .cons ((rot_two _ _ _).2 rfl) ?_
      refine .cons ((rot_four _ _ _).2 rfl) ?_
      exact .nil)
  obtain ⟨h0, h1⟩ := rotRes2 h
  exact (Prod.ext ((rot_two _ _ _).1 h0) ((rot_four _ _ _).1 h1))

theorem sorted_ccd_simple (F : OneE O V K) (I : TwoE O V K) (T2old : V → V → O → O → K) :
    Prog.ccd_simple.nrun (sorted (X := fam O V O V)) [stwo 0 0 F.oo, stwo 1 1 F.vv, sfour 0 0 0 0 I.oooo, sfour 0 0 1 1 I.oovv, sfour 1 0 1 0 I.vovo, sfour 1 1 0 0 I.vvoo, sfour 1 1 1 1 I.vvvv, sfour 1 1 0 0 T2old] =
      .ok [sfour 1 1 0 0 (CC.ccd_simple F I T2old)] := by krfl

theorem C55_ccd_simple (o : Change O O' K) (v : Change V V' K) (F : OneE O V K) (I : TwoE O V K) (T2old : V → V → O → O → K) :
    CC.ccd_simple (F.rot o v) (I.rot o v) (rot4 v v o o T2old) =
      (rot4 v v o o (CC.ccd_simple F I T2old)) := by
  have h := rotates (chg o v o v) Prog.ccd_simple
    (bs := [ttwo 0 0 (F.rot o v).oo, ttwo 1 1 (F.rot o v).vv, tfour 0 0 0 0 (I.rot o v).oooo, tfour 0 0 1 1 (I.rot o v).oovv, tfour 1 0 1 0 (I.rot o v).vovo, tfour 1 1 0 0 (I.rot o v).vvoo, tfour 1 1 1 1 (I.rot o v).vvvv, tfour 1 1 0 0 (rot4 v v o o T2old)])
    (ds := [tfour 1 1 0 0 (CC.ccd_simple (F.rot o v) (I.rot o v) (rot4 v v o o T2old))])
    (sorted_ccd_simple F I T2old) (by krfl) (by
      refine .cons ((rot_two _ _ _).2 rfl) ?_
      refine .cons ((rot_two _ _ _).2 rfl) ?_
      refine .cons ((rot_four _ _ _).2 rfl) ?_
      refine .cons ((rot_four _ _ _).2 rfl) ?_
      refine .cons ((rot_four _ _ _).2 rfl) ?_
      refine .cons ((rot_four _ _ _).2 rfl) ?_
      refine .cons ((rot_four _ _ _).2 rfl) ?_
      refine .cons ((rot_four _ _ _).2 rfl) ?_
      exact .nil)
  have h0 := rotRes1 h
  exact ((rot_four _ _ _).1 h0)

theorem sorted_ccd_ladder_simple (I : TwoE O V K) (T2old : V → V → O → O → K) :
    Prog.ccd_ladder_simple.nrun (sorted (X := fam O V O V)) [sfour 0 0 0 0 I.oooo, sfour 0 0 1 1 I.oovv, sfour 1 1 0 0 I.vvoo, sfour 1 1 1 1 I.vvvv, sfour 1 1 0 0 T2old] =
      .ok [sfour 1 1 0 0 (CC.ccd_ladder_simple I T2old)] := by krfl

theorem C55_ccd_ladder_simple (o : Change O O' K) (v : Change V V' K) (I : TwoE O V K) (T2old : V → V → O → O → K) :
    CC.ccd_ladder_simple (I.rot o v) (rot4 v v o o T2old) =
      (rot4 v v o o (CC.ccd_ladder_simple I T2old)) := by
  have h := rotates (chg o v o v) Prog.ccd_ladder_simple
    (bs := [tfour 0 0 0 0 (I.rot o v).oooo, tfour 0 0 1 1 (I.rot o v).oovv, tfour 1 1 0 0 (I.rot o v).vvoo, tfour 1 1 1 1 (I.rot o v).vvvv, tfour 1 1 0 0 (rot4 v v o o T2old)])
    (ds := [tfour 1 1 0 0 (CC.ccd_ladder_simple (I.rot o v) (rot4 v v o o T2old))])
    (sorted_ccd_ladder_simple I T2old) (by krfl) (by
      refine .cons ((rot_four _ _ _).2 rfl) ?_
      refine .cons ((rot_four _ _ _).2 rfl) ?_
      refine .cons ((rot_four _ _ _).2 rfl) ?_
      refine .cons ((rot_four _ _ _).2 rfl) ?_
      refine .cons ((rot_four _ _ _).2 rfl) ?_
      exact .nil)
  have h0 := rotRes1 h
  exact ((rot_four _ _ _).1 h0)

theorem sorted_ccd_ring_simple (I : TwoE O V K) (T2old : V → V → O → O → K) :
    Prog.ccd_ring_simple.nrun (sorted (X := fam O V O V)) [sfour 0 0 1 1 I.oovv, sfour 1 0 1 0 I.vovo, sfour 1 1 0 0 I.vvoo, sfour 1 1 0 0 T2old] =
      .ok [sfour 1 1 0 0 (CC.ccd_ring_simple I T2old)] := by krfl

theorem C55_ccd_ring_simple (o : Change O O' K) (v : Change V V' K) (I : TwoE O V K) (T2old : V → V → O → O → K) :
    CC.ccd_ring_simple (I.rot o v) (rot4 v v o o T2old) =
      (rot4 v v o o (CC.ccd_ring_simple I T2old)) := by
  have h := rotates (chg o v o v) Prog.ccd_ring_simple
    (bs := [tfour 0 0 1 1 (I.rot o v).oovv, tfour 1 0 1 0 (I.rot o v).vovo, tfour 1 1 0 0 (I.rot o v).vvoo, tfour 1 1 0 0 (rot4 v v o o T2old)])
    (ds := [tfour 1 1 0 0 (CC.ccd_ring_simple (I.rot o v) (rot4 v v o o T2old))])
    (sorted_ccd_ring_simple I T2old) (by krfl) (by
      refine .cons ((rot_four _ _ _).2 rfl) ?_
      refine .cons ((rot_four _ _ _).2 rfl) ?_
      refine .cons ((rot_four _ _ _).2 rfl) ?_
      refine .cons ((rot_four _ _ _).2 rfl) ?_
      exact .nil)
  have h0 := rotRes1 h
  exact ((rot_four _ _ _).1 h0)

theorem sorted_ccsd_simple (F : OneE O V K) (I : TwoE O V K) (T1old : V → O → K) (T2old : V → V → O → O → K) :
    Prog.ccsd_simple.nrun (sorted (X := fam O V O V)) [stwo 0 0 F.oo, stwo 0 1 F.ov, stwo 1 0 F.vo, stwo 1 1 F.vv, sfour 0 0 0 0 I.oooo, sfour 0 0 0 1 I.ooov, sfour 0 0 1 1 I.oovv, sfour 1 0 0 0 I.vooo, sfour 1 0 1 0 I.vovo, sfour 1 0 1 1 I.vovv, sfour 1 1 0 0 I.vvoo, sfour 1 1 1 0 I.vvvo, sfour 1 1 1 1 I.vvvv, stwo 1 0 T1old, sfour 1 1 0 0 T2old] =
      .ok [stwo 1 0 (CC.ccsd_simple F I T1old T2old).1, sfour 1 1 0 0 (CC.ccsd_simple F I T1old T2old).2] := by krfl

theorem C55_ccsd_simple (o : Change O O' K) (v : Change V V' K) (F : OneE O V K) (I : TwoE O V K) (T1old : V → O → K) (T2old : V → V → O → O → K) :
    CC.ccsd_simple (F.rot o v) (I.rot o v) (rot2 v o T1old) (rot4 v v o o T2old) =
      ((rot2 v o (CC.ccsd_simple F I T1old T2old).1), (rot4 v v o o (CC.ccsd_simple F I T1old T2old).2)) := by
  have h := rotates (chg o v o v) Prog.ccsd_simple
    (bs := [ttwo 0 0 (F.rot o v).oo, ttwo 0 1 (F.rot o v).ov, ttwo 1 0 (F.rot o v).vo, ttwo 1 1 (F.rot o v).vv, tfour 0 0 0 0 (I.rot o v).oooo, tfour 0 0 0 1 (I.rot o v).ooov, tfour 0 0 1 1 (I.rot o v).oovv, tfour 1 0 0 0 (I.rot o v).vooo, tfour 1 0 1 0 (I.rot o v).vovo, tfour 1 0 1 1 (I.rot o v).vovv, tfour 1 1 0 0 (I.rot o v).vvoo, tfour 1 1 1 0 (I.rot o v).vvvo, tfour 1 1 1 1 (I.rot o v).vvvv, ttwo 1 0 (rot2 v o T1old), tfour 1 1 0 0 (rot4 v v o o T2old)])
    (ds := [ttwo 1 0 (CC.ccsd_simple (F.rot o v) (I.rot o v) (rot2 v o T1old) (rot4 v v o o T2old)).1, tfour 1 1 0 0 (CC.ccsd_simple (F.rot o v) (I.rot o v) (rot2 v o T1old) (rot4 v v o o T2old)).2])
    (sorted_ccsd_simple F I T1old T2old) (by krfl) (by
      refine .cons ((rot_two _ _ _).2 rfl) ?_
      refine .cons ((rot_two _ _ _).2 rfl) ?_
      refine .cons ((rot_two _ _ _).2 rfl) ?_
      refine .cons ((rot_two _ _ _).2 rfl) ?_
      refine .cons ((rot_four _ _ _).2 rfl) ?_
      refine .cons ((rot_four _ _ _).2 rfl) ?_
      refine .cons ((rot_four _ _ _).2 rfl) ?_
      refine .cons ((rot_four _ _ _).2 rfl) ?_
      refine .cons ((rot_four _ _ _).2 rfl) ?_
      refine .cons ((rot_four _ _ _).2 rfl) ?_
      refine .cons ((rot_four _ _ _).2 rfl) ?_
      refine .cons ((rot_four _ _ _).2 rfl) ?_
      refine .cons ((rot_four _ _ _).2 rfl) ?_
      refine .cons ((rot_two _ _ _).2 rfl) ?_
      refine .cons ((rot_four _ _ _).2 rfl) ?_
      exact .nil)
  obtain ⟨h0, h1⟩ := rotRes2 h
  exact (Prod.ext ((rot_two _ _ _).1 h0) ((rot_four _ _ _).1 h1))

theorem sorted_ccsd_stanton (F : OneE O V K) (I : TwoE O V K) (T1old : V → O → K) (T2old : V → V → O → O → K) :
    Prog.ccsd_stanton.nrun (sorted (X := fam O V O V)) [stwo 0 0 F.oo, stwo 0 1 F.ov, stwo 1 0 F.vo, stwo 1 1 F.vv, sfour 0 0 0 0 I.oooo, sfour 0 0 0 1 I.ooov, sfour 0 0 1 1 I.oovv, sfour 1 0 0 0 I.vooo, sfour 1 0 1 0 I.vovo, sfour 1 0 1 1 I.vovv, sfour 1 1 0 0 I.vvoo, sfour 1 1 1 0 I.vvvo, sfour 1 1 1 1 I.vvvv, stwo 1 0 T1old, sfour 1 1 0 0 T2old] =
      .ok [stwo 1 0 (CC.ccsd_stanton F I T1old T2old).1, sfour 1 1 0 0 (CC.ccsd_stanton F I T1old T2old).2] := by krfl

theorem C55_ccsd_stanton (o : Change O O' K) (v : Change V V' K) (F : OneE O V K) (I : TwoE O V K) (T1old : V → O → K) (T2old : V → V → O → O → K) :
    CC.ccsd_stanton (F.rot o v) (I.rot o v) (rot2 v o T1old) (rot4 v v o o T2old) =
      ((rot2 v o (CC.ccsd_stanton F I T1old T2old).1), (rot4 v v o o (CC.ccsd_stanton F I T1old T2old).2)) := by
  have h := rotates (chg o v o v) Prog.ccsd_stanton
    (bs := [ttwo 0 0 (F.rot o v).oo, ttwo 0 1 (F.rot o v).ov, ttwo 1 0 (F.rot o v).vo, ttwo 1 1 (F.rot o v).vv, tfour 0 0 0 0 (I.rot o v).oooo, tfour 0 0 0 1 (I.rot o v).ooov, tfour 0 0 1 1 (I.rot o v).oovv, tfour 1 0 0 0 (I.rot o v).vooo, tfour 1 0 1 0 (I.rot o v).vovo, tfour 1 0 1 1 (I.rot o v).vovv, tfour 1 1 0 0 (I.rot o v).vvoo, tfour 1 1 1 0 (I.rot o v).vvvo, tfour 1 1 1 1 (I.rot o v).vvvv, ttwo 1 0 (rot2 v o T1old), tfour 1 1 0 0 (rot4 v v o o T2old)])
    (ds := [ttwo 1 0 (CC.ccsd_stanton (F.rot o v) (I.rot o v) (rot2 v o T1old) (rot4 v v o o T2old)).1, tfour 1 1 0 0 (CC.ccsd_stanton (F.rot o v) (I.rot o v) (rot2 v o T1old) (rot4 v v o o T2old)).2])
    (sorted_ccsd_stanton F I T1old T2old) (by krfl) (by
      refine .cons ((rot_two _ _ _).2 rfl) ?_
      refine .cons ((rot_two _ _ _).2 rfl) ?_
      refine .cons ((rot_two _ _ _).2 rfl) ?_
      refine .cons ((rot_two _ _ _).2 rfl) ?_
      refine .cons ((rot_four _ _ _).2 rfl) ?_
      refine .cons ((rot_four _ _ _).2 rfl) ?_
      refine .cons ((rot_four _ _ _).2 rfl) ?_
      refine .cons ((rot_four _ _ _).2 rfl) ?_
      refine .cons ((rot_four _ _ _).2 rfl) ?_
      refine .cons ((rot_four _ _ _).2 rfl) ?_
      refine .cons ((rot_four _ _ _).2 rfl) ?_
      refine .cons ((rot_four _ _ _).2 rfl) ?_
      refine .cons ((rot_four _ _ _).2 rfl) ?_
      refine .cons ((rot_two _ _ _).2 rfl) ?_
      refine .cons ((rot_four _ _ _).2 rfl) ?_
      exact .nil)
  obtain ⟨h0, h1⟩ := rotRes2 h
  exact (Prod.ext ((rot_two _ _ _).1 h0) ((rot_four _ _ _).1 h1))

theorem sorted_ccd_stanton (F : OneE O V K) (I : TwoE O V K) (T2old : V → V → O → O → K) :
    Prog.ccd_stanton.nrun (sorted (X := fam O V O V)) [stwo 0 0 F.oo, stwo 1 1 F.vv, sfour 0 0 0 0 I.oooo, sfour 0 0 1 1 I.oovv, sfour 1 0 1 0 I.vovo, sfour 1 1 0 0 I.vvoo, sfour 1 1 1 1 I.vvvv, sfour 1 1 0 0 T2old] =
      .ok [sfour 1 1 0 0 (CC.ccd_stanton F I T2old)] := by krfl

theorem C55_ccd_stanton (o : Change O O' K) (v : Change V V' K) (F : OneE O V K) (I : TwoE O V K) (T2old : V → V → O → O → K) :
    CC.ccd_stanton (F.rot o v) (I.rot o v) (rot4 v v o o T2old) =
      (rot4 v v o o (CC.ccd_stanton F I T2old)) := by
  have h := rotates (chg o v o v) Prog.ccd_stanton
    (bs := [ttwo 0 0 (F.rot o v).oo, ttwo 1 1 (F.rot o v).vv, tfour 0 0 0 0 (I.rot o v).oooo, tfour 0 0 1 1 (I.rot o v).oovv, tfour 1 0 1 0 (I.rot o v).vovo, tfour 1 1 0 0 (I.rot o v).vvoo, tfour 1 1 1 1 (I.rot o v).vvvv, tfour 1 1 0 0 (rot4 v v o o T2old)])
    (ds := [tfour 1 1 0 0 (CC.ccd_stanton (F.rot o v) (I.rot o v) (rot4 v v o o T2old))])
    (sorted_ccd_stanton F I T2old) (by krfl) (by
      refine .cons ((rot_two _ _ _).2 rfl) ?_
      refine .cons ((rot_two _ _ _).2 rfl) ?_
      refine .cons ((rot_four _ _ _).2 rfl) ?_
      refine .cons ((rot_four _ _ _).2 rfl) ?_
      refine .cons ((rot_four _ _ _).2 rfl) ?_
      refine .cons ((rot_four _ _ _).2 rfl) ?_
      refine .cons ((rot_four _ _ _).2 rfl) ?_
      refine .cons ((rot_four _ _ _).2 rfl) ?_
      exact .nil)
  have h0 := rotRes1 h
  exact ((rot_four _ _ _).1 h0)

theorem sorted_lambda_int (F : OneE O V K) (I : TwoE O V K) (T1old : V → O → K) (T2old : V → V → O → O → K) :
    Prog.lambda_int.nrun (sorted (X := fam O V O V)) [stwo 0 0 F.oo, stwo 0 1 F.ov, stwo 1 1 F.vv, sfour 0 0 0 0 I.oooo, sfour 0 0 0 1 I.ooov, sfour 0 0 1 1 I.oovv, sfour 1 0 0 0 I.vooo, sfour 1 0 1 0 I.vovo, sfour 1 0 1 1 I.vovv, sfour 1 1 1 0 I.vvvo, sfour 1 1 1 1 I.vvvv, stwo 1 0 T1old, sfour 1 1 0 0 T2old] =
      .ok [sfour 0 0 0 1 (CC.lambda_int F I T1old T2old).IooovT, sfour 1 0 1 1 (CC.lambda_int F I T1old T2old).IvovvT, stwo 0 1 (CC.lambda_int F I T1old T2old).IovT, stwo 0 0 (CC.lambda_int F I T1old T2old).IToo, stwo 1 1 (CC.lambda_int F I T1old T2old).ITvv, sfour 1 0 1 0 (CC.lambda_int F I T1old T2old).ITvovo, sring true 0 0 1 1 (CC.lambda_int F I T1old T2old).IToovv, sfour 1 0 0 0 (CC.lambda_int F I T1old T2old).ITvooo, sfour 1 1 1 0 (CC.lambda_int F I T1old T2old).ITvvvo, stwo 0 1 (CC.lambda_int F I T1old T2old).ITov, sfour 1 0 1 1 (CC.lambda_int F I T1old T2old).ITvovv, sfour 0 0 0 1 (CC.lambda_int F I T1old T2old).ITooov, sfour 1 0 1 0 (CC.lambda_int F I T1old T2old).ITvovo2, sfour 1 1 1 1 (CC.lambda_int F I T1old T2old).ITvvvv, sfour 0 0 0 0 (CC.lambda_int F I T1old T2old).IToooo, sring false 0 0 1 1 (CC.lambda_int F I T1old T2old).IToovv2] := by krfl

theorem C55_lambda_int (o : Change O O' K) (v : Change V V' K) (F : OneE O V K) (I : TwoE O V K) (T1old : V → O → K) (T2old : V → V → O → O → K) :
    CC.lambda_int (F.rot o v) (I.rot o v) (rot2 v o T1old) (rot4 v v o o T2old) =
      (CC.lambda_int F I T1old T2old).rot o v := by
  have h := rotates (chg o v o v) Prog.lambda_int
    (bs := [ttwo 0 0 (F.rot o v).oo, ttwo 0 1 (F.rot o v).ov, ttwo 1 1 (F.rot o v).vv, tfour 0 0 0 0 (I.rot o v).oooo, tfour 0 0 0 1 (I.rot o v).ooov, tfour 0 0 1 1 (I.rot o v).oovv, tfour 1 0 0 0 (I.rot o v).vooo, tfour 1 0 1 0 (I.rot o v).vovo, tfour 1 0 1 1 (I.rot o v).vovv, tfour 1 1 1 0 (I.rot o v).vvvo, tfour 1 1 1 1 (I.rot o v).vvvv, ttwo 1 0 (rot2 v o T1old), tfour 1 1 0 0 (rot4 v v o o T2old)])
    (ds := [tfour 0 0 0 1 (CC.lambda_int (F.rot o v) (I.rot o v) (rot2 v o T1old) (rot4 v v o o T2old)).IooovT, tfour 1 0 1 1 (CC.lambda_int (F.rot o v) (I.rot o v) (rot2 v o T1old) (rot4 v v o o T2old)).IvovvT, ttwo 0 1 (CC.lambda_int (F.rot o v) (I.rot o v) (rot2 v o T1old) (rot4 v v o o T2old)).IovT, ttwo 0 0 (CC.lambda_int (F.rot o v) (I.rot o v) (rot2 v o T1old) (rot4 v v o o T2old)).IToo, ttwo 1 1 (CC.lambda_int (F.rot o v) (I.rot o v) (rot2 v o T1old) (rot4 v v o o T2old)).ITvv, tfour 1 0 1 0 (CC.lambda_int (F.rot o v) (I.rot o v) (rot2 v o T1old) (rot4 v v o o T2old)).ITvovo, tfour 0 0 1 1 (CC.lambda_int (F.rot o v) (I.rot o v) (rot2 v o T1old) (rot4 v v o o T2old)).IToovv, tfour 1 0 0 0 (CC.lambda_int (F.rot o v) (I.rot o v) (rot2 v o T1old) (rot4 v v o o T2old)).ITvooo, tfour 1 1 1 0 (CC.lambda_int (F.rot o v) (I.rot o v) (rot2 v o T1old) (rot4 v v o o T2old)).ITvvvo, ttwo 0 1 (CC.lambda_int (F.rot o v) (I.rot o v) (rot2 v o T1old) (rot4 v v o o T2old)).ITov, tfour 1 0 1 1 (CC.lambda_int (F.rot o v) (I.rot o v) (rot2 v o T1old) (rot4 v v o o T2old)).ITvovv, tfour 0 0 0 1 (CC.lambda_int (F.rot o v) (I.rot o v) (rot2 v o T1old) (rot4 v v o o T2old)).ITooov, tfour 1 0 1 0 (CC.lambda_int (F.rot o v) (I.rot o v) (rot2 v o T1old) (rot4 v v o o T2old)).ITvovo2, tfour 1 1 1 1 (CC.lambda_int (F.rot o v) (I.rot o v) (rot2 v o T1old) (rot4 v v o o T2old)).ITvvvv, tfour 0 0 0 0 (CC.lambda_int (F.rot o v) (I.rot o v) (rot2 v o T1old) (rot4 v v o o T2old)).IToooo, tfour 0 0 1 1 (CC.lambda_int (F.rot o v) (I.rot o v) (rot2 v o T1old) (rot4 v v o o T2old)).IToovv2])
    (sorted_lambda_int F I T1old T2old) (by krfl) (by
      refine .cons ((rot_two _ _ _).2 rfl) ?_
      refine .cons ((rot_two _ _ _).2 rfl) ?_
      refine .cons ((rot_two _ _ _).2 rfl) ?_
      refine .cons ((rot_four _ _ _).2 rfl) ?_
      refine .cons ((rot_four _ _ _).2 rfl) ?_
      refine .cons ((rot_four _ _ _).2 rfl) ?_
      refine .cons ((rot_four _ _ _).2 rfl) ?_
      refine .cons ((rot_four _ _ _).2 rfl) ?_
      refine .cons ((rot_four _ _ _).2 rfl) ?_
      refine .cons ((rot_four _ _ _).2 rfl) ?_
      refine .cons ((rot_four _ _ _).2 rfl) ?_
      refine .cons ((rot_two _ _ _).2 rfl) ?_
      refine .cons ((rot_four _ _ _).2 rfl) ?_
      exact .nil)
  obtain ⟨h0, h1, h2, h3, h4, h5, h6, h7, h8, h9, h10, h11, h12, h13, h14, h15⟩ := rotRes16 h
  exact LambdaInt.ext ((rot_four _ _ _).1 h0) ((rot_four _ _ _).1 h1) ((rot_two _ _ _).1 h2) ((rot_two _ _ _).1 h3) ((rot_two _ _ _).1 h4) ((rot_four _ _ _).1 h5) ((rot_sorts _ _ _).1 h6) ((rot_four _ _ _).1 h7) ((rot_four _ _ _).1 h8) ((rot_two _ _ _).1 h9) ((rot_four _ _ _).1 h10) ((rot_four _ _ _).1 h11) ((rot_four _ _ _).1 h12) ((rot_four _ _ _).1 h13) ((rot_four _ _ _).1 h14) ((rot_sorts _ _ _).1 h15)

theorem sorted_ccd_lambda_simple (F : OneE O V K) (I : TwoE O V K) (L2old : O → O → V → V → K) (T2old : V → V → O → O → K) :
    Prog.ccd_lambda_simple.nrun (sorted (X := fam O V O V)) [stwo 0 0 F.oo, stwo 1 1 F.vv, sfour 0 0 0 0 I.oooo, sfour 0 0 1 1 I.oovv, sfour 1 0 1 0 I.vovo, sfour 1 1 1 1 I.vvvv, sfour 0 0 1 1 L2old, sfour 1 1 0 0 T2old] =
      .ok [sfour 0 0 1 1 (CC.ccd_lambda_simple F I L2old T2old)] := by krfl

theorem C55_ccd_lambda_simple (o : Change O O' K) (v : Change V V' K) (F : OneE O V K) (I : TwoE O V K) (L2old : O → O → V → V → K) (T2old : V → V → O → O → K) :
    CC.ccd_lambda_simple (F.rot o v) (I.rot o v) (rot4 o o v v L2old) (rot4 v v o o T2old) =
      (rot4 o o v v (CC.ccd_lambda_simple F I L2old T2old)) := by
  have h := rotates (chg o v o v) Prog.ccd_lambda_simple
    (bs := [ttwo 0 0 (F.rot o v).oo, ttwo 1 1 (F.rot o v).vv, tfour 0 0 0 0 (I.rot o v).oooo, tfour 0 0 1 1 (I.rot o v).oovv, tfour 1 0 1 0 (I.rot o v).vovo, tfour 1 1 1 1 (I.rot o v).vvvv, tfour 0 0 1 1 (rot4 o o v v L2old), tfour 1 1 0 0 (rot4 v v o o T2old)])
    (ds := [tfour 0 0 1 1 (CC.ccd_lambda_simple (F.rot o v) (I.rot o v) (rot4 o o v v L2old) (rot4 v v o o T2old))])
    (sorted_ccd_lambda_simple F I L2old T2old) (by krfl) (by
      refine .cons ((rot_two _ _ _).2 rfl) ?_
      refine .cons ((rot_two _ _ _).2 rfl) ?_
      refine .cons ((rot_four _ _ _).2 rfl) ?_
      refine .cons ((rot_four _ _ _).2 rfl) ?_
      refine .cons ((rot_four _ _ _).2 rfl) ?_
      refine .cons ((rot_four _ _ _).2 rfl) ?_
      refine .cons ((rot_four _ _ _).2 rfl) ?_
      refine .cons ((rot_four _ _ _).2 rfl) ?_
      exact .nil)
  have h0 := rotRes1 h
  exact ((rot_four _ _ _).1 h0)

theorem sorted_ccsd_lambda_opt (F : OneE O V K) (I : TwoE O V K) (L1old : O → V → K) (L2old : O → O → V → V → K) (T1old : V → O → K) (T2old : V → V → O → O → K) :
    Prog.ccsd_lambda_opt.nrun (sorted (X := fam O V O V)) [stwo 0 0 F.oo, stwo 0 1 F.ov, stwo 1 1 F.vv, sfour 0 0 0 0 I.oooo, sfour 0 0 0 1 I.ooov, sfour 0 0 1 1 I.oovv, sfour 1 0 0 0 I.vooo, sfour 1 0 1 0 I.vovo, sfour 1 0 1 1 I.vovv, sfour 1 1 1 0 I.vvvo, sfour 1 1 1 1 I.vvvv, stwo 0 1 L1old, sfour 0 0 1 1 L2old, stwo 1 0 T1old, sfour 1 1 0 0 T2old] =
      .ok [stwo 0 1 (CC.ccsd_lambda_opt F I L1old L2old T1old T2old).1, sfour 0 0 1 1 (CC.ccsd_lambda_opt F I L1old L2old T1old T2old).2] := by krfl

theorem C55_ccsd_lambda_opt (o : Change O O' K) (v : Change V V' K) (F : OneE O V K) (I : TwoE O V K) (L1old : O → V → K) (L2old : O → O → V → V → K) (T1old : V → O → K) (T2old : V → V → O → O → K) :
    CC.ccsd_lambda_opt (F.rot o v) (I.rot o v) (rot2 o v L1old) (rot4 o o v v L2old) (rot2 v o T1old) (rot4 v v o o T2old) =
      ((rot2 o v (CC.ccsd_lambda_opt F I L1old L2old T1old T2old).1), (rot4 o o v v (CC.ccsd_lambda_opt F I L1old L2old T1old T2old).2)) := by
  have h := rotates (chg o v o v) Prog.ccsd_lambda_opt
    (bs := [ttwo 0 0 (F.rot o v).oo, ttwo 0 1 (F.rot o v).ov, ttwo 1 1 (F.rot o v).vv, tfour 0 0 0 0 (I.rot o v).oooo, tfour 0 0 0 1 (I.rot o v).ooov, tfour 0 0 1 1 (I.rot o v).oovv, tfour 1 0 0 0 (I.rot o v).vooo, tfour 1 0 1 0 (I.rot o v).vovo, tfour 1 0 1 1 (I.rot o v).vovv, tfour 1 1 1 0 (I.rot o v).vvvo, tfour 1 1 1 1 (I.rot o v).vvvv, ttwo 0 1 (rot2 o v L1old), tfour 0 0 1 1 (rot4 o o v v L2old), ttwo 1 0 (rot2 v o T1old), tfour 1 1 0 0 (rot4 v v o o T2old)])
    (ds := [ttwo 0 1 (CC.ccsd_lambda_opt (F.rot o v) (I.rot o v) (rot2 o v L1old) (rot4 o o v v L2old) (rot2 v o T1old) (rot4 v v o o T2old)).1, tfour 0 0 1 1 (CC.ccsd_lambda_opt (F.rot o v) (I.rot o v) (rot2 o v L1old) (rot4 o o v v L2old) (rot2 v o T1old) (rot4 v v o o T2old)).2])
    (sorted_ccsd_lambda_opt F I L1old L2old T1old T2old) (by krfl) (by
      refine .cons ((rot_two _ _ _).2 rfl) ?_
      refine .cons ((rot_two _ _ _).2 rfl) ?_
      refine .cons ((rot_two _ _ _).2 rfl) ?_
      refine .cons ((rot_four _ _ _).2 rfl) ?_
      refine .cons ((rot_four _ _ _).2 rfl) ?_
      refine .cons ((rot_four _ _ _).2 rfl) ?_
      refine .cons ((rot_four _ _ _).2 rfl) ?_
      refine .cons ((rot_four _ _ _).2 rfl) ?_
      refine .cons ((rot_four _ _ _).2 rfl) ?_
      refine .cons ((rot_four _ _ _).2 rfl) ?_
      refine .cons ((rot_four _ _ _).2 rfl) ?_
      refine .cons ((rot_two _ _ _).2 rfl) ?_
      refine .cons ((rot_four _ _ _).2 rfl) ?_
      refine .cons ((rot_two _ _ _).2 rfl) ?_
      refine .cons ((rot_four _ _ _).2 rfl) ?_
      exact .nil)
  obtain ⟨h0, h1⟩ := rotRes2 h
  exact (Prod.ext ((rot_two _ _ _).1 h0) ((rot_four _ _ _).1 h1))

theorem sorted_ccsd_lambda_stanton (F : OneE O V K) (I : TwoE O V K) (L1old : O → V → K) (L2old : O → O → V → V → K) (T1old : V → O → K) (T2old : V → V → O → O → K) :
    Prog.ccsd_lambda_stanton.nrun (sorted (X := fam O V O V)) [stwo 0 0 F.oo, stwo 0 1 F.ov, stwo 1 1 F.vv, sfour 0 0 0 0 I.oooo, sfour 0 0 0 1 I.ooov, sfour 0 0 1 1 I.oovv, sfour 1 0 0 0 I.vooo, sfour 1 0 1 0 I.vovo, sfour 1 0 1 1 I.vovv, sfour 1 1 1 0 I.vvvo, sfour 1 1 1 1 I.vvvv, stwo 0 1 L1old, sfour 0 0 1 1 L2old, stwo 1 0 T1old, sfour 1 1 0 0 T2old] =
      .ok [stwo 0 1 (CC.ccsd_lambda_stanton F I L1old L2old T1old T2old).1, sfour 0 0 1 1 (CC.ccsd_lambda_stanton F I L1old L2old T1old T2old).2] := by krfl

theorem C55_ccsd_lambda_stanton (o : Change O O' K) (v : Change V V' K) (F : OneE O V K) (I : TwoE O V K) (L1old : O → V → K) (L2old : O → O → V → V → K) (T1old : V → O → K) (T2old : V → V → O → O → K) :
    CC.ccsd_lambda_stanton (F.rot o v) (I.rot o v) (rot2 o v L1old) (rot4 o o v v L2old) (rot2 v o T1old) (rot4 v v o o T2old) =
      ((rot2 o v (CC.ccsd_lambda_stanton F I L1old L2old T1old T2old).1), (rot4 o o v v (CC.ccsd_lambda_stanton F I L1old L2old T1old T2old).2)) := by
  have h := rotates (chg o v o v) Prog.ccsd_lambda_stanton
    (bs := [ttwo 0 0 (F.rot o v).oo, ttwo 0 1 (F.rot o v).ov, ttwo 1 1 (F.rot o v).vv, tfour 0 0 0 0 (I.rot o v).oooo, tfour 0 0 0 1 (I.rot o v).ooov, tfour 0 0 1 1 (I.rot o v).oovv, tfour 1 0 0 0 (I.rot o v).vooo, tfour 1 0 1 0 (I.rot o v).vovo, tfour 1 0 1 1 (I.rot o v).vovv, tfour 1 1 1 0 (I.rot o v).vvvo, tfour 1 1 1 1 (I.rot o v).vvvv, ttwo 0 1 (rot2 o v L1old), tfour 0 0 1 1 (rot4 o o v v L2old), ttwo 1 0 (rot2 v o T1old), tfour 1 1 0 0 (rot4 v v o o T2old)])
    (ds := [ttwo 0 1 (CC.ccsd_lambda_stanton (F.rot o v) (I.rot o v) (rot2 o v L1old) (rot4 o o v v L2old) (rot2 v o T1old) (rot4 v v o o T2old)).1, tfour 0 0 1 1 (CC.ccsd_lambda_stanton (F.rot o v) (I.rot o v) (rot2 o v L1old) (rot4 o o v v L2old) (rot2 v o T1old) (rot4 v v o o T2old)).2])
    (sorted_ccsd_lambda_stanton F I L1old L2old T1old T2old) (by krfl) (by
      refine .cons ((rot_two _ _ _).2 rfl) ?_
      refine .cons ((rot_two _ _ _).2 rfl) ?_
      refine .cons ((rot_two _ _ _).2 rfl) ?_
      refine .cons ((rot_four _ _ _).2 rfl) ?_
      refine .cons ((rot_four _ _ _).2 rfl) ?_
      refine .cons ((rot_four _ _ _).2 rfl) ?_
      refine .cons ((rot_four _ _ _).2 rfl) ?_
      refine .cons ((rot_four _ _ _).2 rfl) ?_
      refine .cons ((rot_four _ _ _).2 rfl) ?_
      refine .cons ((rot_four _ _ _).2 rfl) ?_
      refine .cons ((rot_four _ _ _).2 rfl) ?_
      refine .cons ((rot_two _ _ _).2 rfl) ?_
      refine .cons ((rot_four _ _ _).2 rfl) ?_
      refine .cons ((rot_two _ _ _).2 rfl) ?_
      refine .cons ((rot_four _ _ _).2 rfl) ?_
      exact .nil)
  obtain ⟨h0, h1⟩ := rotRes2 h
  exact (Prod.ext ((rot_two _ _ _).1 h0) ((rot_four _ _ _).1 h1))

theorem sorted_ccsd_lambda_opt_int (F : OneE O V K) (I : TwoE O V K) (L1old : O → V → K) (L2old : O → O → V → V → K) (T1old : V → O → K) (T2old : V → V → O → O → K) (intor : LambdaInt O V K) :
    Prog.ccsd_lambda_opt_int.nrun (sorted (X := fam O V O V)) [stwo 0 1 F.ov, sfour 0 0 0 1 I.ooov, sfour 0 0 1 1 I.oovv, sfour 1 0 1 1 I.vovv, stwo 0 1 L1old, sfour 0 0 1 1 L2old, stwo 1 0 T1old, sfour 1 1 0 0 T2old, stwo 0 0 intor.IToo, sfour 0 0 0 0 intor.IToooo, sfour 0 0 0 1 intor.ITooov, sring true 0 0 1 1 intor.IToovv, sring false 0 0 1 1 intor.IToovv2, stwo 0 1 intor.ITov, sfour 1 0 0 0 intor.ITvooo, sfour 1 0 1 0 intor.ITvovo, sfour 1 0 1 0 intor.ITvovo2, sfour 1 0 1 1 intor.ITvovv, stwo 1 1 intor.ITvv, sfour 1 1 1 0 intor.ITvvvo, sfour 1 1 1 1 intor.ITvvvv, sfour 0 0 0 1 intor.IooovT, sfour 1 0 1 1 intor.IvovvT] =
      .ok [stwo 0 1 (CC.ccsd_lambda_opt_int F I L1old L2old T1old T2old intor).1, sfour 0 0 1 1 (CC.ccsd_lambda_opt_int F I L1old L2old T1old T2old intor).2] := by krfl

theorem C55_ccsd_lambda_opt_int (o : Change O O' K) (v : Change V V' K) (F : OneE O V K) (I : TwoE O V K) (L1old : O → V → K) (L2old : O → O → V → V → K) (T1old : V → O → K) (T2old : V → V → O → O → K) (intor : LambdaInt O V K) :
    CC.ccsd_lambda_opt_int (F.rot o v) (I.rot o v) (rot2 o v L1old) (rot4 o o v v L2old) (rot2 v o T1old) (rot4 v v o o T2old) (intor.rot o v) =
      ((rot2 o v (CC.ccsd_lambda_opt_int F I L1old L2old T1old T2old intor).1), (rot4 o o v v (CC.ccsd_lambda_opt_int F I L1old L2old T1old T2old intor).2)) := by
  have h := rotates (chg o v o v) Prog.ccsd_lambda_opt_int
    (bs := [ttwo 0 1 (F.rot o v).ov, tfour 0 0 0 1 (I.rot o v).ooov, tfour 0 0 1 1 (I.rot o v).oovv, tfour 1 0 1 1 (I.rot o v).vovv, ttwo 0 1 (rot2 o v L1old), tfour 0 0 1 1 (rot4 o o v v L2old), ttwo 1 0 (rot2 v o T1old), tfour 1 1 0 0 (rot4 v v o o T2old), ttwo 0 0 (intor.rot o v).IToo, tfour 0 0 0 0 (intor.rot o v).IToooo, tfour 0 0 0 1 (intor.rot o v).ITooov, tfour 0 0 1 1 (intor.rot o v).IToovv, tfour 0 0 1 1 (intor.rot o v).IToovv2, ttwo 0 1 (intor.rot o v).ITov, tfour 1 0 0 0 (intor.rot o v).ITvooo, tfour 1 0 1 0 (intor.rot o v).ITvovo, tfour 1 0 1 0 (intor.rot o v).ITvovo2, tfour 1 0 1 1 (intor.rot o v).ITvovv, ttwo 1 1 (intor.rot o v).ITvv, tfour 1 1 1 0 (intor.rot o v).ITvvvo, tfour 1 1 1 1 (intor.rot o v).ITvvvv, tfour 0 0 0 1 (intor.rot o v).IooovT, tfour 1 0 1 1 (intor.rot o v).IvovvT])
    (ds := [ttwo 0 1 (CC.ccsd_lambda_opt_int (F.rot o v) (I.rot o v) (rot2 o v L1old) (rot4 o o v v L2old) (rot2 v o T1old) (rot4 v v o o T2old) (intor.rot o v)).1, tfour 0 0 1 1 (CC.ccsd_lambda_opt_int (F.rot o v) (I.rot o v) (rot2 o v L1old) (rot4 o o v v L2old) (rot2 v o T1old) (rot4 v v o o T2old) (intor.rot o v)).2])
    (sorted_ccsd_lambda_opt_int F I L1old L2old T1old T2old intor) (by krfl) (by
      refine .cons ((rot_two _ _ _).2 rfl) ?_
      refine .cons ((rot_four _ _ _).2 rfl) ?_
      refine .cons ((rot_four _ _ _).2 rfl) ?_
      refine .cons ((rot_four _ _ _).2 rfl) ?_
      refine .cons ((rot_two _ _ _).2 rfl) ?_
      refine .cons ((rot_four _ _ _).2 rfl) ?_
      refine .cons ((rot_two _ _ _).2 rfl) ?_
      refine .cons ((rot_four _ _ _).2 rfl) ?_
      refine .cons ((rot_two _ _ _).2 rfl) ?_
      refine .cons ((rot_four _ _ _).2 rfl) ?_
      refine .cons ((rot_four _ _ _).2 rfl) ?_
      refine .cons ((rot_sorts _ _ _).2 rfl) ?_
      refine .cons ((rot_sorts _ _ _).2 rfl) ?_
      refine .cons ((rot_two _ _ _).2 rfl) ?_
      refine .cons ((rot_four _ _ _).2 rfl) ?_
      refine .cons ((rot_four _ _ _).2 rfl) ?_
      refine .cons ((rot_four _ _ _).2 rfl) ?_
      refine .cons ((rot_four _ _ _).2 rfl) ?_
      refine .cons ((rot_two _ _ _).2 rfl) ?_
      refine .cons ((rot_four _ _ _).2 rfl) ?_
      refine .cons ((rot_four _ _ _).2 rfl) ?_
      refine .cons ((rot_four _ _ _).2 rfl) ?_
      refine .cons ((rot_four _ _ _).2 rfl) ?_
      exact .nil)
  obtain ⟨h0, h1⟩ := rotRes2 h
  exact (Prod.ext ((rot_two _ _ _).1 h0) ((rot_four _ _ _).1 h1))

theorem sorted_ccsd_lambda_simple (F : OneE O V K) (I : TwoE O V K) (L1old : O → V → K) (L2old : O → O → V → V → K) (T1old : V → O → K) (T2old : V → V → O → O → K) :
    Prog.ccsd_lambda_simple.nrun (sorted (X := fam O V O V)) [stwo 0 0 F.oo, stwo 0 1 F.ov, stwo 1 1 F.vv, sfour 0 0 0 0 I.oooo, sfour 0 0 0 1 I.ooov, sfour 0 0 1 1 I.oovv, sfour 1 0 0 0 I.vooo, sfour 1 0 1 0 I.vovo, sfour 1 0 1 1 I.vovv, sfour 1 1 1 0 I.vvvo, sfour 1 1 1 1 I.vvvv, stwo 0 1 L1old, sfour 0 0 1 1 L2old, stwo 1 0 T1old, sfour 1 1 0 0 T2old] =
      .ok [stwo 0 1 (CC.ccsd_lambda_simple F I L1old L2old T1old T2old).1, sfour 0 0 1 1 (CC.ccsd_lambda_simple F I L1old L2old T1old T2old).2] := by krfl

theorem C55_ccsd_lambda_simple (o : Change O O' K) (v : Change V V' K) (F : OneE O V K) (I : TwoE O V K) (L1old : O → V → K) (L2old : O → O → V → V → K) (T1old : V → O → K) (T2old : V → V → O → O → K) :
    CC.ccsd_lambda_simple (F.rot o v) (I.rot o v) (rot2 o v L1old) (rot4 o o v v L2old) (rot2 v o T1old) (rot4 v v o o T2old) =
      ((rot2 o v (CC.ccsd_lambda_simple F I L1old L2old T1old T2old).1), (rot4 o o v v (CC.ccsd_lambda_simple F I L1old L2old T1old T2old).2)) := by
  have h := rotates (chg o v o v) Prog.ccsd_lambda_simple
    (bs := [ttwo 0 0 (F.rot o v).oo, ttwo 0 1 (F.rot o v).ov, ttwo 1 1 (F.rot o v).vv, tfour 0 0 0 0 (I.rot o v).oooo, tfour 0 0 0 1 (I.rot o v).ooov, tfour 0 0 1 1 (I.rot o v).oovv, tfour 1 0 0 0 (I.rot o v).vooo, tfour 1 0 1 0 (I.rot o v).vovo, tfour 1 0 1 1 (I.rot o v).vovv, tfour 1 1 1 0 (I.rot o v).vvvo, tfour 1 1 1 1 (I.rot o v).vvvv, ttwo 0 1 (rot2 o v L1old), tfour 0 0 1 1 (rot4 o o v v L2old), ttwo 1 0 (rot2 v o T1old), tfour 1 1 0 0 (rot4 v v o o T2old)])
    (ds := [ttwo 0 1 (CC.ccsd_lambda_simple (F.rot o v) (I.rot o v) (rot2 o v L1old) (rot4 o o v v L2old) (rot2 v o T1old) (rot4 v v o o T2old)).1, tfour 0 0 1 1 (CC.ccsd_lambda_simple (F.rot o v) (I.rot o v) (rot2 o v L1old) (rot4 o o v v L2old) (rot2 v o T1old) (rot4 v v o o T2old)).2])
    (sorted_ccsd_lambda_simple F I L1old L2old T1old T2old) (by krfl) (by
      refine .cons ((rot_two _ _ _).2 rfl) ?_
      refine .cons ((rot_two _ _ _).2 rfl) ?_
      refine .cons ((rot_two _ _ _).2 rfl) ?_
      refine .cons ((rot_four _ _ _).2 rfl) ?_
      refine .cons ((rot_four _ _ _).2 rfl) ?_
      refine .cons ((rot_four _ _ _).2 rfl) ?_
      refine .cons ((rot_four _ _ _).2 rfl) ?_
      refine .cons ((rot_four _ _ _).2 rfl) ?_
      refine .cons ((rot_four _ _ _).2 rfl) ?_
      refine .cons ((rot_four _ _ _).2 rfl) ?_
      refine .cons ((rot_four _ _ _).2 rfl) ?_
      refine .cons ((rot_two _ _ _).2 rfl) ?_
      refine .cons ((rot_four _ _ _).2 rfl) ?_
      refine .cons ((rot_two _ _ _).2 rfl) ?_
      refine .cons ((rot_four _ _ _).2 rfl) ?_
      exact .nil)
  obtain ⟨h0, h1⟩ := rotRes2 h
  exact (Prod.ext ((rot_two _ _ _).1 h0) ((rot_four _ _ _).1 h1))

theorem sorted_ccsd_1rdm_ba (T1 : V → O → K) (T2 : V → V → O → O → K) (L1 : O → V → K) (L2 : O → O → V → V → K) :
    Prog.ccsd_1rdm_ba.nrun (sorted (X := fam O V O V)) [stwo 1 0 T1, sfour 1 1 0 0 T2, stwo 0 1 L1, sfour 0 0 1 1 L2] =
      .ok [stwo 1 1 (CC.ccsd_1rdm_ba T1 T2 L1 L2)] := by krfl

theorem C55_ccsd_1rdm_ba (o : Change O O' K) (v : Change V V' K) (T1 : V → O → K) (T2 : V → V → O → O → K) (L1 : O → V → K) (L2 : O → O → V → V → K) :
    CC.ccsd_1rdm_ba (rot2 v o T1) (rot4 v v o o T2) (rot2 o v L1) (rot4 o o v v L2) =
      (rot2 v v (CC.ccsd_1rdm_ba T1 T2 L1 L2)) := by
  have h := rotates (chg o v o v) Prog.ccsd_1rdm_ba
    (bs := [ttwo 1 0 (rot2 v o T1), tfour 1 1 0 0 (rot4 v v o o T2), ttwo 0 1 (rot2 o v L1), tfour 0 0 1 1 (rot4 o o v v L2)])
    (ds := [ttwo 1 1 (CC.ccsd_1rdm_ba (rot2 v o T1) (rot4 v v o o T2) (rot2 o v L1) (rot4 o o v v L2))])
    (sorted_ccsd_1rdm_ba T1 T2 L1 L2) (by krfl) (by
      refine .cons ((rot_two _ _ _).2 rfl) ?_
      refine .cons ((rot_four _ _ _).2 rfl) ?_
      refine .cons ((rot_two _ _ _).2 rfl) ?_
      refine .cons ((rot_four _ _ _).2 rfl) ?_
      exact .nil)
  have h0 := rotRes1 h
  exact ((rot_two _ _ _).1 h0)

theorem sorted_ccsd_1rdm_ji (T1 : V → O → K) (T2 : V → V → O → O → K) (L1 : O → V → K) (L2 : O → O → V → V → K) :
    Prog.ccsd_1rdm_ji.nrun (sorted (X := fam O V O V)) [stwo 1 0 T1, sfour 1 1 0 0 T2, stwo 0 1 L1, sfour 0 0 1 1 L2] =
      .ok [stwo 0 0 (CC.ccsd_1rdm_ji T1 T2 L1 L2)] := by krfl

theorem C55_ccsd_1rdm_ji (o : Change O O' K) (v : Change V V' K) (T1 : V → O → K) (T2 : V → V → O → O → K) (L1 : O → V → K) (L2 : O → O → V → V → K) :
    CC.ccsd_1rdm_ji (rot2 v o T1) (rot4 v v o o T2) (rot2 o v L1) (rot4 o o v v L2) =
      (rot2 o o (CC.ccsd_1rdm_ji T1 T2 L1 L2)) := by
  have h := rotates (chg o v o v) Prog.ccsd_1rdm_ji
    (bs := [ttwo 1 0 (rot2 v o T1), tfour 1 1 0 0 (rot4 v v o o T2), ttwo 0 1 (rot2 o v L1), tfour 0 0 1 1 (rot4 o o v v L2)])
    (ds := [ttwo 0 0 (CC.ccsd_1rdm_ji (rot2 v o T1) (rot4 v v o o T2) (rot2 o v L1) (rot4 o o v v L2))])
    (sorted_ccsd_1rdm_ji T1 T2 L1 L2) (by krfl) (by
      refine .cons ((rot_two _ _ _).2 rfl) ?_
      refine .cons ((rot_four _ _ _).2 rfl) ?_
      refine .cons ((rot_two _ _ _).2 rfl) ?_
      refine .cons ((rot_four _ _ _).2 rfl) ?_
      exact .nil)
  have h0 := rotRes1 h
  exact ((rot_two _ _ _).1 h0)

theorem sorted_ccsd_1rdm_ai (T1 : V → O → K) (T2 : V → V → O → O → K) (L1 : O → V → K) (L2 : O → O → V → V → K) (tfac : K) :
    Prog.ccsd_1rdm_ai.nrun (sorted (X := fam O V O V)) [stwo 1 0 T1, sfour 1 1 0 0 T2, stwo 0 1 L1, sfour 0 0 1 1 L2, snum tfac] =
      .ok [stwo 1 0 (CC.ccsd_1rdm_ai T1 T2 L1 L2 tfac)] := by krfl

theorem C55_ccsd_1rdm_ai (o : Change O O' K) (v : Change V V' K) (T1 : V → O → K) (T2 : V → V → O → O → K) (L1 : O → V → K) (L2 : O → O → V → V → K) (tfac : K) :
    CC.ccsd_1rdm_ai (rot2 v o T1) (rot4 v v o o T2) (rot2 o v L1) (rot4 o o v v L2) tfac =
      (rot2 v o (CC.ccsd_1rdm_ai T1 T2 L1 L2 tfac)) := by
  have h := rotates (chg o v o v) Prog.ccsd_1rdm_ai
    (bs := [ttwo 1 0 (rot2 v o T1), tfour 1 1 0 0 (rot4 v v o o T2), ttwo 0 1 (rot2 o v L1), tfour 0 0 1 1 (rot4 o o v v L2), tnum tfac])
    (ds := [ttwo 1 0 (CC.ccsd_1rdm_ai (rot2 v o T1) (rot4 v v o o T2) (rot2 o v L1) (rot4 o o v v L2) tfac)])
    (sorted_ccsd_1rdm_ai T1 T2 L1 L2 tfac) (by krfl) (by
      refine .cons ((rot_two _ _ _).2 rfl) ?_
      refine .cons ((rot_four _ _ _).2 rfl) ?_
      refine .cons ((rot_two _ _ _).2 rfl) ?_
      refine .cons ((rot_four _ _ _).2 rfl) ?_
      refine .cons ((rot_num _ _ _).2 rfl) ?_
      exact .nil)
  have h0 := rotRes1 h
  exact ((rot_two _ _ _).1 h0)

theorem sorted_ccsd_2rdm_cdab (T1 : V → O → K) (T2 : V → V → O → O → K) (L1 : O → V → K) (L2 : O → O → V → V → K) :
    Prog.ccsd_2rdm_cdab.nrun (sorted (X := fam O V O V)) [stwo 1 0 T1, sfour 1 1 0 0 T2, sfour 0 0 1 1 L2] =
      .ok [sfour 1 1 1 1 (CC.ccsd_2rdm_cdab T1 T2 L1 L2)] := by krfl

theorem C55_ccsd_2rdm_cdab (o : Change O O' K) (v : Change V V' K) (T1 : V → O → K) (T2 : V → V → O → O → K) (L1 : O → V → K) (L2 : O → O → V → V → K) :
    CC.ccsd_2rdm_cdab (rot2 v o T1) (rot4 v v o o T2) (rot2 o v L1) (rot4 o o v v L2) =
      (rot4 v v v v (CC.ccsd_2rdm_cdab T1 T2 L1 L2)) := by
  have h := rotates (chg o v o v) Prog.ccsd_2rdm_cdab
    (bs := [ttwo 1 0 (rot2 v o T1), tfour 1 1 0 0 (rot4 v v o o T2), tfour 0 0 1 1 (rot4 o o v v L2)])
    (ds := [tfour 1 1 1 1 (CC.ccsd_2rdm_cdab (rot2 v o T1) (rot4 v v o o T2) (rot2 o v L1) (rot4 o o v v L2))])
    (sorted_ccsd_2rdm_cdab T1 T2 L1 L2) (by krfl) (by
      refine .cons ((rot_two _ _ _).2 rfl) ?_
      refine .cons ((rot_four _ _ _).2 rfl) ?_
      refine .cons ((rot_four _ _ _).2 rfl) ?_
      exact .nil)
  have h0 := rotRes1 h
  exact ((rot_four _ _ _).1 h0)

theorem sorted_ccsd_2rdm_ciab (T1 : V → O → K) (T2 : V → V → O → O → K) (L1 : O → V → K) (L2 : O → O → V → V → K) :
    Prog.ccsd_2rdm_ciab.nrun (sorted (X := fam O V O V)) [stwo 1 0 T1, sfour 0 0 1 1 L2] =
      .ok [sfour 1 0 1 1 (CC.ccsd_2rdm_ciab T1 T2 L1 L2)] := by krfl

theorem C55_ccsd_2rdm_ciab (o : Change O O' K) (v : Change V V' K) (T1 : V → O → K) (T2 : V → V → O → O → K) (L1 : O → V → K) (L2 : O → O → V → V → K) :
    CC.ccsd_2rdm_ciab (rot2 v o T1) (rot4 v v o o T2) (rot2 o v L1) (rot4 o o v v L2) =
      (rot4 v o v v (CC.ccsd_2rdm_ciab T1 T2 L1 L2)) := by
  have h := rotates (chg o v o v) Prog.ccsd_2rdm_ciab
    (bs := [ttwo 1 0 (rot2 v o T1), tfour 0 0 1 1 (rot4 o o v v L2)])
    (ds := [tfour 1 0 1 1 (CC.ccsd_2rdm_ciab (rot2 v o T1) (rot4 v v o o T2) (rot2 o v L1) (rot4 o o v v L2))])
    (sorted_ccsd_2rdm_ciab T1 T2 L1 L2) (by krfl) (by
      refine .cons ((rot_two _ _ _).2 rfl) ?_
      refine .cons ((rot_four _ _ _).2 rfl) ?_
      exact .nil)
  have h0 := rotRes1 h
  exact ((rot_four _ _ _).1 h0)

theorem sorted_ccsd_2rdm_bcai (T1 : V → O → K) (T2 : V → V → O → O → K) (L1 : O → V → K) (L2 : O → O → V → V → K) :
    Prog.ccsd_2rdm_bcai.nrun (sorted (X := fam O V O V)) [stwo 1 0 T1, sfour 1 1 0 0 T2, stwo 0 1 L1, sfour 0 0 1 1 L2] =
      .ok [sfour 1 1 1 0 (CC.ccsd_2rdm_bcai T1 T2 L1 L2)] := by krfl

theorem C55_ccsd_2rdm_bcai (o : Change O O' K) (v : Change V V' K) (T1 : V → O → K) (T2 : V → V → O → O → K) (L1 : O → V → K) (L2 : O → O → V → V → K) :
    CC.ccsd_2rdm_bcai (rot2 v o T1) (rot4 v v o o T2) (rot2 o v L1) (rot4 o o v v L2) =
      (rot4 v v v o (CC.ccsd_2rdm_bcai T1 T2 L1 L2)) := by
  have h := rotates (chg o v o v) Prog.ccsd_2rdm_bcai
    (bs := [ttwo 1 0 (rot2 v o T1), tfour 1 1 0 0 (rot4 v v o o T2), ttwo 0 1 (rot2 o v L1), tfour 0 0 1 1 (rot4 o o v v L2)])
    (ds := [tfour 1 1 1 0 (CC.ccsd_2rdm_bcai (rot2 v o T1) (rot4 v v o o T2) (rot2 o v L1) (rot4 o o v v L2))])
    (sorted_ccsd_2rdm_bcai T1 T2 L1 L2) (by krfl) (by
      refine .cons ((rot_two _ _ _).2 rfl) ?_
      refine .cons ((rot_four _ _ _).2 rfl) ?_
      refine .cons ((rot_two _ _ _).2 rfl) ?_
      refine .cons ((rot_four _ _ _).2 rfl) ?_
      exact .nil)
  have h0 := rotRes1 h
  exact ((rot_four _ _ _).1 h0)

theorem sorted_ccsd_2rdm_bjai (T1 : V → O → K) (T2 : V → V → O → O → K) (L1 : O → V → K) (L2 : O → O → V → V → K) :
    Prog.ccsd_2rdm_bjai.nrun (sorted (X := fam O V O V)) [stwo 1 0 T1, sfour 1 1 0 0 T2, stwo 0 1 L1, sfour 0 0 1 1 L2] =
      .ok [sfour 1 0 1 0 (CC.ccsd_2rdm_bjai T1 T2 L1 L2)] := by krfl

theorem C55_ccsd_2rdm_bjai (o : Change O O' K) (v : Change V V' K) (T1 : V → O → K) (T2 : V → V → O → O → K) (L1 : O → V → K) (L2 : O → O → V → V → K) :
    CC.ccsd_2rdm_bjai (rot2 v o T1) (rot4 v v o o T2) (rot2 o v L1) (rot4 o o v v L2) =
      (rot4 v o v o (CC.ccsd_2rdm_bjai T1 T2 L1 L2)) := by
  have h := rotates (chg o v o v) Prog.ccsd_2rdm_bjai
    (bs := [ttwo 1 0 (rot2 v o T1), tfour 1 1 0 0 (rot4 v v o o T2), ttwo 0 1 (rot2 o v L1), tfour 0 0 1 1 (rot4 o o v v L2)])
    (ds := [tfour 1 0 1 0 (CC.ccsd_2rdm_bjai (rot2 v o T1) (rot4 v v o o T2) (rot2 o v L1) (rot4 o o v v L2))])
    (sorted_ccsd_2rdm_bjai T1 T2 L1 L2) (by krfl) (by
      refine .cons ((rot_two _ _ _).2 rfl) ?_
      refine .cons ((rot_four _ _ _).2 rfl) ?_
      refine .cons ((rot_two _ _ _).2 rfl) ?_
      refine .cons ((rot_four _ _ _).2 rfl) ?_
      exact .nil)
  have h0 := rotRes1 h
  exact ((rot_four _ _ _).1 h0)

theorem sorted_ccsd_2rdm_abij (T1 : V → O → K) (T2 : V → V → O → O → K) (L1 : O → V → K) (L2 : O → O → V → V → K) (tfac : K) :
    Prog.ccsd_2rdm_abij.nrun (sorted (X := fam O V O V)) [stwo 1 0 T1, sfour 1 1 0 0 T2, stwo 0 1 L1, sfour 0 0 1 1 L2, snum tfac] =
      .ok [sfour 1 1 0 0 (CC.ccsd_2rdm_abij T1 T2 L1 L2 tfac)] := by krfl

theorem C55_ccsd_2rdm_abij (o : Change O O' K) (v : Change V V' K) (T1 : V → O → K) (T2 : V → V → O → O → K) (L1 : O → V → K) (L2 : O → O → V → V → K) (tfac : K) :
    CC.ccsd_2rdm_abij (rot2 v o T1) (rot4 v v o o T2) (rot2 o v L1) (rot4 o o v v L2) tfac =
      (rot4 v v o o (CC.ccsd_2rdm_abij T1 T2 L1 L2 tfac)) := by
  have h := rotates (chg o v o v) Prog.ccsd_2rdm_abij
    (bs := [ttwo 1 0 (rot2 v o T1), tfour 1 1 0 0 (rot4 v v o o T2), ttwo 0 1 (rot2 o v L1), tfour 0 0 1 1 (rot4 o o v v L2), tnum tfac])
    (ds := [tfour 1 1 0 0 (CC.ccsd_2rdm_abij (rot2 v o T1) (rot4 v v o o T2) (rot2 o v L1) (rot4 o o v v L2) tfac)])
    (sorted_ccsd_2rdm_abij T1 T2 L1 L2 tfac) (by krfl) (by
      refine .cons ((rot_two _ _ _).2 rfl) ?_
      refine .cons ((rot_four _ _ _).2 rfl) ?_
      refine .cons ((rot_two _ _ _).2 rfl) ?_
      refine .cons ((rot_four _ _ _).2 rfl) ?_
      refine .cons ((rot_num _ _ _).2 rfl) ?_
      exact .nil)
  have h0 := rotRes1 h
  exact ((rot_four _ _ _).1 h0)

theorem sorted_ccsd_2rdm_jkai (T1 : V → O → K) (T2 : V → V → O → O → K) (L1 : O → V → K) (L2 : O → O → V → V → K) :
    Prog.ccsd_2rdm_jkai.nrun (sorted (X := fam O V O V)) [stwo 1 0 T1, sfour 0 0 1 1 L2] =
      .ok [sfour 0 0 1 0 (CC.ccsd_2rdm_jkai T1 T2 L1 L2)] := by krfl

theorem C55_ccsd_2rdm_jkai (o : Change O O' K) (v : Change V V' K) (T1 : V → O → K) (T2 : V → V → O → O → K) (L1 : O → V → K) (L2 : O → O → V → V → K) :
    CC.ccsd_2rdm_jkai (rot2 v o T1) (rot4 v v o o T2) (rot2 o v L1) (rot4 o o v v L2) =
      (rot4 o o v o (CC.ccsd_2rdm_jkai T1 T2 L1 L2)) := by
  have h := rotates (chg o v o v) Prog.ccsd_2rdm_jkai
    (bs := [ttwo 1 0 (rot2 v o T1), tfour 0 0 1 1 (rot4 o o v v L2)])
    (ds := [tfour 0 0 1 0 (CC.ccsd_2rdm_jkai (rot2 v o T1) (rot4 v v o o T2) (rot2 o v L1) (rot4 o o v v L2))])
    (sorted_ccsd_2rdm_jkai T1 T2 L1 L2) (by krfl) (by
      refine .cons ((rot_two _ _ _).2 rfl) ?_
      refine .cons ((rot_four _ _ _).2 rfl) ?_
      exact .nil)
  have h0 := rotRes1 h
  exact ((rot_four _ _ _).1 h0)

theorem sorted_ccsd_2rdm_kaij (T1 : V → O → K) (T2 : V → V → O → O → K) (L1 : O → V → K) (L2 : O → O → V → V → K) :
    Prog.ccsd_2rdm_kaij.nrun (sorted (X := fam O V O V)) [stwo 1 0 T1, sfour 1 1 0 0 T2, stwo 0 1 L1, sfour 0 0 1 1 L2] =
      .ok [sfour 0 1 0 0 (CC.ccsd_2rdm_kaij T1 T2 L1 L2)] := by krfl

theorem C55_ccsd_2rdm_kaij (o : Change O O' K) (v : Change V V' K) (T1 : V → O → K) (T2 : V → V → O → O → K) (L1 : O → V → K) (L2 : O → O → V → V → K) :
    CC.ccsd_2rdm_kaij (rot2 v o T1) (rot4 v v o o T2) (rot2 o v L1) (rot4 o o v v L2) =
      (rot4 o v o o (CC.ccsd_2rdm_kaij T1 T2 L1 L2)) := by
  have h := rotates (chg o v o v) Prog.ccsd_2rdm_kaij
    (bs := [ttwo 1 0 (rot2 v o T1), tfour 1 1 0 0 (rot4 v v o o T2), ttwo 0 1 (rot2 o v L1), tfour 0 0 1 1 (rot4 o o v v L2)])
    (ds := [tfour 0 1 0 0 (CC.ccsd_2rdm_kaij (rot2 v o T1) (rot4 v v o o T2) (rot2 o v L1) (rot4 o o v v L2))])
    (sorted_ccsd_2rdm_kaij T1 T2 L1 L2) (by krfl) (by
      refine .cons ((rot_two _ _ _).2 rfl) ?_
      refine .cons ((rot_four _ _ _).2 rfl) ?_
      refine .cons ((rot_two _ _ _).2 rfl) ?_
      refine .cons ((rot_four _ _ _).2 rfl) ?_
      exact .nil)
  have h0 := rotRes1 h
  exact ((rot_four _ _ _).1 h0)

theorem sorted_ccsd_2rdm_klij (T1 : V → O → K) (T2 : V → V → O → O → K) (L1 : O → V → K) (L2 : O → O → V → V → K) :
    Prog.ccsd_2rdm_klij.nrun (sorted (X := fam O V O V)) [stwo 1 0 T1, sfour 1 1 0 0 T2, sfour 0 0 1 1 L2] =
      .ok [sfour 0 0 0 0 (CC.ccsd_2rdm_klij T1 T2 L1 L2)] := by krfl

theorem C55_ccsd_2rdm_klij (o : Change O O' K) (v : Change V V' K) (T1 : V → O → K) (T2 : V → V → O → O → K) (L1 : O → V → K) (L2 : O → O → V → V → K) :
    CC.ccsd_2rdm_klij (rot2 v o T1) (rot4 v v o o T2) (rot2 o v L1) (rot4 o o v v L2) =
      (rot4 o o o o (CC.ccsd_2rdm_klij T1 T2 L1 L2)) := by
  have h := rotates (chg o v o v) Prog.ccsd_2rdm_klij
    (bs := [ttwo 1 0 (rot2 v o T1), tfour 1 1 0 0 (rot4 v v o o T2), tfour 0 0 1 1 (rot4 o o v v L2)])
    (ds := [tfour 0 0 0 0 (CC.ccsd_2rdm_klij (rot2 v o T1) (rot4 v v o o T2) (rot2 o v L1) (rot4 o o v v L2))])
    (sorted_ccsd_2rdm_klij T1 T2 L1 L2) (by krfl) (by
      refine .cons ((rot_two _ _ _).2 rfl) ?_
      refine .cons ((rot_four _ _ _).2 rfl) ?_
      refine .cons ((rot_four _ _ _).2 rfl) ?_
      exact .nil)
  have h0 := rotRes1 h
  exact ((rot_four _ _ _).1 h0)

theorem sorted_ccsd_1rdm_ai_opt (T1 : V → O → K) (T2 : V → V → O → O → K) (L1 : O → V → K) (L2 : O → O → V → V → K) (tfac : K) :
    Prog.ccsd_1rdm_ai_opt.nrun (sorted (X := fam O V O V)) [stwo 1 0 T1, sfour 1 1 0 0 T2, stwo 0 1 L1, sfour 0 0 1 1 L2, snum tfac] =
      .ok [stwo 1 0 (CC.ccsd_1rdm_ai_opt T1 T2 L1 L2 tfac)] := by krfl

theorem C55_ccsd_1rdm_ai_opt (o : Change O O' K) (v : Change V V' K) (T1 : V → O → K) (T2 : V → V → O → O → K) (L1 : O → V → K) (L2 : O → O → V → V → K) (tfac : K) :
    CC.ccsd_1rdm_ai_opt (rot2 v o T1) (rot4 v v o o T2) (rot2 o v L1) (rot4 o o v v L2) tfac =
      (rot2 v o (CC.ccsd_1rdm_ai_opt T1 T2 L1 L2 tfac)) := by
  have h := rotates (chg o v o v) Prog.ccsd_1rdm_ai_opt
    (bs := [ttwo 1 0 (rot2 v o T1), tfour 1 1 0 0 (rot4 v v o o T2), ttwo 0 1 (rot2 o v L1), tfour 0 0 1 1 (rot4 o o v v L2), tnum tfac])
    (ds := [ttwo 1 0 (CC.ccsd_1rdm_ai_opt (rot2 v o T1) (rot4 v v o o T2) (rot2 o v L1) (rot4 o o v v L2) tfac)])
    (sorted_ccsd_1rdm_ai_opt T1 T2 L1 L2 tfac) (by krfl) (by
      refine .cons ((rot_two _ _ _).2 rfl) ?_
      refine .cons ((rot_four _ _ _).2 rfl) ?_
      refine .cons ((rot_two _ _ _).2 rfl) ?_
      refine .cons ((rot_four _ _ _).2 rfl) ?_
      refine .cons ((rot_num _ _ _).2 rfl) ?_
      exact .nil)
  have h0 := rotRes1 h
  exact ((rot_two _ _ _).1 h0)

theorem sorted_ccsd_2rdm_cdab_opt (T1 : V → O → K) (T2 : V → V → O → O → K) (L1 : O → V → K) (L2 : O → O → V → V → K) :
    Prog.ccsd_2rdm_cdab_opt.nrun (sorted (X := fam O V O V)) [stwo 1 0 T1, sfour 1 1 0 0 T2, sfour 0 0 1 1 L2] =
      .ok [sfour 1 1 1 1 (CC.ccsd_2rdm_cdab_opt T1 T2 L1 L2)] := by krfl

theorem C55_ccsd_2rdm_cdab_opt (o : Change O O' K) (v : Change V V' K) (T1 : V → O → K) (T2 : V → V → O → O → K) (L1 : O → V → K) (L2 : O → O → V → V → K) :
    CC.ccsd_2rdm_cdab_opt (rot2 v o T1) (rot4 v v o o T2) (rot2 o v L1) (rot4 o o v v L2) =
      (rot4 v v v v (CC.ccsd_2rdm_cdab_opt T1 T2 L1 L2)) := by
  have h := rotates (chg o v o v) Prog.ccsd_2rdm_cdab_opt
    (bs := [ttwo 1 0 (rot2 v o T1), tfour 1 1 0 0 (rot4 v v o o T2), tfour 0 0 1 1 (rot4 o o v v L2)])
    (ds := [tfour 1 1 1 1 (CC.ccsd_2rdm_cdab_opt (rot2 v o T1) (rot4 v v o o T2) (rot2 o v L1) (rot4 o o v v L2))])
    (sorted_ccsd_2rdm_cdab_opt T1 T2 L1 L2) (by krfl) (by
      refine .cons ((rot_two _ _ _).2 rfl) ?_
      refine .cons ((rot_four _ _ _).2 rfl) ?_
      refine .cons ((rot_four _ _ _).2 rfl) ?_
      exact .nil)
  have h0 := rotRes1 h
  exact ((rot_four _ _ _).1 h0)

theorem sorted_ccsd_2rdm_bcai_opt (T1 : V → O → K) (T2 : V → V → O → O → K) (L1 : O → V → K) (L2 : O → O → V → V → K) :
    Prog.ccsd_2rdm_bcai_opt.nrun (sorted (X := fam O V O V)) [stwo 1 0 T1, sfour 1 1 0 0 T2, stwo 0 1 L1, sfour 0 0 1 1 L2] =
      .ok [sfour 1 1 1 0 (CC.ccsd_2rdm_bcai_opt T1 T2 L1 L2)] := by krfl

theorem C55_ccsd_2rdm_bcai_opt (o : Change O O' K) (v : Change V V' K) (T1 : V → O → K) (T2 : V → V → O → O → K) (L1 : O → V → K) (L2 : O → O → V → V → K) :
    CC.ccsd_2rdm_bcai_opt (rot2 v o T1) (rot4 v v o o T2) (rot2 o v L1) (rot4 o o v v L2) =
      (rot4 v v v o (CC.ccsd_2rdm_bcai_opt T1 T2 L1 L2)) := by
  have h := rotates (chg o v o v) Prog.ccsd_2rdm_bcai_opt
    (bs := [ttwo 1 0 (rot2 v o T1), tfour 1 1 0 0 (rot4 v v o o T2), ttwo 0 1 (rot2 o v L1), tfour 0 0 1 1 (rot4 o o v v L2)])
    (ds := [tfour 1 1 1 0 (CC.ccsd_2rdm_bcai_opt (rot2 v o T1) (rot4 v v o o T2) (rot2 o v L1) (rot4 o o v v L2))])
    (sorted_ccsd_2rdm_bcai_opt T1 T2 L1 L2) (by krfl) (by
      refine .cons ((rot_two _ _ _).2 rfl) ?_
      refine .cons ((rot_four _ _ _).2 rfl) ?_
      refine .cons ((rot_two _ _ _).2 rfl) ?_
      refine .cons ((rot_four _ _ _).2 rfl) ?_
      exact .nil)
  have h0 := rotRes1 h
  exact ((rot_four _ _ _).1 h0)

theorem sorted_ccsd_2rdm_bjai_opt (T1 : V → O → K) (T2 : V → V → O → O → K) (L1 : O → V → K) (L2 : O → O → V → V → K) :
    Prog.ccsd_2rdm_bjai_opt.nrun (sorted (X := fam O V O V)) [stwo 1 0 T1, sfour 1 1 0 0 T2, stwo 0 1 L1, sfour 0 0 1 1 L2] =
      .ok [sfour 1 0 1 0 (CC.ccsd_2rdm_bjai_opt T1 T2 L1 L2)] := by krfl

theorem C55_ccsd_2rdm_bjai_opt (o : Change O O' K) (v : Change V V' K) (T1 : V → O → K) (T2 : V → V → O → O → K) (L1 : O → V → K) (L2 : O → O → V → V → K) :
    CC.ccsd_2rdm_bjai_opt (rot2 v o T1) (rot4 v v o o T2) (rot2 o v L1) (rot4 o o v v L2) =
      (rot4 v o v o (CC.ccsd_2rdm_bjai_opt T1 T2 L1 L2)) := by
  have h := rotates (chg o v o v) Prog.ccsd_2rdm_bjai_opt
    (bs := [ttwo 1 0 (rot2 v o T1), tfour 1 1 0 0 (rot4 v v o o T2), ttwo 0 1 (rot2 o v L1), tfour 0 0 1 1 (rot4 o o v v L2)])
    (ds := [tfour 1 0 1 0 (CC.ccsd_2rdm_bjai_opt (rot2 v o T1) (rot4 v v o o T2) (rot2 o v L1) (rot4 o o v v L2))])
    (sorted_ccsd_2rdm_bjai_opt T1 T2 L1 L2) (by krfl) (by
      refine .cons ((rot_two _ _ _).2 rfl) ?_
      refine .cons ((rot_four _ _ _).2 rfl) ?_
      refine .cons ((rot_two _ _ _).2 rfl) ?_
      refine .cons ((rot_four _ _ _).2 rfl) ?_
      exact .nil)
  have h0 := rotRes1 h
  exact ((rot_four _ _ _).1 h0)

theorem sorted_ccsd_2rdm_abij_opt (T1 : V → O → K) (T2 : V → V → O → O → K) (L1 : O → V → K) (L2 : O → O → V → V → K) (tfac : K) :
    Prog.ccsd_2rdm_abij_opt.nrun (sorted (X := fam O V O V)) [stwo 1 0 T1, sfour 1 1 0 0 T2, stwo 0 1 L1, sfour 0 0 1 1 L2, snum tfac] =
      .ok [sfour 1 1 0 0 (CC.ccsd_2rdm_abij_opt T1 T2 L1 L2 tfac)] := by krfl

theorem C55_ccsd_2rdm_abij_opt (o : Change O O' K) (v : Change V V' K) (T1 : V → O → K) (T2 : V → V → O → O → K) (L1 : O → V → K) (L2 : O → O → V → V → K) (tfac : K) :
    CC.ccsd_2rdm_abij_opt (rot2 v o T1) (rot4 v v o o T2) (rot2 o v L1) (rot4 o o v v L2) tfac =
      (rot4 v v o o (CC.ccsd_2rdm_abij_opt T1 T2 L1 L2 tfac)) := by
  have h := rotates (chg o v o v) Prog.ccsd_2rdm_abij_opt
    (bs := [ttwo 1 0 (rot2 v o T1), tfour 1 1 0 0 (rot4 v v o o T2), ttwo 0 1 (rot2 o v L1), tfour 0 0 1 1 (rot4 o o v v L2), tnum tfac])
    (ds := [tfour 1 1 0 0 (CC.ccsd_2rdm_abij_opt (rot2 v o T1) (rot4 v v o o T2) (rot2 o v L1) (rot4 o o v v L2) tfac)])
    (sorted_ccsd_2rdm_abij_opt T1 T2 L1 L2 tfac) (by krfl) (by
      refine .cons ((rot_two _ _ _).2 rfl) ?_
      refine .cons ((rot_four _ _ _).2 rfl) ?_
      refine .cons ((rot_two _ _ _).2 rfl) ?_
      refine .cons ((rot_four _ _ _).2 rfl) ?_
      refine .cons ((rot_num _ _ _).2 rfl) ?_
      exact .nil)
  have h0 := rotRes1 h
  exact ((rot_four _ _ _).1 h0)

theorem sorted_ccsd_2rdm_kaij_opt (T1 : V → O → K) (T2 : V → V → O → O → K) (L1 : O → V → K) (L2 : O → O → V → V → K) :
    Prog.ccsd_2rdm_kaij_opt.nrun (sorted (X := fam O V O V)) [stwo 1 0 T1, sfour 1 1 0 0 T2, stwo 0 1 L1, sfour 0 0 1 1 L2] =
      .ok [sfour 0 1 0 0 (CC.ccsd_2rdm_kaij_opt T1 T2 L1 L2)] := by krfl

theorem C55_ccsd_2rdm_kaij_opt (o : Change O O' K) (v : Change V V' K) (T1 : V → O → K) (T2 : V → V → O → O → K) (L1 : O → V → K) (L2 : O → O → V → V → K) :
    CC.ccsd_2rdm_kaij_opt (rot2 v o T1) (rot4 v v o o T2) (rot2 o v L1) (rot4 o o v v L2) =
      (rot4 o v o o (CC.ccsd_2rdm_kaij_opt T1 T2 L1 L2)) := by
  have h := rotates (chg o v o v) Prog.ccsd_2rdm_kaij_opt
    (bs := [ttwo 1 0 (rot2 v o T1), tfour 1 1 0 0 (rot4 v v o o T2), ttwo 0 1 (rot2 o v L1), tfour 0 0 1 1 (rot4 o o v v L2)])
    (ds := [tfour 0 1 0 0 (CC.ccsd_2rdm_kaij_opt (rot2 v o T1) (rot4 v v o o T2) (rot2 o v L1) (rot4 o o v v L2))])
    (sorted_ccsd_2rdm_kaij_opt T1 T2 L1 L2) (by krfl) (by
      refine .cons ((rot_two _ _ _).2 rfl) ?_
      refine .cons ((rot_four _ _ _).2 rfl) ?_
      refine .cons ((rot_two _ _ _).2 rfl) ?_
      refine .cons ((rot_four _ _ _).2 rfl) ?_
      exact .nil)
  have h0 := rotRes1 h
  exact ((rot_four _ _ _).1 h0)

theorem sorted_ccsd_2rdm_klij_opt (T1 : V → O → K) (T2 : V → V → O → O → K) (L1 : O → V → K) (L2 : O → O → V → V → K) :
    Prog.ccsd_2rdm_klij_opt.nrun (sorted (X := fam O V O V)) [stwo 1 0 T1, sfour 1 1 0 0 T2, sfour 0 0 1 1 L2] =
      .ok [sfour 0 0 0 0 (CC.ccsd_2rdm_klij_opt T1 T2 L1 L2)] := by krfl

theorem C55_ccsd_2rdm_klij_opt (o : Change O O' K) (v : Change V V' K) (T1 : V → O → K) (T2 : V → V → O → O → K) (L1 : O → V → K) (L2 : O → O → V → V → K) :
    CC.ccsd_2rdm_klij_opt (rot2 v o T1) (rot4 v v o o T2) (rot2 o v L1) (rot4 o o v v L2) =
      (rot4 o o o o (CC.ccsd_2rdm_klij_opt T1 T2 L1 L2)) := by
  have h := rotates (chg o v o v) Prog.ccsd_2rdm_klij_opt
    (bs := [ttwo 1 0 (rot2 v o T1), tfour 1 1 0 0 (rot4 v v o o T2), tfour 0 0 1 1 (rot4 o o v v L2)])
    (ds := [tfour 0 0 0 0 (CC.ccsd_2rdm_klij_opt (rot2 v o T1) (rot4 v v o o T2) (rot2 o v L1) (rot4 o o v v L2))])
    (sorted_ccsd_2rdm_klij_opt T1 T2 L1 L2) (by krfl) (by
      refine .cons ((rot_two _ _ _).2 rfl) ?_
      refine .cons ((rot_four _ _ _).2 rfl) ?_
      refine .cons ((rot_four _ _ _).2 rfl) ?_
      exact .nil)
  have h0 := rotRes1 h
  exact ((rot_four _ _ _).1 h0)

end Heap
