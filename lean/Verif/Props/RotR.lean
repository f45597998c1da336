import Verif.Props.RotRun
import Verif.Model.HeapProg
import Verif.Model.CCEnergy
import Verif.Model.CCRT
import Verif.Model.CCRL
import Verif.Model.CCRRdm
/-!
# C55: the restricted routines and changes of the orbital basis

Generated by `tools/gen_rot.py`.  The result of a routine called with integrals and amplitudes in a new basis is the result in the old basis,
transformed.
-/

set_option linter.unusedVariables false
set_option linter.unusedSectionVars false

namespace Heap
open CC
variable {O V P Q O' V' P' Q' K : Type} [Field K] [Fintype O] [Fintype V] [Fintype P] [Fintype Q]
variable [Fintype O'] [Fintype V'] [Fintype P'] [Fintype Q'] [DecidableEq O] [DecidableEq V] [DecidableEq P] [DecidableEq Q]

theorem sorted_rcc_energy (t1 : V → O → K) (t2 : V → V → O → O → K) (f : O → V → K) (I : O → O → V → V → K) :
    Prog.rcc_energy.nrun (sorted (X := fam O V O V)) [stwo 1 0 t1, sfour 1 1 0 0 t2, stwo 0 1 f, sfour 0 0 1 1 I] =
      .ok [snum (CC.rcc_energy t1 t2 f I)] := by krfl

theorem C55_rcc_energy (o : Change O O' K) (v : Change V V' K) (t1 : V → O → K) (t2 : V → V → O → O → K) (f : O → V → K) (I : O → O → V → V → K) :
    CC.rcc_energy (rot2 v o t1) (rot4 v v o o t2) (rot2 o v f) (rot4 o o v v I) =
      (CC.rcc_energy t1 t2 f I) := by
  have h := rotates (chg o v o v) Prog.rcc_energy
    (bs := [ttwo 1 0 (rot2 v o t1), tfour 1 1 0 0 (rot4 v v o o t2), ttwo 0 1 (rot2 o v f), tfour 0 0 1 1 (rot4 o o v v I)])
    (ds := [tnum (CC.rcc_energy (rot2 v o t1) (rot4 v v o o t2) (rot2 o v f) (rot4 o o v v I))])
    (sorted_rcc_energy t1 t2 f I) (by krfl) (by
      refine .cons ((rot_two _ _ _).2 rfl) ?_
      refine .cons ((rot_four _ _ _).2 rfl) ?_
      refine .cons ((rot_two _ _ _).2 rfl) ?_
      refine .cons ((rot_four _ _ _).2 rfl) ?_
      exact .nil)
  have h0 := rotRes1 h
  exact ((rot_num _ _ _).1 h0)

theorem sorted_rccsd_stanton (F : OneE O V K) (I : TwoEFull O V O V K) (T1old : V → O → K) (T2old : V → V → O → O → K) :
    Prog.rccsd_stanton.nrun (sorted (X := fam O V O V)) [stwo 0 0 F.oo, stwo 0 1 F.ov, stwo 1 0 F.vo, stwo 1 1 F.vv, sfour 0 0 0 0 I.oooo, sfour 0 0 0 1 I.ooov, sfour 0 0 1 0 I.oovo, sfour 0 0 1 1 I.oovv, sfour 0 1 0 0 I.ovoo, sfour 0 1 0 1 I.ovov, sfour 0 1 1 0 I.ovvo, sfour 0 1 1 1 I.ovvv, sfour 1 0 1 0 I.vovo, sfour 1 0 1 1 I.vovv, sfour 1 1 0 0 I.vvoo, sfour 1 1 1 0 I.vvvo, sfour 1 1 1 1 I.vvvv, stwo 1 0 T1old, sfour 1 1 0 0 T2old] =
      .ok [stwo 1 0 (CC.rccsd_stanton F I T1old T2old).1, sfour 1 1 0 0 (CC.rccsd_stanton F I T1old T2old).2] := by krfl

theorem C55_rccsd_stanton (o : Change O O' K) (v : Change V V' K) (F : OneE O V K) (I : TwoEFull O V O V K) (T1old : V → O → K) (T2old : V → V → O → O → K) :
    CC.rccsd_stanton (F.rot o v) (I.rot o v o v) (rot2 v o T1old) (rot4 v v o o T2old) =
      ((rot2 v o (CC.rccsd_stanton F I T1old T2old).1), (rot4 v v o o (CC.rccsd_stanton F I T1old T2old).2)) := by
  have h := rotates (chg o v o v) Prog.rccsd_stanton
    (bs := [ttwo 0 0 (F.rot o v).oo, ttwo 0 1 (F.rot o v).ov, ttwo 1 0 (F.rot o v).vo, ttwo 1 1 (F.rot o v).vv, tfour 0 0 0 0 (I.rot o v o v).oooo, tfour 0 0 0 1 (I.rot o v o v).ooov, tfour 0 0 1 0 (I.rot o v o v).oovo, tfour 0 0 1 1 (I.rot o v o v).oovv, tfour 0 1 0 0 (I.rot o v o v).ovoo, tfour 0 1 0 1 (I.rot o v o v).ovov, tfour 0 1 1 0 (I.rot o v o v).ovvo, tfour 0 1 1 1 (I.rot o v o v).ovvv, tfour 1 0 1 0 (I.rot o v o v).vovo, tfour 1 0 1 1 (I.rot o v o v).vovv, tfour 1 1 0 0 (I.rot o v o v).vvoo, tfour 1 1 1 0 (I.rot o v o v).vvvo, tfour 1 1 1 1 (I.rot o v o v).vvvv, ttwo 1 0 (rot2 v o T1old), tfour 1 1 0 0 (rot4 v v o o T2old)])
    (ds := [ttwo 1 0 (CC.rccsd_stanton (F.rot o v) (I.rot o v o v) (rot2 v o T1old) (rot4 v v o o T2old)).1, tfour 1 1 0 0 (CC.rccsd_stanton (F.rot o v) (I.rot o v o v) (rot2 v o T1old) (rot4 v v o o T2old)).2])
    (sorted_rccsd_stanton F I T1old T2old) (by krfl) (by
      refine .cons ((rot_two _ _ _).2 rfl) ?_
      refine .cons ((rot_two _ _ _).2 rfl) ?_
      refine .cons ((rot_two _ _ _).2 rfl) ?_
      refine .cons ((rot_two _ _ _).2 rfl) ?_
      refine .cons ((rot_four _ _ _).2 rfl) ?_
      refine .cons ((rot_four _ _ _).2 rfl) ?_
      refine .cons ((rot_four _ _ _).2 rfl) ?_
      refine .cons ((rot_four _ _ _).2 rfl) ?_
      refine .cons ((rot_four _ _ _).2 rfl) ?_
      refine .cons ((rot_four _ _ _).2 rfl) ?_
      refine .cons ((rot_four _ _ _).2 rfl) ?_
      refine .cons ((rot_four _ _ _).2 rfl) ?_
      refine .cons ((rot_four _ _ _).2 rfl) ?_
      refine .cons ((rot_four _ _ _).2 rfl) ?_
      refine .cons ((rot_four _ _ _).2 rfl) ?_
      refine .cons ((rot_four _ _ _).2 rfl) ?_
      refine .cons ((rot_four _ _ _).2 rfl) ?_
      refine .cons ((rot_two _ _ _).2 rfl) ?_
      refine .cons ((rot_four _ _ _).2 rfl) ?_
      exact .nil)
  obtain ⟨h0, h1⟩ := rotRes2 h
  exact (Prod.ext ((rot_two _ _ _).1 h0) ((rot_four _ _ _).1 h1))

theorem sorted_rccsd_lambda_opt (F : OneE O V K) (I : TwoEFull O V O V K) (L1old : O → V → K) (L2old : O → O → V → V → K) (T1old : V → O → K) (T2old : V → V → O → O → K) :
    Prog.rccsd_lambda_opt.nrun (sorted (X := fam O V O V)) [stwo 0 0 F.oo, stwo 0 1 F.ov, stwo 1 1 F.vv, sfour 0 0 0 0 I.oooo, sfour 0 0 0 1 I.ooov, sfour 0 0 1 0 I.oovo, sfour 0 0 1 1 I.oovv, sfour 0 1 0 0 I.ovoo, sfour 0 1 0 1 I.ovov, sfour 0 1 1 0 I.ovvo, sfour 0 1 1 1 I.ovvv, sfour 1 0 0 0 I.vooo, sfour 1 0 0 1 I.voov, sfour 1 0 1 0 I.vovo, sfour 1 0 1 1 I.vovv, sfour 1 1 0 1 I.vvov, sfour 1 1 1 0 I.vvvo, sfour 1 1 1 1 I.vvvv, stwo 0 1 L1old, sfour 0 0 1 1 L2old, stwo 1 0 T1old, sfour 1 1 0 0 T2old] =
      .ok [stwo 0 1 (CC.rccsd_lambda_opt F I L1old L2old T1old T2old).1, sfour 0 0 1 1 (CC.rccsd_lambda_opt F I L1old L2old T1old T2old).2] := by krfl

theorem C55_rccsd_lambda_opt (o : Change O O' K) (v : Change V V' K) (F : OneE O V K) (I : TwoEFull O V O V K) (L1old : O → V → K) (L2old : O → O → V → V → K) (T1old : V → O → K) (T2old : V → V → O → O → K) :
    CC.rccsd_lambda_opt (F.rot o v) (I.rot o v o v) (rot2 o v L1old) (rot4 o o v v L2old) (rot2 v o T1old) (rot4 v v o o T2old) =
      ((rot2 o v (CC.rccsd_lambda_opt F I L1old L2old T1old T2old).1), (rot4 o o v v (CC.rccsd_lambda_opt F I L1old L2old T1old T2old).2)) := by
  have h := rotates (chg o v o v) Prog.rccsd_lambda_opt
    (bs := [ttwo 0 0 (F.rot o v).oo, ttwo 0 1 (F.rot o v).ov, ttwo 1 1 (F.rot o v).vv, tfour 0 0 0 0 (I.rot o v o v).oooo, tfour 0 0 0 1 (I.rot o v o v).ooov, tfour 0 0 1 0 (I.rot o v o v).oovo, tfour 0 0 1 1 (I.rot o v o v).oovv, tfour 0 1 0 0 (I.rot o v o v).ovoo, tfour 0 1 0 1 (I.rot o v o v).ovov, tfour 0 1 1 0 (I.rot o v o v).ovvo, tfour 0 1 1 1 (I.rot o v o v).ovvv, tfour 1 0 0 0 (I.rot o v o v).vooo, tfour 1 0 0 1 (I.rot o v o v).voov, tfour 1 0 1 0 (I.rot o v o v).vovo, tfour 1 0 1 1 (I.rot o v o v).vovv, tfour 1 1 0 1 (I.rot o v o v).vvov, tfour 1 1 1 0 (I.rot o v o v).vvvo, tfour 1 1 1 1 (I.rot o v o v).vvvv, ttwo 0 1 (rot2 o v L1old), tfour 0 0 1 1 (rot4 o o v v L2old), ttwo 1 0 (rot2 v o T1old), tfour 1 1 0 0 (rot4 v v o o T2old)])
    (ds := [ttwo 0 1 (CC.rccsd_lambda_opt (F.rot o v) (I.rot o v o v) (rot2 o v L1old) (rot4 o o v v L2old) (rot2 v o T1old) (rot4 v v o o T2old)).1, tfour 0 0 1 1 (CC.rccsd_lambda_opt (F.rot o v) (I.rot o v o v) (rot2 o v L1old) (rot4 o o v v L2old) (rot2 v o T1old) (rot4 v v o o T2old)).2])
    (sorted_rccsd_lambda_opt F I L1old L2old T1old T2old) (by krfl) (by
      refine .cons ((rot_two _ _ _).2 rfl) ?_
      refine .cons ((rot_two _ _ _).2 rfl) ?_
      refine .cons ((rot_two _ _ _).2 rfl) ?_
      refine .cons ((rot_four _ _ _).2 rfl) ?_
      refine .cons ((rot_four _ _ _).2 rfl) ?_
      refine .cons ((rot_four _ _ _).2 rfl) ?_
      refine .cons ((rot_four _ _ _).2 rfl) ?_
      refine .cons ((rot_four _ _ _).2 rfl) ?_
      refine .cons ((rot_four _ _ _).2 rfl) ?_
      refine .cons ((rot_four _ _ _).2 rfl) ?_
      refine .cons ((rot_four _ _ _).2 rfl) ?_
      refine .cons ((rot_four _ _ _).2 rfl) ?_
      refine .cons ((rot_four _ _ _).2 rfl) ?_
      refine .cons ((rot_four _ _ _).2 rfl) ?_
      refine .cons ((rot_four _ _ _).2 rfl) ?_
      refine .cons ((rot_four _ _ _).2 rfl) ?_
      refine .cons ((rot_four _ _ _).2 rfl) ?_
      refine .cons ((rot_four _ _ _).2 rfl) ?_
      refine .cons ((rot_two _ _ _).2 rfl) ?_
      refine .cons ((rot_four _ _ _).2 rfl) ?_
      refine .cons ((rot_two _ _ _).2 rfl) ?_
      refine .cons ((rot_four _ _ _).2 rfl) ?_
      exact .nil)
  obtain ⟨h0, h1⟩ := rotRes2 h
  exact (Prod.ext ((rot_two _ _ _).1 h0) ((rot_four _ _ _).1 h1))

theorem sorted_rccsd_1rdm_ba (T1 : V → O → K) (T2 : V → V → O → O → K) (L1 : O → V → K) (L2 : O → O → V → V → K) (tfac : K) :
    Prog.rccsd_1rdm_ba.nrun (sorted (X := fam O V O V)) [stwo 1 0 T1, sfour 1 1 0 0 T2, stwo 0 1 L1, sfour 0 0 1 1 L2] =
      .ok [stwo 1 1 (CC.rccsd_1rdm_ba T1 T2 L1 L2 tfac)] := by krfl

theorem C55_rccsd_1rdm_ba (o : Change O O' K) (v : Change V V' K) (T1 : V → O → K) (T2 : V → V → O → O → K) (L1 : O → V → K) (L2 : O → O → V → V → K) (tfac : K) :
    CC.rccsd_1rdm_ba (rot2 v o T1) (rot4 v v o o T2) (rot2 o v L1) (rot4 o o v v L2) tfac =
      (rot2 v v (CC.rccsd_1rdm_ba T1 T2 L1 L2 tfac)) := by
  have h := rotates (chg o v o v) Prog.rccsd_1rdm_ba
    (bs := [ttwo 1 0 (rot2 v o T1), tfour 1 1 0 0 (rot4 v v o o T2), ttwo 0 1 (rot2 o v L1), tfour 0 0 1 1 (rot4 o o v v L2)])
    (ds := [ttwo 1 1 (CC.rccsd_1rdm_ba (rot2 v o T1) (rot4 v v o o T2) (rot2 o v L1) (rot4 o o v v L2) tfac)])
    (sorted_rccsd_1rdm_ba T1 T2 L1 L2 tfac) (by krfl) (by
      refine .cons ((rot_two _ _ _).2 rfl) ?_
      refine .cons ((rot_four _ _ _).2 rfl) ?_
      refine .cons ((rot_two _ _ _).2 rfl) ?_
      refine .cons ((rot_four _ _ _).2 rfl) ?_
      exact .nil)
  have h0 := rotRes1 h
  exact ((rot_two _ _ _).1 h0)

theorem sorted_rccsd_1rdm_ji (T1 : V → O → K) (T2 : V → V → O → O → K) (L1 : O → V → K) (L2 : O → O → V → V → K) (tfac : K) :
    Prog.rccsd_1rdm_ji.nrun (sorted (X := fam O V O V)) [stwo 1 0 T1, sfour 1 1 0 0 T2, stwo 0 1 L1, sfour 0 0 1 1 L2] =
      .ok [stwo 0 0 (CC.rccsd_1rdm_ji T1 T2 L1 L2 tfac)] := by krfl

theorem C55_rccsd_1rdm_ji (o : Change O O' K) (v : Change V V' K) (T1 : V → O → K) (T2 : V → V → O → O → K) (L1 : O → V → K) (L2 : O → O → V → V → K) (tfac : K) :
    CC.rccsd_1rdm_ji (rot2 v o T1) (rot4 v v o o T2) (rot2 o v L1) (rot4 o o v v L2) tfac =
      (rot2 o o (CC.rccsd_1rdm_ji T1 T2 L1 L2 tfac)) := by
  have h := rotates (chg o v o v) Prog.rccsd_1rdm_ji
    (bs := [ttwo 1 0 (rot2 v o T1), tfour 1 1 0 0 (rot4 v v o o T2), ttwo 0 1 (rot2 o v L1), tfour 0 0 1 1 (rot4 o o v v L2)])
    (ds := [ttwo 0 0 (CC.rccsd_1rdm_ji (rot2 v o T1) (rot4 v v o o T2) (rot2 o v L1) (rot4 o o v v L2) tfac)])
    (sorted_rccsd_1rdm_ji T1 T2 L1 L2 tfac) (by krfl) (by
      refine .cons ((rot_two _ _ _).2 rfl) ?_
      refine .cons ((rot_four _ _ _).2 rfl) ?_
      refine .cons ((rot_two _ _ _).2 rfl) ?_
      refine .cons ((rot_four _ _ _).2 rfl) ?_
      exact .nil)
  have h0 := rotRes1 h
  exact ((rot_two _ _ _).1 h0)

theorem sorted_rccsd_1rdm_ai (T1 : V → O → K) (T2 : V → V → O → O → K) (L1 : O → V → K) (L2 : O → O → V → V → K) (tfac : K) :
    Prog.rccsd_1rdm_ai.nrun (sorted (X := fam O V O V)) [stwo 1 0 T1, sfour 1 1 0 0 T2, stwo 0 1 L1, sfour 0 0 1 1 L2, snum tfac] =
      .ok [stwo 1 0 (CC.rccsd_1rdm_ai T1 T2 L1 L2 tfac)] := by krfl

theorem C55_rccsd_1rdm_ai (o : Change O O' K) (v : Change V V' K) (T1 : V → O → K) (T2 : V → V → O → O → K) (L1 : O → V → K) (L2 : O → O → V → V → K) (tfac : K) :
    CC.rccsd_1rdm_ai (rot2 v o T1) (rot4 v v o o T2) (rot2 o v L1) (rot4 o o v v L2) tfac =
      (rot2 v o (CC.rccsd_1rdm_ai T1 T2 L1 L2 tfac)) := by
  have h := rotates (chg o v o v) Prog.rccsd_1rdm_ai
    (bs := [ttwo 1 0 (rot2 v o T1), tfour 1 1 0 0 (rot4 v v o o T2), ttwo 0 1 (rot2 o v L1), tfour 0 0 1 1 (rot4 o o v v L2), tnum tfac])
    (ds := [ttwo 1 0 (CC.rccsd_1rdm_ai (rot2 v o T1) (rot4 v v o o T2) (rot2 o v L1) (rot4 o o v v L2) tfac)])
    (sorted_rccsd_1rdm_ai T1 T2 L1 L2 tfac) (by krfl) (by
      refine .cons ((rot_two _ _ _).2 rfl) ?_
      refine .cons ((rot_four _ _ _).2 rfl) ?_
      refine .cons ((rot_two _ _ _).2 rfl) ?_
      refine .cons ((rot_four _ _ _).2 rfl) ?_
      refine .cons ((rot_num _ _ _).2 rfl) ?_
      exact .nil)
  have h0 := rotRes1 h
  exact ((rot_two _ _ _).1 h0)

theorem sorted_rccsd_2rdm_ciab (T1 : V → O → K) (T2 : V → V → O → O → K) (L1 : O → V → K) (L2 : O → O → V → V → K) :
    Prog.rccsd_2rdm_ciab.nrun (sorted (X := fam O V O V)) [stwo 1 0 T1, sfour 0 0 1 1 L2] =
      .ok [sfour 1 0 1 1 (CC.rccsd_2rdm_ciab T1 T2 L1 L2)] := by krfl

theorem C55_rccsd_2rdm_ciab (o : Change O O' K) (v : Change V V' K) (T1 : V → O → K) (T2 : V → V → O → O → K) (L1 : O → V → K) (L2 : O → O → V → V → K) :
    CC.rccsd_2rdm_ciab (rot2 v o T1) (rot4 v v o o T2) (rot2 o v L1) (rot4 o o v v L2) =
      (rot4 v o v v (CC.rccsd_2rdm_ciab T1 T2 L1 L2)) := by
  have h := rotates (chg o v o v) Prog.rccsd_2rdm_ciab
    (bs := [ttwo 1 0 (rot2 v o T1), tfour 0 0 1 1 (rot4 o o v v L2)])
    (ds := [tfour 1 0 1 1 (CC.rccsd_2rdm_ciab (rot2 v o T1) (rot4 v v o o T2) (rot2 o v L1) (rot4 o o v v L2))])
    (sorted_rccsd_2rdm_ciab T1 T2 L1 L2) (by krfl) (by
      refine .cons ((rot_two _ _ _).2 rfl) ?_
      refine .cons ((rot_four _ _ _).2 rfl) ?_
      exact .nil)
  have h0 := rotRes1 h
  exact ((rot_four _ _ _).1 h0)

theorem sorted_rccsd_2rdm_jkai (T1 : V → O → K) (T2 : V → V → O → O → K) (L1 : O → V → K) (L2 : O → O → V → V → K) :
    Prog.rccsd_2rdm_jkai.nrun (sorted (X := fam O V O V)) [stwo 1 0 T1, sfour 0 0 1 1 L2] =
      .ok [sfour 0 0 1 0 (CC.rccsd_2rdm_jkai T1 T2 L1 L2)] := by krfl

theorem C55_rccsd_2rdm_jkai (o : Change O O' K) (v : Change V V' K) (T1 : V → O → K) (T2 : V → V → O → O → K) (L1 : O → V → K) (L2 : O → O → V → V → K) :
    CC.rccsd_2rdm_jkai (rot2 v o T1) (rot4 v v o o T2) (rot2 o v L1) (rot4 o o v v L2) =
      (rot4 o o v o (CC.rccsd_2rdm_jkai T1 T2 L1 L2)) := by
  have h := rotates (chg o v o v) Prog.rccsd_2rdm_jkai
    (bs := [ttwo 1 0 (rot2 v o T1), tfour 0 0 1 1 (rot4 o o v v L2)])
    (ds := [tfour 0 0 1 0 (CC.rccsd_2rdm_jkai (rot2 v o T1) (rot4 v v o o T2) (rot2 o v L1) (rot4 o o v v L2))])
    (sorted_rccsd_2rdm_jkai T1 T2 L1 L2) (by krfl) (by
      refine .cons ((rot_two _ _ _).2 rfl) ?_
      refine .cons ((rot_four _ _ _).2 rfl) ?_
      exact .nil)
  have h0 := rotRes1 h
  exact ((rot_four _ _ _).1 h0)

theorem sorted_rccsd_2rdm_cdab (T1 : V → O → K) (T2 : V → V → O → O → K) (L1 : O → V → K) (L2 : O → O → V → V → K) :
    Prog.rccsd_2rdm_cdab.nrun (sorted (X := fam O V O V)) [stwo 1 0 T1, sfour 1 1 0 0 T2, sfour 0 0 1 1 L2] =
      .ok [sfour 1 1 1 1 (CC.rccsd_2rdm_cdab T1 T2 L1 L2)] := by krfl

theorem C55_rccsd_2rdm_cdab (o : Change O O' K) (v : Change V V' K) (T1 : V → O → K) (T2 : V → V → O → O → K) (L1 : O → V → K) (L2 : O → O → V → V → K) :
    CC.rccsd_2rdm_cdab (rot2 v o T1) (rot4 v v o o T2) (rot2 o v L1) (rot4 o o v v L2) =
      (rot4 v v v v (CC.rccsd_2rdm_cdab T1 T2 L1 L2)) := by
  have h := rotates (chg o v o v) Prog.rccsd_2rdm_cdab
    (bs := [ttwo 1 0 (rot2 v o T1), tfour 1 1 0 0 (rot4 v v o o T2), tfour 0 0 1 1 (rot4 o o v v L2)])
    (ds := [tfour 1 1 1 1 (CC.rccsd_2rdm_cdab (rot2 v o T1) (rot4 v v o o T2) (rot2 o v L1) (rot4 o o v v L2))])
    (sorted_rccsd_2rdm_cdab T1 T2 L1 L2) (by krfl) (by
      refine .cons ((rot_two _ _ _).2 rfl) ?_
      refine .cons ((rot_four _ _ _).2 rfl) ?_
      refine .cons ((rot_four _ _ _).2 rfl) ?_
      exact .nil)
  have h0 := rotRes1 h
  exact ((rot_four _ _ _).1 h0)

theorem sorted_rccsd_2rdm_bjai (T1 : V → O → K) (T2 : V → V → O → O → K) (L1 : O → V → K) (L2 : O → O → V → V → K) :
    Prog.rccsd_2rdm_bjai.nrun (sorted (X := fam O V O V)) [stwo 1 0 T1, sfour 1 1 0 0 T2, sfour 0 0 1 1 L2] =
      .ok [sfour 1 0 1 0 (CC.rccsd_2rdm_bjai T1 T2 L1 L2)] := by krfl

theorem C55_rccsd_2rdm_bjai (o : Change O O' K) (v : Change V V' K) (T1 : V → O → K) (T2 : V → V → O → O → K) (L1 : O → V → K) (L2 : O → O → V → V → K) :
    CC.rccsd_2rdm_bjai (rot2 v o T1) (rot4 v v o o T2) (rot2 o v L1) (rot4 o o v v L2) =
      (rot4 v o v o (CC.rccsd_2rdm_bjai T1 T2 L1 L2)) := by
  have h := rotates (chg o v o v) Prog.rccsd_2rdm_bjai
    (bs := [ttwo 1 0 (rot2 v o T1), tfour 1 1 0 0 (rot4 v v o o T2), tfour 0 0 1 1 (rot4 o o v v L2)])
    (ds := [tfour 1 0 1 0 (CC.rccsd_2rdm_bjai (rot2 v o T1) (rot4 v v o o T2) (rot2 o v L1) (rot4 o o v v L2))])
    (sorted_rccsd_2rdm_bjai T1 T2 L1 L2) (by krfl) (by
      refine .cons ((rot_two _ _ _).2 rfl) ?_
      refine .cons ((rot_four _ _ _).2 rfl) ?_
      refine .cons ((rot_four _ _ _).2 rfl) ?_
      exact .nil)
  have h0 := rotRes1 h
  exact ((rot_four _ _ _).1 h0)

theorem sorted_rccsd_2rdm_bjia (T1 : V → O → K) (T2 : V → V → O → O → K) (L1 : O → V → K) (L2 : O → O → V → V → K) :
    Prog.rccsd_2rdm_bjia.nrun (sorted (X := fam O V O V)) [stwo 1 0 T1, sfour 1 1 0 0 T2, stwo 0 1 L1, sfour 0 0 1 1 L2] =
      .ok [sfour 1 0 0 1 (CC.rccsd_2rdm_bjia T1 T2 L1 L2)] := by krfl

theorem C55_rccsd_2rdm_bjia (o : Change O O' K) (v : Change V V' K) (T1 : V → O → K) (T2 : V → V → O → O → K) (L1 : O → V → K) (L2 : O → O → V → V → K) :
    CC.rccsd_2rdm_bjia (rot2 v o T1) (rot4 v v o o T2) (rot2 o v L1) (rot4 o o v v L2) =
      (rot4 v o o v (CC.rccsd_2rdm_bjia T1 T2 L1 L2)) := by
  have h := rotates (chg o v o v) Prog.rccsd_2rdm_bjia
    (bs := [ttwo 1 0 (rot2 v o T1), tfour 1 1 0 0 (rot4 v v o o T2), ttwo 0 1 (rot2 o v L1), tfour 0 0 1 1 (rot4 o o v v L2)])
    (ds := [tfour 1 0 0 1 (CC.rccsd_2rdm_bjia (rot2 v o T1) (rot4 v v o o T2) (rot2 o v L1) (rot4 o o v v L2))])
    (sorted_rccsd_2rdm_bjia T1 T2 L1 L2) (by krfl) (by
      refine .cons ((rot_two _ _ _).2 rfl) ?_
      refine .cons ((rot_four _ _ _).2 rfl) ?_
      refine .cons ((rot_two _ _ _).2 rfl) ?_
      refine .cons ((rot_four _ _ _).2 rfl) ?_
      exact .nil)
  have h0 := rotRes1 h
  exact ((rot_four _ _ _).1 h0)

theorem sorted_rccsd_2rdm_klij (T1 : V → O → K) (T2 : V → V → O → O → K) (L1 : O → V → K) (L2 : O → O → V → V → K) :
    Prog.rccsd_2rdm_klij.nrun (sorted (X := fam O V O V)) [stwo 1 0 T1, sfour 1 1 0 0 T2, sfour 0 0 1 1 L2] =
      .ok [sfour 0 0 0 0 (CC.rccsd_2rdm_klij T1 T2 L1 L2)] := by krfl

theorem C55_rccsd_2rdm_klij (o : Change O O' K) (v : Change V V' K) (T1 : V → O → K) (T2 : V → V → O → O → K) (L1 : O → V → K) (L2 : O → O → V → V → K) :
    CC.rccsd_2rdm_klij (rot2 v o T1) (rot4 v v o o T2) (rot2 o v L1) (rot4 o o v v L2) =
      (rot4 o o o o (CC.rccsd_2rdm_klij T1 T2 L1 L2)) := by
  have h := rotates (chg o v o v) Prog.rccsd_2rdm_klij
    (bs := [ttwo 1 0 (rot2 v o T1), tfour 1 1 0 0 (rot4 v v o o T2), tfour 0 0 1 1 (rot4 o o v v L2)])
    (ds := [tfour 0 0 0 0 (CC.rccsd_2rdm_klij (rot2 v o T1) (rot4 v v o o T2) (rot2 o v L1) (rot4 o o v v L2))])
    (sorted_rccsd_2rdm_klij T1 T2 L1 L2) (by krfl) (by
      refine .cons ((rot_two _ _ _).2 rfl) ?_
      refine .cons ((rot_four _ _ _).2 rfl) ?_
      refine .cons ((rot_four _ _ _).2 rfl) ?_
      exact .nil)
  have h0 := rotRes1 h
  exact ((rot_four _ _ _).1 h0)

theorem sorted_rccsd_2rdm_bcai (T1 : V → O → K) (T2 : V → V → O → O → K) (L1 : O → V → K) (L2 : O → O → V → V → K) :
    Prog.rccsd_2rdm_bcai.nrun (sorted (X := fam O V O V)) [stwo 1 0 T1, sfour 1 1 0 0 T2, stwo 0 1 L1, sfour 0 0 1 1 L2] =
      .ok [sfour 1 1 1 0 (CC.rccsd_2rdm_bcai T1 T2 L1 L2)] := by krfl

theorem C55_rccsd_2rdm_bcai (o : Change O O' K) (v : Change V V' K) (T1 : V → O → K) (T2 : V → V → O → O → K) (L1 : O → V → K) (L2 : O → O → V → V → K) :
    CC.rccsd_2rdm_bcai (rot2 v o T1) (rot4 v v o o T2) (rot2 o v L1) (rot4 o o v v L2) =
      (rot4 v v v o (CC.rccsd_2rdm_bcai T1 T2 L1 L2)) := by
  have h := rotates (chg o v o v) Prog.rccsd_2rdm_bcai
    (bs := [ttwo 1 0 (rot2 v o T1), tfour 1 1 0 0 (rot4 v v o o T2), ttwo 0 1 (rot2 o v L1), tfour 0 0 1 1 (rot4 o o v v L2)])
    (ds := [tfour 1 1 1 0 (CC.rccsd_2rdm_bcai (rot2 v o T1) (rot4 v v o o T2) (rot2 o v L1) (rot4 o o v v L2))])
    (sorted_rccsd_2rdm_bcai T1 T2 L1 L2) (by krfl) (by
      refine .cons ((rot_two _ _ _).2 rfl) ?_
      refine .cons ((rot_four _ _ _).2 rfl) ?_
      refine .cons ((rot_two _ _ _).2 rfl) ?_
      refine .cons ((rot_four _ _ _).2 rfl) ?_
      exact .nil)
  have h0 := rotRes1 h
  exact ((rot_four _ _ _).1 h0)

theorem sorted_rccsd_2rdm_kaij (T1 : V → O → K) (T2 : V → V → O → O → K) (L1 : O → V → K) (L2 : O → O → V → V → K) :
    Prog.rccsd_2rdm_kaij.nrun (sorted (X := fam O V O V)) [stwo 1 0 T1, sfour 1 1 0 0 T2, stwo 0 1 L1, sfour 0 0 1 1 L2] =
      .ok [sfour 0 1 0 0 (CC.rccsd_2rdm_kaij T1 T2 L1 L2)] := by krfl

theorem C55_rccsd_2rdm_kaij (o : Change O O' K) (v : Change V V' K) (T1 : V → O → K) (T2 : V → V → O → O → K) (L1 : O → V → K) (L2 : O → O → V → V → K) :
    CC.rccsd_2rdm_kaij (rot2 v o T1) (rot4 v v o o T2) (rot2 o v L1) (rot4 o o v v L2) =
      (rot4 o v o o (CC.rccsd_2rdm_kaij T1 T2 L1 L2)) := by
  have h := rotates (chg o v o v) Prog.rccsd_2rdm_kaij
    (bs := [ttwo 1 0 (rot2 v o T1), tfour 1 1 0 0 (rot4 v v o o T2), ttwo 0 1 (rot2 o v L1), tfour 0 0 1 1 (rot4 o o v v L2)])
    (ds := [tfour 0 1 0 0 (CC.rccsd_2rdm_kaij (rot2 v o T1) (rot4 v v o o T2) (rot2 o v L1) (rot4 o o v v L2))])
    (sorted_rccsd_2rdm_kaij T1 T2 L1 L2) (by krfl) (by
      refine .cons ((rot_two _ _ _).2 rfl) ?_
      refine .cons ((rot_four _ _ _).2 rfl) ?_
      refine .cons ((rot_two _ _ _).2 rfl) ?_
      refine .cons ((rot_four _ _ _).2 rfl) ?_
      exact .nil)
  have h0 := rotRes1 h
  exact ((rot_four _ _ _).1 h0)

theorem sorted_rccsd_2rdm_abij (T1 : V → O → K) (T2 : V → V → O → O → K) (L1 : O → V → K) (L2 : O → O → V → V → K) :
    Prog.rccsd_2rdm_abij.nrun (sorted (X := fam O V O V)) [stwo 1 0 T1, sfour 1 1 0 0 T2, stwo 0 1 L1, sfour 0 0 1 1 L2] =
      .ok [sfour 1 1 0 0 (CC.rccsd_2rdm_abij T1 T2 L1 L2)] := by krfl

theorem C55_rccsd_2rdm_abij (o : Change O O' K) (v : Change V V' K) (T1 : V → O → K) (T2 : V → V → O → O → K) (L1 : O → V → K) (L2 : O → O → V → V → K) :
    CC.rccsd_2rdm_abij (rot2 v o T1) (rot4 v v o o T2) (rot2 o v L1) (rot4 o o v v L2) =
      (rot4 v v o o (CC.rccsd_2rdm_abij T1 T2 L1 L2)) := by
  have h := rotates (chg o v o v) Prog.rccsd_2rdm_abij
    (bs := [ttwo 1 0 (rot2 v o T1), tfour 1 1 0 0 (rot4 v v o o T2), ttwo 0 1 (rot2 o v L1), tfour 0 0 1 1 (rot4 o o v v L2)])
    (ds := [tfour 1 1 0 0 (CC.rccsd_2rdm_abij (rot2 v o T1) (rot4 v v o o T2) (rot2 o v L1) (rot4 o o v v L2))])
    (sorted_rccsd_2rdm_abij T1 T2 L1 L2) (by krfl) (by
      refine .cons ((rot_two _ _ _).2 rfl) ?_
      refine .cons ((rot_four _ _ _).2 rfl) ?_
      refine .cons ((rot_two _ _ _).2 rfl) ?_
      refine .cons ((rot_four _ _ _).2 rfl) ?_
      exact .nil)
  have h0 := rotRes1 h
  exact ((rot_four _ _ _).1 h0)

end Heap
