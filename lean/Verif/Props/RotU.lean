import Verif.Props.RotRun
import Verif.Model.HeapProg
import Verif.Model.CCEnergy
import Verif.Model.CCUT
import Verif.Model.CCUL
import Verif.Model.CCURdm
/-!
# C55: the unrestricted routines and changes of the orbital basis

Generated by `tools/gen_rot.py`.  The result of a routine called with integrals and amplitudes in a new basis is the result in the old basis,
transformed.
-/

set_option linter.unusedVariables false
set_option linter.unusedSectionVars false

namespace Heap
open CC
variable {O V P Q O' V' P' Q' K : Type} [Field K] [Fintype O] [Fintype V] [Fintype P] [Fintype Q]
variable [Fintype O'] [Fintype V'] [Fintype P'] [Fintype Q'] [DecidableEq O] [DecidableEq V] [DecidableEq P] [DecidableEq Q]

theorem sorted_ucc_energy (t1 : (V → O → K) × (Q → P → K)) (t2 : (V → V → O → O → K) × (V → Q → O → P → K) × (Q → Q → P → P → K)) (fa : O → V → K) (fb : P → Q → K) (Ia : O → O → V → V → K) (Ib : P → P → Q → Q → K) (Iabab : O → P → V → Q → K) :
    Prog.ucc_energy.nrun (sorted (X := fam O V P Q)) [stwo 1 0 t1.1, stwo 3 2 t1.2, sfour 1 1 0 0 t2.1, sfour 1 3 0 2 t2.2.1, sfour 3 3 2 2 t2.2.2, stwo 0 1 fa, stwo 2 3 fb, sfour 0 0 1 1 Ia, sfour 2 2 3 3 Ib, sfour 0 2 1 3 Iabab] =
      .ok [snum (CC.ucc_energy t1 t2 fa fb Ia Ib Iabab)] := by krfl

theorem C55_ucc_energy (o : Change O O' K) (v : Change V V' K) (p : Change P P' K) (q : Change Q Q' K) (t1 : (V → O → K) × (Q → P → K)) (t2 : (V → V → O → O → K) × (V → Q → O → P → K) × (Q → Q → P → P → K)) (fa : O → V → K) (fb : P → Q → K) (Ia : O → O → V → V → K) (Ib : P → P → Q → Q → K) (Iabab : O → P → V → Q → K) :
    CC.ucc_energy ((rot2 v o t1.1), (rot2 q p t1.2)) ((rot4 v v o o t2.1), ((rot4 v q o p t2.2.1), (rot4 q q p p t2.2.2))) (rot2 o v fa) (rot2 p q fb) (rot4 o o v v Ia) (rot4 p p q q Ib) (rot4 o p v q Iabab) =
      (CC.ucc_energy t1 t2 fa fb Ia Ib Iabab) := by
  have h := rotates (chg o v p q) Prog.ucc_energy
    (bs := [ttwo 1 0 (rot2 v o t1.1), ttwo 3 2 (rot2 q p t1.2), tfour 1 1 0 0 (rot4 v v o o t2.1), tfour 1 3 0 2 (rot4 v q o p t2.2.1), tfour 3 3 2 2 (rot4 q q p p t2.2.2), ttwo 0 1 (rot2 o v fa), ttwo 2 3 (rot2 p q fb), tfour 0 0 1 1 (rot4 o o v v Ia), tfour 2 2 3 3 (rot4 p p q q Ib), tfour 0 2 1 3 (rot4 o p v q Iabab)])
    (ds := [tnum (CC.ucc_energy ((rot2 v o t1.1), (rot2 q p t1.2)) ((rot4 v v o o t2.1), ((rot4 v q o p t2.2.1), (rot4 q q p p t2.2.2))) (rot2 o v fa) (rot2 p q fb) (rot4 o o v v Ia) (rot4 p p q q Ib) (rot4 o p v q Iabab))])
    (sorted_ucc_energy t1 t2 fa fb Ia Ib Iabab) (by krfl) (by
      refine .cons ((rot_two _ _ _).2 rfl) ?_
      refine .cons ((rot_two _ _ _).2 rfl) ?_
      refine .cons ((rot_four _ _ _).2 rfl) ?_
      refine .cons ((rot_four _ _ _).2 rfl) ?_
      refine .cons ((rot_four _ _ _).2 rfl) ?_
      refine .cons ((rot_two _ _ _).2 rfl) ?_
      refine .cons ((rot_two _ _ _).2 rfl) ?_
      refine .cons ((rot_four _ _ _).2 rfl) ?_
      refine .cons ((rot_four _ _ _).2 rfl) ?_
      refine .cons ((rot_four _ _ _).2 rfl) ?_
      exact .nil)
  have h0 := rotRes1 h
  exact ((rot_num _ _ _).1 h0)

theorem sorted_ump2_energy (t1 : (V → O → K) × (Q → P → K)) (t2 : (V → V → O → O → K) × (V → Q → O → P → K) × (Q → Q → P → P → K)) (fa : O → V → K) (fb : P → Q → K) (Ia : O → O → V → V → K) (Ib : P → P → Q → Q → K) (Iabab : O → P → V → Q → K) :
    Prog.ump2_energy.nrun (sorted (X := fam O V P Q)) [stwo 1 0 t1.1, stwo 3 2 t1.2, sfour 1 1 0 0 t2.1, sfour 1 3 0 2 t2.2.1, sfour 3 3 2 2 t2.2.2, stwo 0 1 fa, stwo 2 3 fb, sfour 0 0 1 1 Ia, sfour 2 2 3 3 Ib, sfour 0 2 1 3 Iabab] =
      .ok [snum (CC.ump2_energy t1 t2 fa fb Ia Ib Iabab)] := by krfl

theorem C55_ump2_energy (o : Change O O' K) (v : Change V V' K) (p : Change P P' K) (q : Change Q Q' K) (t1 : (V → O → K) × (Q → P → K)) (t2 : (V → V → O → O → K) × (V → Q → O → P → K) × (Q → Q → P → P → K)) (fa : O → V → K) (fb : P → Q → K) (Ia : O → O → V → V → K) (Ib : P → P → Q → Q → K) (Iabab : O → P → V → Q → K) :
    CC.ump2_energy ((rot2 v o t1.1), (rot2 q p t1.2)) ((rot4 v v o o t2.1), ((rot4 v q o p t2.2.1), (rot4 q q p p t2.2.2))) (rot2 o v fa) (rot2 p q fb) (rot4 o o v v Ia) (rot4 p p q q Ib) (rot4 o p v q Iabab) =
      (CC.ump2_energy t1 t2 fa fb Ia Ib Iabab) := by
  have h := rotates (chg o v p q) Prog.ump2_energy
    (bs := [ttwo 1 0 (rot2 v o t1.1), ttwo 3 2 (rot2 q p t1.2), tfour 1 1 0 0 (rot4 v v o o t2.1), tfour 1 3 0 2 (rot4 v q o p t2.2.1), tfour 3 3 2 2 (rot4 q q p p t2.2.2), ttwo 0 1 (rot2 o v fa), ttwo 2 3 (rot2 p q fb), tfour 0 0 1 1 (rot4 o o v v Ia), tfour 2 2 3 3 (rot4 p p q q Ib), tfour 0 2 1 3 (rot4 o p v q Iabab)])
    (ds := [tnum (CC.ump2_energy ((rot2 v o t1.1), (rot2 q p t1.2)) ((rot4 v v o o t2.1), ((rot4 v q o p t2.2.1), (rot4 q q p p t2.2.2))) (rot2 o v fa) (rot2 p q fb) (rot4 o o v v Ia) (rot4 p p q q Ib) (rot4 o p v q Iabab))])
    (sorted_ump2_energy t1 t2 fa fb Ia Ib Iabab) (by krfl) (by
      refine .cons ((rot_two _ _ _).2 rfl) ?_
      refine .cons ((rot_two _ _ _).2 rfl) ?_
      refine .cons ((rot_four _ _ _).2 rfl) ?_
      refine .cons ((rot_four _ _ _).2 rfl) ?_
      refine .cons ((rot_four _ _ _).2 rfl) ?_
      refine .cons ((rot_two _ _ _).2 rfl) ?_
      refine .cons ((rot_two _ _ _).2 rfl) ?_
      refine .cons ((rot_four _ _ _).2 rfl) ?_
      refine .cons ((rot_four _ _ _).2 rfl) ?_
      refine .cons ((rot_four _ _ _).2 rfl) ?_
      exact .nil)
  have h0 := rotRes1 h
  exact ((rot_num _ _ _).1 h0)

theorem sorted_uccsd_stanton (Faa : OneE O V K) (Fbb : OneE P Q K) (Ia : TwoE O V K) (Ib : TwoE P Q K) (I_abab : TwoEFull O V P Q K) (T1old : (V → O → K) × (Q → P → K)) (T2old : (V → V → O → O → K) × (V → Q → O → P → K) × (Q → Q → P → P → K)) :
    Prog.uccsd_stanton.nrun (sorted (X := fam O V P Q)) [stwo 0 0 Faa.oo, stwo 0 1 Faa.ov, stwo 1 0 Faa.vo, stwo 1 1 Faa.vv, stwo 2 2 Fbb.oo, stwo 2 3 Fbb.ov, stwo 3 2 Fbb.vo, stwo 3 3 Fbb.vv, sfour 0 0 0 0 Ia.oooo, sfour 0 0 0 1 Ia.ooov, sfour 0 0 1 1 Ia.oovv, sfour 1 0 0 0 Ia.vooo, sfour 1 0 1 0 Ia.vovo, sfour 1 0 1 1 Ia.vovv, sfour 1 1 0 0 Ia.vvoo, sfour 1 1 1 0 Ia.vvvo, sfour 1 1 1 1 Ia.vvvv, sfour 2 2 2 2 Ib.oooo, sfour 2 2 2 3 Ib.ooov, sfour 2 2 3 3 Ib.oovv, sfour 3 2 2 2 Ib.vooo, sfour 3 2 3 2 Ib.vovo, sfour 3 2 3 3 Ib.vovv, sfour 3 3 2 2 Ib.vvoo, sfour 3 3 3 2 Ib.vvvo, sfour 3 3 3 3 Ib.vvvv, sfour 0 2 0 2 I_abab.oooo, sfour 0 2 0 3 I_abab.ooov, sfour 0 2 1 2 I_abab.oovo, sfour 0 2 1 3 I_abab.oovv, sfour 0 3 0 2 I_abab.ovoo, sfour 0 3 0 3 I_abab.ovov, sfour 0 3 1 2 I_abab.ovvo, sfour 0 3 1 3 I_abab.ovvv, sfour 1 2 0 2 I_abab.vooo, sfour 1 2 0 3 I_abab.voov, sfour 1 2 1 2 I_abab.vovo, sfour 1 2 1 3 I_abab.vovv, sfour 1 3 0 2 I_abab.vvoo, sfour 1 3 0 3 I_abab.vvov, sfour 1 3 1 2 I_abab.vvvo, sfour 1 3 1 3 I_abab.vvvv, stwo 1 0 T1old.1, stwo 3 2 T1old.2, sfour 1 1 0 0 T2old.1, sfour 1 3 0 2 T2old.2.1, sfour 3 3 2 2 T2old.2.2] =
      .ok [stwo 1 0 (CC.uccsd_stanton Faa Fbb Ia Ib I_abab T1old T2old).1.1, stwo 3 2 (CC.uccsd_stanton Faa Fbb Ia Ib I_abab T1old T2old).1.2, sfour 1 1 0 0 (CC.uccsd_stanton Faa Fbb Ia Ib I_abab T1old T2old).2.1, sfour 1 3 0 2 (CC.uccsd_stanton Faa Fbb Ia Ib I_abab T1old T2old).2.2.1, sfour 3 3 2 2 (CC.uccsd_stanton Faa Fbb Ia Ib I_abab T1old T2old).2.2.2] := by krfl

theorem C55_uccsd_stanton (o : Change O O' K) (v : Change V V' K) (p : Change P P' K) (q : Change Q Q' K) (Faa : OneE O V K) (Fbb : OneE P Q K) (Ia : TwoE O V K) (Ib : TwoE P Q K) (I_abab : TwoEFull O V P Q K) (T1old : (V → O → K) × (Q → P → K)) (T2old : (V → V → O → O → K) × (V → Q → O → P → K) × (Q → Q → P → P → K)) :
    CC.uccsd_stanton (Faa.rot o v) (Fbb.rot p q) (Ia.rot o v) (Ib.rot p q) (I_abab.rot o v p q) ((rot2 v o T1old.1), (rot2 q p T1old.2)) ((rot4 v v o o T2old.1), ((rot4 v q o p T2old.2.1), (rot4 q q p p T2old.2.2))) =
      (((rot2 v o (CC.uccsd_stanton Faa Fbb Ia Ib I_abab T1old T2old).1.1), (rot2 q p (CC.uccsd_stanton Faa Fbb Ia Ib I_abab T1old T2old).1.2)), ((rot4 v v o o (CC.uccsd_stanton Faa Fbb Ia Ib I_abab T1old T2old).2.1), ((rot4 v q o p (CC.uccsd_stanton Faa Fbb Ia Ib I_abab T1old T2old).2.2.1), (rot4 q q p p (CC.uccsd_stanton Faa Fbb Ia Ib I_abab T1old T2old).2.2.2)))) := by
  have h := rotates (chg o v p q) Prog.uccsd_stanton
    (bs := [ttwo 0 0 (Faa.rot o v).oo, ttwo 0 1 (Faa.rot o v).ov, ttwo 1 0 (Faa.rot o v).vo, ttwo 1 1 (Faa.rot o v).vv, ttwo 2 2 (Fbb.rot p q).oo, ttwo 2 3 (Fbb.rot p q).ov, ttwo 3 2 (Fbb.rot p q).vo, ttwo 3 3 (Fbb.rot p q).vv, tfour 0 0 0 0 (Ia.rot o v).oooo, tfour 0 0 0 1 (Ia.rot o v).ooov, tfour 0 0 1 1 (Ia.rot o v).oovv, tfour 1 0 0 0 (Ia.rot o v).vooo, tfour 1 0 1 0 (Ia.rot o v).vovo, tfour 1 0 1 1 (Ia.rot o v).vovv, tfour 1 1 0 0 (Ia.rot o v).vvoo, tfour 1 1 1 0 (Ia.rot o v).vvvo, tfour 1 1 1 1 (Ia.rot o v).vvvv, tfour 2 2 2 2 (Ib.rot p q).oooo, tfour 2 2 2 3 (Ib.rot p q).ooov, tfour 2 2 3 3 (Ib.rot p q).oovv, tfour 3 2 2 2 (Ib.rot p q).vooo, tfour 3 2 3 2 (Ib.rot p q).vovo, tfour 3 2 3 3 (Ib.rot p q).vovv, tfour 3 3 2 2 (Ib.rot p q).vvoo, tfour 3 3 3 2 (Ib.rot p q).vvvo, tfour 3 3 3 3 (Ib.rot p q).vvvv, tfour 0 2 0 2 (I_abab.rot o v p q).oooo, tfour 0 2 0 3 (I_abab.rot o v p q).ooov, tfour 0 2 1 2 (I_abab.rot o v p q).oovo, tfour 0 2 1 3 (I_abab.rot o v p q).oovv, tfour 0 3 0 2 (I_abab.rot o v p q).ovoo, tfour 0 3 0 3 (I_abab.rot o v p q).ovov, tfour 0 3 1 2 (I_abab.rot o v p q).ovvo, tfour 0 3 1 3 (I_abab.rot o v p q).ovvv, tfour 1 2 0 2 (I_abab.rot o v p q).vooo, tfour 1 2 0 3 (I_abab.rot o v p q).voov, tfour 1 2 1 2 (I_abab.rot o v p q).vovo, tfour 1 2 1 3 (I_abab.rot o v p q).vovv, tfour 1 3 0 2 (I_abab.rot o v p q).vvoo, tfour 1 3 0 3 (I_abab.rot o v p q).vvov, tfour 1 3 1 2 (I_abab.rot o v p q).vvvo, tfour 1 3 1 3 (I_abab.rot o v p q).vvvv, ttwo 1 0 (rot2 v o T1old.1), ttwo 3 2 (rot2 q p T1old.2), tfour 1 1 0 0 (rot4 v v o o T2old.1), tfour 1 3 0 2 (rot4 v q o p T2old.2.1), tfour 3 3 2 2 (rot4 q q p p T2old.2.2)])
    (ds := [ttwo 1 0 (CC.uccsd_stanton (Faa.rot o v) (Fbb.rot p q) (Ia.rot o v) (Ib.rot p q) (I_abab.rot o v p q) ((rot2 v o T1old.1), (rot2 q p T1old.2)) ((rot4 v v o o T2old.1), ((rot4 v q o p T2old.2.1), (rot4 q q p p T2old.2.2)))).1.1, ttwo 3 2 (CC.uccsd_stanton (Faa.rot o v) (Fbb.rot p q) (Ia.rot o v) (Ib.rot p q) (I_abab.rot o v p q) ((rot2 v o T1old.1), (rot2 q p T1old.2)) ((rot4 v v o o T2old.1), ((rot4 v q o p T2old.2.1), (rot4 q q p p T2old.2.2)))).1.2, tfour 1 1 0 0 (CC.uccsd_stanton (Faa.rot o v) (Fbb.rot p q) (Ia.rot o v) (Ib.rot p q) (I_abab.rot o v p q) ((rot2 v o T1old.1), (rot2 q p T1old.2)) ((rot4 v v o o T2old.1), ((rot4 v q o p T2old.2.1), (rot4 q q p p T2old.2.2)))).2.1, tfour 1 3 0 2 (CC.uccsd_stanton (Faa.rot o v) (Fbb.rot p q) (Ia.rot o v) (Ib.rot p q) (I_abab.rot o v p q) ((rot2 v o T1old.1), (rot2 q p T1old.2)) ((rot4 v v o o T2old.1), ((rot4 v q o p T2old.2.1), (rot4 q q p p T2old.2.2)))).2.2.1, tfour 3 3 2 2 (CC.uccsd_stanton (Faa.rot o v) (Fbb.rot p q) (Ia.rot o v) (Ib.rot p q) (I_abab.rot o v p q) ((rot2 v o T1old.1), (rot2 q p T1old.2)) ((rot4 v v o o T2old.1), ((rot4 v q o p T2old.2.1), (rot4 q q p p T2old.2.2)))).2.2.2])
    (sorted_uccsd_stanton Faa Fbb Ia Ib I_abab T1old T2old) (by krfl) (by
      refine .cons ((rot_two _ _ _).2 rfl) ?_
      refine .cons ((rot_two _ _ _).2 rfl) ?_
      refine .cons ((rot_two _ _ _).2 rfl) ?_
      refine .cons ((rot_two _ _ _).2 rfl) ?_
      refine .cons ((rot_two _ _ _).2 rfl) ?_
      refine .cons ((rot_two _ _ _).2 rfl) ?_
      refine .cons ((rot_two _ _ _).2 rfl) ?_
      refine .cons ((rot_two _ _ _).2 rfl) ?_
      refine .cons ((rot_four _ _ _).2 rfl) ?_
      refine .cons ((rot_four _ _ _).2 rfl) ?_
      refine .cons ((rot_four _ _ _).2 rfl) ?_
      refine .cons ((rot_four _ _ _).2 rfl) ?_
      refine .cons ((rot_four _ _ _).2 rfl) ?_
      refine .cons ((rot_four _ _ _).2 rfl) ?_
      refine .cons ((rot_four _ _ _).2 rfl) ?_
      refine .cons ((rot_four _ _ _).2 rfl) ?_
      refine .cons ((rot_four _ _ _).2 rfl) ?_
      refine .cons ((rot_four _ _ _).2 rfl) ?_
      refine .cons ((rot_four _ _ _).2 rfl) ?_
      refine .cons ((rot_four _ _ _).2 rfl) ?_
      refine .cons ((rot_four _ _ _).2 rfl) ?_
      refine .cons ((rot_four _ _ _).2 rfl) ?_
      refine .cons ((rot_four _ _ _).2 rfl) ?_
      refine .cons ((rot_four _ _ _).2 rfl) ?_
      refine .cons ((rot_four _ _ _).2 rfl) ?_
      refine .cons ((rot_four _ _ _).2 rfl) ?_
      refine .cons ((rot_four _ _ _).2 rfl) ?_
      refine .cons ((rot_four _ _ _).2 rfl) ?_
      refine .cons ((rot_four _ _ _).2 rfl) ?_
      refine .cons ((rot_four _ _ _).2 rfl) ?_
      refine .cons ((rot_four _ _ _).2 rfl) ?_
      refine .cons ((rot_four _ _ _).2 rfl) ?_
      refine .cons ((rot_four _ _ _).2 rfl) ?_
      refine .cons ((rot_four _ _ _).2 rfl) ?_
      refine .cons ((rot_four _ _ _).2 rfl) ?_
      refine .cons ((rot_four _ _ _).2 rfl) ?_
      refine .cons ((rot_four _ _ _).2 rfl) ?_
      refine .cons ((rot_four _ _ _).2 rfl) ?_
      refine .cons ((rot_four _ _ _).2 rfl) ?_
      refine .cons ((rot_four _ _ _).2 rfl) ?_
      refine .cons ((rot_four _ _ _).2 rfl) ?_
      refine .cons ((rot_four _ _ _).2 rfl) ?_
      refine .cons ((rot_two _ _ _).2 rfl) ?_
      refine .cons ((rot_two _ _ _).2 rfl) ?_
      refine .cons ((rot_four _ _ _).2 rfl) ?_
      refine .cons ((rot_four _ _ _).2 rfl) ?_
      refine .cons ((rot_four _ _ _).2 rfl) ?_
      exact .nil)
  obtain ⟨h0, h1, h2, h3, h4⟩ := rotRes5 h
  exact (Prod.ext (Prod.ext ((rot_two _ _ _).1 h0) ((rot_two _ _ _).1 h1)) (Prod.ext ((rot_four _ _ _).1 h2) (Prod.ext ((rot_four _ _ _).1 h3) ((rot_four _ _ _).1 h4))))

theorem sorted_uccsd_lambda_opt (Fa : OneE O V K) (Fb : OneE P Q K) (Ia : TwoE O V K) (Ib : TwoE P Q K) (Iabab : TwoEFull O V P Q K) (L1old : (O → V → K) × (P → Q → K)) (L2old : (O → O → V → V → K) × (O → P → V → Q → K) × (P → P → Q → Q → K)) (T1old : (V → O → K) × (Q → P → K)) (T2old : (V → V → O → O → K) × (V → Q → O → P → K) × (Q → Q → P → P → K)) :
    Prog.uccsd_lambda_opt.nrun (sorted (X := fam O V P Q)) [stwo 0 0 Fa.oo, stwo 0 1 Fa.ov, stwo 1 1 Fa.vv, stwo 2 2 Fb.oo, stwo 2 3 Fb.ov, stwo 3 3 Fb.vv, sfour 0 0 0 0 Ia.oooo, sfour 0 0 0 1 Ia.ooov, sfour 0 0 1 1 Ia.oovv, sfour 1 0 0 0 Ia.vooo, sfour 1 0 1 0 Ia.vovo, sfour 1 0 1 1 Ia.vovv, sfour 1 1 1 0 Ia.vvvo, sfour 1 1 1 1 Ia.vvvv, sfour 2 2 2 2 Ib.oooo, sfour 2 2 2 3 Ib.ooov, sfour 2 2 3 3 Ib.oovv, sfour 3 2 2 2 Ib.vooo, sfour 3 2 3 2 Ib.vovo, sfour 3 2 3 3 Ib.vovv, sfour 3 3 3 2 Ib.vvvo, sfour 3 3 3 3 Ib.vvvv, sfour 0 2 0 2 Iabab.oooo, sfour 0 2 0 3 Iabab.ooov, sfour 0 2 1 2 Iabab.oovo, sfour 0 2 1 3 Iabab.oovv, sfour 0 3 0 2 Iabab.ovoo, sfour 0 3 0 3 Iabab.ovov, sfour 0 3 1 2 Iabab.ovvo, sfour 0 3 1 3 Iabab.ovvv, sfour 1 2 0 2 Iabab.vooo, sfour 1 2 0 3 Iabab.voov, sfour 1 2 1 2 Iabab.vovo, sfour 1 2 1 3 Iabab.vovv, sfour 1 3 0 3 Iabab.vvov, sfour 1 3 1 2 Iabab.vvvo, sfour 1 3 1 3 Iabab.vvvv, stwo 0 1 L1old.1, stwo 2 3 L1old.2, sfour 0 0 1 1 L2old.1, sfour 0 2 1 3 L2old.2.1, sfour 2 2 3 3 L2old.2.2, stwo 1 0 T1old.1, stwo 3 2 T1old.2, sfour 1 1 0 0 T2old.1, sfour 1 3 0 2 T2old.2.1, sfour 3 3 2 2 T2old.2.2] =
      .ok [stwo 0 1 (CC.uccsd_lambda_opt Fa Fb Ia Ib Iabab L1old L2old T1old T2old).1.1, stwo 2 3 (CC.uccsd_lambda_opt Fa Fb Ia Ib Iabab L1old L2old T1old T2old).1.2, sfour 0 0 1 1 (CC.uccsd_lambda_opt Fa Fb Ia Ib Iabab L1old L2old T1old T2old).2.1, sfour 0 2 1 3 (CC.uccsd_lambda_opt Fa Fb Ia Ib Iabab L1old L2old T1old T2old).2.2.1, sfour 2 2 3 3 (CC.uccsd_lambda_opt Fa Fb Ia Ib Iabab L1old L2old T1old T2old).2.2.2] := by krfl

theorem C55_uccsd_lambda_opt (o : Change O O' K) (v : Change V V' K) (p : Change P P' K) (q : Change Q Q' K) (Fa : OneE O V K) (Fb : OneE P Q K) (Ia : TwoE O V K) (Ib : TwoE P Q K) (Iabab : TwoEFull O V P Q K) (L1old : (O → V → K) × (P → Q → K)) (L2old : (O → O → V → V → K) × (O → P → V → Q → K) × (P → P → Q → Q → K)) (T1old : (V → O → K) × (Q → P → K)) (T2old : (V → V → O → O → K) × (V → Q → O → P → K) × (Q → Q → P → P → K)) :
    CC.uccsd_lambda_opt (Fa.rot o v) (Fb.rot p q) (Ia.rot o v) (Ib.rot p q) (Iabab.rot o v p q) ((rot2 o v L1old.1), (rot2 p q L1old.2)) ((rot4 o o v v L2old.1), ((rot4 o p v q L2old.2.1), (rot4 p p q q L2old.2.2))) ((rot2 v o T1old.1), (rot2 q p T1old.2)) ((rot4 v v o o T2old.1), ((rot4 v q o p T2old.2.1), (rot4 q q p p T2old.2.2))) =
      (((rot2 o v (CC.uccsd_lambda_opt Fa Fb Ia Ib Iabab L1old L2old T1old T2old).1.1), (rot2 p q (CC.uccsd_lambda_opt Fa Fb Ia Ib Iabab L1old L2old T1old T2old).1.2)), ((rot4 o o v v (CC.uccsd_lambda_opt Fa Fb Ia Ib Iabab L1old L2old T1old T2old).2.1), ((rot4 o p v q (CC.uccsd_lambda_opt Fa Fb Ia Ib Iabab L1old L2old T1old T2old).2.2.1), (rot4 p p q q (CC.uccsd_lambda_opt Fa Fb Ia Ib Iabab L1old L2old T1old T2old).2.2.2)))) := by
  have h := rotates (chg o v p q) Prog.uccsd_lambda_opt
    (bs := [ttwo 0 0 (Fa.rot o v).oo, ttwo 0 1 (Fa.rot o v).ov, ttwo 1 1 (Fa.rot o v).vv, ttwo 2 2 (Fb.rot p q).oo, ttwo 2 3 (Fb.rot p q).ov, ttwo 3 3 (Fb.rot p q).vv, tfour 0 0 0 0 (Ia.rot o v).oooo, tfour 0 0 0 1 (Ia.rot o v).ooov, tfour 0 0 1 1 (Ia.rot o v).oovv, tfour 1 0 0 0 (Ia.rot o v).vooo, tfour 1 0 1 0 (Ia.rot o v).vovo, tfour 1 0 1 1 (Ia.rot o v).vovv, tfour 1 1 1 0 (Ia.rot o v).vvvo, tfour 1 1 1 1 (Ia.rot o v).vvvv, tfour 2 2 2 2 (Ib.rot p q).oooo, tfour 2 2 2 3 (Ib.rot p q).ooov, tfour 2 2 3 3 (Ib.rot p q).oovv, tfour 3 2 2 2 (Ib.rot p q).vooo, tfour 3 2 3 2 (Ib.rot p q).vovo, tfour 3 2 3 3 (Ib.rot p q).vovv, tfour 3 3 3 2 (Ib.rot p q).vvvo, tfour 3 3 3 3 (Ib.rot p q).vvvv, tfour 0 2 0 2 (Iabab.rot o v p q).oooo, tfour 0 2 0 3 (Iabab.rot o v p q).ooov, tfour 0 2 1 2 (Iabab.rot o v p q).oovo, tfour 0 2 1 3 (Iabab.rot o v p q).oovv, tfour 0 3 0 2 (Iabab.rot o v p q).ovoo, tfour 0 3 0 3 (Iabab.rot o v p q).ovov, tfour 0 3 1 2 (Iabab.rot o v p q).ovvo, tfour 0 3 1 3 (Iabab.rot o v p q).ovvv, tfour 1 2 0 2 (Iabab.rot o v p q).vooo, tfour 1 2 0 3 (Iabab.rot o v p q).voov, tfour 1 2 1 2 (Iabab.rot o v p q).vovo, tfour 1 2 1 3 (Iabab.rot o v p q).vovv, tfour 1 3 0 3 (Iabab.rot o v p q).vvov, tfour 1 3 1 2 (Iabab.rot o v p q).vvvo, tfour 1 3 1 3 (Iabab.rot o v p q).vvvv, ttwo 0 1 (rot2 o v L1old.1), ttwo 2 3 (rot2 p q L1old.2), tfour 0 0 1 1 (rot4 o o v v L2old.1), tfour 0 2 1 3 (rot4 o p v q L2old.2.1), tfour 2 2 3 3 (rot4 p p q q L2old.2.2), ttwo 1 0 (rot2 v o T1old.1), ttwo 3 2 (rot2 q p T1old.2), tfour 1 1 0 0 (rot4 v v o o T2old.1), tfour 1 3 0 2 (rot4 v q o p T2old.2.1), tfour 3 3 2 2 (rot4 q q p p T2old.2.2)])
    (ds := [ttwo 0 1 (CC.uccsd_lambda_opt (Fa.rot o v) (Fb.rot p q) (Ia.rot o v) (Ib.rot p q) (Iabab.rot o v p q) ((rot2 o v L1old.1), (rot2 p q L1old.2)) ((rot4 o o v v L2old.1), ((rot4 o p v q L2old.2.1), (rot4 p p q q L2old.2.2))) ((rot2 v o T1old.1), (rot2 q p T1old.2)) ((rot4 v v o o T2old.1), ((rot4 v q o p T2old.2.1), (rot4 q q p p T2old.2.2)))).1.1, ttwo 2 3 (CC.uccsd_lambda_opt (Fa.rot o v) (Fb.rot p q) (Ia.rot o v) (Ib.rot p q) (Iabab.rot o v p q) ((rot2 o v L1old.1), (rot2 p q L1old.2)) ((rot4 o o v v L2old.1), ((rot4 o p v q L2old.2.1), (rot4 p p q q L2old.2.2))) ((rot2 v o T1old.1), (rot2 q p T1old.2)) ((rot4 v v o o T2old.1), ((rot4 v q o p T2old.2.1), (rot4 q q p p T2old.2.2)))).1.2, tfour 0 0 1 1 (CC.uccsd_lambda_opt (Fa.rot o v) (Fb.rot p q) (Ia.rot o v) (Ib.rot p q) (Iabab.rot o v p q) ((rot2 o v L1old.1), (rot2 p q L1old.2)) ((rot4 o o v v L2old.1), ((rot4 o p v q L2old.2.1), (rot4 p p q q L2old.2.2))) ((rot2 v o T1old.1), (rot2 q p T1old.2)) ((rot4 v v o o T2old.1), ((rot4 v q o p T2old.2.1), (rot4 q q p p T2old.2.2)))).2.1, tfour 0 2 1 3 (CC.uccsd_lambda_opt (Fa.rot o v) (Fb.rot p q) (Ia.rot o v) (Ib.rot p q) (Iabab.rot o v p q) ((rot2 o v L1old.1), (rot2 p q L1old.2)) ((rot4 o o v v L2old.1), ((rot4 o p v q L2old.2.1), (rot4 p p q q L2old.2.2))) ((rot2 v o T1old.1), (rot2 q p T1old.2)) ((rot4 v v o o T2old.1), ((rot4 v q o p T2old.2.1), (rot4 q q p p T2old.2.2)))).2.2.1, tfour 2 2 3 3 (CC.uccsd_lambda_opt (Fa.rot o v) (Fb.rot p q) (Ia.rot o v) (Ib.rot p q) (Iabab.rot o v p q) ((rot2 o v L1old.1), (rot2 p q L1old.2)) ((rot4 o o v v L2old.1), ((rot4 o p v q L2old.2.1), (rot4 p p q q L2old.2.2))) ((rot2 v o T1old.1), (rot2 q p T1old.2)) ((rot4 v v o o T2old.1), ((rot4 v q o p T2old.2.1), (rot4 q q p p T2old.2.2)))).2.2.2])
    (sorted_uccsd_lambda_opt Fa Fb Ia Ib Iabab L1old L2old T1old T2old) (by krfl) (by
      refine .cons ((rot_two _ _ _).2 rfl) ?_
      refine .cons ((rot_two _ _ _).2 rfl) ?_
      refine .cons ((rot_two _ _ _).2 rfl) ?_
      refine .cons ((rot_two _ _ _).2 rfl) ?_
      refine .cons ((rot_two _ _ _).2 rfl) ?_
      refine .cons ((rot_two _ _ _).2 rfl) ?_
      refine .cons ((rot_four _ _ _).2 rfl) ?_
      refine .cons ((rot_four _ _ _).2 rfl) ?_
      refine .cons ((rot_four _ _ _).2 rfl) ?_
      refine .cons ((rot_four _ _ _).2 rfl) ?_
      refine .cons ((rot_four _ _ _).2 rfl) ?_
      refine .cons ((rot_four _ _ _).2 rfl) ?_
      refine .cons ((rot_four _ _ _).2 rfl) ?_
      refine .cons ((rot_four _ _ _).2 rfl) ?_
      refine .cons ((rot_four _ _ _).2 rfl) ?_
      refine .cons ((rot_four _ _ _).2 rfl) ?_
      refine .cons ((rot_four _ _ _).2 rfl) ?_
      refine .cons ((rot_four _ _ _).2 rfl) ?_
      refine .cons ((rot_four _ _ _).2 rfl) ?_
      refine .cons ((rot_four _ _ _).2 rfl) ?_
      refine .cons ((rot_four _ _ _).2 rfl) ?_
      refine .cons ((rot_four _ _ _).2 rfl) ?_
      refine .cons ((rot_four _ _ _).2 rfl) ?_
      refine .cons ((rot_four _ _ _).2 rfl) ?_
      refine .cons ((rot_four _ _ _).2 rfl) ?_
      refine .cons ((rot_four _ _ _).2 rfl) ?_
      refine .cons ((rot_four _ _ _).2 rfl) ?_
      refine .cons ((rot_four _ _ _).2 rfl) ?_
      refine .cons ((rot_four _ _ _).2 rfl) ?_
      refine .cons ((rot_four _ _ _).2 rfl) ?_
      refine .cons ((rot_four _ _ _).2 rfl) ?_
      refine .cons ((rot_four _ _ _).2 rfl) ?_
      refine .cons ((rot_four _ _ _).2 rfl) ?_
      refine .cons ((rot_four _ _ _).2 rfl) ?_
      refine .cons ((rot_four _ _ _).2 rfl) ?_
      refine .cons ((rot_four _ _ _).2 rfl) ?_
      refine .cons ((rot_four _ _ _).2 rfl) ?_
      refine .cons ((rot_two _ _ _).2 rfl) ?_
      refine .cons ((rot_two _ _ _).2 rfl) ?_
      refine .cons ((rot_four _ _ _).2 rfl) ?_
      refine .cons ((rot_four _ _ _).2 rfl) ?_
      refine .cons ((rot_four _ _ _).2 rfl) ?_
      refine .cons ((rot_two _ _ _).2 rfl) ?_
      refine .cons ((rot_two _ _ _).2 rfl) ?_
      refine .cons ((rot_four _ _ _).2 rfl) ?_
      refine .cons ((rot_four _ _ _).2 rfl) ?_
      refine .cons ((rot_four _ _ _).2 rfl) ?_
      exact .nil)
  obtain ⟨h0, h1, h2, h3, h4⟩ := rotRes5 h
  exact (Prod.ext (Prod.ext ((rot_two _ _ _).1 h0) ((rot_two _ _ _).1 h1)) (Prod.ext ((rot_four _ _ _).1 h2) (Prod.ext ((rot_four _ _ _).1 h3) ((rot_four _ _ _).1 h4))))

theorem sorted_uccsd_1rdm_ba (T1a : V → O → K) (T1b : Q → P → K) (T2aa : V → V → O → O → K) (T2ab : V → Q → O → P → K) (T2bb : Q → Q → P → P → K) (L1a : O → V → K) (L1b : P → Q → K) (L2aa : O → O → V → V → K) (L2ab : O → P → V → Q → K) (L2bb : P → P → Q → Q → K) :
    Prog.uccsd_1rdm_ba.nrun (sorted (X := fam O V P Q)) [stwo 1 0 T1a, stwo 3 2 T1b, sfour 1 1 0 0 T2aa, sfour 1 3 0 2 T2ab, sfour 3 3 2 2 T2bb, stwo 0 1 L1a, stwo 2 3 L1b, sfour 0 0 1 1 L2aa, sfour 0 2 1 3 L2ab, sfour 2 2 3 3 L2bb] =
      .ok [stwo 1 1 (CC.uccsd_1rdm_ba T1a T1b T2aa T2ab T2bb L1a L1b L2aa L2ab L2bb).1, stwo 3 3 (CC.uccsd_1rdm_ba T1a T1b T2aa T2ab T2bb L1a L1b L2aa L2ab L2bb).2] := by krfl

theorem C55_uccsd_1rdm_ba (o : Change O O' K) (v : Change V V' K) (p : Change P P' K) (q : Change Q Q' K) (T1a : V → O → K) (T1b : Q → P → K) (T2aa : V → V → O → O → K) (T2ab : V → Q → O → P → K) (T2bb : Q → Q → P → P → K) (L1a : O → V → K) (L1b : P → Q → K) (L2aa : O → O → V → V → K) (L2ab : O → P → V → Q → K) (L2bb : P → P → Q → Q → K) :
    CC.uccsd_1rdm_ba (rot2 v o T1a) (rot2 q p T1b) (rot4 v v o o T2aa) (rot4 v q o p T2ab) (rot4 q q p p T2bb) (rot2 o v L1a) (rot2 p q L1b) (rot4 o o v v L2aa) (rot4 o p v q L2ab) (rot4 p p q q L2bb) =
      ((rot2 v v (CC.uccsd_1rdm_ba T1a T1b T2aa T2ab T2bb L1a L1b L2aa L2ab L2bb).1), (rot2 q q (CC.uccsd_1rdm_ba T1a T1b T2aa T2ab T2bb L1a L1b L2aa L2ab L2bb).2)) := by
  have h := rotates (chg o v p q) Prog.uccsd_1rdm_ba
    (bs := [ttwo 1 0 (rot2 v o T1a), ttwo 3 2 (rot2 q p T1b), tfour 1 1 0 0 (rot4 v v o o T2aa), tfour 1 3 0 2 (rot4 v q o p T2ab), tfour 3 3 2 2 (rot4 q q p p T2bb), ttwo 0 1 (rot2 o v L1a), ttwo 2 3 (rot2 p q L1b), tfour 0 0 1 1 (rot4 o o v v L2aa), tfour 0 2 1 3 (rot4 o p v q L2ab), tfour 2 2 3 3 (rot4 p p q q L2bb)])
    (ds := [ttwo 1 1 (CC.uccsd_1rdm_ba (rot2 v o T1a) (rot2 q p T1b) (rot4 v v o o T2aa) (rot4 v q o p T2ab) (rot4 q q p p T2bb) (rot2 o v L1a) (rot2 p q L1b) (rot4 o o v v L2aa) (rot4 o p v q L2ab) (rot4 p p q q L2bb)).1, ttwo 3 3 (CC.uccsd_1rdm_ba (rot2 v o T1a) (rot2 q p T1b) (rot4 v v o o T2aa) (rot4 v q o p T2ab) (rot4 q q p p T2bb) (rot2 o v L1a) (rot2 p q L1b) (rot4 o o v v L2aa) (rot4 o p v q L2ab) (rot4 p p q q L2bb)).2])
    (sorted_uccsd_1rdm_ba T1a T1b T2aa T2ab T2bb L1a L1b L2aa L2ab L2bb) (by krfl) (by
      refine .cons ((rot_two _ _ _).2 rfl) ?_
      refine .cons ((rot_two _ _ _).2 rfl) ?_
      refine .cons ((rot_four _ _ _).2 rfl) ?_
      refine .cons ((rot_four _ _ _).2 rfl) ?_
      refine .cons ((rot_four _ _ _).2 rfl) ?_
      refine .cons ((rot_two _ _ _).2 rfl) ?_
      refine .cons ((rot_two _ _ _).2 rfl) ?_
      refine .cons ((rot_four _ _ _).2 rfl) ?_
      refine .cons ((rot_four _ _ _).2 rfl) ?_
      refine .cons ((rot_four _ _ _).2 rfl) ?_
      exact .nil)
  obtain ⟨h0, h1⟩ := rotRes2 h
  exact (Prod.ext ((rot_two _ _ _).1 h0) ((rot_two _ _ _).1 h1))

theorem sorted_uccsd_1rdm_ji (T1a : V → O → K) (T1b : Q → P → K) (T2aa : V → V → O → O → K) (T2ab : V → Q → O → P → K) (T2bb : Q → Q → P → P → K) (L1a : O → V → K) (L1b : P → Q → K) (L2aa : O → O → V → V → K) (L2ab : O → P → V → Q → K) (L2bb : P → P → Q → Q → K) :
    Prog.uccsd_1rdm_ji.nrun (sorted (X := fam O V P Q)) [stwo 1 0 T1a, stwo 3 2 T1b, sfour 1 1 0 0 T2aa, sfour 1 3 0 2 T2ab, sfour 3 3 2 2 T2bb, stwo 0 1 L1a, stwo 2 3 L1b, sfour 0 0 1 1 L2aa, sfour 0 2 1 3 L2ab, sfour 2 2 3 3 L2bb] =
      .ok [stwo 0 0 (CC.uccsd_1rdm_ji T1a T1b T2aa T2ab T2bb L1a L1b L2aa L2ab L2bb).1, stwo 2 2 (CC.uccsd_1rdm_ji T1a T1b T2aa T2ab T2bb L1a L1b L2aa L2ab L2bb).2] := by krfl

theorem C55_uccsd_1rdm_ji (o : Change O O' K) (v : Change V V' K) (p : Change P P' K) (q : Change Q Q' K) (T1a : V → O → K) (T1b : Q → P → K) (T2aa : V → V → O → O → K) (T2ab : V → Q → O → P → K) (T2bb : Q → Q → P → P → K) (L1a : O → V → K) (L1b : P → Q → K) (L2aa : O → O → V → V → K) (L2ab : O → P → V → Q → K) (L2bb : P → P → Q → Q → K) :
    CC.uccsd_1rdm_ji (rot2 v o T1a) (rot2 q p T1b) (rot4 v v o o T2aa) (rot4 v q o p T2ab) (rot4 q q p p T2bb) (rot2 o v L1a) (rot2 p q L1b) (rot4 o o v v L2aa) (rot4 o p v q L2ab) (rot4 p p q q L2bb) =
      ((rot2 o o (CC.uccsd_1rdm_ji T1a T1b T2aa T2ab T2bb L1a L1b L2aa L2ab L2bb).1), (rot2 p p (CC.uccsd_1rdm_ji T1a T1b T2aa T2ab T2bb L1a L1b L2aa L2ab L2bb).2)) := by
  have h := rotates (chg o v p q) Prog.uccsd_1rdm_ji
    (bs := [ttwo 1 0 (rot2 v o T1a), ttwo 3 2 (rot2 q p T1b), tfour 1 1 0 0 (rot4 v v o o T2aa), tfour 1 3 0 2 (rot4 v q o p T2ab), tfour 3 3 2 2 (rot4 q q p p T2bb), ttwo 0 1 (rot2 o v L1a), ttwo 2 3 (rot2 p q L1b), tfour 0 0 1 1 (rot4 o o v v L2aa), tfour 0 2 1 3 (rot4 o p v q L2ab), tfour 2 2 3 3 (rot4 p p q q L2bb)])
    (ds := [ttwo 0 0 (CC.uccsd_1rdm_ji (rot2 v o T1a) (rot2 q p T1b) (rot4 v v o o T2aa) (rot4 v q o p T2ab) (rot4 q q p p T2bb) (rot2 o v L1a) (rot2 p q L1b) (rot4 o o v v L2aa) (rot4 o p v q L2ab) (rot4 p p q q L2bb)).1, ttwo 2 2 (CC.uccsd_1rdm_ji (rot2 v o T1a) (rot2 q p T1b) (rot4 v v o o T2aa) (rot4 v q o p T2ab) (rot4 q q p p T2bb) (rot2 o v L1a) (rot2 p q L1b) (rot4 o o v v L2aa) (rot4 o p v q L2ab) (rot4 p p q q L2bb)).2])
    (sorted_uccsd_1rdm_ji T1a T1b T2aa T2ab T2bb L1a L1b L2aa L2ab L2bb) (by krfl) (by
      refine .cons ((rot_two _ _ _).2 rfl) ?_
      refine .cons ((rot_two _ _ _).2 rfl) ?_
      refine .cons ((rot_four _ _ _).2 rfl) ?_
      refine .cons ((rot_four _ _ _).2 rfl) ?_
      refine .cons ((rot_four _ _ _).2 rfl) ?_
      refine .cons ((rot_two _ _ _).2 rfl) ?_
      refine .cons ((rot_two _ _ _).2 rfl) ?_
      refine .cons ((rot_four _ _ _).2 rfl) ?_
      refine .cons ((rot_four _ _ _).2 rfl) ?_
      refine .cons ((rot_four _ _ _).2 rfl) ?_
      exact .nil)
  obtain ⟨h0, h1⟩ := rotRes2 h
  exact (Prod.ext ((rot_two _ _ _).1 h0) ((rot_two _ _ _).1 h1))

theorem sorted_uccsd_1rdm_ai (T1a : V → O → K) (T1b : Q → P → K) (T2aa : V → V → O → O → K) (T2ab : V → Q → O → P → K) (T2bb : Q → Q → P → P → K) (L1a : O → V → K) (L1b : P → Q → K) (L2aa : O → O → V → V → K) (L2ab : O → P → V → Q → K) (L2bb : P → P → Q → Q → K) (tfac : K) :
    Prog.uccsd_1rdm_ai.nrun (sorted (X := fam O V P Q)) [stwo 1 0 T1a, stwo 3 2 T1b, sfour 1 1 0 0 T2aa, sfour 1 3 0 2 T2ab, sfour 3 3 2 2 T2bb, stwo 0 1 L1a, stwo 2 3 L1b, sfour 0 0 1 1 L2aa, sfour 0 2 1 3 L2ab, sfour 2 2 3 3 L2bb, snum tfac] =
      .ok [stwo 1 0 (CC.uccsd_1rdm_ai T1a T1b T2aa T2ab T2bb L1a L1b L2aa L2ab L2bb tfac).1, stwo 3 2 (CC.uccsd_1rdm_ai T1a T1b T2aa T2ab T2bb L1a L1b L2aa L2ab L2bb tfac).2] := by krfl

theorem C55_uccsd_1rdm_ai (o : Change O O' K) (v : Change V V' K) (p : Change P P' K) (q : Change Q Q' K) (T1a : V → O → K) (T1b : Q → P → K) (T2aa : V → V → O → O → K) (T2ab : V → Q → O → P → K) (T2bb : Q → Q → P → P → K) (L1a : O → V → K) (L1b : P → Q → K) (L2aa : O → O → V → V → K) (L2ab : O → P → V → Q → K) (L2bb : P → P → Q → Q → K) (tfac : K) :
    CC.uccsd_1rdm_ai (rot2 v o T1a) (rot2 q p T1b) (rot4 v v o o T2aa) (rot4 v q o p T2ab) (rot4 q q p p T2bb) (rot2 o v L1a) (rot2 p q L1b) (rot4 o o v v L2aa) (rot4 o p v q L2ab) (rot4 p p q q L2bb) tfac =
      ((rot2 v o (CC.uccsd_1rdm_ai T1a T1b T2aa T2ab T2bb L1a L1b L2aa L2ab L2bb tfac).1), (rot2 q p (CC.uccsd_1rdm_ai T1a T1b T2aa T2ab T2bb L1a L1b L2aa L2ab L2bb tfac).2)) := by
  have h := rotates (chg o v p q) Prog.uccsd_1rdm_ai
    (bs := [ttwo 1 0 (rot2 v o T1a), ttwo 3 2 (rot2 q p T1b), tfour 1 1 0 0 (rot4 v v o o T2aa), tfour 1 3 0 2 (rot4 v q o p T2ab), tfour 3 3 2 2 (rot4 q q p p T2bb), ttwo 0 1 (rot2 o v L1a), ttwo 2 3 (rot2 p q L1b), tfour 0 0 1 1 (rot4 o o v v L2aa), tfour 0 2 1 3 (rot4 o p v q L2ab), tfour 2 2 3 3 (rot4 p p q q L2bb), tnum tfac])
    (ds := [ttwo 1 0 (CC.uccsd_1rdm_ai (rot2 v o T1a) (rot2 q p T1b) (rot4 v v o o T2aa) (rot4 v q o p T2ab) (rot4 q q p p T2bb) (rot2 o v L1a) (rot2 p q L1b) (rot4 o o v v L2aa) (rot4 o p v q L2ab) (rot4 p p q q L2bb) tfac).1, ttwo 3 2 (CC.uccsd_1rdm_ai (rot2 v o T1a) (rot2 q p T1b) (rot4 v v o o T2aa) (rot4 v q o p T2ab) (rot4 q q p p T2bb) (rot2 o v L1a) (rot2 p q L1b) (rot4 o o v v L2aa) (rot4 o p v q L2ab) (rot4 p p q q L2bb) tfac).2])
    (sorted_uccsd_1rdm_ai T1a T1b T2aa T2ab T2bb L1a L1b L2aa L2ab L2bb tfac) (by krfl) (by
      refine .cons ((rot_two _ _ _).2 rfl) ?_
      refine .cons ((rot_two _ _ _).2 rfl) ?_
      refine .cons ((rot_four _ _ _).2 rfl) ?_
      refine .cons ((rot_four _ _ _).2 rfl) ?_
      refine .cons ((rot_four _ _ _).2 rfl) ?_
      refine .cons ((rot_two _ _ _).2 rfl) ?_
      refine .cons ((rot_two _ _ _).2 rfl) ?_
      refine .cons ((rot_four _ _ _).2 rfl) ?_
      refine .cons ((rot_four _ _ _).2 rfl) ?_
      refine .cons ((rot_four _ _ _).2 rfl) ?_
      refine .cons ((rot_num _ _ _).2 rfl) ?_
      exact .nil)
  obtain ⟨h0, h1⟩ := rotRes2 h
  exact (Prod.ext ((rot_two _ _ _).1 h0) ((rot_two _ _ _).1 h1))

theorem sorted_uccsd_2rdm_ciab (T1a : V → O → K) (T1b : Q → P → K) (T2aa : V → V → O → O → K) (T2ab : V → Q → O → P → K) (T2bb : Q → Q → P → P → K) (L1a : O → V → K) (L1b : P → Q → K) (L2aa : O → O → V → V → K) (L2ab : O → P → V → Q → K) (L2bb : P → P → Q → Q → K) :
    Prog.uccsd_2rdm_ciab.nrun (sorted (X := fam O V P Q)) [stwo 1 0 T1a, stwo 3 2 T1b, sfour 0 0 1 1 L2aa, sfour 0 2 1 3 L2ab, sfour 2 2 3 3 L2bb] =
      .ok [sfour 1 0 1 1 (CC.uccsd_2rdm_ciab T1a T1b T2aa T2ab T2bb L1a L1b L2aa L2ab L2bb).1, sfour 3 2 3 3 (CC.uccsd_2rdm_ciab T1a T1b T2aa T2ab T2bb L1a L1b L2aa L2ab L2bb).2.1, sfour 1 2 1 3 (CC.uccsd_2rdm_ciab T1a T1b T2aa T2ab T2bb L1a L1b L2aa L2ab L2bb).2.2.1, sfour 3 0 3 1 (CC.uccsd_2rdm_ciab T1a T1b T2aa T2ab T2bb L1a L1b L2aa L2ab L2bb).2.2.2] := by krfl

theorem C55_uccsd_2rdm_ciab (o : Change O O' K) (v : Change V V' K) (p : Change P P' K) (q : Change Q Q' K) (T1a : V → O → K) (T1b : Q → P → K) (T2aa : V → V → O → O → K) (T2ab : V → Q → O → P → K) (T2bb : Q → Q → P → P → K) (L1a : O → V → K) (L1b : P → Q → K) (L2aa : O → O → V → V → K) (L2ab : O → P → V → Q → K) (L2bb : P → P → Q → Q → K) :
    CC.uccsd_2rdm_ciab (rot2 v o T1a) (rot2 q p T1b) (rot4 v v o o T2aa) (rot4 v q o p T2ab) (rot4 q q p p T2bb) (rot2 o v L1a) (rot2 p q L1b) (rot4 o o v v L2aa) (rot4 o p v q L2ab) (rot4 p p q q L2bb) =
      ((rot4 v o v v (CC.uccsd_2rdm_ciab T1a T1b T2aa T2ab T2bb L1a L1b L2aa L2ab L2bb).1), ((rot4 q p q q (CC.uccsd_2rdm_ciab T1a T1b T2aa T2ab T2bb L1a L1b L2aa L2ab L2bb).2.1), ((rot4 v p v q (CC.uccsd_2rdm_ciab T1a T1b T2aa T2ab T2bb L1a L1b L2aa L2ab L2bb).2.2.1), (rot4 q o q v (CC.uccsd_2rdm_ciab T1a T1b T2aa T2ab T2bb L1a L1b L2aa L2ab L2bb).2.2.2)))) := by
  have h := rotates (chg o v p q) Prog.uccsd_2rdm_ciab
    (bs := [ttwo 1 0 (rot2 v o T1a), ttwo 3 2 (rot2 q p T1b), tfour 0 0 1 1 (rot4 o o v v L2aa), tfour 0 2 1 3 (rot4 o p v q L2ab), tfour 2 2 3 3 (rot4 p p q q L2bb)])
    (ds := [tfour 1 0 1 1 (CC.uccsd_2rdm_ciab (rot2 v o T1a) (rot2 q p T1b) (rot4 v v o o T2aa) (rot4 v q o p T2ab) (rot4 q q p p T2bb) (rot2 o v L1a) (rot2 p q L1b) (rot4 o o v v L2aa) (rot4 o p v q L2ab) (rot4 p p q q L2bb)).1, tfour 3 2 3 3 (CC.uccsd_2rdm_ciab (rot2 v o T1a) (rot2 q p T1b) (rot4 v v o o T2aa) (rot4 v q o p T2ab) (rot4 q q p p T2bb) (rot2 o v L1a) (rot2 p q L1b) (rot4 o o v v L2aa) (rot4 o p v q L2ab) (rot4 p p q q L2bb)).2.1, tfour 1 2 1 3 (CC.uccsd_2rdm_ciab (rot2 v o T1a) (rot2 q p T1b) (rot4 v v o o T2aa) (rot4 v q o p T2ab) (rot4 q q p p T2bb) (rot2 o v L1a) (rot2 p q L1b) (rot4 o o v v L2aa) (rot4 o p v q L2ab) (rot4 p p q q L2bb)).2.2.1, tfour 3 0 3 1 (CC.uccsd_2rdm_ciab (rot2 v o T1a) (rot2 q p T1b) (rot4 v v o o T2aa) (rot4 v q o p T2ab) (rot4 q q p p T2bb) (rot2 o v L1a) (rot2 p q L1b) (rot4 o o v v L2aa) (rot4 o p v q L2ab) (rot4 p p q q L2bb)).2.2.2])
    (sorted_uccsd_2rdm_ciab T1a T1b T2aa T2ab T2bb L1a L1b L2aa L2ab L2bb) (by krfl) (by
      refine .cons ((rot_two _ _ _).2 rfl) ?_
      refine .cons ((rot_two _ _ _).2 rfl) ?_
      refine .cons ((rot_four _ _ _).2 rfl) ?_
      refine .cons ((rot_four _ _ _).2 rfl) ?_
      refine .cons ((rot_four _ _ _).2 rfl) ?_
      exact .nil)
  obtain ⟨h0, h1, h2, h3⟩ := rotRes4 h
  exact (Prod.ext ((rot_four _ _ _).1 h0) (Prod.ext ((rot_four _ _ _).1 h1) (Prod.ext ((rot_four _ _ _).1 h2) ((rot_four _ _ _).1 h3))))

theorem sorted_uccsd_2rdm_jkai (T1a : V → O → K) (T1b : Q → P → K) (T2aa : V → V → O → O → K) (T2ab : V → Q → O → P → K) (T2bb : Q → Q → P → P → K) (L1a : O → V → K) (L1b : P → Q → K) (L2aa : O → O → V → V → K) (L2ab : O → P → V → Q → K) (L2bb : P → P → Q → Q → K) :
    Prog.uccsd_2rdm_jkai.nrun (sorted (X := fam O V P Q)) [stwo 1 0 T1a, stwo 3 2 T1b, sfour 0 0 1 1 L2aa, sfour 0 2 1 3 L2ab, sfour 2 2 3 3 L2bb] =
      .ok [sfour 0 0 1 0 (CC.uccsd_2rdm_jkai T1a T1b T2aa T2ab T2bb L1a L1b L2aa L2ab L2bb).1, sfour 2 2 3 2 (CC.uccsd_2rdm_jkai T1a T1b T2aa T2ab T2bb L1a L1b L2aa L2ab L2bb).2.1, sfour 0 2 1 2 (CC.uccsd_2rdm_jkai T1a T1b T2aa T2ab T2bb L1a L1b L2aa L2ab L2bb).2.2.1, sfour 2 0 3 0 (CC.uccsd_2rdm_jkai T1a T1b T2aa T2ab T2bb L1a L1b L2aa L2ab L2bb).2.2.2] := by krfl

theorem C55_uccsd_2rdm_jkai (o : Change O O' K) (v : Change V V' K) (p : Change P P' K) (q : Change Q Q' K) (T1a : V → O → K) (T1b : Q → P → K) (T2aa : V → V → O → O → K) (T2ab : V → Q → O → P → K) (T2bb : Q → Q → P → P → K) (L1a : O → V → K) (L1b : P → Q → K) (L2aa : O → O → V → V → K) (L2ab : O → P → V → Q → K) (L2bb : P → P → Q → Q → K) :
    CC.uccsd_2rdm_jkai (rot2 v o T1a) (rot2 q p T1b) (rot4 v v o o T2aa) (rot4 v q o p T2ab) (rot4 q q p p T2bb) (rot2 o v L1a) (rot2 p q L1b) (rot4 o o v v L2aa) (rot4 o p v q L2ab) (rot4 p p q q L2bb) =
      ((rot4 o o v o (CC.uccsd_2rdm_jkai T1a T1b T2aa T2ab T2bb L1a L1b L2aa L2ab L2bb).1), ((rot4 p p q p (CC.uccsd_2rdm_jkai T1a T1b T2aa T2ab T2bb L1a L1b L2aa L2ab L2bb).2.1), ((rot4 o p v p (CC.uccsd_2rdm_jkai T1a T1b T2aa T2ab T2bb L1a L1b L2aa L2ab L2bb).2.2.1), (rot4 p o q o (CC.uccsd_2rdm_jkai T1a T1b T2aa T2ab T2bb L1a L1b L2aa L2ab L2bb).2.2.2)))) := by
  have h := rotates (chg o v p q) Prog.uccsd_2rdm_jkai
    (bs := [ttwo 1 0 (rot2 v o T1a), ttwo 3 2 (rot2 q p T1b), tfour 0 0 1 1 (rot4 o o v v L2aa), tfour 0 2 1 3 (rot4 o p v q L2ab), tfour 2 2 3 3 (rot4 p p q q L2bb)])
    (ds := [tfour 0 0 1 0 (CC.uccsd_2rdm_jkai (rot2 v o T1a) (rot2 q p T1b) (rot4 v v o o T2aa) (rot4 v q o p T2ab) (rot4 q q p p T2bb) (rot2 o v L1a) (rot2 p q L1b) (rot4 o o v v L2aa) (rot4 o p v q L2ab) (rot4 p p q q L2bb)).1, tfour 2 2 3 2 (CC.uccsd_2rdm_jkai (rot2 v o T1a) (rot2 q p T1b) (rot4 v v o o T2aa) (rot4 v q o p T2ab) (rot4 q q p p T2bb) (rot2 o v L1a) (rot2 p q L1b) (rot4 o o v v L2aa) (rot4 o p v q L2ab) (rot4 p p q q L2bb)).2.1, tfour 0 2 1 2 (CC.uccsd_2rdm_jkai (rot2 v o T1a) (rot2 q p T1b) (rot4 v v o o T2aa) (rot4 v q o p T2ab) (rot4 q q p p T2bb) (rot2 o v L1a) (rot2 p q L1b) (rot4 o o v v L2aa) (rot4 o p v q L2ab) (rot4 p p q q L2bb)).2.2.1, tfour 2 0 3 0 (CC.uccsd_2rdm_jkai (rot2 v o T1a) (rot2 q p T1b) (rot4 v v o o T2aa) (rot4 v q o p T2ab) (rot4 q q p p T2bb) (rot2 o v L1a) (rot2 p q L1b) (rot4 o o v v L2aa) (rot4 o p v q L2ab) (rot4 p p q q L2bb)).2.2.2])
    (sorted_uccsd_2rdm_jkai T1a T1b T2aa T2ab T2bb L1a L1b L2aa L2ab L2bb) (by krfl) (by
      refine .cons ((rot_two _ _ _).2 rfl) ?_
      refine .cons ((rot_two _ _ _).2 rfl) ?_
      refine .cons ((rot_four _ _ _).2 rfl) ?_
      refine .cons ((rot_four _ _ _).2 rfl) ?_
      refine .cons ((rot_four _ _ _).2 rfl) ?_
      exact .nil)
  obtain ⟨h0, h1, h2, h3⟩ := rotRes4 h
  exact (Prod.ext ((rot_four _ _ _).1 h0) (Prod.ext ((rot_four _ _ _).1 h1) (Prod.ext ((rot_four _ _ _).1 h2) ((rot_four _ _ _).1 h3))))

theorem sorted_uccsd_2rdm_cdab (T1a : V → O → K) (T1b : Q → P → K) (T2aa : V → V → O → O → K) (T2ab : V → Q → O → P → K) (T2bb : Q → Q → P → P → K) (L1a : O → V → K) (L1b : P → Q → K) (L2aa : O → O → V → V → K) (L2ab : O → P → V → Q → K) (L2bb : P → P → Q → Q → K) :
    Prog.uccsd_2rdm_cdab.nrun (sorted (X := fam O V P Q)) [stwo 1 0 T1a, stwo 3 2 T1b, sfour 1 1 0 0 T2aa, sfour 1 3 0 2 T2ab, sfour 3 3 2 2 T2bb, sfour 0 0 1 1 L2aa, sfour 0 2 1 3 L2ab, sfour 2 2 3 3 L2bb] =
      .ok [sfour 1 1 1 1 (CC.uccsd_2rdm_cdab T1a T1b T2aa T2ab T2bb L1a L1b L2aa L2ab L2bb).1, sfour 3 3 3 3 (CC.uccsd_2rdm_cdab T1a T1b T2aa T2ab T2bb L1a L1b L2aa L2ab L2bb).2.1, sfour 1 3 1 3 (CC.uccsd_2rdm_cdab T1a T1b T2aa T2ab T2bb L1a L1b L2aa L2ab L2bb).2.2] := by krfl

theorem C55_uccsd_2rdm_cdab (o : Change O O' K) (v : Change V V' K) (p : Change P P' K) (q : Change Q Q' K) (T1a : V → O → K) (T1b : Q → P → K) (T2aa : V → V → O → O → K) (T2ab : V → Q → O → P → K) (T2bb : Q → Q → P → P → K) (L1a : O → V → K) (L1b : P → Q → K) (L2aa : O → O → V → V → K) (L2ab : O → P → V → Q → K) (L2bb : P → P → Q → Q → K) :
    CC.uccsd_2rdm_cdab (rot2 v o T1a) (rot2 q p T1b) (rot4 v v o o T2aa) (rot4 v q o p T2ab) (rot4 q q p p T2bb) (rot2 o v L1a) (rot2 p q L1b) (rot4 o o v v L2aa) (rot4 o p v q L2ab) (rot4 p p q q L2bb) =
      ((rot4 v v v v (CC.uccsd_2rdm_cdab T1a T1b T2aa T2ab T2bb L1a L1b L2aa L2ab L2bb).1), ((rot4 q q q q (CC.uccsd_2rdm_cdab T1a T1b T2aa T2ab T2bb L1a L1b L2aa L2ab L2bb).2.1), (rot4 v q v q (CC.uccsd_2rdm_cdab T1a T1b T2aa T2ab T2bb L1a L1b L2aa L2ab L2bb).2.2))) := by
  have h := rotates (chg o v p q) Prog.uccsd_2rdm_cdab
    (bs := [ttwo 1 0 (rot2 v o T1a), ttwo 3 2 (rot2 q p T1b), tfour 1 1 0 0 (rot4 v v o o T2aa), tfour 1 3 0 2 (rot4 v q o p T2ab), tfour 3 3 2 2 (rot4 q q p p T2bb), tfour 0 0 1 1 (rot4 o o v v L2aa), tfour 0 2 1 3 (rot4 o p v q L2ab), tfour 2 2 3 3 (rot4 p p q q L2bb)])
    (ds := [tfour 1 1 1 1 (CC.uccsd_2rdm_cdab (rot2 v o T1a) (rot2 q p T1b) (rot4 v v o o T2aa) (rot4 v q o p T2ab) (rot4 q q p p T2bb) (rot2 o v L1a) (rot2 p q L1b) (rot4 o o v v L2aa) (rot4 o p v q L2ab) (rot4 p p q q L2bb)).1, tfour 3 3 3 3 (CC.uccsd_2rdm_cdab (rot2 v o T1a) (rot2 q p T1b) (rot4 v v o o T2aa) (rot4 v q o p T2ab) (rot4 q q p p T2bb) (rot2 o v L1a) (rot2 p q L1b) (rot4 o o v v L2aa) (rot4 o p v q L2ab) (rot4 p p q q L2bb)).2.1, tfour 1 3 1 3 (CC.uccsd_2rdm_cdab (rot2 v o T1a) (rot2 q p T1b) (rot4 v v o o T2aa) (rot4 v q o p T2ab) (rot4 q q p p T2bb) (rot2 o v L1a) (rot2 p q L1b) (rot4 o o v v L2aa) (rot4 o p v q L2ab) (rot4 p p q q L2bb)).2.2])
    (sorted_uccsd_2rdm_cdab T1a T1b T2aa T2ab T2bb L1a L1b L2aa L2ab L2bb) (by krfl) (by
      refine .cons ((rot_two _ _ _).2 rfl) ?_
      refine .cons ((rot_two _ _ _).2 rfl) ?_
      refine .cons ((rot_four _ _ _).2 rfl) ?_
      refine .cons ((rot_four _ _ _).2 rfl) ?_
      refine .cons ((rot_four _ _ _).2 rfl) ?_
      refine .cons ((rot_four _ _ _).2 rfl) ?_
      refine .cons ((rot_four _ _ _).2 rfl) ?_
      refine .cons ((rot_four _ _ _).2 rfl) ?_
      exact .nil)
  obtain ⟨h0, h1, h2⟩ := rotRes3 h
  exact (Prod.ext ((rot_four _ _ _).1 h0) (Prod.ext ((rot_four _ _ _).1 h1) ((rot_four _ _ _).1 h2)))

theorem sorted_uccsd_2rdm_bjai (T1a : V → O → K) (T1b : Q → P → K) (T2aa : V → V → O → O → K) (T2ab : V → Q → O → P → K) (T2bb : Q → Q → P → P → K) (L1a : O → V → K) (L1b : P → Q → K) (L2aa : O → O → V → V → K) (L2ab : O → P → V → Q → K) (L2bb : P → P → Q → Q → K) :
    Prog.uccsd_2rdm_bjai.nrun (sorted (X := fam O V P Q)) [stwo 1 0 T1a, stwo 3 2 T1b, sfour 1 1 0 0 T2aa, sfour 1 3 0 2 T2ab, sfour 3 3 2 2 T2bb, stwo 0 1 L1a, stwo 2 3 L1b, sfour 0 0 1 1 L2aa, sfour 0 2 1 3 L2ab, sfour 2 2 3 3 L2bb] =
      .ok [sfour 1 0 1 0 (CC.uccsd_2rdm_bjai T1a T1b T2aa T2ab T2bb L1a L1b L2aa L2ab L2bb).1, sfour 3 2 3 2 (CC.uccsd_2rdm_bjai T1a T1b T2aa T2ab T2bb L1a L1b L2aa L2ab L2bb).2.1, sfour 1 2 1 2 (CC.uccsd_2rdm_bjai T1a T1b T2aa T2ab T2bb L1a L1b L2aa L2ab L2bb).2.2.1, sfour 1 2 3 0 (CC.uccsd_2rdm_bjai T1a T1b T2aa T2ab T2bb L1a L1b L2aa L2ab L2bb).2.2.2.1, sfour 3 0 1 2 (CC.uccsd_2rdm_bjai T1a T1b T2aa T2ab T2bb L1a L1b L2aa L2ab L2bb).2.2.2.2.1, sfour 3 0 3 0 (CC.uccsd_2rdm_bjai T1a T1b T2aa T2ab T2bb L1a L1b L2aa L2ab L2bb).2.2.2.2.2] := by krfl

theorem C55_uccsd_2rdm_bjai (o : Change O O' K) (v : Change V V' K) (p : Change P P' K) (q : Change Q Q' K) (T1a : V → O → K) (T1b : Q → P → K) (T2aa : V → V → O → O → K) (T2ab : V → Q → O → P → K) (T2bb : Q → Q → P → P → K) (L1a : O → V → K) (L1b : P → Q → K) (L2aa : O → O → V → V → K) (L2ab : O → P → V → Q → K) (L2bb : P → P → Q → Q → K) :
    CC.uccsd_2rdm_bjai (rot2 v o T1a) (rot2 q p T1b) (rot4 v v o o T2aa) (rot4 v q o p T2ab) (rot4 q q p p T2bb) (rot2 o v L1a) (rot2 p q L1b) (rot4 o o v v L2aa) (rot4 o p v q L2ab) (rot4 p p q q L2bb) =
      ((rot4 v o v o (CC.uccsd_2rdm_bjai T1a T1b T2aa T2ab T2bb L1a L1b L2aa L2ab L2bb).1), ((rot4 q p q p (CC.uccsd_2rdm_bjai T1a T1b T2aa T2ab T2bb L1a L1b L2aa L2ab L2bb).2.1), ((rot4 v p v p (CC.uccsd_2rdm_bjai T1a T1b T2aa T2ab T2bb L1a L1b L2aa L2ab L2bb).2.2.1), ((rot4 v p q o (CC.uccsd_2rdm_bjai T1a T1b T2aa T2ab T2bb L1a L1b L2aa L2ab L2bb).2.2.2.1), ((rot4 q o v p (CC.uccsd_2rdm_bjai T1a T1b T2aa T2ab T2bb L1a L1b L2aa L2ab L2bb).2.2.2.2.1), (rot4 q o q o (CC.uccsd_2rdm_bjai T1a T1b T2aa T2ab T2bb L1a L1b L2aa L2ab L2bb).2.2.2.2.2)))))) := by
  have h := rotates (chg o v p q) Prog.uccsd_2rdm_bjai
    (bs := [ttwo 1 0 (rot2 v o T1a), ttwo 3 2 (rot2 q p T1b), tfour 1 1 0 0 (rot4 v v o o T2aa), tfour 1 3 0 2 (rot4 v q o p T2ab), tfour 3 3 2 2 (rot4 q q p p T2bb), ttwo 0 1 (rot2 o v L1a), ttwo 2 3 (rot2 p q L1b), tfour 0 0 1 1 (rot4 o o v v L2aa), tfour 0 2 1 3 (rot4 o p v q L2ab), tfour 2 2 3 3 (rot4 p p q q L2bb)])
    (ds := [tfour 1 0 1 0 (CC.uccsd_2rdm_bjai (rot2 v o T1a) (rot2 q p T1b) (rot4 v v o o T2aa) (rot4 v q o p T2ab) (rot4 q q p p T2bb) (rot2 o v L1a) (rot2 p q L1b) (rot4 o o v v L2aa) (rot4 o p v q L2ab) (rot4 p p q q L2bb)).1, tfour 3 2 3 2 (CC.uccsd_2rdm_bjai (rot2 v o T1a) (rot2 q p T1b) (rot4 v v o o T2aa) (rot4 v q o p T2ab) (rot4 q q p p T2bb) (rot2 o v L1a) (rot2 p q L1b) (rot4 o o v v L2aa) (rot4 o p v q L2ab) (rot4 p p q q L2bb)).2.1, tfour 1 2 1 2 (CC.uccsd_2rdm_bjai (rot2 v o T1a) (rot2 q p T1b) (rot4 v v o o T2aa) (rot4 v q o p T2ab) (rot4 q q p p T2bb) (rot2 o v L1a) (rot2 p q L1b) (rot4 o o v v L2aa) (rot4 o p v q L2ab) (rot4 p p q q L2bb)).2.2.1, tfour 1 2 3 0 (CC.uccsd_2rdm_bjai (rot2 v o T1a) (rot2 q p T1b) (rot4 v v o o T2aa) (rot4 v q o p T2ab) (rot4 q q p p T2bb) (rot2 o v L1a) (rot2 p q L1b) (rot4 o o v v L2aa) (rot4 o p v q L2ab) (rot4 p p q q L2bb)).2.2.2.1, tfour 3 0 1 2 (CC.uccsd_2rdm_bjai (rot2 v o T1a) (rot2 q p T1b) (rot4 v v o o T2aa) (rot4 v q o p T2ab) (rot4 q q p p T2bb) (rot2 o v L1a) (rot2 p q L1b) (rot4 o o v v L2aa) (rot4 o p v q L2ab) (rot4 p p q q L2bb)).2.2.2.2.1, tfour 3 0 3 0 (CC.uccsd_2rdm_bjai (rot2 v o T1a) (rot2 q p T1b) (rot4 v v o o T2aa) (rot4 v q o p T2ab) (rot4 q q p p T2bb) (rot2 o v L1a) (rot2 p q L1b) (rot4 o o v v L2aa) (rot4 o p v q L2ab) (rot4 p p q q L2bb)).2.2.2.2.2])
    (sorted_uccsd_2rdm_bjai T1a T1b T2aa T2ab T2bb L1a L1b L2aa L2ab L2bb) (by krfl) (by
      refine .cons ((rot_two _ _ _).2 rfl) ?_
      refine .cons ((rot_two _ _ _).2 rfl) ?_
      refine .cons ((rot_four _ _ _).2 rfl) ?_
      refine .cons ((rot_four _ _ _).2 rfl) ?_
      refine .cons ((rot_four _ _ _).2 rfl) ?_
      refine .cons ((rot_two _ _ _).2 rfl) ?_
      refine .cons ((rot_two _ _ _).2 rfl) ?_
      refine .cons ((rot_four _ _ _).2 rfl) ?_
      refine .cons ((rot_four _ _ _).2 rfl) ?_
      refine .cons ((rot_four _ _ _).2 rfl) ?_
      exact .nil)
  obtain ⟨h0, h1, h2, h3, h4, h5⟩ := rotRes6 h
  exact (Prod.ext ((rot_four _ _ _).1 h0) (Prod.ext ((rot_four _ _ _).1 h1) (Prod.ext ((rot_four _ _ _).1 h2) (Prod.ext ((rot_four _ _ _).1 h3) (Prod.ext ((rot_four _ _ _).1 h4) ((rot_four _ _ _).1 h5))))))

theorem sorted_uccsd_2rdm_klij (T1a : V → O → K) (T1b : Q → P → K) (T2aa : V → V → O → O → K) (T2ab : V → Q → O → P → K) (T2bb : Q → Q → P → P → K) (L1a : O → V → K) (L1b : P → Q → K) (L2aa : O → O → V → V → K) (L2ab : O → P → V → Q → K) (L2bb : P → P → Q → Q → K) :
    Prog.uccsd_2rdm_klij.nrun (sorted (X := fam O V P Q)) [stwo 1 0 T1a, stwo 3 2 T1b, sfour 1 1 0 0 T2aa, sfour 1 3 0 2 T2ab, sfour 3 3 2 2 T2bb, sfour 0 0 1 1 L2aa, sfour 0 2 1 3 L2ab, sfour 2 2 3 3 L2bb] =
      .ok [sfour 0 0 0 0 (CC.uccsd_2rdm_klij T1a T1b T2aa T2ab T2bb L1a L1b L2aa L2ab L2bb).1, sfour 2 2 2 2 (CC.uccsd_2rdm_klij T1a T1b T2aa T2ab T2bb L1a L1b L2aa L2ab L2bb).2.1, sfour 0 2 0 2 (CC.uccsd_2rdm_klij T1a T1b T2aa T2ab T2bb L1a L1b L2aa L2ab L2bb).2.2] := by krfl

theorem C55_uccsd_2rdm_klij (o : Change O O' K) (v : Change V V' K) (p : Change P P' K) (q : Change Q Q' K) (T1a : V → O → K) (T1b : Q → P → K) (T2aa : V → V → O → O → K) (T2ab : V → Q → O → P → K) (T2bb : Q → Q → P → P → K) (L1a : O → V → K) (L1b : P → Q → K) (L2aa : O → O → V → V → K) (L2ab : O → P → V → Q → K) (L2bb : P → P → Q → Q → K) :
    CC.uccsd_2rdm_klij (rot2 v o T1a) (rot2 q p T1b) (rot4 v v o o T2aa) (rot4 v q o p T2ab) (rot4 q q p p T2bb) (rot2 o v L1a) (rot2 p q L1b) (rot4 o o v v L2aa) (rot4 o p v q L2ab) (rot4 p p q q L2bb) =
      ((rot4 o o o o (CC.uccsd_2rdm_klij T1a T1b T2aa T2ab T2bb L1a L1b L2aa L2ab L2bb).1), ((rot4 p p p p (CC.uccsd_2rdm_klij T1a T1b T2aa T2ab T2bb L1a L1b L2aa L2ab L2bb).2.1), (rot4 o p o p (CC.uccsd_2rdm_klij T1a T1b T2aa T2ab T2bb L1a L1b L2aa L2ab L2bb).2.2))) := by
  have h := rotates (chg o v p q) Prog.uccsd_2rdm_klij
    (bs := [ttwo 1 0 (rot2 v o T1a), ttwo 3 2 (rot2 q p T1b), tfour 1 1 0 0 (rot4 v v o o T2aa), tfour 1 3 0 2 (rot4 v q o p T2ab), tfour 3 3 2 2 (rot4 q q p p T2bb), tfour 0 0 1 1 (rot4 o o v v L2aa), tfour 0 2 1 3 (rot4 o p v q L2ab), tfour 2 2 3 3 (rot4 p p q q L2bb)])
    (ds := [tfour 0 0 0 0 (CC.uccsd_2rdm_klij (rot2 v o T1a) (rot2 q p T1b) (rot4 v v o o T2aa) (rot4 v q o p T2ab) (rot4 q q p p T2bb) (rot2 o v L1a) (rot2 p q L1b) (rot4 o o v v L2aa) (rot4 o p v q L2ab) (rot4 p p q q L2bb)).1, tfour 2 2 2 2 (CC.uccsd_2rdm_klij (rot2 v o T1a) (rot2 q p T1b) (rot4 v v o o T2aa) (rot4 v q o p T2ab) (rot4 q q p p T2bb) (rot2 o v L1a) (rot2 p q L1b) (rot4 o o v v L2aa) (rot4 o p v q L2ab) (rot4 p p q q L2bb)).2.1, tfour 0 2 0 2 (CC.uccsd_2rdm_klij (rot2 v o T1a) (rot2 q p T1b) (rot4 v v o o T2aa) (rot4 v q o p T2ab) (rot4 q q p p T2bb) (rot2 o v L1a) (rot2 p q L1b) (rot4 o o v v L2aa) (rot4 o p v q L2ab) (rot4 p p q q L2bb)).2.2])
    (sorted_uccsd_2rdm_klij T1a T1b T2aa T2ab T2bb L1a L1b L2aa L2ab L2bb) (by krfl) (by
      refine .cons ((rot_two _ _ _).2 rfl) ?_
      refine .cons ((rot_two _ _ _).2 rfl) ?_
      refine .cons ((rot_four _ _ _).2 rfl) ?_
      refine .cons ((rot_four _ _ _).2 rfl) ?_
      refine .cons ((rot_four _ _ _).2 rfl) ?_
      refine .cons ((rot_four _ _ _).2 rfl) ?_
      refine .cons ((rot_four _ _ _).2 rfl) ?_
      refine .cons ((rot_four _ _ _).2 rfl) ?_
      exact .nil)
  obtain ⟨h0, h1, h2⟩ := rotRes3 h
  exact (Prod.ext ((rot_four _ _ _).1 h0) (Prod.ext ((rot_four _ _ _).1 h1) ((rot_four _ _ _).1 h2)))

theorem sorted_uccsd_2rdm_bcai (T1a : V → O → K) (T1b : Q → P → K) (T2aa : V → V → O → O → K) (T2ab : V → Q → O → P → K) (T2bb : Q → Q → P → P → K) (L1a : O → V → K) (L1b : P → Q → K) (L2aa : O → O → V → V → K) (L2ab : O → P → V → Q → K) (L2bb : P → P → Q → Q → K) :
    Prog.uccsd_2rdm_bcai.nrun (sorted (X := fam O V P Q)) [stwo 1 0 T1a, stwo 3 2 T1b, sfour 1 1 0 0 T2aa, sfour 1 3 0 2 T2ab, sfour 3 3 2 2 T2bb, stwo 0 1 L1a, stwo 2 3 L1b, sfour 0 0 1 1 L2aa, sfour 0 2 1 3 L2ab, sfour 2 2 3 3 L2bb] =
      .ok [sfour 1 1 1 0 (CC.uccsd_2rdm_bcai T1a T1b T2aa T2ab T2bb L1a L1b L2aa L2ab L2bb).1, sfour 3 3 3 2 (CC.uccsd_2rdm_bcai T1a T1b T2aa T2ab T2bb L1a L1b L2aa L2ab L2bb).2.1, sfour 1 3 1 2 (CC.uccsd_2rdm_bcai T1a T1b T2aa T2ab T2bb L1a L1b L2aa L2ab L2bb).2.2.1, sfour 3 1 3 0 (CC.uccsd_2rdm_bcai T1a T1b T2aa T2ab T2bb L1a L1b L2aa L2ab L2bb).2.2.2] := by krfl

theorem C55_uccsd_2rdm_bcai (o : Change O O' K) (v : Change V V' K) (p : Change P P' K) (q : Change Q Q' K) (T1a : V → O → K) (T1b : Q → P → K) (T2aa : V → V → O → O → K) (T2ab : V → Q → O → P → K) (T2bb : Q → Q → P → P → K) (L1a : O → V → K) (L1b : P → Q → K) (L2aa : O → O → V → V → K) (L2ab : O → P → V → Q → K) (L2bb : P → P → Q → Q → K) :
    CC.uccsd_2rdm_bcai (rot2 v o T1a) (rot2 q p T1b) (rot4 v v o o T2aa) (rot4 v q o p T2ab) (rot4 q q p p T2bb) (rot2 o v L1a) (rot2 p q L1b) (rot4 o o v v L2aa) (rot4 o p v q L2ab) (rot4 p p q q L2bb) =
      ((rot4 v v v o (CC.uccsd_2rdm_bcai T1a T1b T2aa T2ab T2bb L1a L1b L2aa L2ab L2bb).1), ((rot4 q q q p (CC.uccsd_2rdm_bcai T1a T1b T2aa T2ab T2bb L1a L1b L2aa L2ab L2bb).2.1), ((rot4 v q v p (CC.uccsd_2rdm_bcai T1a T1b T2aa T2ab T2bb L1a L1b L2aa L2ab L2bb).2.2.1), (rot4 q v q o (CC.uccsd_2rdm_bcai T1a T1b T2aa T2ab T2bb L1a L1b L2aa L2ab L2bb).2.2.2)))) := by
  have h := rotates (chg o v p q) Prog.uccsd_2rdm_bcai
    (bs := [ttwo 1 0 (rot2 v o T1a), ttwo 3 2 (rot2 q p T1b), tfour 1 1 0 0 (rot4 v v o o T2aa), tfour 1 3 0 2 (rot4 v q o p T2ab), tfour 3 3 2 2 (rot4 q q p p T2bb), ttwo 0 1 (rot2 o v L1a), ttwo 2 3 (rot2 p q L1b), tfour 0 0 1 1 (rot4 o o v v L2aa), tfour 0 2 1 3 (rot4 o p v q L2ab), tfour 2 2 3 3 (rot4 p p q q L2bb)])
    (ds := [tfour 1 1 1 0 (CC.uccsd_2rdm_bcai (rot2 v o T1a) (rot2 q p T1b) (rot4 v v o o T2aa) (rot4 v q o p T2ab) (rot4 q q p p T2bb) (rot2 o v L1a) (rot2 p q L1b) (rot4 o o v v L2aa) (rot4 o p v q L2ab) (rot4 p p q q L2bb)).1, tfour 3 3 3 2 (CC.uccsd_2rdm_bcai (rot2 v o T1a) (rot2 q p T1b) (rot4 v v o o T2aa) (rot4 v q o p T2ab) (rot4 q q p p T2bb) (rot2 o v L1a) (rot2 p q L1b) (rot4 o o v v L2aa) (rot4 o p v q L2ab) (rot4 p p q q L2bb)).2.1, tfour 1 3 1 2 (CC.uccsd_2rdm_bcai (rot2 v o T1a) (rot2 q p T1b) (rot4 v v o o T2aa) (rot4 v q o p T2ab) (rot4 q q p p T2bb) (rot2 o v L1a) (rot2 p q L1b) (rot4 o o v v L2aa) (rot4 o p v q L2ab) (rot4 p p q q L2bb)).2.2.1, tfour 3 1 3 0 (CC.uccsd_2rdm_bcai (rot2 v o T1a) (rot2 q p T1b) (rot4 v v o o T2aa) (rot4 v q o p T2ab) (rot4 q q p p T2bb) (rot2 o v L1a) (rot2 p q L1b) (rot4 o o v v L2aa) (rot4 o p v q L2ab) (rot4 p p q q L2bb)).2.2.2])
    (sorted_uccsd_2rdm_bcai T1a T1b T2aa T2ab T2bb L1a L1b L2aa L2ab L2bb) (by krfl) (by
      refine .cons ((rot_two _ _ _).2 rfl) ?_
      refine .cons ((rot_two _ _ _).2 rfl) ?_
      refine .cons ((rot_four _ _ _).2 rfl) ?_
      refine .cons ((rot_four _ _ _).2 rfl) ?_
      refine .cons ((rot_four _ _ _).2 rfl) ?_
      refine .cons ((rot_two _ _ _).2 rfl) ?_
      refine .cons ((rot_two _ _ _).2 rfl) ?_
      refine .cons ((rot_four _ _ _).2 rfl) ?_
      refine .cons ((rot_four _ _ _).2 rfl) ?_
      refine .cons ((rot_four _ _ _).2 rfl) ?_
      exact .nil)
  obtain ⟨h0, h1, h2, h3⟩ := rotRes4 h
  exact (Prod.ext ((rot_four _ _ _).1 h0) (Prod.ext ((rot_four _ _ _).1 h1) (Prod.ext ((rot_four _ _ _).1 h2) ((rot_four _ _ _).1 h3))))

theorem sorted_uccsd_2rdm_kaij (T1a : V → O → K) (T1b : Q → P → K) (T2aa : V → V → O → O → K) (T2ab : V → Q → O → P → K) (T2bb : Q → Q → P → P → K) (L1a : O → V → K) (L1b : P → Q → K) (L2aa : O → O → V → V → K) (L2ab : O → P → V → Q → K) (L2bb : P → P → Q → Q → K) :
    Prog.uccsd_2rdm_kaij.nrun (sorted (X := fam O V P Q)) [stwo 1 0 T1a, stwo 3 2 T1b, sfour 1 1 0 0 T2aa, sfour 1 3 0 2 T2ab, sfour 3 3 2 2 T2bb, stwo 0 1 L1a, stwo 2 3 L1b, sfour 0 0 1 1 L2aa, sfour 0 2 1 3 L2ab, sfour 2 2 3 3 L2bb] =
      .ok [sfour 0 1 0 0 (CC.uccsd_2rdm_kaij T1a T1b T2aa T2ab T2bb L1a L1b L2aa L2ab L2bb).1, sfour 2 3 2 2 (CC.uccsd_2rdm_kaij T1a T1b T2aa T2ab T2bb L1a L1b L2aa L2ab L2bb).2.1, sfour 0 3 0 2 (CC.uccsd_2rdm_kaij T1a T1b T2aa T2ab T2bb L1a L1b L2aa L2ab L2bb).2.2.1, sfour 2 1 2 0 (CC.uccsd_2rdm_kaij T1a T1b T2aa T2ab T2bb L1a L1b L2aa L2ab L2bb).2.2.2] := by krfl

theorem C55_uccsd_2rdm_kaij (o : Change O O' K) (v : Change V V' K) (p : Change P P' K) (q : Change Q Q' K) (T1a : V → O → K) (T1b : Q → P → K) (T2aa : V → V → O → O → K) (T2ab : V → Q → O → P → K) (T2bb : Q → Q → P → P → K) (L1a : O → V → K) (L1b : P → Q → K) (L2aa : O → O → V → V → K) (L2ab : O → P → V → Q → K) (L2bb : P → P → Q → Q → K) :
    CC.uccsd_2rdm_kaij (rot2 v o T1a) (rot2 q p T1b) (rot4 v v o o T2aa) (rot4 v q o p T2ab) (rot4 q q p p T2bb) (rot2 o v L1a) (rot2 p q L1b) (rot4 o o v v L2aa) (rot4 o p v q L2ab) (rot4 p p q q L2bb) =
      ((rot4 o v o o (CC.uccsd_2rdm_kaij T1a T1b T2aa T2ab T2bb L1a L1b L2aa L2ab L2bb).1), ((rot4 p q p p (CC.uccsd_2rdm_kaij T1a T1b T2aa T2ab T2bb L1a L1b L2aa L2ab L2bb).2.1), ((rot4 o q o p (CC.uccsd_2rdm_kaij T1a T1b T2aa T2ab T2bb L1a L1b L2aa L2ab L2bb).2.2.1), (rot4 p v p o (CC.uccsd_2rdm_kaij T1a T1b T2aa T2ab T2bb L1a L1b L2aa L2ab L2bb).2.2.2)))) := by
  have h := rotates (chg o v p q) Prog.uccsd_2rdm_kaij
    (bs := [ttwo 1 0 (rot2 v o T1a), ttwo 3 2 (rot2 q p T1b), tfour 1 1 0 0 (rot4 v v o o T2aa), tfour 1 3 0 2 (rot4 v q o p T2ab), tfour 3 3 2 2 (rot4 q q p p T2bb), ttwo 0 1 (rot2 o v L1a), ttwo 2 3 (rot2 p q L1b), tfour 0 0 1 1 (rot4 o o v v L2aa), tfour 0 2 1 3 (rot4 o p v q L2ab), tfour 2 2 3 3 (rot4 p p q q L2bb)])
    (ds := [tfour 0 1 0 0 (CC.uccsd_2rdm_kaij (rot2 v o T1a) (rot2 q p T1b) (rot4 v v o o T2aa) (rot4 v q o p T2ab) (rot4 q q p p T2bb) (rot2 o v L1a) (rot2 p q L1b) (rot4 o o v v L2aa) (rot4 o p v q L2ab) (rot4 p p q q L2bb)).1, tfour 2 3 2 2 (CC.uccsd_2rdm_kaij (rot2 v o T1a) (rot2 q p T1b) (rot4 v v o o T2aa) (rot4 v q o p T2ab) (rot4 q q p p T2bb) (rot2 o v L1a) (rot2 p q L1b) (rot4 o o v v L2aa) (rot4 o p v q L2ab) (rot4 p p q q L2bb)).2.1, tfour 0 3 0 2 (CC.uccsd_2rdm_kaij (rot2 v o T1a) (rot2 q p T1b) (rot4 v v o o T2aa) (rot4 v q o p T2ab) (rot4 q q p p T2bb) (rot2 o v L1a) (rot2 p q L1b) (rot4 o o v v L2aa) (rot4 o p v q L2ab) (rot4 p p q q L2bb)).2.2.1, tfour 2 1 2 0 (CC.uccsd_2rdm_kaij (rot2 v o T1a) (rot2 q p T1b) (rot4 v v o o T2aa) (rot4 v q o p T2ab) (rot4 q q p p T2bb) (rot2 o v L1a) (rot2 p q L1b) (rot4 o o v v L2aa) (rot4 o p v q L2ab) (rot4 p p q q L2bb)).2.2.2])
    (sorted_uccsd_2rdm_kaij T1a T1b T2aa T2ab T2bb L1a L1b L2aa L2ab L2bb) (by krfl) (by
      refine .cons ((rot_two _ _ _).2 rfl) ?_
      refine .cons ((rot_two _ _ _).2 rfl) ?_
      refine .cons ((rot_four _ _ _).2 rfl) ?_
      refine .cons ((rot_four _ _ _).2 rfl) ?_
      refine .cons ((rot_four _ _ _).2 rfl) ?_
      refine .cons ((rot_two _ _ _).2 rfl) ?_
      refine .cons ((rot_two _ _ _).2 rfl) ?_
      refine .cons ((rot_four _ _ _).2 rfl) ?_
      refine .cons ((rot_four _ _ _).2 rfl) ?_
      refine .cons ((rot_four _ _ _).2 rfl) ?_
      exact .nil)
  obtain ⟨h0, h1, h2, h3⟩ := rotRes4 h
  exact (Prod.ext ((rot_four _ _ _).1 h0) (Prod.ext ((rot_four _ _ _).1 h1) (Prod.ext ((rot_four _ _ _).1 h2) ((rot_four _ _ _).1 h3))))

theorem sorted_uccsd_2rdm_abij (T1a : V → O → K) (T1b : Q → P → K) (T2aa : V → V → O → O → K) (T2ab : V → Q → O → P → K) (T2bb : Q → Q → P → P → K) (L1a : O → V → K) (L1b : P → Q → K) (L2aa : O → O → V → V → K) (L2ab : O → P → V → Q → K) (L2bb : P → P → Q → Q → K) (tfac : K) :
    Prog.uccsd_2rdm_abij.nrun (sorted (X := fam O V P Q)) [stwo 1 0 T1a, stwo 3 2 T1b, sfour 1 1 0 0 T2aa, sfour 1 3 0 2 T2ab, sfour 3 3 2 2 T2bb, stwo 0 1 L1a, stwo 2 3 L1b, sfour 0 0 1 1 L2aa, sfour 0 2 1 3 L2ab, sfour 2 2 3 3 L2bb, snum tfac] =
      .ok [sfour 1 1 0 0 (CC.uccsd_2rdm_abij T1a T1b T2aa T2ab T2bb L1a L1b L2aa L2ab L2bb tfac).1, sfour 3 3 2 2 (CC.uccsd_2rdm_abij T1a T1b T2aa T2ab T2bb L1a L1b L2aa L2ab L2bb tfac).2.1, sfour 1 3 0 2 (CC.uccsd_2rdm_abij T1a T1b T2aa T2ab T2bb L1a L1b L2aa L2ab L2bb tfac).2.2] := by krfl

theorem C55_uccsd_2rdm_abij (o : Change O O' K) (v : Change V V' K) (p : Change P P' K) (q : Change Q Q' K) (T1a : V → O → K) (T1b : Q → P → K) (T2aa : V → V → O → O → K) (T2ab : V → Q → O → P → K) (T2bb : Q → Q → P → P → K) (L1a : O → V → K) (L1b : P → Q → K) (L2aa : O → O → V → V → K) (L2ab : O → P → V → Q → K) (L2bb : P → P → Q → Q → K) (tfac : K) :
    CC.uccsd_2rdm_abij (rot2 v o T1a) (rot2 q p T1b) (rot4 v v o o T2aa) (rot4 v q o p T2ab) (rot4 q q p p T2bb) (rot2 o v L1a) (rot2 p q L1b) (rot4 o o v v L2aa) (rot4 o p v q L2ab) (rot4 p p q q L2bb) tfac =
      ((rot4 v v o o (CC.uccsd_2rdm_abij T1a T1b T2aa T2ab T2bb L1a L1b L2aa L2ab L2bb tfac).1), ((rot4 q q p p (CC.uccsd_2rdm_abij T1a T1b T2aa T2ab T2bb L1a L1b L2aa L2ab L2bb tfac).2.1), (rot4 v q o p (CC.uccsd_2rdm_abij T1a T1b T2aa T2ab T2bb L1a L1b L2aa L2ab L2bb tfac).2.2))) := by
  have h := rotates (chg o v p q) Prog.uccsd_2rdm_abij
    (bs := [ttwo 1 0 (rot2 v o T1a), ttwo 3 2 (rot2 q p T1b), tfour 1 1 0 0 (rot4 v v o o T2aa), tfour 1 3 0 2 (rot4 v q o p T2ab), tfour 3 3 2 2 (rot4 q q p p T2bb), ttwo 0 1 (rot2 o v L1a), ttwo 2 3 (rot2 p q L1b), tfour 0 0 1 1 (rot4 o o v v L2aa), tfour 0 2 1 3 (rot4 o p v q L2ab), tfour 2 2 3 3 (rot4 p p q q L2bb), tnum tfac])
    (ds := [tfour 1 1 0 0 (CC.uccsd_2rdm_abij (rot2 v o T1a) (rot2 q p T1b) (rot4 v v o o T2aa) (rot4 v q o p T2ab) (rot4 q q p p T2bb) (rot2 o v L1a) (rot2 p q L1b) (rot4 o o v v L2aa) (rot4 o p v q L2ab) (rot4 p p q q L2bb) tfac).1, tfour 3 3 2 2 (CC.uccsd_2rdm_abij (rot2 v o T1a) (rot2 q p T1b) (rot4 v v o o T2aa) (rot4 v q o p T2ab) (rot4 q q p p T2bb) (rot2 o v L1a) (rot2 p q L1b) (rot4 o o v v L2aa) (rot4 o p v q L2ab) (rot4 p p q q L2bb) tfac).2.1, tfour 1 3 0 2 (CC.uccsd_2rdm_abij (rot2 v o T1a) (rot2 q p T1b) (rot4 v v o o T2aa) (rot4 v q o p T2ab) (rot4 q q p p T2bb) (rot2 o v L1a) (rot2 p q L1b) (rot4 o o v v L2aa) (rot4 o p v q L2ab) (rot4 p p q q L2bb) tfac).2.2])
    (sorted_uccsd_2rdm_abij T1a T1b T2aa T2ab T2bb L1a L1b L2aa L2ab L2bb tfac) (by krfl) (by
      refine .cons ((rot_two _ _ _).2 rfl) ?_
      refine .cons ((rot_two _ _ _).2 rfl) ?_
      refine .cons ((rot_four _ _ _).2 rfl) ?_
      refine .cons ((rot_four _ _ _).2 rfl) ?_
      refine .cons ((rot_four _ _ _).2 rfl) ?_
      refine .cons ((rot_two _ _ _).2 rfl) ?_
      refine .cons ((rot_two _ _ _).2 rfl) ?_
      refine .cons ((rot_four _ _ _).2 rfl) ?_
      refine .cons ((rot_four _ _ _).2 rfl) ?_
      refine .cons ((rot_four _ _ _).2 rfl) ?_
      refine .cons ((rot_num _ _ _).2 rfl) ?_
      exact .nil)
  obtain ⟨h0, h1, h2⟩ := rotRes3 h
  exact (Prod.ext ((rot_four _ _ _).1 h0) (Prod.ext ((rot_four _ _ _).1 h1) ((rot_four _ _ _).1 h2)))

end Heap
