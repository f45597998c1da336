import Verif.Props.Grade
import Verif.Props.RotG
import Verif.Props.RotU
import Verif.Props.RotR
/-!
# C69: the routines and selection rules

Generated by `tools/gen_sym.py`.  If the integrals and amplitudes vanish where the labels of the orbitals forbid it, so do the results.
-/

set_option linter.unusedVariables false
set_option linter.unusedSectionVars false

namespace Heap
open CC
variable {O V P Q K A : Type} [Field K] [AddCommGroup A] [Fintype O] [Fintype V] [Fintype P] [Fintype Q]
variable [DecidableEq O] [DecidableEq V] [DecidableEq P] [DecidableEq Q]

theorem C69_lccd_simple (o : O → A) (v : V → A) (F : OneE O V K) (I : TwoE O V K) (T2old : V → V → O → O → K)
    (hF : F.Allowed o v) (hI : I.Allowed o v) (hT2old : Allowed4 v v o o T2old) :
    Allowed4 v v o o (CC.lccd_simple F I T2old) := by
  have h := obeys_run (degs o v o v) Prog.lccd_simple (sorted_lccd_simple F I T2old)
    (by simpa only [List.forall_mem_cons, List.not_mem_nil, false_imp_iff, implies_true, and_true] using
      ⟨((obeys_two _ _).2 hF.oo), ((obeys_two _ _).2 hF.vv), ((obeys_four _ _).2 hI.oooo), ((obeys_four _ _).2 hI.vovo), ((obeys_four _ _).2 hI.vvoo), ((obeys_four _ _).2 hI.vvvv), ((obeys_four _ _).2 hT2old)⟩)
  exact (obeys_four (degs o v o v) _).1 (h _ List.mem_cons_self)

theorem C69_lccsd_simple (o : O → A) (v : V → A) (F : OneE O V K) (I : TwoE O V K) (T1old : V → O → K) (T2old : V → V → O → O → K)
    (hF : F.Allowed o v) (hI : I.Allowed o v) (hT1old : Allowed2 v o T1old) (hT2old : Allowed4 v v o o T2old) :
    Allowed2 v o (CC.lccsd_simple F I T1old T2old).1 ∧ Allowed4 v v o o (CC.lccsd_simple F I T1old T2old).2 := by
  have h := obeys_run (degs o v o v) Prog.lccsd_simple (sorted_lccsd_simple F I T1old T2old)
    (by simpa only [List.forall_mem_cons, List.not_mem_nil, false_imp_iff, implies_true, and_true] using
      ⟨((obeys_two _ _).2 hF.oo), ((obeys_two _ _).2 hF.ov), ((obeys_two _ _).2 hF.vo), ((obeys_two _ _).2 hF.vv), ((obeys_four _ _).2 hI.oooo), ((obeys_four _ _).2 hI.ooov), ((obeys_four _ _).2 hI.vooo), ((obeys_four _ _).2 hI.vovo), ((obeys_four _ _).2 hI.vovv), ((obeys_four _ _).2 hI.vvoo), ((obeys_four _ _).2 hI.vvvo), ((obeys_four _ _).2 hI.vvvv), ((obeys_two _ _).2 hT1old), ((obeys_four _ _).2 hT2old)⟩)
  exact ⟨(obeys_two (degs o v o v) _).1 (h _ List.mem_cons_self),
    (obeys_four (degs o v o v) _).1 (h _ (.tail _ List.mem_cons_self))⟩

theorem C69_ccd_simple (o : O → A) (v : V → A) (F : OneE O V K) (I : TwoE O V K) (T2old : V → V → O → O → K)
    (hF : F.Allowed o v) (hI : I.Allowed o v) (hT2old : Allowed4 v v o o T2old) :
    Allowed4 v v o o (CC.ccd_simple F I T2old) := by
  have h := obeys_run (degs o v o v) Prog.ccd_simple (sorted_ccd_simple F I T2old)
    (by simpa only [List.forall_mem_cons, List.not_mem_nil, false_imp_iff, implies_true, and_true] using
      ⟨((obeys_two _ _).2 hF.oo), ((obeys_two _ _).2 hF.vv), ((obeys_four _ _).2 hI.oooo), ((obeys_four _ _).2 hI.oovv), ((obeys_four _ _).2 hI.vovo), ((obeys_four _ _).2 hI.vvoo), ((obeys_four _ _).2 hI.vvvv), ((obeys_four _ _).2 hT2old)⟩)
  exact (obeys_four (degs o v o v) _).1 (h _ List.mem_cons_self)

theorem C69_ccd_ladder_simple (o : O → A) (v : V → A) (I : TwoE O V K) (T2old : V → V → O → O → K)
    (hI : I.Allowed o v) (hT2old : Allowed4 v v o o T2old) :
    Allowed4 v v o o (CC.ccd_ladder_simple I T2old) := by
  have h := obeys_run (degs o v o v) Prog.ccd_ladder_simple (sorted_ccd_ladder_simple I T2old)
    (by simpa only [List.forall_mem_cons, List.not_mem_nil, false_imp_iff, implies_true, and_true] using
      ⟨((obeys_four _ _).2 hI.oooo), ((obeys_four _ _).2 hI.oovv), ((obeys_four _ _).2 hI.vvoo), ((obeys_four _ _).2 hI.vvvv), ((obeys_four _ _).2 hT2old)⟩)
  exact (obeys_four (degs o v o v) _).1 (h _ List.mem_cons_self)

theorem C69_ccd_ring_simple (o : O → A) (v : V → A) (I : TwoE O V K) (T2old : V → V → O → O → K)
    (hI : I.Allowed o v) (hT2old : Allowed4 v v o o T2old) :
    Allowed4 v v o o (CC.ccd_ring_simple I T2old) := by
  have h := obeys_run (degs o v o v) Prog.ccd_ring_simple (sorted_ccd_ring_simple I T2old)
    (by simpa only [List.forall_mem_cons, List.not_mem_nil, false_imp_iff, implies_true, and_true] using
      ⟨((obeys_four _ _).2 hI.oovv), ((obeys_four _ _).2 hI.vovo), ((obeys_four _ _).2 hI.vvoo), ((obeys_four _ _).2 hT2old)⟩)
  exact (obeys_four (degs o v o v) _).1 (h _ List.mem_cons_self)

theorem C69_ccsd_simple (o : O → A) (v : V → A) (F : OneE O V K) (I : TwoE O V K) (T1old : V → O → K) (T2old : V → V → O → O → K)
    (hF : F.Allowed o v) (hI : I.Allowed o v) (hT1old : Allowed2 v o T1old) (hT2old : Allowed4 v v o o T2old) :
    Allowed2 v o (CC.ccsd_simple F I T1old T2old).1 ∧ Allowed4 v v o o (CC.ccsd_simple F I T1old T2old).2 := by
  have h := obeys_run (degs o v o v) Prog.ccsd_simple (sorted_ccsd_simple F I T1old T2old)
    (by simpa only [List.forall_mem_cons, List.not_mem_nil, false_imp_iff, implies_true, and_true] using
      ⟨((obeys_two _ _).2 hF.oo), ((obeys_two _ _).2 hF.ov), ((obeys_two _ _).2 hF.vo), ((obeys_two _ _).2 hF.vv), ((obeys_four _ _).2 hI.oooo), ((obeys_four _ _).2 hI.ooov), ((obeys_four _ _).2 hI.oovv), ((obeys_four _ _).2 hI.vooo), ((obeys_four _ _).2 hI.vovo), ((obeys_four _ _).2 hI.vovv), ((obeys_four _ _).2 hI.vvoo), ((obeys_four _ _).2 hI.vvvo), ((obeys_four _ _).2 hI.vvvv), ((obeys_two _ _).2 hT1old), ((obeys_four _ _).2 hT2old)⟩)
  exact ⟨(obeys_two (degs o v o v) _).1 (h _ List.mem_cons_self),
    (obeys_four (degs o v o v) _).1 (h _ (.tail _ List.mem_cons_self))⟩

theorem C69_ccsd_stanton (o : O → A) (v : V → A) (F : OneE O V K) (I : TwoE O V K) (T1old : V → O → K) (T2old : V → V → O → O → K)
    (hF : F.Allowed o v) (hI : I.Allowed o v) (hT1old : Allowed2 v o T1old) (hT2old : Allowed4 v v o o T2old) :
    Allowed2 v o (CC.ccsd_stanton F I T1old T2old).1 ∧ Allowed4 v v o o (CC.ccsd_stanton F I T1old T2old).2 := by
  have h := obeys_run (degs o v o v) Prog.ccsd_stanton (sorted_ccsd_stanton F I T1old T2old)
    (by simpa only [List.forall_mem_cons, List.not_mem_nil, false_imp_iff, implies_true, and_true] using
      ⟨((obeys_two _ _).2 hF.oo), ((obeys_two _ _).2 hF.ov), ((obeys_two _ _).2 hF.vo), ((obeys_two _ _).2 hF.vv), ((obeys_four _ _).2 hI.oooo), ((obeys_four _ _).2 hI.ooov), ((obeys_four _ _).2 hI.oovv), ((obeys_four _ _).2 hI.vooo), ((obeys_four _ _).2 hI.vovo), ((obeys_four _ _).2 hI.vovv), ((obeys_four _ _).2 hI.vvoo), ((obeys_four _ _).2 hI.vvvo), ((obeys_four _ _).2 hI.vvvv), ((obeys_two _ _).2 hT1old), ((obeys_four _ _).2 hT2old)⟩)
  exact ⟨(obeys_two (degs o v o v) _).1 (h _ List.mem_cons_self),
    (obeys_four (degs o v o v) _).1 (h _ (.tail _ List.mem_cons_self))⟩

theorem C69_uccsd_stanton (o : O → A) (v : V → A) (p : P → A) (q : Q → A) (Faa : OneE O V K) (Fbb : OneE P Q K) (Ia : TwoE O V K) (Ib : TwoE P Q K) (I_abab : TwoEFull O V P Q K) (T1old : (V → O → K) × (Q → P → K)) (T2old : (V → V → O → O → K) × (V → Q → O → P → K) × (Q → Q → P → P → K))
    (hFaa : Faa.Allowed o v) (hFbb : Fbb.Allowed p q) (hIa : Ia.Allowed o v) (hIb : Ib.Allowed p q) (hI_abab : I_abab.Allowed o v p q) (hT1old1 : Allowed2 v o T1old.1) (hT1old2 : Allowed2 q p T1old.2) (hT2old1 : Allowed4 v v o o T2old.1) (hT2old2 : Allowed4 v q o p T2old.2.1) (hT2old3 : Allowed4 q q p p T2old.2.2) :
    Allowed2 v o (CC.uccsd_stanton Faa Fbb Ia Ib I_abab T1old T2old).1.1 ∧ Allowed2 q p (CC.uccsd_stanton Faa Fbb Ia Ib I_abab T1old T2old).1.2 ∧ Allowed4 v v o o (CC.uccsd_stanton Faa Fbb Ia Ib I_abab T1old T2old).2.1 ∧ Allowed4 v q o p (CC.uccsd_stanton Faa Fbb Ia Ib I_abab T1old T2old).2.2.1 ∧ Allowed4 q q p p (CC.uccsd_stanton Faa Fbb Ia Ib I_abab T1old T2old).2.2.2 := by
  have h := obeys_run (degs o v p q) Prog.uccsd_stanton (sorted_uccsd_stanton Faa Fbb Ia Ib I_abab T1old T2old)
    (by simpa only [List.forall_mem_cons, List.not_mem_nil, false_imp_iff, implies_true, and_true] using
      ⟨((obeys_two _ _).2 hFaa.oo), ((obeys_two _ _).2 hFaa.ov), ((obeys_two _ _).2 hFaa.vo), ((obeys_two _ _).2 hFaa.vv), ((obeys_two _ _).2 hFbb.oo), ((obeys_two _ _).2 hFbb.ov), ((obeys_two _ _).2 hFbb.vo), ((obeys_two _ _).2 hFbb.vv), ((obeys_four _ _).2 hIa.oooo), ((obeys_four _ _).2 hIa.ooov), ((obeys_four _ _).2 hIa.oovv), ((obeys_four _ _).2 hIa.vooo), ((obeys_four _ _).2 hIa.vovo), ((obeys_four _ _).2 hIa.vovv), ((obeys_four _ _).2 hIa.vvoo), ((obeys_four _ _).2 hIa.vvvo), ((obeys_four _ _).2 hIa.vvvv), ((obeys_four _ _).2 hIb.oooo), ((obeys_four _ _).2 hIb.ooov), ((obeys_four _ _).2 hIb.oovv), ((obeys_four _ _).2 hIb.vooo), ((obeys_four _ _).2 hIb.vovo), ((obeys_four _ _).2 hIb.vovv), ((obeys_four _ _).2 hIb.vvoo), ((obeys_four _ _).2 hIb.vvvo), ((obeys_four _ _).2 hIb.vvvv), ((obeys_four _ _).2 hI_abab.oooo), ((obeys_four _ _).2 hI_abab.ooov), ((obeys_four _ _).2 hI_abab.oovo), ((obeys_four _ _).2 hI_abab.oovv), ((obeys_four _ _).2 hI_abab.ovoo), ((obeys_four _ _).2 hI_abab.ovov), ((obeys_four _ _).2 hI_abab.ovvo), ((obeys_four _ _).2 hI_abab.ovvv), ((obeys_four _ _).2 hI_abab.vooo), ((obeys_four _ _).2 hI_abab.voov), ((obeys_four _ _).2 hI_abab.vovo), ((obeys_four _ _).2 hI_abab.vovv), ((obeys_four _ _).2 hI_abab.vvoo), ((obeys_four _ _).2 hI_abab.vvov), ((obeys_four _ _).2 hI_abab.vvvo), ((obeys_four _ _).2 hI_abab.vvvv), ((obeys_two _ _).2 hT1old1), ((obeys_two _ _).2 hT1old2), ((obeys_four _ _).2 hT2old1), ((obeys_four _ _).2 hT2old2), ((obeys_four _ _).2 hT2old3)⟩)
  exact ⟨(obeys_two (degs o v p q) _).1 (h _ List.mem_cons_self),
    (obeys_two (degs o v p q) _).1 (h _ (.tail _ List.mem_cons_self)),
    (obeys_four (degs o v p q) _).1 (h _ (.tail _ (.tail _ List.mem_cons_self))),
    (obeys_four (degs o v p q) _).1 (h _ (.tail _ (.tail _ (.tail _ List.mem_cons_self)))),
    (obeys_four (degs o v p q) _).1 (h _ (.tail _ (.tail _ (.tail _ (.tail _ List.mem_cons_self)))))⟩

theorem C69_rccsd_stanton (o : O → A) (v : V → A) (F : OneE O V K) (I : TwoEFull O V O V K) (T1old : V → O → K) (T2old : V → V → O → O → K)
    (hF : F.Allowed o v) (hI : I.Allowed o v o v) (hT1old : Allowed2 v o T1old) (hT2old : Allowed4 v v o o T2old) :
    Allowed2 v o (CC.rccsd_stanton F I T1old T2old).1 ∧ Allowed4 v v o o (CC.rccsd_stanton F I T1old T2old).2 := by
  have h := obeys_run (degs o v o v) Prog.rccsd_stanton (sorted_rccsd_stanton F I T1old T2old)
    (by simpa only [List.forall_mem_cons, List.not_mem_nil, false_imp_iff, implies_true, and_true] using
      ⟨((obeys_two _ _).2 hF.oo), ((obeys_two _ _).2 hF.ov), ((obeys_two _ _).2 hF.vo), ((obeys_two _ _).2 hF.vv), ((obeys_four _ _).2 hI.oooo), ((obeys_four _ _).2 hI.ooov), ((obeys_four _ _).2 hI.oovo), ((obeys_four _ _).2 hI.oovv), ((obeys_four _ _).2 hI.ovoo), ((obeys_four _ _).2 hI.ovov), ((obeys_four _ _).2 hI.ovvo), ((obeys_four _ _).2 hI.ovvv), ((obeys_four _ _).2 hI.vovo), ((obeys_four _ _).2 hI.vovv), ((obeys_four _ _).2 hI.vvoo), ((obeys_four _ _).2 hI.vvvo), ((obeys_four _ _).2 hI.vvvv), ((obeys_two _ _).2 hT1old), ((obeys_four _ _).2 hT2old)⟩)
  exact ⟨(obeys_two (degs o v o v) _).1 (h _ List.mem_cons_self),
    (obeys_four (degs o v o v) _).1 (h _ (.tail _ List.mem_cons_self))⟩

theorem C69_ccd_stanton (o : O → A) (v : V → A) (F : OneE O V K) (I : TwoE O V K) (T2old : V → V → O → O → K)
    (hF : F.Allowed o v) (hI : I.Allowed o v) (hT2old : Allowed4 v v o o T2old) :
    Allowed4 v v o o (CC.ccd_stanton F I T2old) := by
  have h := obeys_run (degs o v o v) Prog.ccd_stanton (sorted_ccd_stanton F I T2old)
    (by simpa only [List.forall_mem_cons, List.not_mem_nil, false_imp_iff, implies_true, and_true] using
      ⟨((obeys_two _ _).2 hF.oo), ((obeys_two _ _).2 hF.vv), ((obeys_four _ _).2 hI.oooo), ((obeys_four _ _).2 hI.oovv), ((obeys_four _ _).2 hI.vovo), ((obeys_four _ _).2 hI.vvoo), ((obeys_four _ _).2 hI.vvvv), ((obeys_four _ _).2 hT2old)⟩)
  exact (obeys_four (degs o v o v) _).1 (h _ List.mem_cons_self)

theorem C69_lambda_int (o : O → A) (v : V → A) (F : OneE O V K) (I : TwoE O V K) (T1old : V → O → K) (T2old : V → V → O → O → K)
    (hF : F.Allowed o v) (hI : I.Allowed o v) (hT1old : Allowed2 v o T1old) (hT2old : Allowed4 v v o o T2old) :
    (CC.lambda_int F I T1old T2old).Allowed o v := by
  have h := obeys_run (degs o v o v) Prog.lambda_int (sorted_lambda_int F I T1old T2old)
    (by simpa only [List.forall_mem_cons, List.not_mem_nil, false_imp_iff, implies_true, and_true] using
      ⟨((obeys_two _ _).2 hF.oo), ((obeys_two _ _).2 hF.ov), ((obeys_two _ _).2 hF.vv), ((obeys_four _ _).2 hI.oooo), ((obeys_four _ _).2 hI.ooov), ((obeys_four _ _).2 hI.oovv), ((obeys_four _ _).2 hI.vooo), ((obeys_four _ _).2 hI.vovo), ((obeys_four _ _).2 hI.vovv), ((obeys_four _ _).2 hI.vvvo), ((obeys_four _ _).2 hI.vvvv), ((obeys_two _ _).2 hT1old), ((obeys_four _ _).2 hT2old)⟩)
  exact ⟨(obeys_four (degs o v o v) _).1 (h _ List.mem_cons_self),
    (obeys_four (degs o v o v) _).1 (h _ (.tail _ List.mem_cons_self)),
    (obeys_two (degs o v o v) _).1 (h _ (.tail _ (.tail _ List.mem_cons_self))),
    (obeys_two (degs o v o v) _).1 (h _ (.tail _ (.tail _ (.tail _ List.mem_cons_self)))),
    (obeys_two (degs o v o v) _).1 (h _ (.tail _ (.tail _ (.tail _ (.tail _ List.mem_cons_self))))),
    (obeys_four (degs o v o v) _).1 (h _ (.tail _ (.tail _ (.tail _ (.tail _ (.tail _ List.mem_cons_self)))))),
    (obeys_ring1 (degs o v o v) _).1 (h _ (.tail _ (.tail _ (.tail _ (.tail _ (.tail _ (.tail _ List.mem_cons_self))))))),
    (obeys_four (degs o v o v) _).1 (h _ (.tail _ (.tail _ (.tail _ (.tail _ (.tail _ (.tail _ (.tail _ List.mem_cons_self)))))))),
    (obeys_four (degs o v o v) _).1 (h _ (.tail _ (.tail _ (.tail _ (.tail _ (.tail _ (.tail _ (.tail _ (.tail _ List.mem_cons_self))))))))),
    (obeys_two (degs o v o v) _).1 (h _ (.tail _ (.tail _ (.tail _ (.tail _ (.tail _ (.tail _ (.tail _ (.tail _ (.tail _ List.mem_cons_self)))))))))),
    (obeys_four (degs o v o v) _).1 (h _ (.tail _ (.tail _ (.tail _ (.tail _ (.tail _ (.tail _ (.tail _ (.tail _ (.tail _ (.tail _ List.mem_cons_self))))))))))),
    (obeys_four (degs o v o v) _).1 (h _ (.tail _ (.tail _ (.tail _ (.tail _ (.tail _ (.tail _ (.tail _ (.tail _ (.tail _ (.tail _ (.tail _ List.mem_cons_self)))))))))))),
    (obeys_four (degs o v o v) _).1 (h _ (.tail _ (.tail _ (.tail _ (.tail _ (.tail _ (.tail _ (.tail _ (.tail _ (.tail _ (.tail _ (.tail _ (.tail _ List.mem_cons_self))))))))))))),
    (obeys_four (degs o v o v) _).1 (h _ (.tail _ (.tail _ (.tail _ (.tail _ (.tail _ (.tail _ (.tail _ (.tail _ (.tail _ (.tail _ (.tail _ (.tail _ (.tail _ List.mem_cons_self)))))))))))))),
    (obeys_four (degs o v o v) _).1 (h _ (.tail _ (.tail _ (.tail _ (.tail _ (.tail _ (.tail _ (.tail _ (.tail _ (.tail _ (.tail _ (.tail _ (.tail _ (.tail _ (.tail _ List.mem_cons_self))))))))))))))),
    (obeys_ring2 (degs o v o v) _).1 (h _ (.tail _ (.tail _ (.tail _ (.tail _ (.tail _ (.tail _ (.tail _ (.tail _ (.tail _ (.tail _ (.tail _ (.tail _ (.tail _ (.tail _ (.tail _ List.mem_cons_self))))))))))))))))⟩

theorem C69_ccd_lambda_simple (o : O → A) (v : V → A) (F : OneE O V K) (I : TwoE O V K) (L2old : O → O → V → V → K) (T2old : V → V → O → O → K)
    (hF : F.Allowed o v) (hI : I.Allowed o v) (hL2old : Allowed4 o o v v L2old) (hT2old : Allowed4 v v o o T2old) :
    Allowed4 o o v v (CC.ccd_lambda_simple F I L2old T2old) := by
  have h := obeys_run (degs o v o v) Prog.ccd_lambda_simple (sorted_ccd_lambda_simple F I L2old T2old)
    (by simpa only [List.forall_mem_cons, List.not_mem_nil, false_imp_iff, implies_true, and_true] using
      ⟨((obeys_two _ _).2 hF.oo), ((obeys_two _ _).2 hF.vv), ((obeys_four _ _).2 hI.oooo), ((obeys_four _ _).2 hI.oovv), ((obeys_four _ _).2 hI.vovo), ((obeys_four _ _).2 hI.vvvv), ((obeys_four _ _).2 hL2old), ((obeys_four _ _).2 hT2old)⟩)
  exact (obeys_four (degs o v o v) _).1 (h _ List.mem_cons_self)

theorem C69_ccsd_lambda_opt (o : O → A) (v : V → A) (F : OneE O V K) (I : TwoE O V K) (L1old : O → V → K) (L2old : O → O → V → V → K) (T1old : V → O → K) (T2old : V → V → O → O → K)
    (hF : F.Allowed o v) (hI : I.Allowed o v) (hL1old : Allowed2 o v L1old) (hL2old : Allowed4 o o v v L2old) (hT1old : Allowed2 v o T1old) (hT2old : Allowed4 v v o o T2old) :
    Allowed2 o v (CC.ccsd_lambda_opt F I L1old L2old T1old T2old).1 ∧ Allowed4 o o v v (CC.ccsd_lambda_opt F I L1old L2old T1old T2old).2 := by
  have h := obeys_run (degs o v o v) Prog.ccsd_lambda_opt (sorted_ccsd_lambda_opt F I L1old L2old T1old T2old)
    (by simpa only [List.forall_mem_cons, List.not_mem_nil, false_imp_iff, implies_true, and_true] using
      ⟨((obeys_two _ _).2 hF.oo), ((obeys_two _ _).2 hF.ov), ((obeys_two _ _).2 hF.vv), ((obeys_four _ _).2 hI.oooo), ((obeys_four _ _).2 hI.ooov), ((obeys_four _ _).2 hI.oovv), ((obeys_four _ _).2 hI.vooo), ((obeys_four _ _).2 hI.vovo), ((obeys_four _ _).2 hI.vovv), ((obeys_four _ _).2 hI.vvvo), ((obeys_four _ _).2 hI.vvvv), ((obeys_two _ _).2 hL1old), ((obeys_four _ _).2 hL2old), ((obeys_two _ _).2 hT1old), ((obeys_four _ _).2 hT2old)⟩)
  exact ⟨(obeys_two (degs o v o v) _).1 (h _ List.mem_cons_self),
    (obeys_four (degs o v o v) _).1 (h _ (.tail _ List.mem_cons_self))⟩

theorem C69_ccsd_lambda_stanton (o : O → A) (v : V → A) (F : OneE O V K) (I : TwoE O V K) (L1old : O → V → K) (L2old : O → O → V → V → K) (T1old : V → O → K) (T2old : V → V → O → O → K)
    (hF : F.Allowed o v) (hI : I.Allowed o v) (hL1old : Allowed2 o v L1old) (hL2old : Allowed4 o o v v L2old) (hT1old : Allowed2 v o T1old) (hT2old : Allowed4 v v o o T2old) :
    Allowed2 o v (CC.ccsd_lambda_stanton F I L1old L2old T1old T2old).1 ∧ Allowed4 o o v v (CC.ccsd_lambda_stanton F I L1old L2old T1old T2old).2 := by
  have h := obeys_run (degs o v o v) Prog.ccsd_lambda_stanton (sorted_ccsd_lambda_stanton F I L1old L2old T1old T2old)
    (by simpa only [List.forall_mem_cons, List.not_mem_nil, false_imp_iff, implies_true, and_true] using
      ⟨((obeys_two _ _).2 hF.oo), ((obeys_two _ _).2 hF.ov), ((obeys_two _ _).2 hF.vv), ((obeys_four _ _).2 hI.oooo), ((obeys_four _ _).2 hI.ooov), ((obeys_four _ _).2 hI.oovv), ((obeys_four _ _).2 hI.vooo), ((obeys_four _ _).2 hI.vovo), ((obeys_four _ _).2 hI.vovv), ((obeys_four _ _).2 hI.vvvo), ((obeys_four _ _).2 hI.vvvv), ((obeys_two _ _).2 hL1old), ((obeys_four _ _).2 hL2old), ((obeys_two _ _).2 hT1old), ((obeys_four _ _).2 hT2old)⟩)
  exact ⟨(obeys_two (degs o v o v) _).1 (h _ List.mem_cons_self),
    (obeys_four (degs o v o v) _).1 (h _ (.tail _ List.mem_cons_self))⟩

theorem C69_ccsd_lambda_opt_int (o : O → A) (v : V → A) (F : OneE O V K) (I : TwoE O V K) (L1old : O → V → K) (L2old : O → O → V → V → K) (T1old : V → O → K) (T2old : V → V → O → O → K) (intor : LambdaInt O V K)
    (hF : F.Allowed o v) (hI : I.Allowed o v) (hL1old : Allowed2 o v L1old) (hL2old : Allowed4 o o v v L2old) (hT1old : Allowed2 v o T1old) (hT2old : Allowed4 v v o o T2old) (hintor : intor.Allowed o v) :
    Allowed2 o v (CC.ccsd_lambda_opt_int F I L1old L2old T1old T2old intor).1 ∧ Allowed4 o o v v (CC.ccsd_lambda_opt_int F I L1old L2old T1old T2old intor).2 := by
  have h := obeys_run (degs o v o v) Prog.ccsd_lambda_opt_int (sorted_ccsd_lambda_opt_int F I L1old L2old T1old T2old intor)
    (by simpa only [List.forall_mem_cons, List.not_mem_nil, false_imp_iff, implies_true, and_true] using
      ⟨((obeys_two _ _).2 hF.ov), ((obeys_four _ _).2 hI.ooov), ((obeys_four _ _).2 hI.oovv), ((obeys_four _ _).2 hI.vovv), ((obeys_two _ _).2 hL1old), ((obeys_four _ _).2 hL2old), ((obeys_two _ _).2 hT1old), ((obeys_four _ _).2 hT2old), ((obeys_two _ _).2 hintor.IToo), ((obeys_four _ _).2 hintor.IToooo), ((obeys_four _ _).2 hintor.ITooov), ((obeys_ring1 _ _).2 hintor.IToovv), ((obeys_ring2 _ _).2 hintor.IToovv2), ((obeys_two _ _).2 hintor.ITov), ((obeys_four _ _).2 hintor.ITvooo), ((obeys_four _ _).2 hintor.ITvovo), ((obeys_four _ _).2 hintor.ITvovo2), ((obeys_four _ _).2 hintor.ITvovv), ((obeys_two _ _).2 hintor.ITvv), ((obeys_four _ _).2 hintor.ITvvvo), ((obeys_four _ _).2 hintor.ITvvvv), ((obeys_four _ _).2 hintor.IooovT), ((obeys_four _ _).2 hintor.IvovvT)⟩)
  exact ⟨(obeys_two (degs o v o v) _).1 (h _ List.mem_cons_self),
    (obeys_four (degs o v o v) _).1 (h _ (.tail _ List.mem_cons_self))⟩

theorem C69_uccsd_lambda_opt (o : O → A) (v : V → A) (p : P → A) (q : Q → A) (Fa : OneE O V K) (Fb : OneE P Q K) (Ia : TwoE O V K) (Ib : TwoE P Q K) (Iabab : TwoEFull O V P Q K) (L1old : (O → V → K) × (P → Q → K)) (L2old : (O → O → V → V → K) × (O → P → V → Q → K) × (P → P → Q → Q → K)) (T1old : (V → O → K) × (Q → P → K)) (T2old : (V → V → O → O → K) × (V → Q → O → P → K) × (Q → Q → P → P → K))
    (hFa : Fa.Allowed o v) (hFb : Fb.Allowed p q) (hIa : Ia.Allowed o v) (hIb : Ib.Allowed p q) (hIabab : Iabab.Allowed o v p q) (hL1old1 : Allowed2 o v L1old.1) (hL1old2 : Allowed2 p q L1old.2) (hL2old1 : Allowed4 o o v v L2old.1) (hL2old2 : Allowed4 o p v q L2old.2.1) (hL2old3 : Allowed4 p p q q L2old.2.2) (hT1old1 : Allowed2 v o T1old.1) (hT1old2 : Allowed2 q p T1old.2) (hT2old1 : Allowed4 v v o o T2old.1) (hT2old2 : Allowed4 v q o p T2old.2.1) (hT2old3 : Allowed4 q q p p T2old.2.2) :
    Allowed2 o v (CC.uccsd_lambda_opt Fa Fb Ia Ib Iabab L1old L2old T1old T2old).1.1 ∧ Allowed2 p q (CC.uccsd_lambda_opt Fa Fb Ia Ib Iabab L1old L2old T1old T2old).1.2 ∧ Allowed4 o o v v (CC.uccsd_lambda_opt Fa Fb Ia Ib Iabab L1old L2old T1old T2old).2.1 ∧ Allowed4 o p v q (CC.uccsd_lambda_opt Fa Fb Ia Ib Iabab L1old L2old T1old T2old).2.2.1 ∧ Allowed4 p p q q (CC.uccsd_lambda_opt Fa Fb Ia Ib Iabab L1old L2old T1old T2old).2.2.2 := by
  have h := obeys_run (degs o v p q) Prog.uccsd_lambda_opt (sorted_uccsd_lambda_opt Fa Fb Ia Ib Iabab L1old L2old T1old T2old)
    (by simpa only [List.forall_mem_cons, List.not_mem_nil, false_imp_iff, implies_true, and_true] using
      ⟨((obeys_two _ _).2 hFa.oo), ((obeys_two _ _).2 hFa.ov), ((obeys_two _ _).2 hFa.vv), ((obeys_two _ _).2 hFb.oo), ((obeys_two _ _).2 hFb.ov), ((obeys_two _ _).2 hFb.vv), ((obeys_four _ _).2 hIa.oooo), ((obeys_four _ _).2 hIa.ooov), ((obeys_four _ _).2 hIa.oovv), ((obeys_four _ _).2 hIa.vooo), ((obeys_four _ _).2 hIa.vovo), ((obeys_four _ _).2 hIa.vovv), ((obeys_four _ _).2 hIa.vvvo), ((obeys_four _ _).2 hIa.vvvv), ((obeys_four _ _).2 hIb.oooo), ((obeys_four _ _).2 hIb.ooov), ((obeys_four _ _).2 hIb.oovv), ((obeys_four _ _).2 hIb.vooo), ((obeys_four _ _).2 hIb.vovo), ((obeys_four _ _).2 hIb.vovv), ((obeys_four _ _).2 hIb.vvvo), ((obeys_four _ _).2 hIb.vvvv), ((obeys_four _ _).2 hIabab.oooo), ((obeys_four _ _).2 hIabab.ooov), ((obeys_four _ _).2 hIabab.oovo), ((obeys_four _ _).2 hIabab.oovv), ((obeys_four _ _).2 hIabab.ovoo), ((obeys_four _ _).2 hIabab.ovov), ((obeys_four _ _).2 hIabab.ovvo), ((obeys_four _ _).2 hIabab.ovvv), ((obeys_four _ _).2 hIabab.vooo), ((obeys_four _ _).2 hIabab.voov), ((obeys_four _ _).2 hIabab.vovo), ((obeys_four _ _).2 hIabab.vovv), ((obeys_four _ _).2 hIabab.vvov), ((obeys_four _ _).2 hIabab.vvvo), ((obeys_four _ _).2 hIabab.vvvv), ((obeys_two _ _).2 hL1old1), ((obeys_two _ _).2 hL1old2), ((obeys_four _ _).2 hL2old1), ((obeys_four _ _).2 hL2old2), ((obeys_four _ _).2 hL2old3), ((obeys_two _ _).2 hT1old1), ((obeys_two _ _).2 hT1old2), ((obeys_four _ _).2 hT2old1), ((obeys_four _ _).2 hT2old2), ((obeys_four _ _).2 hT2old3)⟩)
  exact ⟨(obeys_two (degs o v p q) _).1 (h _ List.mem_cons_self),
    (obeys_two (degs o v p q) _).1 (h _ (.tail _ List.mem_cons_self)),
    (obeys_four (degs o v p q) _).1 (h _ (.tail _ (.tail _ List.mem_cons_self))),
    (obeys_four (degs o v p q) _).1 (h _ (.tail _ (.tail _ (.tail _ List.mem_cons_self)))),
    (obeys_four (degs o v p q) _).1 (h _ (.tail _ (.tail _ (.tail _ (.tail _ List.mem_cons_self)))))⟩

theorem C69_rccsd_lambda_opt (o : O → A) (v : V → A) (F : OneE O V K) (I : TwoEFull O V O V K) (L1old : O → V → K) (L2old : O → O → V → V → K) (T1old : V → O → K) (T2old : V → V → O → O → K)
    (hF : F.Allowed o v) (hI : I.Allowed o v o v) (hL1old : Allowed2 o v L1old) (hL2old : Allowed4 o o v v L2old) (hT1old : Allowed2 v o T1old) (hT2old : Allowed4 v v o o T2old) :
    Allowed2 o v (CC.rccsd_lambda_opt F I L1old L2old T1old T2old).1 ∧ Allowed4 o o v v (CC.rccsd_lambda_opt F I L1old L2old T1old T2old).2 := by
  have h := obeys_run (degs o v o v) Prog.rccsd_lambda_opt (sorted_rccsd_lambda_opt F I L1old L2old T1old T2old)
    (by simpa only [List.forall_mem_cons, List.not_mem_nil, false_imp_iff, implies_true, and_true] using
      ⟨((obeys_two _ _).2 hF.oo), ((obeys_two _ _).2 hF.ov), ((obeys_two _ _).2 hF.vv), ((obeys_four _ _).2 hI.oooo), ((obeys_four _ _).2 hI.ooov), ((obeys_four _ _).2 hI.oovo), ((obeys_four _ _).2 hI.oovv), ((obeys_four _ _).2 hI.ovoo), ((obeys_four _ _).2 hI.ovov), ((obeys_four _ _).2 hI.ovvo), ((obeys_four _ _).2 hI.ovvv), ((obeys_four _ _).2 hI.vooo), ((obeys_four _ _).2 hI.voov), ((obeys_four _ _).2 hI.vovo), ((obeys_four _ _).2 hI.vovv), ((obeys_four _ _).2 hI.vvov), ((obeys_four _ _).2 hI.vvvo), ((obeys_four _ _).2 hI.vvvv), ((obeys_two _ _).2 hL1old), ((obeys_four _ _).2 hL2old), ((obeys_two _ _).2 hT1old), ((obeys_four _ _).2 hT2old)⟩)
  exact ⟨(obeys_two (degs o v o v) _).1 (h _ List.mem_cons_self),
    (obeys_four (degs o v o v) _).1 (h _ (.tail _ List.mem_cons_self))⟩

theorem C69_ccsd_lambda_simple (o : O → A) (v : V → A) (F : OneE O V K) (I : TwoE O V K) (L1old : O → V → K) (L2old : O → O → V → V → K) (T1old : V → O → K) (T2old : V → V → O → O → K)
    (hF : F.Allowed o v) (hI : I.Allowed o v) (hL1old : Allowed2 o v L1old) (hL2old : Allowed4 o o v v L2old) (hT1old : Allowed2 v o T1old) (hT2old : Allowed4 v v o o T2old) :
    Allowed2 o v (CC.ccsd_lambda_simple F I L1old L2old T1old T2old).1 ∧ Allowed4 o o v v (CC.ccsd_lambda_simple F I L1old L2old T1old T2old).2 := by
  have h := obeys_run (degs o v o v) Prog.ccsd_lambda_simple (sorted_ccsd_lambda_simple F I L1old L2old T1old T2old)
    (by simpa only [List.forall_mem_cons, List.not_mem_nil, false_imp_iff, implies_true, and_true] using
      ⟨((obeys_two _ _).2 hF.oo), ((obeys_two _ _).2 hF.ov), ((obeys_two _ _).2 hF.vv), ((obeys_four _ _).2 hI.oooo), ((obeys_four _ _).2 hI.ooov), ((obeys_four _ _).2 hI.oovv), ((obeys_four _ _).2 hI.vooo), ((obeys_four _ _).2 hI.vovo), ((obeys_four _ _).2 hI.vovv), ((obeys_four _ _).2 hI.vvvo), ((obeys_four _ _).2 hI.vvvv), ((obeys_two _ _).2 hL1old), ((obeys_four _ _).2 hL2old), ((obeys_two _ _).2 hT1old), ((obeys_four _ _).2 hT2old)⟩)
  exact ⟨(obeys_two (degs o v o v) _).1 (h _ List.mem_cons_self),
    (obeys_four (degs o v o v) _).1 (h _ (.tail _ List.mem_cons_self))⟩

theorem C69_ccsd_1rdm_ba (o : O → A) (v : V → A) (T1 : V → O → K) (T2 : V → V → O → O → K) (L1 : O → V → K) (L2 : O → O → V → V → K)
    (hT1 : Allowed2 v o T1) (hT2 : Allowed4 v v o o T2) (hL1 : Allowed2 o v L1) (hL2 : Allowed4 o o v v L2) :
    Allowed2 v v (CC.ccsd_1rdm_ba T1 T2 L1 L2) := by
  have h := obeys_run (degs o v o v) Prog.ccsd_1rdm_ba (sorted_ccsd_1rdm_ba T1 T2 L1 L2)
    (by simpa only [List.forall_mem_cons, List.not_mem_nil, false_imp_iff, implies_true, and_true] using
      ⟨((obeys_two _ _).2 hT1), ((obeys_four _ _).2 hT2), ((obeys_two _ _).2 hL1), ((obeys_four _ _).2 hL2)⟩)
  exact (obeys_two (degs o v o v) _).1 (h _ List.mem_cons_self)

theorem C69_ccsd_1rdm_ji (o : O → A) (v : V → A) (T1 : V → O → K) (T2 : V → V → O → O → K) (L1 : O → V → K) (L2 : O → O → V → V → K)
    (hT1 : Allowed2 v o T1) (hT2 : Allowed4 v v o o T2) (hL1 : Allowed2 o v L1) (hL2 : Allowed4 o o v v L2) :
    Allowed2 o o (CC.ccsd_1rdm_ji T1 T2 L1 L2) := by
  have h := obeys_run (degs o v o v) Prog.ccsd_1rdm_ji (sorted_ccsd_1rdm_ji T1 T2 L1 L2)
    (by simpa only [List.forall_mem_cons, List.not_mem_nil, false_imp_iff, implies_true, and_true] using
      ⟨((obeys_two _ _).2 hT1), ((obeys_four _ _).2 hT2), ((obeys_two _ _).2 hL1), ((obeys_four _ _).2 hL2)⟩)
  exact (obeys_two (degs o v o v) _).1 (h _ List.mem_cons_self)

theorem C69_ccsd_1rdm_ai (o : O → A) (v : V → A) (T1 : V → O → K) (T2 : V → V → O → O → K) (L1 : O → V → K) (L2 : O → O → V → V → K) (tfac : K)
    (hT1 : Allowed2 v o T1) (hT2 : Allowed4 v v o o T2) (hL1 : Allowed2 o v L1) (hL2 : Allowed4 o o v v L2) :
    Allowed2 v o (CC.ccsd_1rdm_ai T1 T2 L1 L2 tfac) := by
  have h := obeys_run (degs o v o v) Prog.ccsd_1rdm_ai (sorted_ccsd_1rdm_ai T1 T2 L1 L2 tfac)
    (by simpa only [List.forall_mem_cons, List.not_mem_nil, false_imp_iff, implies_true, and_true] using
      ⟨((obeys_two _ _).2 hT1), ((obeys_four _ _).2 hT2), ((obeys_two _ _).2 hL1), ((obeys_four _ _).2 hL2), (obeys_num _ _)⟩)
  exact (obeys_two (degs o v o v) _).1 (h _ List.mem_cons_self)

theorem C69_ccsd_2rdm_cdab (o : O → A) (v : V → A) (T1 : V → O → K) (T2 : V → V → O → O → K) (L1 : O → V → K) (L2 : O → O → V → V → K)
    (hT1 : Allowed2 v o T1) (hT2 : Allowed4 v v o o T2) (hL1 : Allowed2 o v L1) (hL2 : Allowed4 o o v v L2) :
    Allowed4 v v v v (CC.ccsd_2rdm_cdab T1 T2 L1 L2) := by
  have h := obeys_run (degs o v o v) Prog.ccsd_2rdm_cdab (sorted_ccsd_2rdm_cdab T1 T2 L1 L2)
    (by simpa only [List.forall_mem_cons, List.not_mem_nil, false_imp_iff, implies_true, and_true] using
      ⟨((obeys_two _ _).2 hT1), ((obeys_four _ _).2 hT2), ((obeys_four _ _).2 hL2)⟩)
  exact (obeys_four (degs o v o v) _).1 (h _ List.mem_cons_self)

theorem C69_ccsd_2rdm_ciab (o : O → A) (v : V → A) (T1 : V → O → K) (T2 : V → V → O → O → K) (L1 : O → V → K) (L2 : O → O → V → V → K)
    (hT1 : Allowed2 v o T1) (hT2 : Allowed4 v v o o T2) (hL1 : Allowed2 o v L1) (hL2 : Allowed4 o o v v L2) :
    Allowed4 v o v v (CC.ccsd_2rdm_ciab T1 T2 L1 L2) := by
  have h := obeys_run (degs o v o v) Prog.ccsd_2rdm_ciab (sorted_ccsd_2rdm_ciab T1 T2 L1 L2)
    (by simpa only [List.forall_mem_cons, List.not_mem_nil, false_imp_iff, implies_true, and_true] using
      ⟨((obeys_two _ _).2 hT1), ((obeys_four _ _).2 hL2)⟩)
  exact (obeys_four (degs o v o v) _).1 (h _ List.mem_cons_self)

theorem C69_ccsd_2rdm_bcai (o : O → A) (v : V → A) (T1 : V → O → K) (T2 : V → V → O → O → K) (L1 : O → V → K) (L2 : O → O → V → V → K)
    (hT1 : Allowed2 v o T1) (hT2 : Allowed4 v v o o T2) (hL1 : Allowed2 o v L1) (hL2 : Allowed4 o o v v L2) :
    Allowed4 v v v o (CC.ccsd_2rdm_bcai T1 T2 L1 L2) := by
  have h := obeys_run (degs o v o v) Prog.ccsd_2rdm_bcai (sorted_ccsd_2rdm_bcai T1 T2 L1 L2)
    (by simpa only [List.forall_mem_cons, List.not_mem_nil, false_imp_iff, implies_true, and_true] using
      ⟨((obeys_two _ _).2 hT1), ((obeys_four _ _).2 hT2), ((obeys_two _ _).2 hL1), ((obeys_four _ _).2 hL2)⟩)
  exact (obeys_four (degs o v o v) _).1 (h _ List.mem_cons_self)

theorem C69_ccsd_2rdm_bjai (o : O → A) (v : V → A) (T1 : V → O → K) (T2 : V → V → O → O → K) (L1 : O → V → K) (L2 : O → O → V → V → K)
    (hT1 : Allowed2 v o T1) (hT2 : Allowed4 v v o o T2) (hL1 : Allowed2 o v L1) (hL2 : Allowed4 o o v v L2) :
    Allowed4 v o v o (CC.ccsd_2rdm_bjai T1 T2 L1 L2) := by
  have h := obeys_run (degs o v o v) Prog.ccsd_2rdm_bjai (sorted_ccsd_2rdm_bjai T1 T2 L1 L2)
    (by simpa only [List.forall_mem_cons, List.not_mem_nil, false_imp_iff, implies_true, and_true] using
      ⟨((obeys_two _ _).2 hT1), ((obeys_four _ _).2 hT2), ((obeys_two _ _).2 hL1), ((obeys_four _ _).2 hL2)⟩)
  exact (obeys_four (degs o v o v) _).1 (h _ List.mem_cons_self)

theorem C69_ccsd_2rdm_abij (o : O → A) (v : V → A) (T1 : V → O → K) (T2 : V → V → O → O → K) (L1 : O → V → K) (L2 : O → O → V → V → K) (tfac : K)
    (hT1 : Allowed2 v o T1) (hT2 : Allowed4 v v o o T2) (hL1 : Allowed2 o v L1) (hL2 : Allowed4 o o v v L2) :
    Allowed4 v v o o (CC.ccsd_2rdm_abij T1 T2 L1 L2 tfac) := by
  have h := obeys_run (degs o v o v) Prog.ccsd_2rdm_abij (sorted_ccsd_2rdm_abij T1 T2 L1 L2 tfac)
    (by simpa only [List.forall_mem_cons, List.not_mem_nil, false_imp_iff, implies_true, and_true] using
      ⟨((obeys_two _ _).2 hT1), ((obeys_four _ _).2 hT2), ((obeys_two _ _).2 hL1), ((obeys_four _ _).2 hL2), (obeys_num _ _)⟩)
  exact (obeys_four (degs o v o v) _).1 (h _ List.mem_cons_self)

theorem C69_ccsd_2rdm_jkai (o : O → A) (v : V → A) (T1 : V → O → K) (T2 : V → V → O → O → K) (L1 : O → V → K) (L2 : O → O → V → V → K)
    (hT1 : Allowed2 v o T1) (hT2 : Allowed4 v v o o T2) (hL1 : Allowed2 o v L1) (hL2 : Allowed4 o o v v L2) :
    Allowed4 o o v o (CC.ccsd_2rdm_jkai T1 T2 L1 L2) := by
  have h := obeys_run (degs o v o v) Prog.ccsd_2rdm_jkai (sorted_ccsd_2rdm_jkai T1 T2 L1 L2)
    (by simpa only [List.forall_mem_cons, List.not_mem_nil, false_imp_iff, implies_true, and_true] using
      ⟨((obeys_two _ _).2 hT1), ((obeys_four _ _).2 hL2)⟩)
  exact (obeys_four (degs o v o v) _).1 (h _ List.mem_cons_self)

theorem C69_ccsd_2rdm_kaij (o : O → A) (v : V → A) (T1 : V → O → K) (T2 : V → V → O → O → K) (L1 : O → V → K) (L2 : O → O → V → V → K)
    (hT1 : Allowed2 v o T1) (hT2 : Allowed4 v v o o T2) (hL1 : Allowed2 o v L1) (hL2 : Allowed4 o o v v L2) :
    Allowed4 o v o o (CC.ccsd_2rdm_kaij T1 T2 L1 L2) := by
  have h := obeys_run (degs o v o v) Prog.ccsd_2rdm_kaij (sorted_ccsd_2rdm_kaij T1 T2 L1 L2)
    (by simpa only [List.forall_mem_cons, List.not_mem_nil, false_imp_iff, implies_true, and_true] using
      ⟨((obeys_two _ _).2 hT1), ((obeys_four _ _).2 hT2), ((obeys_two _ _).2 hL1), ((obeys_four _ _).2 hL2)⟩)
  exact (obeys_four (degs o v o v) _).1 (h _ List.mem_cons_self)

theorem C69_ccsd_2rdm_klij (o : O → A) (v : V → A) (T1 : V → O → K) (T2 : V → V → O → O → K) (L1 : O → V → K) (L2 : O → O → V → V → K)
    (hT1 : Allowed2 v o T1) (hT2 : Allowed4 v v o o T2) (hL1 : Allowed2 o v L1) (hL2 : Allowed4 o o v v L2) :
    Allowed4 o o o o (CC.ccsd_2rdm_klij T1 T2 L1 L2) := by
  have h := obeys_run (degs o v o v) Prog.ccsd_2rdm_klij (sorted_ccsd_2rdm_klij T1 T2 L1 L2)
    (by simpa only [List.forall_mem_cons, List.not_mem_nil, false_imp_iff, implies_true, and_true] using
      ⟨((obeys_two _ _).2 hT1), ((obeys_four _ _).2 hT2), ((obeys_four _ _).2 hL2)⟩)
  exact (obeys_four (degs o v o v) _).1 (h _ List.mem_cons_self)

theorem C69_ccsd_1rdm_ai_opt (o : O → A) (v : V → A) (T1 : V → O → K) (T2 : V → V → O → O → K) (L1 : O → V → K) (L2 : O → O → V → V → K) (tfac : K)
    (hT1 : Allowed2 v o T1) (hT2 : Allowed4 v v o o T2) (hL1 : Allowed2 o v L1) (hL2 : Allowed4 o o v v L2) :
    Allowed2 v o (CC.ccsd_1rdm_ai_opt T1 T2 L1 L2 tfac) := by
  have h := obeys_run (degs o v o v) Prog.ccsd_1rdm_ai_opt (sorted_ccsd_1rdm_ai_opt T1 T2 L1 L2 tfac)
    (by simpa only [List.forall_mem_cons, List.not_mem_nil, false_imp_iff, implies_true, and_true] using
      ⟨((obeys_two _ _).2 hT1), ((obeys_four _ _).2 hT2), ((obeys_two _ _).2 hL1), ((obeys_four _ _).2 hL2), (obeys_num _ _)⟩)
  exact (obeys_two (degs o v o v) _).1 (h _ List.mem_cons_self)

theorem C69_ccsd_2rdm_cdab_opt (o : O → A) (v : V → A) (T1 : V → O → K) (T2 : V → V → O → O → K) (L1 : O → V → K) (L2 : O → O → V → V → K)
    (hT1 : Allowed2 v o T1) (hT2 : Allowed4 v v o o T2) (hL1 : Allowed2 o v L1) (hL2 : Allowed4 o o v v L2) :
    Allowed4 v v v v (CC.ccsd_2rdm_cdab_opt T1 T2 L1 L2) := by
  have h := obeys_run (degs o v o v) Prog.ccsd_2rdm_cdab_opt (sorted_ccsd_2rdm_cdab_opt T1 T2 L1 L2)
    (by simpa only [List.forall_mem_cons, List.not_mem_nil, false_imp_iff, implies_true, and_true] using
      ⟨((obeys_two _ _).2 hT1), ((obeys_four _ _).2 hT2), ((obeys_four _ _).2 hL2)⟩)
  exact (obeys_four (degs o v o v) _).1 (h _ List.mem_cons_self)

theorem C69_ccsd_2rdm_bcai_opt (o : O → A) (v : V → A) (T1 : V → O → K) (T2 : V → V → O → O → K) (L1 : O → V → K) (L2 : O → O → V → V → K)
    (hT1 : Allowed2 v o T1) (hT2 : Allowed4 v v o o T2) (hL1 : Allowed2 o v L1) (hL2 : Allowed4 o o v v L2) :
    Allowed4 v v v o (CC.ccsd_2rdm_bcai_opt T1 T2 L1 L2) := by
  have h := obeys_run (degs o v o v) Prog.ccsd_2rdm_bcai_opt (sorted_ccsd_2rdm_bcai_opt T1 T2 L1 L2)
    (by simpa only [List.forall_mem_cons, List.not_mem_nil, false_imp_iff, implies_true, and_true] using
      ⟨((obeys_two _ _).2 hT1), ((obeys_four _ _).2 hT2), ((obeys_two _ _).2 hL1), ((obeys_four _ _).2 hL2)⟩)
  exact (obeys_four (degs o v o v) _).1 (h _ List.mem_cons_self)

theorem C69_ccsd_2rdm_bjai_opt (o : O → A) (v : V → A) (T1 : V → O → K) (T2 : V → V → O → O → K) (L1 : O → V → K) (L2 : O → O → V → V → K)
    (hT1 : Allowed2 v o T1) (hT2 : Allowed4 v v o o T2) (hL1 : Allowed2 o v L1) (hL2 : Allowed4 o o v v L2) :
    Allowed4 v o v o (CC.ccsd_2rdm_bjai_opt T1 T2 L1 L2) := by
  have h := obeys_run (degs o v o v) Prog.ccsd_2rdm_bjai_opt (sorted_ccsd_2rdm_bjai_opt T1 T2 L1 L2)
    (by simpa only [List.forall_mem_cons, List.not_mem_nil, false_imp_iff, implies_true, and_true] using
      ⟨((obeys_two _ _).2 hT1), ((obeys_four _ _).2 hT2), ((obeys_two _ _).2 hL1), ((obeys_four _ _).2 hL2)⟩)
  exact (obeys_four (degs o v o v) _).1 (h _ List.mem_cons_self)

theorem C69_ccsd_2rdm_abij_opt (o : O → A) (v : V → A) (T1 : V → O → K) (T2 : V → V → O → O → K) (L1 : O → V → K) (L2 : O → O → V → V → K) (tfac : K)
    (hT1 : Allowed2 v o T1) (hT2 : Allowed4 v v o o T2) (hL1 : Allowed2 o v L1) (hL2 : Allowed4 o o v v L2) :
    Allowed4 v v o o (CC.ccsd_2rdm_abij_opt T1 T2 L1 L2 tfac) := by
  have h := obeys_run (degs o v o v) Prog.ccsd_2rdm_abij_opt (sorted_ccsd_2rdm_abij_opt T1 T2 L1 L2 tfac)
    (by simpa only [List.forall_mem_cons, List.not_mem_nil, false_imp_iff, implies_true, and_true] using
      ⟨((obeys_two _ _).2 hT1), ((obeys_four _ _).2 hT2), ((obeys_two _ _).2 hL1), ((obeys_four _ _).2 hL2), (obeys_num _ _)⟩)
  exact (obeys_four (degs o v o v) _).1 (h _ List.mem_cons_self)

theorem C69_ccsd_2rdm_kaij_opt (o : O → A) (v : V → A) (T1 : V → O → K) (T2 : V → V → O → O → K) (L1 : O → V → K) (L2 : O → O → V → V → K)
    (hT1 : Allowed2 v o T1) (hT2 : Allowed4 v v o o T2) (hL1 : Allowed2 o v L1) (hL2 : Allowed4 o o v v L2) :
    Allowed4 o v o o (CC.ccsd_2rdm_kaij_opt T1 T2 L1 L2) := by
  have h := obeys_run (degs o v o v) Prog.ccsd_2rdm_kaij_opt (sorted_ccsd_2rdm_kaij_opt T1 T2 L1 L2)
    (by simpa only [List.forall_mem_cons, List.not_mem_nil, false_imp_iff, implies_true, and_true] using
      ⟨((obeys_two _ _).2 hT1), ((obeys_four _ _).2 hT2), ((obeys_two _ _).2 hL1), ((obeys_four _ _).2 hL2)⟩)
  exact (obeys_four (degs o v o v) _).1 (h _ List.mem_cons_self)

theorem C69_ccsd_2rdm_klij_opt (o : O → A) (v : V → A) (T1 : V → O → K) (T2 : V → V → O → O → K) (L1 : O → V → K) (L2 : O → O → V → V → K)
    (hT1 : Allowed2 v o T1) (hT2 : Allowed4 v v o o T2) (hL1 : Allowed2 o v L1) (hL2 : Allowed4 o o v v L2) :
    Allowed4 o o o o (CC.ccsd_2rdm_klij_opt T1 T2 L1 L2) := by
  have h := obeys_run (degs o v o v) Prog.ccsd_2rdm_klij_opt (sorted_ccsd_2rdm_klij_opt T1 T2 L1 L2)
    (by simpa only [List.forall_mem_cons, List.not_mem_nil, false_imp_iff, implies_true, and_true] using
      ⟨((obeys_two _ _).2 hT1), ((obeys_four _ _).2 hT2), ((obeys_four _ _).2 hL2)⟩)
  exact (obeys_four (degs o v o v) _).1 (h _ List.mem_cons_self)

theorem C69_uccsd_1rdm_ba (o : O → A) (v : V → A) (p : P → A) (q : Q → A) (T1a : V → O → K) (T1b : Q → P → K) (T2aa : V → V → O → O → K) (T2ab : V → Q → O → P → K) (T2bb : Q → Q → P → P → K) (L1a : O → V → K) (L1b : P → Q → K) (L2aa : O → O → V → V → K) (L2ab : O → P → V → Q → K) (L2bb : P → P → Q → Q → K)
    (hT1a : Allowed2 v o T1a) (hT1b : Allowed2 q p T1b) (hT2aa : Allowed4 v v o o T2aa) (hT2ab : Allowed4 v q o p T2ab) (hT2bb : Allowed4 q q p p T2bb) (hL1a : Allowed2 o v L1a) (hL1b : Allowed2 p q L1b) (hL2aa : Allowed4 o o v v L2aa) (hL2ab : Allowed4 o p v q L2ab) (hL2bb : Allowed4 p p q q L2bb) :
    Allowed2 v v (CC.uccsd_1rdm_ba T1a T1b T2aa T2ab T2bb L1a L1b L2aa L2ab L2bb).1 ∧ Allowed2 q q (CC.uccsd_1rdm_ba T1a T1b T2aa T2ab T2bb L1a L1b L2aa L2ab L2bb).2 := by
  have h := obeys_run (degs o v p q) Prog.uccsd_1rdm_ba (sorted_uccsd_1rdm_ba T1a T1b T2aa T2ab T2bb L1a L1b L2aa L2ab L2bb)
    (by simpa only [List.forall_mem_cons, List.not_mem_nil, false_imp_iff, implies_true, and_true] using
      ⟨((obeys_two _ _).2 hT1a), ((obeys_two _ _).2 hT1b), ((obeys_four _ _).2 hT2aa), ((obeys_four _ _).2 hT2ab), ((obeys_four _ _).2 hT2bb), ((obeys_two _ _).2 hL1a), ((obeys_two _ _).2 hL1b), ((obeys_four _ _).2 hL2aa), ((obeys_four _ _).2 hL2ab), ((obeys_four _ _).2 hL2bb)⟩)
  exact ⟨(obeys_two (degs o v p q) _).1 (h _ List.mem_cons_self),
    (obeys_two (degs o v p q) _).1 (h _ (.tail _ List.mem_cons_self))⟩

theorem C69_uccsd_1rdm_ji (o : O → A) (v : V → A) (p : P → A) (q : Q → A) (T1a : V → O → K) (T1b : Q → P → K) (T2aa : V → V → O → O → K) (T2ab : V → Q → O → P → K) (T2bb : Q → Q → P → P → K) (L1a : O → V → K) (L1b : P → Q → K) (L2aa : O → O → V → V → K) (L2ab : O → P → V → Q → K) (L2bb : P → P → Q → Q → K)
    (hT1a : Allowed2 v o T1a) (hT1b : Allowed2 q p T1b) (hT2aa : Allowed4 v v o o T2aa) (hT2ab : Allowed4 v q o p T2ab) (hT2bb : Allowed4 q q p p T2bb) (hL1a : Allowed2 o v L1a) (hL1b : Allowed2 p q L1b) (hL2aa : Allowed4 o o v v L2aa) (hL2ab : Allowed4 o p v q L2ab) (hL2bb : Allowed4 p p q q L2bb) :
    Allowed2 o o (CC.uccsd_1rdm_ji T1a T1b T2aa T2ab T2bb L1a L1b L2aa L2ab L2bb).1 ∧ Allowed2 p p (CC.uccsd_1rdm_ji T1a T1b T2aa T2ab T2bb L1a L1b L2aa L2ab L2bb).2 := by
  have h := obeys_run (degs o v p q) Prog.uccsd_1rdm_ji (sorted_uccsd_1rdm_ji T1a T1b T2aa T2ab T2bb L1a L1b L2aa L2ab L2bb)
    (by simpa only [List.forall_mem_cons, List.not_mem_nil, false_imp_iff, implies_true, and_true] using
      ⟨((obeys_two _ _).2 hT1a), ((obeys_two _ _).2 hT1b), ((obeys_four _ _).2 hT2aa), ((obeys_four _ _).2 hT2ab), ((obeys_four _ _).2 hT2bb), ((obeys_two _ _).2 hL1a), ((obeys_two _ _).2 hL1b), ((obeys_four _ _).2 hL2aa), ((obeys_four _ _).2 hL2ab), ((obeys_four _ _).2 hL2bb)⟩)
  exact ⟨(obeys_two (degs o v p q) _).1 (h _ List.mem_cons_self),
    (obeys_two (degs o v p q) _).1 (h _ (.tail _ List.mem_cons_self))⟩

theorem C69_uccsd_1rdm_ai (o : O → A) (v : V → A) (p : P → A) (q : Q → A) (T1a : V → O → K) (T1b : Q → P → K) (T2aa : V → V → O → O → K) (T2ab : V → Q → O → P → K) (T2bb : Q → Q → P → P → K) (L1a : O → V → K) (L1b : P → Q → K) (L2aa : O → O → V → V → K) (L2ab : O → P → V → Q → K) (L2bb : P → P → Q → Q → K) (tfac : K)
    (hT1a : Allowed2 v o T1a) (hT1b : Allowed2 q p T1b) (hT2aa : Allowed4 v v o o T2aa) (hT2ab : Allowed4 v q o p T2ab) (hT2bb : Allowed4 q q p p T2bb) (hL1a : Allowed2 o v L1a) (hL1b : Allowed2 p q L1b) (hL2aa : Allowed4 o o v v L2aa) (hL2ab : Allowed4 o p v q L2ab) (hL2bb : Allowed4 p p q q L2bb) :
    Allowed2 v o (CC.uccsd_1rdm_ai T1a T1b T2aa T2ab T2bb L1a L1b L2aa L2ab L2bb tfac).1 ∧ Allowed2 q p (CC.uccsd_1rdm_ai T1a T1b T2aa T2ab T2bb L1a L1b L2aa L2ab L2bb tfac).2 := by
  have h := obeys_run (degs o v p q) Prog.uccsd_1rdm_ai (sorted_uccsd_1rdm_ai T1a T1b T2aa T2ab T2bb L1a L1b L2aa L2ab L2bb tfac)
    (by simpa only [List.forall_mem_cons, List.not_mem_nil, false_imp_iff, implies_true, and_true] using
      ⟨((obeys_two _ _).2 hT1a), ((obeys_two _ _).2 hT1b), ((obeys_four _ _).2 hT2aa), ((obeys_four _ _).2 hT2ab), ((obeys_four _ _).2 hT2bb), ((obeys_two _ _).2 hL1a), ((obeys_two _ _).2 hL1b), ((obeys_four _ _).2 hL2aa), ((obeys_four _ _).2 hL2ab), ((obeys_four _ _).2 hL2bb), (obeys_num _ _)⟩)
  exact ⟨(obeys_two (degs o v p q) _).1 (h _ List.mem_cons_self),
    (obeys_two (degs o v p q) _).1 (h _ (.tail _ List.mem_cons_self))⟩

theorem C69_rccsd_1rdm_ba (o : O → A) (v : V → A) (T1 : V → O → K) (T2 : V → V → O → O → K) (L1 : O → V → K) (L2 : O → O → V → V → K) (tfac : K)
    (hT1 : Allowed2 v o T1) (hT2 : Allowed4 v v o o T2) (hL1 : Allowed2 o v L1) (hL2 : Allowed4 o o v v L2) :
    Allowed2 v v (CC.rccsd_1rdm_ba T1 T2 L1 L2 tfac) := by
  have h := obeys_run (degs o v o v) Prog.rccsd_1rdm_ba (sorted_rccsd_1rdm_ba T1 T2 L1 L2 tfac)
    (by simpa only [List.forall_mem_cons, List.not_mem_nil, false_imp_iff, implies_true, and_true] using
      ⟨((obeys_two _ _).2 hT1), ((obeys_four _ _).2 hT2), ((obeys_two _ _).2 hL1), ((obeys_four _ _).2 hL2)⟩)
  exact (obeys_two (degs o v o v) _).1 (h _ List.mem_cons_self)

theorem C69_rccsd_1rdm_ji (o : O → A) (v : V → A) (T1 : V → O → K) (T2 : V → V → O → O → K) (L1 : O → V → K) (L2 : O → O → V → V → K) (tfac : K)
    (hT1 : Allowed2 v o T1) (hT2 : Allowed4 v v o o T2) (hL1 : Allowed2 o v L1) (hL2 : Allowed4 o o v v L2) :
    Allowed2 o o (CC.rccsd_1rdm_ji T1 T2 L1 L2 tfac) := by
  have h := obeys_run (degs o v o v) Prog.rccsd_1rdm_ji (sorted_rccsd_1rdm_ji T1 T2 L1 L2 tfac)
    (by simpa only [List.forall_mem_cons, List.not_mem_nil, false_imp_iff, implies_true, and_true] using
      ⟨((obeys_two _ _).2 hT1), ((obeys_four _ _).2 hT2), ((obeys_two _ _).2 hL1), ((obeys_four _ _).2 hL2)⟩)
  exact (obeys_two (degs o v o v) _).1 (h _ List.mem_cons_self)

theorem C69_rccsd_1rdm_ai (o : O → A) (v : V → A) (T1 : V → O → K) (T2 : V → V → O → O → K) (L1 : O → V → K) (L2 : O → O → V → V → K) (tfac : K)
    (hT1 : Allowed2 v o T1) (hT2 : Allowed4 v v o o T2) (hL1 : Allowed2 o v L1) (hL2 : Allowed4 o o v v L2) :
    Allowed2 v o (CC.rccsd_1rdm_ai T1 T2 L1 L2 tfac) := by
  have h := obeys_run (degs o v o v) Prog.rccsd_1rdm_ai (sorted_rccsd_1rdm_ai T1 T2 L1 L2 tfac)
    (by simpa only [List.forall_mem_cons, List.not_mem_nil, false_imp_iff, implies_true, and_true] using
      ⟨((obeys_two _ _).2 hT1), ((obeys_four _ _).2 hT2), ((obeys_two _ _).2 hL1), ((obeys_four _ _).2 hL2), (obeys_num _ _)⟩)
  exact (obeys_two (degs o v o v) _).1 (h _ List.mem_cons_self)

theorem C69_uccsd_2rdm_ciab (o : O → A) (v : V → A) (p : P → A) (q : Q → A) (T1a : V → O → K) (T1b : Q → P → K) (T2aa : V → V → O → O → K) (T2ab : V → Q → O → P → K) (T2bb : Q → Q → P → P → K) (L1a : O → V → K) (L1b : P → Q → K) (L2aa : O → O → V → V → K) (L2ab : O → P → V → Q → K) (L2bb : P → P → Q → Q → K)
    (hT1a : Allowed2 v o T1a) (hT1b : Allowed2 q p T1b) (hT2aa : Allowed4 v v o o T2aa) (hT2ab : Allowed4 v q o p T2ab) (hT2bb : Allowed4 q q p p T2bb) (hL1a : Allowed2 o v L1a) (hL1b : Allowed2 p q L1b) (hL2aa : Allowed4 o o v v L2aa) (hL2ab : Allowed4 o p v q L2ab) (hL2bb : Allowed4 p p q q L2bb) :
    Allowed4 v o v v (CC.uccsd_2rdm_ciab T1a T1b T2aa T2ab T2bb L1a L1b L2aa L2ab L2bb).1 ∧ Allowed4 q p q q (CC.uccsd_2rdm_ciab T1a T1b T2aa T2ab T2bb L1a L1b L2aa L2ab L2bb).2.1 ∧ Allowed4 v p v q (CC.uccsd_2rdm_ciab T1a T1b T2aa T2ab T2bb L1a L1b L2aa L2ab L2bb).2.2.1 ∧ Allowed4 q o q v (CC.uccsd_2rdm_ciab T1a T1b T2aa T2ab T2bb L1a L1b L2aa L2ab L2bb).2.2.2 := by
  have h := obeys_run (degs o v p q) Prog.uccsd_2rdm_ciab (sorted_uccsd_2rdm_ciab T1a T1b T2aa T2ab T2bb L1a L1b L2aa L2ab L2bb)
    (by simpa only [List.forall_mem_cons, List.not_mem_nil, false_imp_iff, implies_true, and_true] using
      ⟨((obeys_two _ _).2 hT1a), ((obeys_two _ _).2 hT1b), ((obeys_four _ _).2 hL2aa), ((obeys_four _ _).2 hL2ab), ((obeys_four _ _).2 hL2bb)⟩)
  exact ⟨(obeys_four (degs o v p q) _).1 (h _ List.mem_cons_self),
    (obeys_four (degs o v p q) _).1 (h _ (.tail _ List.mem_cons_self)),
    (obeys_four (degs o v p q) _).1 (h _ (.tail _ (.tail _ List.mem_cons_self))),
    (obeys_four (degs o v p q) _).1 (h _ (.tail _ (.tail _ (.tail _ List.mem_cons_self))))⟩

theorem C69_uccsd_2rdm_jkai (o : O → A) (v : V → A) (p : P → A) (q : Q → A) (T1a : V → O → K) (T1b : Q → P → K) (T2aa : V → V → O → O → K) (T2ab : V → Q → O → P → K) (T2bb : Q → Q → P → P → K) (L1a : O → V → K) (L1b : P → Q → K) (L2aa : O → O → V → V → K) (L2ab : O → P → V → Q → K) (L2bb : P → P → Q → Q → K)
    (hT1a : Allowed2 v o T1a) (hT1b : Allowed2 q p T1b) (hT2aa : Allowed4 v v o o T2aa) (hT2ab : Allowed4 v q o p T2ab) (hT2bb : Allowed4 q q p p T2bb) (hL1a : Allowed2 o v L1a) (hL1b : Allowed2 p q L1b) (hL2aa : Allowed4 o o v v L2aa) (hL2ab : Allowed4 o p v q L2ab) (hL2bb : Allowed4 p p q q L2bb) :
    Allowed4 o o v o (CC.uccsd_2rdm_jkai T1a T1b T2aa T2ab T2bb L1a L1b L2aa L2ab L2bb).1 ∧ Allowed4 p p q p (CC.uccsd_2rdm_jkai T1a T1b T2aa T2ab T2bb L1a L1b L2aa L2ab L2bb).2.1 ∧ Allowed4 o p v p (CC.uccsd_2rdm_jkai T1a T1b T2aa T2ab T2bb L1a L1b L2aa L2ab L2bb).2.2.1 ∧ Allowed4 p o q o (CC.uccsd_2rdm_jkai T1a T1b T2aa T2ab T2bb L1a L1b L2aa L2ab L2bb).2.2.2 := by
  have h := obeys_run (degs o v p q) Prog.uccsd_2rdm_jkai (sorted_uccsd_2rdm_jkai T1a T1b T2aa T2ab T2bb L1a L1b L2aa L2ab L2bb)
    (by simpa only [List.forall_mem_cons, List.not_mem_nil, false_imp_iff, implies_true, and_true] using
      ⟨((obeys_two _ _).2 hT1a), ((obeys_two _ _).2 hT1b), ((obeys_four _ _).2 hL2aa), ((obeys_four _ _).2 hL2ab), ((obeys_four _ _).2 hL2bb)⟩)
  exact ⟨(obeys_four (degs o v p q) _).1 (h _ List.mem_cons_self),
    (obeys_four (degs o v p q) _).1 (h _ (.tail _ List.mem_cons_self)),
    (obeys_four (degs o v p q) _).1 (h _ (.tail _ (.tail _ List.mem_cons_self))),
    (obeys_four (degs o v p q) _).1 (h _ (.tail _ (.tail _ (.tail _ List.mem_cons_self))))⟩

theorem C69_uccsd_2rdm_cdab (o : O → A) (v : V → A) (p : P → A) (q : Q → A) (T1a : V → O → K) (T1b : Q → P → K) (T2aa : V → V → O → O → K) (T2ab : V → Q → O → P → K) (T2bb : Q → Q → P → P → K) (L1a : O → V → K) (L1b : P → Q → K) (L2aa : O → O → V → V → K) (L2ab : O → P → V → Q → K) (L2bb : P → P → Q → Q → K)
    (hT1a : Allowed2 v o T1a) (hT1b : Allowed2 q p T1b) (hT2aa : Allowed4 v v o o T2aa) (hT2ab : Allowed4 v q o p T2ab) (hT2bb : Allowed4 q q p p T2bb) (hL1a : Allowed2 o v L1a) (hL1b : Allowed2 p q L1b) (hL2aa : Allowed4 o o v v L2aa) (hL2ab : Allowed4 o p v q L2ab) (hL2bb : Allowed4 p p q q L2bb) :
    Allowed4 v v v v (CC.uccsd_2rdm_cdab T1a T1b T2aa T2ab T2bb L1a L1b L2aa L2ab L2bb).1 ∧ Allowed4 q q q q (CC.uccsd_2rdm_cdab T1a T1b T2aa T2ab T2bb L1a L1b L2aa L2ab L2bb).2.1 ∧ Allowed4 v q v q (CC.uccsd_2rdm_cdab T1a T1b T2aa T2ab T2bb L1a L1b L2aa L2ab L2bb).2.2 := by
  have h := obeys_run (degs o v p q) Prog.uccsd_2rdm_cdab (sorted_uccsd_2rdm_cdab T1a T1b T2aa T2ab T2bb L1a L1b L2aa L2ab L2bb)
    (by simpa only [List.forall_mem_cons, List.not_mem_nil, false_imp_iff, implies_true, and_true] using
      ⟨((obeys_two _ _).2 hT1a), ((obeys_two _ _).2 hT1b), ((obeys_four _ _).2 hT2aa), ((obeys_four _ _).2 hT2ab), ((obeys_four _ _).2 hT2bb), ((obeys_four _ _).2 hL2aa), ((obeys_four _ _).2 hL2ab), ((obeys_four _ _).2 hL2bb)⟩)
  exact ⟨(obeys_four (degs o v p q) _).1 (h _ List.mem_cons_self),
    (obeys_four (degs o v p q) _).1 (h _ (.tail _ List.mem_cons_self)),
    (obeys_four (degs o v p q) _).1 (h _ (.tail _ (.tail _ List.mem_cons_self)))⟩

theorem C69_uccsd_2rdm_bjai (o : O → A) (v : V → A) (p : P → A) (q : Q → A) (T1a : V → O → K) (T1b : Q → P → K) (T2aa : V → V → O → O → K) (T2ab : V → Q → O → P → K) (T2bb : Q → Q → P → P → K) (L1a : O → V → K) (L1b : P → Q → K) (L2aa : O → O → V → V → K) (L2ab : O → P → V → Q → K) (L2bb : P → P → Q → Q → K)
    (hT1a : Allowed2 v o T1a) (hT1b : Allowed2 q p T1b) (hT2aa : Allowed4 v v o o T2aa) (hT2ab : Allowed4 v q o p T2ab) (hT2bb : Allowed4 q q p p T2bb) (hL1a : Allowed2 o v L1a) (hL1b : Allowed2 p q L1b) (hL2aa : Allowed4 o o v v L2aa) (hL2ab : Allowed4 o p v q L2ab) (hL2bb : Allowed4 p p q q L2bb) :
    Allowed4 v o v o (CC.uccsd_2rdm_bjai T1a T1b T2aa T2ab T2bb L1a L1b L2aa L2ab L2bb).1 ∧ Allowed4 q p q p (CC.uccsd_2rdm_bjai T1a T1b T2aa T2ab T2bb L1a L1b L2aa L2ab L2bb).2.1 ∧ Allowed4 v p v p (CC.uccsd_2rdm_bjai T1a T1b T2aa T2ab T2bb L1a L1b L2aa L2ab L2bb).2.2.1 ∧ Allowed4 v p q o (CC.uccsd_2rdm_bjai T1a T1b T2aa T2ab T2bb L1a L1b L2aa L2ab L2bb).2.2.2.1 ∧ Allowed4 q o v p (CC.uccsd_2rdm_bjai T1a T1b T2aa T2ab T2bb L1a L1b L2aa L2ab L2bb).2.2.2.2.1 ∧ Allowed4 q o q o (CC.uccsd_2rdm_bjai T1a T1b T2aa T2ab T2bb L1a L1b L2aa L2ab L2bb).2.2.2.2.2 := by
  have h := obeys_run (degs o v p q) Prog.uccsd_2rdm_bjai (sorted_uccsd_2rdm_bjai T1a T1b T2aa T2ab T2bb L1a L1b L2aa L2ab L2bb)
    (by simpa only [List.forall_mem_cons, List.not_mem_nil, false_imp_iff, implies_true, and_true] using
      ⟨((obeys_two _ _).2 hT1a), ((obeys_two _ _).2 hT1b), ((obeys_four _ _).2 hT2aa), ((obeys_four _ _).2 hT2ab), ((obeys_four _ _).2 hT2bb), ((obeys_two _ _).2 hL1a), ((obeys_two _ _).2 hL1b), ((obeys_four _ _).2 hL2aa), ((obeys_four _ _).2 hL2ab), ((obeys_four _ _).2 hL2bb)⟩)
  exact ⟨(obeys_four (degs o v p q) _).1 (h _ List.mem_cons_self),
    (obeys_four (degs o v p q) _).1 (h _ (.tail _ List.mem_cons_self)),
    (obeys_four (degs o v p q) _).1 (h _ (.tail _ (.tail _ List.mem_cons_self))),
    (obeys_four (degs o v p q) _).1 (h _ (.tail _ (.tail _ (.tail _ List.mem_cons_self)))),
    (obeys_four (degs o v p q) _).1 (h _ (.tail _ (.tail _ (.tail _ (.tail _ List.mem_cons_self))))),
    (obeys_four (degs o v p q) _).1 (h _ (.tail _ (.tail _ (.tail _ (.tail _ (.tail _ List.mem_cons_self))))))⟩

theorem C69_uccsd_2rdm_klij (o : O → A) (v : V → A) (p : P → A) (q : Q → A) (T1a : V → O → K) (T1b : Q → P → K) (T2aa : V → V → O → O → K) (T2ab : V → Q → O → P → K) (T2bb : Q → Q → P → P → K) (L1a : O → V → K) (L1b : P → Q → K) (L2aa : O → O → V → V → K) (L2ab : O → P → V → Q → K) (L2bb : P → P → Q → Q → K)
    (hT1a : Allowed2 v o T1a) (hT1b : Allowed2 q p T1b) (hT2aa : Allowed4 v v o o T2aa) (hT2ab : Allowed4 v q o p T2ab) (hT2bb : Allowed4 q q p p T2bb) (hL1a : Allowed2 o v L1a) (hL1b : Allowed2 p q L1b) (hL2aa : Allowed4 o o v v L2aa) (hL2ab : Allowed4 o p v q L2ab) (hL2bb : Allowed4 p p q q L2bb) :
    Allowed4 o o o o (CC.uccsd_2rdm_klij T1a T1b T2aa T2ab T2bb L1a L1b L2aa L2ab L2bb).1 ∧ Allowed4 p p p p (CC.uccsd_2rdm_klij T1a T1b T2aa T2ab T2bb L1a L1b L2aa L2ab L2bb).2.1 ∧ Allowed4 o p o p (CC.uccsd_2rdm_klij T1a T1b T2aa T2ab T2bb L1a L1b L2aa L2ab L2bb).2.2 := by
  have h := obeys_run (degs o v p q) Prog.uccsd_2rdm_klij (sorted_uccsd_2rdm_klij T1a T1b T2aa T2ab T2bb L1a L1b L2aa L2ab L2bb)
    (by simpa only [List.forall_mem_cons, List.not_mem_nil, false_imp_iff, implies_true, and_true] using
      ⟨((obeys_two _ _).2 hT1a), ((obeys_two _ _).2 hT1b), ((obeys_four _ _).2 hT2aa), ((obeys_four _ _).2 hT2ab), ((obeys_four _ _).2 hT2bb), ((obeys_four _ _).2 hL2aa), ((obeys_four _ _).2 hL2ab), ((obeys_four _ _).2 hL2bb)⟩)
  exact ⟨(obeys_four (degs o v p q) _).1 (h _ List.mem_cons_self),
    (obeys_four (degs o v p q) _).1 (h _ (.tail _ List.mem_cons_self)),
    (obeys_four (degs o v p q) _).1 (h _ (.tail _ (.tail _ List.mem_cons_self)))⟩

theorem C69_uccsd_2rdm_bcai (o : O → A) (v : V → A) (p : P → A) (q : Q → A) (T1a : V → O → K) (T1b : Q → P → K) (T2aa : V → V → O → O → K) (T2ab : V → Q → O → P → K) (T2bb : Q → Q → P → P → K) (L1a : O → V → K) (L1b : P → Q → K) (L2aa : O → O → V → V → K) (L2ab : O → P → V → Q → K) (L2bb : P → P → Q → Q → K)
    (hT1a : Allowed2 v o T1a) (hT1b : Allowed2 q p T1b) (hT2aa : Allowed4 v v o o T2aa) (hT2ab : Allowed4 v q o p T2ab) (hT2bb : Allowed4 q q p p T2bb) (hL1a : Allowed2 o v L1a) (hL1b : Allowed2 p q L1b) (hL2aa : Allowed4 o o v v L2aa) (hL2ab : Allowed4 o p v q L2ab) (hL2bb : Allowed4 p p q q L2bb) :
    Allowed4 v v v o (CC.uccsd_2rdm_bcai T1a T1b T2aa T2ab T2bb L1a L1b L2aa L2ab L2bb).1 ∧ Allowed4 q q q p (CC.uccsd_2rdm_bcai T1a T1b T2aa T2ab T2bb L1a L1b L2aa L2ab L2bb).2.1 ∧ Allowed4 v q v p (CC.uccsd_2rdm_bcai T1a T1b T2aa T2ab T2bb L1a L1b L2aa L2ab L2bb).2.2.1 ∧ Allowed4 q v q o (CC.uccsd_2rdm_bcai T1a T1b T2aa T2ab T2bb L1a L1b L2aa L2ab L2bb).2.2.2 := by
  have h := obeys_run (degs o v p q) Prog.uccsd_2rdm_bcai (sorted_uccsd_2rdm_bcai T1a T1b T2aa T2ab T2bb L1a L1b L2aa L2ab L2bb)
    (by simpa only [List.forall_mem_cons, List.not_mem_nil, false_imp_iff, implies_true, and_true] using
      ⟨((obeys_two _ _).2 hT1a), ((obeys_two _ _).2 hT1b), ((obeys_four _ _).2 hT2aa), ((obeys_four _ _).2 hT2ab), ((obeys_four _ _).2 hT2bb), ((obeys_two _ _).2 hL1a), ((obeys_two _ _).2 hL1b), ((obeys_four _ _).2 hL2aa), ((obeys_four _ _).2 hL2ab), ((obeys_four _ _).2 hL2bb)⟩)
  exact ⟨(obeys_four (degs o v p q) _).1 (h _ List.mem_cons_self),
    (obeys_four (degs o v p q) _).1 (h _ (.tail _ List.mem_cons_self)),
    (obeys_four (degs o v p q) _).1 (h _ (.tail _ (.tail _ List.mem_cons_self))),
    (obeys_four (degs o v p q) _).1 (h _ (.tail _ (.tail _ (.tail _ List.mem_cons_self))))⟩

theorem C69_uccsd_2rdm_kaij (o : O → A) (v : V → A) (p : P → A) (q : Q → A) (T1a : V → O → K) (T1b : Q → P → K) (T2aa : V → V → O → O → K) (T2ab : V → Q → O → P → K) (T2bb : Q → Q → P → P → K) (L1a : O → V → K) (L1b : P → Q → K) (L2aa : O → O → V → V → K) (L2ab : O → P → V → Q → K) (L2bb : P → P → Q → Q → K)
    (hT1a : Allowed2 v o T1a) (hT1b : Allowed2 q p T1b) (hT2aa : Allowed4 v v o o T2aa) (hT2ab : Allowed4 v q o p T2ab) (hT2bb : Allowed4 q q p p T2bb) (hL1a : Allowed2 o v L1a) (hL1b : Allowed2 p q L1b) (hL2aa : Allowed4 o o v v L2aa) (hL2ab : Allowed4 o p v q L2ab) (hL2bb : Allowed4 p p q q L2bb) :
    Allowed4 o v o o (CC.uccsd_2rdm_kaij T1a T1b T2aa T2ab T2bb L1a L1b L2aa L2ab L2bb).1 ∧ Allowed4 p q p p (CC.uccsd_2rdm_kaij T1a T1b T2aa T2ab T2bb L1a L1b L2aa L2ab L2bb).2.1 ∧ Allowed4 o q o p (CC.uccsd_2rdm_kaij T1a T1b T2aa T2ab T2bb L1a L1b L2aa L2ab L2bb).2.2.1 ∧ Allowed4 p v p o (CC.uccsd_2rdm_kaij T1a T1b T2aa T2ab T2bb L1a L1b L2aa L2ab L2bb).2.2.2 := by
  have h := obeys_run (degs o v p q) Prog.uccsd_2rdm_kaij (sorted_uccsd_2rdm_kaij T1a T1b T2aa T2ab T2bb L1a L1b L2aa L2ab L2bb)
    (by simpa only [List.forall_mem_cons, List.not_mem_nil, false_imp_iff, implies_true, and_true] using
      ⟨((obeys_two _ _).2 hT1a), ((obeys_two _ _).2 hT1b), ((obeys_four _ _).2 hT2aa), ((obeys_four _ _).2 hT2ab), ((obeys_four _ _).2 hT2bb), ((obeys_two _ _).2 hL1a), ((obeys_two _ _).2 hL1b), ((obeys_four _ _).2 hL2aa), ((obeys_four _ _).2 hL2ab), ((obeys_four _ _).2 hL2bb)⟩)
  exact ⟨(obeys_four (degs o v p q) _).1 (h _ List.mem_cons_self),
    (obeys_four (degs o v p q) _).1 (h _ (.tail _ List.mem_cons_self)),
    (obeys_four (degs o v p q) _).1 (h _ (.tail _ (.tail _ List.mem_cons_self))),
    (obeys_four (degs o v p q) _).1 (h _ (.tail _ (.tail _ (.tail _ List.mem_cons_self))))⟩

theorem C69_uccsd_2rdm_abij (o : O → A) (v : V → A) (p : P → A) (q : Q → A) (T1a : V → O → K) (T1b : Q → P → K) (T2aa : V → V → O → O → K) (T2ab : V → Q → O → P → K) (T2bb : Q → Q → P → P → K) (L1a : O → V → K) (L1b : P → Q → K) (L2aa : O → O → V → V → K) (L2ab : O → P → V → Q → K) (L2bb : P → P → Q → Q → K) (tfac : K)
    (hT1a : Allowed2 v o T1a) (hT1b : Allowed2 q p T1b) (hT2aa : Allowed4 v v o o T2aa) (hT2ab : Allowed4 v q o p T2ab) (hT2bb : Allowed4 q q p p T2bb) (hL1a : Allowed2 o v L1a) (hL1b : Allowed2 p q L1b) (hL2aa : Allowed4 o o v v L2aa) (hL2ab : Allowed4 o p v q L2ab) (hL2bb : Allowed4 p p q q L2bb) :
    Allowed4 v v o o (CC.uccsd_2rdm_abij T1a T1b T2aa T2ab T2bb L1a L1b L2aa L2ab L2bb tfac).1 ∧ Allowed4 q q p p (CC.uccsd_2rdm_abij T1a T1b T2aa T2ab T2bb L1a L1b L2aa L2ab L2bb tfac).2.1 ∧ Allowed4 v q o p (CC.uccsd_2rdm_abij T1a T1b T2aa T2ab T2bb L1a L1b L2aa L2ab L2bb tfac).2.2 := by
  have h := obeys_run (degs o v p q) Prog.uccsd_2rdm_abij (sorted_uccsd_2rdm_abij T1a T1b T2aa T2ab T2bb L1a L1b L2aa L2ab L2bb tfac)
    (by simpa only [List.forall_mem_cons, List.not_mem_nil, false_imp_iff, implies_true, and_true] using
      ⟨((obeys_two _ _).2 hT1a), ((obeys_two _ _).2 hT1b), ((obeys_four _ _).2 hT2aa), ((obeys_four _ _).2 hT2ab), ((obeys_four _ _).2 hT2bb), ((obeys_two _ _).2 hL1a), ((obeys_two _ _).2 hL1b), ((obeys_four _ _).2 hL2aa), ((obeys_four _ _).2 hL2ab), ((obeys_four _ _).2 hL2bb), (obeys_num _ _)⟩)
  exact ⟨(obeys_four (degs o v p q) _).1 (h _ List.mem_cons_self),
    (obeys_four (degs o v p q) _).1 (h _ (.tail _ List.mem_cons_self)),
    (obeys_four (degs o v p q) _).1 (h _ (.tail _ (.tail _ List.mem_cons_self)))⟩

theorem C69_rccsd_2rdm_ciab (o : O → A) (v : V → A) (T1 : V → O → K) (T2 : V → V → O → O → K) (L1 : O → V → K) (L2 : O → O → V → V → K)
    (hT1 : Allowed2 v o T1) (hT2 : Allowed4 v v o o T2) (hL1 : Allowed2 o v L1) (hL2 : Allowed4 o o v v L2) :
    Allowed4 v o v v (CC.rccsd_2rdm_ciab T1 T2 L1 L2) := by
  have h := obeys_run (degs o v o v) Prog.rccsd_2rdm_ciab (sorted_rccsd_2rdm_ciab T1 T2 L1 L2)
    (by simpa only [List.forall_mem_cons, List.not_mem_nil, false_imp_iff, implies_true, and_true] using
      ⟨((obeys_two _ _).2 hT1), ((obeys_four _ _).2 hL2)⟩)
  exact (obeys_four (degs o v o v) _).1 (h _ List.mem_cons_self)

theorem C69_rccsd_2rdm_jkai (o : O → A) (v : V → A) (T1 : V → O → K) (T2 : V → V → O → O → K) (L1 : O → V → K) (L2 : O → O → V → V → K)
    (hT1 : Allowed2 v o T1) (hT2 : Allowed4 v v o o T2) (hL1 : Allowed2 o v L1) (hL2 : Allowed4 o o v v L2) :
    Allowed4 o o v o (CC.rccsd_2rdm_jkai T1 T2 L1 L2) := by
  have h := obeys_run (degs o v o v) Prog.rccsd_2rdm_jkai (sorted_rccsd_2rdm_jkai T1 T2 L1 L2)
    (by simpa only [List.forall_mem_cons, List.not_mem_nil, false_imp_iff, implies_true, and_true] using
      ⟨((obeys_two _ _).2 hT1), ((obeys_four _ _).2 hL2)⟩)
  exact (obeys_four (degs o v o v) _).1 (h _ List.mem_cons_self)

theorem C69_rccsd_2rdm_cdab (o : O → A) (v : V → A) (T1 : V → O → K) (T2 : V → V → O → O → K) (L1 : O → V → K) (L2 : O → O → V → V → K)
    (hT1 : Allowed2 v o T1) (hT2 : Allowed4 v v o o T2) (hL1 : Allowed2 o v L1) (hL2 : Allowed4 o o v v L2) :
    Allowed4 v v v v (CC.rccsd_2rdm_cdab T1 T2 L1 L2) := by
  have h := obeys_run (degs o v o v) Prog.rccsd_2rdm_cdab (sorted_rccsd_2rdm_cdab T1 T2 L1 L2)
    (by simpa only [List.forall_mem_cons, List.not_mem_nil, false_imp_iff, implies_true, and_true] using
      ⟨((obeys_two _ _).2 hT1), ((obeys_four _ _).2 hT2), ((obeys_four _ _).2 hL2)⟩)
  exact (obeys_four (degs o v o v) _).1 (h _ List.mem_cons_self)

theorem C69_rccsd_2rdm_bjai (o : O → A) (v : V → A) (T1 : V → O → K) (T2 : V → V → O → O → K) (L1 : O → V → K) (L2 : O → O → V → V → K)
    (hT1 : Allowed2 v o T1) (hT2 : Allowed4 v v o o T2) (hL1 : Allowed2 o v L1) (hL2 : Allowed4 o o v v L2) :
    Allowed4 v o v o (CC.rccsd_2rdm_bjai T1 T2 L1 L2) := by
  have h := obeys_run (degs o v o v) Prog.rccsd_2rdm_bjai (sorted_rccsd_2rdm_bjai T1 T2 L1 L2)
    (by simpa only [List.forall_mem_cons, List.not_mem_nil, false_imp_iff, implies_true, and_true] using
      ⟨((obeys_two _ _).2 hT1), ((obeys_four _ _).2 hT2), ((obeys_four _ _).2 hL2)⟩)
  exact (obeys_four (degs o v o v) _).1 (h _ List.mem_cons_self)

theorem C69_rccsd_2rdm_bjia (o : O → A) (v : V → A) (T1 : V → O → K) (T2 : V → V → O → O → K) (L1 : O → V → K) (L2 : O → O → V → V → K)
    (hT1 : Allowed2 v o T1) (hT2 : Allowed4 v v o o T2) (hL1 : Allowed2 o v L1) (hL2 : Allowed4 o o v v L2) :
    Allowed4 v o o v (CC.rccsd_2rdm_bjia T1 T2 L1 L2) := by
  have h := obeys_run (degs o v o v) Prog.rccsd_2rdm_bjia (sorted_rccsd_2rdm_bjia T1 T2 L1 L2)
    (by simpa only [List.forall_mem_cons, List.not_mem_nil, false_imp_iff, implies_true, and_true] using
      ⟨((obeys_two _ _).2 hT1), ((obeys_four _ _).2 hT2), ((obeys_two _ _).2 hL1), ((obeys_four _ _).2 hL2)⟩)
  exact (obeys_four (degs o v o v) _).1 (h _ List.mem_cons_self)

theorem C69_rccsd_2rdm_klij (o : O → A) (v : V → A) (T1 : V → O → K) (T2 : V → V → O → O → K) (L1 : O → V → K) (L2 : O → O → V → V → K)
    (hT1 : Allowed2 v o T1) (hT2 : Allowed4 v v o o T2) (hL1 : Allowed2 o v L1) (hL2 : Allowed4 o o v v L2) :
    Allowed4 o o o o (CC.rccsd_2rdm_klij T1 T2 L1 L2) := by
  have h := obeys_run (degs o v o v) Prog.rccsd_2rdm_klij (sorted_rccsd_2rdm_klij T1 T2 L1 L2)
    (by simpa only [List.forall_mem_cons, List.not_mem_nil, false_imp_iff, implies_true, and_true] using
      ⟨((obeys_two _ _).2 hT1), ((obeys_four _ _).2 hT2), ((obeys_four _ _).2 hL2)⟩)
  exact (obeys_four (degs o v o v) _).1 (h _ List.mem_cons_self)

theorem C69_rccsd_2rdm_bcai (o : O → A) (v : V → A) (T1 : V → O → K) (T2 : V → V → O → O → K) (L1 : O → V → K) (L2 : O → O → V → V → K)
    (hT1 : Allowed2 v o T1) (hT2 : Allowed4 v v o o T2) (hL1 : Allowed2 o v L1) (hL2 : Allowed4 o o v v L2) :
    Allowed4 v v v o (CC.rccsd_2rdm_bcai T1 T2 L1 L2) := by
  have h := obeys_run (degs o v o v) Prog.rccsd_2rdm_bcai (sorted_rccsd_2rdm_bcai T1 T2 L1 L2)
    (by simpa only [List.forall_mem_cons, List.not_mem_nil, false_imp_iff, implies_true, and_true] using
      ⟨((obeys_two _ _).2 hT1), ((obeys_four _ _).2 hT2), ((obeys_two _ _).2 hL1), ((obeys_four _ _).2 hL2)⟩)
  exact (obeys_four (degs o v o v) _).1 (h _ List.mem_cons_self)

theorem C69_rccsd_2rdm_kaij (o : O → A) (v : V → A) (T1 : V → O → K) (T2 : V → V → O → O → K) (L1 : O → V → K) (L2 : O → O → V → V → K)
    (hT1 : Allowed2 v o T1) (hT2 : Allowed4 v v o o T2) (hL1 : Allowed2 o v L1) (hL2 : Allowed4 o o v v L2) :
    Allowed4 o v o o (CC.rccsd_2rdm_kaij T1 T2 L1 L2) := by
  have h := obeys_run (degs o v o v) Prog.rccsd_2rdm_kaij (sorted_rccsd_2rdm_kaij T1 T2 L1 L2)
    (by simpa only [List.forall_mem_cons, List.not_mem_nil, false_imp_iff, implies_true, and_true] using
      ⟨((obeys_two _ _).2 hT1), ((obeys_four _ _).2 hT2), ((obeys_two _ _).2 hL1), ((obeys_four _ _).2 hL2)⟩)
  exact (obeys_four (degs o v o v) _).1 (h _ List.mem_cons_self)

theorem C69_rccsd_2rdm_abij (o : O → A) (v : V → A) (T1 : V → O → K) (T2 : V → V → O → O → K) (L1 : O → V → K) (L2 : O → O → V → V → K)
    (hT1 : Allowed2 v o T1) (hT2 : Allowed4 v v o o T2) (hL1 : Allowed2 o v L1) (hL2 : Allowed4 o o v v L2) :
    Allowed4 v v o o (CC.rccsd_2rdm_abij T1 T2 L1 L2) := by
  have h := obeys_run (degs o v o v) Prog.rccsd_2rdm_abij (sorted_rccsd_2rdm_abij T1 T2 L1 L2)
    (by simpa only [List.forall_mem_cons, List.not_mem_nil, false_imp_iff, implies_true, and_true] using
      ⟨((obeys_two _ _).2 hT1), ((obeys_four _ _).2 hT2), ((obeys_two _ _).2 hL1), ((obeys_four _ _).2 hL2)⟩)
  exact (obeys_four (degs o v o v) _).1 (h _ List.mem_cons_self)

end Heap
