import Verif.Props.NumRun
import Verif.Props.HeapCC
import Verif.Model.CCEnergy
import Verif.Model.CCRT
import Verif.Model.CCRL
import Verif.Model.CCRRdm
/-!
# C53, C54: the restricted routines on arrays

Generated by `tools/gen_num.py`.  C53: called with arrays of the documented shapes, of any extents, the routine raises nothing and returns
the tensors of the model of the same name.  The Booleans say which groups of arguments are complex: `i` integrals, `t` amplitudes,
`l` multipliers, `c` the number `tfac`, `p` precomputed intermediates.  C54: the other combinations raise `UFuncTypeError`.
-/

set_option linter.unusedVariables false

namespace Heap
open Prog CC
variable {n : ℕ → ℕ} {K : Type} [Field K]

theorem C53_rcc_energy {i t : Bool} (t1 : (Fin (n 1)) → (Fin (n 0)) → K) (t2 : (Fin (n 1)) → (Fin (n 1)) → (Fin (n 0)) → (Fin (n 0)) → K) (f : (Fin (n 0)) → (Fin (n 1)) → K) (I : (Fin (n 0)) → (Fin (n 0)) → (Fin (n 1)) → (Fin (n 1)) → K) :
    Computes rcc_energy
      [.two t 1 0 t1, .four t 1 1 0 0 t2, .two i 0 1 f, .four i 0 0 1 1 I]
      [.num (i || t) (CC.rcc_energy t1 t2 f I)] :=
  computes C42_rcc_energy (by cases i <;> cases t <;> krfl) (by krfl)

theorem C53_rccsd_stanton {i t : Bool} (ht : t = true → i = true) (F : OneE (Fin (n 0)) (Fin (n 1)) K) (I : TwoEFull (Fin (n 0)) (Fin (n 1)) (Fin (n 0)) (Fin (n 1)) K) (T1old : (Fin (n 1)) → (Fin (n 0)) → K) (T2old : (Fin (n 1)) → (Fin (n 1)) → (Fin (n 0)) → (Fin (n 0)) → K) :
    Computes rccsd_stanton
      [.two i 0 0 F.oo, .two i 0 1 F.ov, .two i 1 0 F.vo, .two i 1 1 F.vv, .four i 0 0 0 0 I.oooo, .four i 0 0 0 1 I.ooov, .four i 0 0 1 0 I.oovo, .four i 0 0 1 1 I.oovv, .four i 0 1 0 0 I.ovoo, .four i 0 1 0 1 I.ovov, .four i 0 1 1 0 I.ovvo, .four i 0 1 1 1 I.ovvv, .four i 1 0 1 0 I.vovo, .four i 1 0 1 1 I.vovv, .four i 1 1 0 0 I.vvoo, .four i 1 1 1 0 I.vvvo, .four i 1 1 1 1 I.vvvv, .two t 1 0 T1old, .four t 1 1 0 0 T2old]
      [.two i 1 0 (CC.rccsd_stanton F I T1old T2old).1, .four i 1 1 0 0 (CC.rccsd_stanton F I T1old T2old).2] :=
  computes C42_rccsd_stanton (by cases i <;> cases t <;> first | exact absurd (ht rfl) Bool.false_ne_true | krfl) (by krfl)

theorem C54_rccsd_stanton (F : OneE (Fin (n 0)) (Fin (n 1)) K) (I : TwoEFull (Fin (n 0)) (Fin (n 1)) (Fin (n 0)) (Fin (n 1)) K) (T1old : (Fin (n 1)) → (Fin (n 0)) → K) (T2old : (Fin (n 1)) → (Fin (n 1)) → (Fin (n 0)) → (Fin (n 0)) → K) :
    RaisesCast rccsd_stanton
      [.two false 0 0 F.oo, .two false 0 1 F.ov, .two false 1 0 F.vo, .two false 1 1 F.vv, .four false 0 0 0 0 I.oooo, .four false 0 0 0 1 I.ooov, .four false 0 0 1 0 I.oovo, .four false 0 0 1 1 I.oovv, .four false 0 1 0 0 I.ovoo, .four false 0 1 0 1 I.ovov, .four false 0 1 1 0 I.ovvo, .four false 0 1 1 1 I.ovvv, .four false 1 0 1 0 I.vovo, .four false 1 0 1 1 I.vovv, .four false 1 1 0 0 I.vvoo, .four false 1 1 1 0 I.vvvo, .four false 1 1 1 1 I.vvvv, .two true 1 0 T1old, .four true 1 1 0 0 T2old] :=
  raisesCast fun w => by cases w <;> krfl

theorem C53_rccsd_lambda_opt {i l t : Bool} (ht : t = true → i = true) (hl : l = true → i = true) (F : OneE (Fin (n 0)) (Fin (n 1)) K) (I : TwoEFull (Fin (n 0)) (Fin (n 1)) (Fin (n 0)) (Fin (n 1)) K) (L1old : (Fin (n 0)) → (Fin (n 1)) → K) (L2old : (Fin (n 0)) → (Fin (n 0)) → (Fin (n 1)) → (Fin (n 1)) → K) (T1old : (Fin (n 1)) → (Fin (n 0)) → K) (T2old : (Fin (n 1)) → (Fin (n 1)) → (Fin (n 0)) → (Fin (n 0)) → K) :
    Computes rccsd_lambda_opt
      [.two i 0 0 F.oo, .two i 0 1 F.ov, .two i 1 1 F.vv, .four i 0 0 0 0 I.oooo, .four i 0 0 0 1 I.ooov, .four i 0 0 1 0 I.oovo, .four i 0 0 1 1 I.oovv, .four i 0 1 0 0 I.ovoo, .four i 0 1 0 1 I.ovov, .four i 0 1 1 0 I.ovvo, .four i 0 1 1 1 I.ovvv, .four i 1 0 0 0 I.vooo, .four i 1 0 0 1 I.voov, .four i 1 0 1 0 I.vovo, .four i 1 0 1 1 I.vovv, .four i 1 1 0 1 I.vvov, .four i 1 1 1 0 I.vvvo, .four i 1 1 1 1 I.vvvv, .two l 0 1 L1old, .four l 0 0 1 1 L2old, .two t 1 0 T1old, .four t 1 1 0 0 T2old]
      [.two i 0 1 (CC.rccsd_lambda_opt F I L1old L2old T1old T2old).1, .four i 0 0 1 1 (CC.rccsd_lambda_opt F I L1old L2old T1old T2old).2] :=
  computes C42_rccsd_lambda_opt (by cases i <;> cases l <;> cases t <;> first | exact absurd (ht rfl) Bool.false_ne_true | exact absurd (hl rfl) Bool.false_ne_true | krfl) (by krfl)

theorem C54_rccsd_lambda_opt_t {l : Bool} (F : OneE (Fin (n 0)) (Fin (n 1)) K) (I : TwoEFull (Fin (n 0)) (Fin (n 1)) (Fin (n 0)) (Fin (n 1)) K) (L1old : (Fin (n 0)) → (Fin (n 1)) → K) (L2old : (Fin (n 0)) → (Fin (n 0)) → (Fin (n 1)) → (Fin (n 1)) → K) (T1old : (Fin (n 1)) → (Fin (n 0)) → K) (T2old : (Fin (n 1)) → (Fin (n 1)) → (Fin (n 0)) → (Fin (n 0)) → K) :
    RaisesCast rccsd_lambda_opt
      [.two false 0 0 F.oo, .two false 0 1 F.ov, .two false 1 1 F.vv, .four false 0 0 0 0 I.oooo, .four false 0 0 0 1 I.ooov, .four false 0 0 1 0 I.oovo, .four false 0 0 1 1 I.oovv, .four false 0 1 0 0 I.ovoo, .four false 0 1 0 1 I.ovov, .four false 0 1 1 0 I.ovvo, .four false 0 1 1 1 I.ovvv, .four false 1 0 0 0 I.vooo, .four false 1 0 0 1 I.voov, .four false 1 0 1 0 I.vovo, .four false 1 0 1 1 I.vovv, .four false 1 1 0 1 I.vvov, .four false 1 1 1 0 I.vvvo, .four false 1 1 1 1 I.vvvv, .two l 0 1 L1old, .four l 0 0 1 1 L2old, .two true 1 0 T1old, .four true 1 1 0 0 T2old] :=
  raisesCast fun w => by cases w <;> cases l <;> krfl

theorem C54_rccsd_lambda_opt_l {t : Bool} (F : OneE (Fin (n 0)) (Fin (n 1)) K) (I : TwoEFull (Fin (n 0)) (Fin (n 1)) (Fin (n 0)) (Fin (n 1)) K) (L1old : (Fin (n 0)) → (Fin (n 1)) → K) (L2old : (Fin (n 0)) → (Fin (n 0)) → (Fin (n 1)) → (Fin (n 1)) → K) (T1old : (Fin (n 1)) → (Fin (n 0)) → K) (T2old : (Fin (n 1)) → (Fin (n 1)) → (Fin (n 0)) → (Fin (n 0)) → K) :
    RaisesCast rccsd_lambda_opt
      [.two false 0 0 F.oo, .two false 0 1 F.ov, .two false 1 1 F.vv, .four false 0 0 0 0 I.oooo, .four false 0 0 0 1 I.ooov, .four false 0 0 1 0 I.oovo, .four false 0 0 1 1 I.oovv, .four false 0 1 0 0 I.ovoo, .four false 0 1 0 1 I.ovov, .four false 0 1 1 0 I.ovvo, .four false 0 1 1 1 I.ovvv, .four false 1 0 0 0 I.vooo, .four false 1 0 0 1 I.voov, .four false 1 0 1 0 I.vovo, .four false 1 0 1 1 I.vovv, .four false 1 1 0 1 I.vvov, .four false 1 1 1 0 I.vvvo, .four false 1 1 1 1 I.vvvv, .two true 0 1 L1old, .four true 0 0 1 1 L2old, .two t 1 0 T1old, .four t 1 1 0 0 T2old] :=
  raisesCast fun w => by cases w <;> cases t <;> krfl

theorem C53_rccsd_1rdm_ba {l t : Bool} (T1 : (Fin (n 1)) → (Fin (n 0)) → K) (T2 : (Fin (n 1)) → (Fin (n 1)) → (Fin (n 0)) → (Fin (n 0)) → K) (L1 : (Fin (n 0)) → (Fin (n 1)) → K) (L2 : (Fin (n 0)) → (Fin (n 0)) → (Fin (n 1)) → (Fin (n 1)) → K) (tfac : K) :
    Computes rccsd_1rdm_ba
      [.two t 1 0 T1, .four t 1 1 0 0 T2, .two l 0 1 L1, .four l 0 0 1 1 L2]
      [.two (t || l) 1 1 (CC.rccsd_1rdm_ba T1 T2 L1 L2 tfac)] :=
  computes C42_rccsd_1rdm_ba (by cases l <;> cases t <;> krfl) (by krfl)

theorem C53_rccsd_1rdm_ji {l t : Bool} (T1 : (Fin (n 1)) → (Fin (n 0)) → K) (T2 : (Fin (n 1)) → (Fin (n 1)) → (Fin (n 0)) → (Fin (n 0)) → K) (L1 : (Fin (n 0)) → (Fin (n 1)) → K) (L2 : (Fin (n 0)) → (Fin (n 0)) → (Fin (n 1)) → (Fin (n 1)) → K) (tfac : K) :
    Computes rccsd_1rdm_ji
      [.two t 1 0 T1, .four t 1 1 0 0 T2, .two l 0 1 L1, .four l 0 0 1 1 L2]
      [.two (t || l) 0 0 (CC.rccsd_1rdm_ji T1 T2 L1 L2 tfac)] :=
  computes C42_rccsd_1rdm_ji (by cases l <;> cases t <;> krfl) (by krfl)

theorem C53_rccsd_1rdm_ai {c l t : Bool} (hl : l = true → (t || c) = true) (T1 : (Fin (n 1)) → (Fin (n 0)) → K) (T2 : (Fin (n 1)) → (Fin (n 1)) → (Fin (n 0)) → (Fin (n 0)) → K) (L1 : (Fin (n 0)) → (Fin (n 1)) → K) (L2 : (Fin (n 0)) → (Fin (n 0)) → (Fin (n 1)) → (Fin (n 1)) → K) (tfac : K) :
    Computes rccsd_1rdm_ai
      [.two t 1 0 T1, .four t 1 1 0 0 T2, .two l 0 1 L1, .four l 0 0 1 1 L2, .num c tfac]
      [.two (t || l || c) 1 0 (CC.rccsd_1rdm_ai T1 T2 L1 L2 tfac)] :=
  computes C42_rccsd_1rdm_ai (by cases c <;> cases l <;> cases t <;> first | exact absurd (hl rfl) Bool.false_ne_true | krfl) (by krfl)

theorem C54_rccsd_1rdm_ai (T1 : (Fin (n 1)) → (Fin (n 0)) → K) (T2 : (Fin (n 1)) → (Fin (n 1)) → (Fin (n 0)) → (Fin (n 0)) → K) (L1 : (Fin (n 0)) → (Fin (n 1)) → K) (L2 : (Fin (n 0)) → (Fin (n 0)) → (Fin (n 1)) → (Fin (n 1)) → K) (tfac : K) :
    RaisesCast rccsd_1rdm_ai
      [.two false 1 0 T1, .four false 1 1 0 0 T2, .two true 0 1 L1, .four true 0 0 1 1 L2, .num false tfac] :=
  raisesCast fun w => by cases w <;> krfl

theorem C53_rccsd_2rdm_ciab {l t : Bool} (T1 : (Fin (n 1)) → (Fin (n 0)) → K) (T2 : (Fin (n 1)) → (Fin (n 1)) → (Fin (n 0)) → (Fin (n 0)) → K) (L1 : (Fin (n 0)) → (Fin (n 1)) → K) (L2 : (Fin (n 0)) → (Fin (n 0)) → (Fin (n 1)) → (Fin (n 1)) → K) :
    Computes rccsd_2rdm_ciab
      [.two t 1 0 T1, .four l 0 0 1 1 L2]
      [.four (t || l) 1 0 1 1 (CC.rccsd_2rdm_ciab T1 T2 L1 L2)] :=
  computes C42_rccsd_2rdm_ciab (by cases l <;> cases t <;> krfl) (by krfl)

theorem C53_rccsd_2rdm_jkai {l t : Bool} (T1 : (Fin (n 1)) → (Fin (n 0)) → K) (T2 : (Fin (n 1)) → (Fin (n 1)) → (Fin (n 0)) → (Fin (n 0)) → K) (L1 : (Fin (n 0)) → (Fin (n 1)) → K) (L2 : (Fin (n 0)) → (Fin (n 0)) → (Fin (n 1)) → (Fin (n 1)) → K) :
    Computes rccsd_2rdm_jkai
      [.two t 1 0 T1, .four l 0 0 1 1 L2]
      [.four (t || l) 0 0 1 0 (CC.rccsd_2rdm_jkai T1 T2 L1 L2)] :=
  computes C42_rccsd_2rdm_jkai (by cases l <;> cases t <;> krfl) (by krfl)

theorem C53_rccsd_2rdm_cdab {l t : Bool} (T1 : (Fin (n 1)) → (Fin (n 0)) → K) (T2 : (Fin (n 1)) → (Fin (n 1)) → (Fin (n 0)) → (Fin (n 0)) → K) (L1 : (Fin (n 0)) → (Fin (n 1)) → K) (L2 : (Fin (n 0)) → (Fin (n 0)) → (Fin (n 1)) → (Fin (n 1)) → K) :
    Computes rccsd_2rdm_cdab
      [.two t 1 0 T1, .four t 1 1 0 0 T2, .four l 0 0 1 1 L2]
      [.four (t || l) 1 1 1 1 (CC.rccsd_2rdm_cdab T1 T2 L1 L2)] :=
  computes C42_rccsd_2rdm_cdab (by cases l <;> cases t <;> krfl) (by krfl)

theorem C53_rccsd_2rdm_bjai {l t : Bool} (T1 : (Fin (n 1)) → (Fin (n 0)) → K) (T2 : (Fin (n 1)) → (Fin (n 1)) → (Fin (n 0)) → (Fin (n 0)) → K) (L1 : (Fin (n 0)) → (Fin (n 1)) → K) (L2 : (Fin (n 0)) → (Fin (n 0)) → (Fin (n 1)) → (Fin (n 1)) → K) :
    Computes rccsd_2rdm_bjai
      [.two t 1 0 T1, .four t 1 1 0 0 T2, .four l 0 0 1 1 L2]
      [.four (t || l) 1 0 1 0 (CC.rccsd_2rdm_bjai T1 T2 L1 L2)] :=
  computes C42_rccsd_2rdm_bjai (by cases l <;> cases t <;> krfl) (by krfl)

theorem C53_rccsd_2rdm_bjia {l t : Bool} (T1 : (Fin (n 1)) → (Fin (n 0)) → K) (T2 : (Fin (n 1)) → (Fin (n 1)) → (Fin (n 0)) → (Fin (n 0)) → K) (L1 : (Fin (n 0)) → (Fin (n 1)) → K) (L2 : (Fin (n 0)) → (Fin (n 0)) → (Fin (n 1)) → (Fin (n 1)) → K) :
    Computes rccsd_2rdm_bjia
      [.two t 1 0 T1, .four t 1 1 0 0 T2, .two l 0 1 L1, .four l 0 0 1 1 L2]
      [.four (t || l) 1 0 0 1 (CC.rccsd_2rdm_bjia T1 T2 L1 L2)] :=
  computes C42_rccsd_2rdm_bjia (by cases l <;> cases t <;> krfl) (by krfl)

theorem C53_rccsd_2rdm_klij {l t : Bool} (T1 : (Fin (n 1)) → (Fin (n 0)) → K) (T2 : (Fin (n 1)) → (Fin (n 1)) → (Fin (n 0)) → (Fin (n 0)) → K) (L1 : (Fin (n 0)) → (Fin (n 1)) → K) (L2 : (Fin (n 0)) → (Fin (n 0)) → (Fin (n 1)) → (Fin (n 1)) → K) :
    Computes rccsd_2rdm_klij
      [.two t 1 0 T1, .four t 1 1 0 0 T2, .four l 0 0 1 1 L2]
      [.four (t || l) 0 0 0 0 (CC.rccsd_2rdm_klij T1 T2 L1 L2)] :=
  computes C42_rccsd_2rdm_klij (by cases l <;> cases t <;> krfl) (by krfl)

theorem C53_rccsd_2rdm_bcai {l t : Bool} (T1 : (Fin (n 1)) → (Fin (n 0)) → K) (T2 : (Fin (n 1)) → (Fin (n 1)) → (Fin (n 0)) → (Fin (n 0)) → K) (L1 : (Fin (n 0)) → (Fin (n 1)) → K) (L2 : (Fin (n 0)) → (Fin (n 0)) → (Fin (n 1)) → (Fin (n 1)) → K) :
    Computes rccsd_2rdm_bcai
      [.two t 1 0 T1, .four t 1 1 0 0 T2, .two l 0 1 L1, .four l 0 0 1 1 L2]
      [.four (t || l) 1 1 1 0 (CC.rccsd_2rdm_bcai T1 T2 L1 L2)] :=
  computes C42_rccsd_2rdm_bcai (by cases l <;> cases t <;> krfl) (by krfl)

theorem C53_rccsd_2rdm_kaij {l t : Bool} (T1 : (Fin (n 1)) → (Fin (n 0)) → K) (T2 : (Fin (n 1)) → (Fin (n 1)) → (Fin (n 0)) → (Fin (n 0)) → K) (L1 : (Fin (n 0)) → (Fin (n 1)) → K) (L2 : (Fin (n 0)) → (Fin (n 0)) → (Fin (n 1)) → (Fin (n 1)) → K) :
    Computes rccsd_2rdm_kaij
      [.two t 1 0 T1, .four t 1 1 0 0 T2, .two l 0 1 L1, .four l 0 0 1 1 L2]
      [.four (t || l) 0 1 0 0 (CC.rccsd_2rdm_kaij T1 T2 L1 L2)] :=
  computes C42_rccsd_2rdm_kaij (by cases l <;> cases t <;> krfl) (by krfl)

theorem C53_rccsd_2rdm_abij {l t : Bool} (hl : l = true → t = true) (T1 : (Fin (n 1)) → (Fin (n 0)) → K) (T2 : (Fin (n 1)) → (Fin (n 1)) → (Fin (n 0)) → (Fin (n 0)) → K) (L1 : (Fin (n 0)) → (Fin (n 1)) → K) (L2 : (Fin (n 0)) → (Fin (n 0)) → (Fin (n 1)) → (Fin (n 1)) → K) :
    Computes rccsd_2rdm_abij
      [.two t 1 0 T1, .four t 1 1 0 0 T2, .two l 0 1 L1, .four l 0 0 1 1 L2]
      [.four (t || l) 1 1 0 0 (CC.rccsd_2rdm_abij T1 T2 L1 L2)] :=
  computes C42_rccsd_2rdm_abij (by cases l <;> cases t <;> first | exact absurd (hl rfl) Bool.false_ne_true | krfl) (by krfl)

theorem C54_rccsd_2rdm_abij (T1 : (Fin (n 1)) → (Fin (n 0)) → K) (T2 : (Fin (n 1)) → (Fin (n 1)) → (Fin (n 0)) → (Fin (n 0)) → K) (L1 : (Fin (n 0)) → (Fin (n 1)) → K) (L2 : (Fin (n 0)) → (Fin (n 0)) → (Fin (n 1)) → (Fin (n 1)) → K) :
    RaisesCast rccsd_2rdm_abij
      [.two false 1 0 T1, .four false 1 1 0 0 T2, .two true 0 1 L1, .four true 0 0 1 1 L2] :=
  raisesCast fun w => by cases w <;> krfl

end Heap
