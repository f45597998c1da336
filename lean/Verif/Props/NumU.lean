import Verif.Props.NumRun
import Verif.Props.HeapCC
import Verif.Model.CCEnergy
import Verif.Model.CCUT
import Verif.Model.CCUL
import Verif.Model.CCURdm
/-!
# C53, C54: the unrestricted routines on arrays

Generated by `tools/gen_num.py`.  C53: called with arrays of the documented shapes, of any extents, the routine raises nothing and returns
the tensors of the model of the same name.  The Booleans say which groups of arguments are complex: `i` integrals, `t` amplitudes,
`l` multipliers, `c` the number `tfac`, `p` precomputed intermediates.  C54: the other combinations raise `UFuncTypeError`.
-/

set_option linter.unusedVariables false

namespace Heap
open Prog CC
variable {n : ℕ → ℕ} {K : Type} [Field K]

theorem C53_ucc_energy {i t : Bool} (t1 : ((Fin (n 1)) → (Fin (n 0)) → K) × ((Fin (n 3)) → (Fin (n 2)) → K)) (t2 : ((Fin (n 1)) → (Fin (n 1)) → (Fin (n 0)) → (Fin (n 0)) → K) × ((Fin (n 1)) → (Fin (n 3)) → (Fin (n 0)) → (Fin (n 2)) → K) × ((Fin (n 3)) → (Fin (n 3)) → (Fin (n 2)) → (Fin (n 2)) → K)) (fa : (Fin (n 0)) → (Fin (n 1)) → K) (fb : (Fin (n 2)) → (Fin (n 3)) → K) (Ia : (Fin (n 0)) → (Fin (n 0)) → (Fin (n 1)) → (Fin (n 1)) → K) (Ib : (Fin (n 2)) → (Fin (n 2)) → (Fin (n 3)) → (Fin (n 3)) → K) (Iabab : (Fin (n 0)) → (Fin (n 2)) → (Fin (n 1)) → (Fin (n 3)) → K) :
    Computes ucc_energy
      [.two t 1 0 t1.1, .two t 3 2 t1.2, .four t 1 1 0 0 t2.1, .four t 1 3 0 2 t2.2.1, .four t 3 3 2 2 t2.2.2, .two i 0 1 fa, .two i 2 3 fb, .four i 0 0 1 1 Ia, .four i 2 2 3 3 Ib, .four i 0 2 1 3 Iabab]
      [.num (i || t) (CC.ucc_energy t1 t2 fa fb Ia Ib Iabab)] :=
  computes C42_ucc_energy (by cases i <;> cases t <;> krfl) (by krfl)

theorem C53_ump2_energy {i t : Bool} (t1 : ((Fin (n 1)) → (Fin (n 0)) → K) × ((Fin (n 3)) → (Fin (n 2)) → K)) (t2 : ((Fin (n 1)) → (Fin (n 1)) → (Fin (n 0)) → (Fin (n 0)) → K) × ((Fin (n 1)) → (Fin (n 3)) → (Fin (n 0)) → (Fin (n 2)) → K) × ((Fin (n 3)) → (Fin (n 3)) → (Fin (n 2)) → (Fin (n 2)) → K)) (fa : (Fin (n 0)) → (Fin (n 1)) → K) (fb : (Fin (n 2)) → (Fin (n 3)) → K) (Ia : (Fin (n 0)) → (Fin (n 0)) → (Fin (n 1)) → (Fin (n 1)) → K) (Ib : (Fin (n 2)) → (Fin (n 2)) → (Fin (n 3)) → (Fin (n 3)) → K) (Iabab : (Fin (n 0)) → (Fin (n 2)) → (Fin (n 1)) → (Fin (n 3)) → K) :
    Computes ump2_energy
      [.two t 1 0 t1.1, .two t 3 2 t1.2, .four t 1 1 0 0 t2.1, .four t 1 3 0 2 t2.2.1, .four t 3 3 2 2 t2.2.2, .two i 0 1 fa, .two i 2 3 fb, .four i 0 0 1 1 Ia, .four i 2 2 3 3 Ib, .four i 0 2 1 3 Iabab]
      [.num (i || t) (CC.ump2_energy t1 t2 fa fb Ia Ib Iabab)] :=
  computes C42_ump2_energy (by cases i <;> cases t <;> krfl) (by krfl)

theorem C53_uccsd_stanton {i t : Bool} (ht : t = true → i = true) (Faa : OneE (Fin (n 0)) (Fin (n 1)) K) (Fbb : OneE (Fin (n 2)) (Fin (n 3)) K) (Ia : TwoE (Fin (n 0)) (Fin (n 1)) K) (Ib : TwoE (Fin (n 2)) (Fin (n 3)) K) (I_abab : TwoEFull (Fin (n 0)) (Fin (n 1)) (Fin (n 2)) (Fin (n 3)) K) (T1old : ((Fin (n 1)) → (Fin (n 0)) → K) × ((Fin (n 3)) → (Fin (n 2)) → K)) (T2old : ((Fin (n 1)) → (Fin (n 1)) → (Fin (n 0)) → (Fin (n 0)) → K) × ((Fin (n 1)) → (Fin (n 3)) → (Fin (n 0)) → (Fin (n 2)) → K) × ((Fin (n 3)) → (Fin (n 3)) → (Fin (n 2)) → (Fin (n 2)) → K)) :
    Computes uccsd_stanton
      [.two i 0 0 Faa.oo, .two i 0 1 Faa.ov, .two i 1 0 Faa.vo, .two i 1 1 Faa.vv, .two i 2 2 Fbb.oo, .two i 2 3 Fbb.ov, .two i 3 2 Fbb.vo, .two i 3 3 Fbb.vv, .four i 0 0 0 0 Ia.oooo, .four i 0 0 0 1 Ia.ooov, .four i 0 0 1 1 Ia.oovv, .four i 1 0 0 0 Ia.vooo, .four i 1 0 1 0 Ia.vovo, .four i 1 0 1 1 Ia.vovv, .four i 1 1 0 0 Ia.vvoo, .four i 1 1 1 0 Ia.vvvo, .four i 1 1 1 1 Ia.vvvv, .four i 2 2 2 2 Ib.oooo, .four i 2 2 2 3 Ib.ooov, .four i 2 2 3 3 Ib.oovv, .four i 3 2 2 2 Ib.vooo, .four i 3 2 3 2 Ib.vovo, .four i 3 2 3 3 Ib.vovv, .four i 3 3 2 2 Ib.vvoo, .four i 3 3 3 2 Ib.vvvo, .four i 3 3 3 3 Ib.vvvv, .four i 0 2 0 2 I_abab.oooo, .four i 0 2 0 3 I_abab.ooov, .four i 0 2 1 2 I_abab.oovo, .four i 0 2 1 3 I_abab.oovv, .four i 0 3 0 2 I_abab.ovoo, .four i 0 3 0 3 I_abab.ovov, .four i 0 3 1 2 I_abab.ovvo, .four i 0 3 1 3 I_abab.ovvv, .four i 1 2 0 2 I_abab.vooo, .four i 1 2 0 3 I_abab.voov, .four i 1 2 1 2 I_abab.vovo, .four i 1 2 1 3 I_abab.vovv, .four i 1 3 0 2 I_abab.vvoo, .four i 1 3 0 3 I_abab.vvov, .four i 1 3 1 2 I_abab.vvvo, .four i 1 3 1 3 I_abab.vvvv, .two t 1 0 T1old.1, .two t 3 2 T1old.2, .four t 1 1 0 0 T2old.1, .four t 1 3 0 2 T2old.2.1, .four t 3 3 2 2 T2old.2.2]
      [.two i 1 0 (CC.uccsd_stanton Faa Fbb Ia Ib I_abab T1old T2old).1.1, .two i 3 2 (CC.uccsd_stanton Faa Fbb Ia Ib I_abab T1old T2old).1.2, .four i 1 1 0 0 (CC.uccsd_stanton Faa Fbb Ia Ib I_abab T1old T2old).2.1, .four i 1 3 0 2 (CC.uccsd_stanton Faa Fbb Ia Ib I_abab T1old T2old).2.2.1, .four i 3 3 2 2 (CC.uccsd_stanton Faa Fbb Ia Ib I_abab T1old T2old).2.2.2] :=
  computes C42_uccsd_stanton (by cases i <;> cases t <;> first | exact absurd (ht rfl) Bool.false_ne_true | krfl) (by krfl)

theorem C54_uccsd_stanton (Faa : OneE (Fin (n 0)) (Fin (n 1)) K) (Fbb : OneE (Fin (n 2)) (Fin (n 3)) K) (Ia : TwoE (Fin (n 0)) (Fin (n 1)) K) (Ib : TwoE (Fin (n 2)) (Fin (n 3)) K) (I_abab : TwoEFull (Fin (n 0)) (Fin (n 1)) (Fin (n 2)) (Fin (n 3)) K) (T1old : ((Fin (n 1)) → (Fin (n 0)) → K) × ((Fin (n 3)) → (Fin (n 2)) → K)) (T2old : ((Fin (n 1)) → (Fin (n 1)) → (Fin (n 0)) → (Fin (n 0)) → K) × ((Fin (n 1)) → (Fin (n 3)) → (Fin (n 0)) → (Fin (n 2)) → K) × ((Fin (n 3)) → (Fin (n 3)) → (Fin (n 2)) → (Fin (n 2)) → K)) :
    RaisesCast uccsd_stanton
      [.two false 0 0 Faa.oo, .two false 0 1 Faa.ov, .two false 1 0 Faa.vo, .two false 1 1 Faa.vv, .two false 2 2 Fbb.oo, .two false 2 3 Fbb.ov, .two false 3 2 Fbb.vo, .two false 3 3 Fbb.vv, .four false 0 0 0 0 Ia.oooo, .four false 0 0 0 1 Ia.ooov, .four false 0 0 1 1 Ia.oovv, .four false 1 0 0 0 Ia.vooo, .four false 1 0 1 0 Ia.vovo, .four false 1 0 1 1 Ia.vovv, .four false 1 1 0 0 Ia.vvoo, .four false 1 1 1 0 Ia.vvvo, .four false 1 1 1 1 Ia.vvvv, .four false 2 2 2 2 Ib.oooo, .four false 2 2 2 3 Ib.ooov, .four false 2 2 3 3 Ib.oovv, .four false 3 2 2 2 Ib.vooo, .four false 3 2 3 2 Ib.vovo, .four false 3 2 3 3 Ib.vovv, .four false 3 3 2 2 Ib.vvoo, .four false 3 3 3 2 Ib.vvvo, .four false 3 3 3 3 Ib.vvvv, .four false 0 2 0 2 I_abab.oooo, .four false 0 2 0 3 I_abab.ooov, .four false 0 2 1 2 I_abab.oovo, .four false 0 2 1 3 I_abab.oovv, .four false 0 3 0 2 I_abab.ovoo, .four false 0 3 0 3 I_abab.ovov, .four false 0 3 1 2 I_abab.ovvo, .four false 0 3 1 3 I_abab.ovvv, .four false 1 2 0 2 I_abab.vooo, .four false 1 2 0 3 I_abab.voov, .four false 1 2 1 2 I_abab.vovo, .four false 1 2 1 3 I_abab.vovv, .four false 1 3 0 2 I_abab.vvoo, .four false 1 3 0 3 I_abab.vvov, .four false 1 3 1 2 I_abab.vvvo, .four false 1 3 1 3 I_abab.vvvv, .two true 1 0 T1old.1, .two true 3 2 T1old.2, .four true 1 1 0 0 T2old.1, .four true 1 3 0 2 T2old.2.1, .four true 3 3 2 2 T2old.2.2] :=
  raisesCast fun w => by cases w <;> krfl

theorem C53_uccsd_lambda_opt {i l t : Bool} (ht : t = true → i = true) (hl : l = true → i = true) (Fa : OneE (Fin (n 0)) (Fin (n 1)) K) (Fb : OneE (Fin (n 2)) (Fin (n 3)) K) (Ia : TwoE (Fin (n 0)) (Fin (n 1)) K) (Ib : TwoE (Fin (n 2)) (Fin (n 3)) K) (Iabab : TwoEFull (Fin (n 0)) (Fin (n 1)) (Fin (n 2)) (Fin (n 3)) K) (L1old : ((Fin (n 0)) → (Fin (n 1)) → K) × ((Fin (n 2)) → (Fin (n 3)) → K)) (L2old : ((Fin (n 0)) → (Fin (n 0)) → (Fin (n 1)) → (Fin (n 1)) → K) × ((Fin (n 0)) → (Fin (n 2)) → (Fin (n 1)) → (Fin (n 3)) → K) × ((Fin (n 2)) → (Fin (n 2)) → (Fin (n 3)) → (Fin (n 3)) → K)) (T1old : ((Fin (n 1)) → (Fin (n 0)) → K) × ((Fin (n 3)) → (Fin (n 2)) → K)) (T2old : ((Fin (n 1)) → (Fin (n 1)) → (Fin (n 0)) → (Fin (n 0)) → K) × ((Fin (n 1)) → (Fin (n 3)) → (Fin (n 0)) → (Fin (n 2)) → K) × ((Fin (n 3)) → (Fin (n 3)) → (Fin (n 2)) → (Fin (n 2)) → K)) :
    Computes uccsd_lambda_opt
      [.two i 0 0 Fa.oo, .two i 0 1 Fa.ov, .two i 1 1 Fa.vv, .two i 2 2 Fb.oo, .two i 2 3 Fb.ov, .two i 3 3 Fb.vv, .four i 0 0 0 0 Ia.oooo, .four i 0 0 0 1 Ia.ooov, .four i 0 0 1 1 Ia.oovv, .four i 1 0 0 0 Ia.vooo, .four i 1 0 1 0 Ia.vovo, .four i 1 0 1 1 Ia.vovv, .four i 1 1 1 0 Ia.vvvo, .four i 1 1 1 1 Ia.vvvv, .four i 2 2 2 2 Ib.oooo, .four i 2 2 2 3 Ib.ooov, .four i 2 2 3 3 Ib.oovv, .four i 3 2 2 2 Ib.vooo, .four i 3 2 3 2 Ib.vovo, .four i 3 2 3 3 Ib.vovv, .four i 3 3 3 2 Ib.vvvo, .four i 3 3 3 3 Ib.vvvv, .four i 0 2 0 2 Iabab.oooo, .four i 0 2 0 3 Iabab.ooov, .four i 0 2 1 2 Iabab.oovo, .four i 0 2 1 3 Iabab.oovv, .four i 0 3 0 2 Iabab.ovoo, .four i 0 3 0 3 Iabab.ovov, .four i 0 3 1 2 Iabab.ovvo, .four i 0 3 1 3 Iabab.ovvv, .four i 1 2 0 2 Iabab.vooo, .four i 1 2 0 3 Iabab.voov, .four i 1 2 1 2 Iabab.vovo, .four i 1 2 1 3 Iabab.vovv, .four i 1 3 0 3 Iabab.vvov, .four i 1 3 1 2 Iabab.vvvo, .four i 1 3 1 3 Iabab.vvvv, .two l 0 1 L1old.1, .two l 2 3 L1old.2, .four l 0 0 1 1 L2old.1, .four l 0 2 1 3 L2old.2.1, .four l 2 2 3 3 L2old.2.2, .two t 1 0 T1old.1, .two t 3 2 T1old.2, .four t 1 1 0 0 T2old.1, .four t 1 3 0 2 T2old.2.1, .four t 3 3 2 2 T2old.2.2]
      [.two i 0 1 (CC.uccsd_lambda_opt Fa Fb Ia Ib Iabab L1old L2old T1old T2old).1.1, .two i 2 3 (CC.uccsd_lambda_opt Fa Fb Ia Ib Iabab L1old L2old T1old T2old).1.2, .four i 0 0 1 1 (CC.uccsd_lambda_opt Fa Fb Ia Ib Iabab L1old L2old T1old T2old).2.1, .four i 0 2 1 3 (CC.uccsd_lambda_opt Fa Fb Ia Ib Iabab L1old L2old T1old T2old).2.2.1, .four i 2 2 3 3 (CC.uccsd_lambda_opt Fa Fb Ia Ib Iabab L1old L2old T1old T2old).2.2.2] :=
  computes C42_uccsd_lambda_opt (by cases i <;> cases l <;> cases t <;> first | exact absurd (ht rfl) Bool.false_ne_true | exact absurd (hl rfl) Bool.false_ne_true | krfl) (by krfl)

theorem C54_uccsd_lambda_opt_t {l : Bool} (Fa : OneE (Fin (n 0)) (Fin (n 1)) K) (Fb : OneE (Fin (n 2)) (Fin (n 3)) K) (Ia : TwoE (Fin (n 0)) (Fin (n 1)) K) (Ib : TwoE (Fin (n 2)) (Fin (n 3)) K) (Iabab : TwoEFull (Fin (n 0)) (Fin (n 1)) (Fin (n 2)) (Fin (n 3)) K) (L1old : ((Fin (n 0)) → (Fin (n 1)) → K) × ((Fin (n 2)) → (Fin (n 3)) → K)) (L2old : ((Fin (n 0)) → (Fin (n 0)) → (Fin (n 1)) → (Fin (n 1)) → K) × ((Fin (n 0)) → (Fin (n 2)) → (Fin (n 1)) → (Fin (n 3)) → K) × ((Fin (n 2)) → (Fin (n 2)) → (Fin (n 3)) → (Fin (n 3)) → K)) (T1old : ((Fin (n 1)) → (Fin (n 0)) → K) × ((Fin (n 3)) → (Fin (n 2)) → K)) (T2old : ((Fin (n 1)) → (Fin (n 1)) → (Fin (n 0)) → (Fin (n 0)) → K) × ((Fin (n 1)) → (Fin (n 3)) → (Fin (n 0)) → (Fin (n 2)) → K) × ((Fin (n 3)) → (Fin (n 3)) → (Fin (n 2)) → (Fin (n 2)) → K)) :
    RaisesCast uccsd_lambda_opt
      [.two false 0 0 Fa.oo, .two false 0 1 Fa.ov, .two false 1 1 Fa.vv, .two false 2 2 Fb.oo, .two false 2 3 Fb.ov, .two false 3 3 Fb.vv, .four false 0 0 0 0 Ia.oooo, .four false 0 0 0 1 Ia.ooov, .four false 0 0 1 1 Ia.oovv, .four false 1 0 0 0 Ia.vooo, .four false 1 0 1 0 Ia.vovo, .four false 1 0 1 1 Ia.vovv, .four false 1 1 1 0 Ia.vvvo, .four false 1 1 1 1 Ia.vvvv, .four false 2 2 2 2 Ib.oooo, .four false 2 2 2 3 Ib.ooov, .four false 2 2 3 3 Ib.oovv, .four false 3 2 2 2 Ib.vooo, .four false 3 2 3 2 Ib.vovo, .four false 3 2 3 3 Ib.vovv, .four false 3 3 3 2 Ib.vvvo, .four false 3 3 3 3 Ib.vvvv, .four false 0 2 0 2 Iabab.oooo, .four false 0 2 0 3 Iabab.ooov, .four false 0 2 1 2 Iabab.oovo, .four false 0 2 1 3 Iabab.oovv, .four false 0 3 0 2 Iabab.ovoo, .four false 0 3 0 3 Iabab.ovov, .four false 0 3 1 2 Iabab.ovvo, .four false 0 3 1 3 Iabab.ovvv, .four false 1 2 0 2 Iabab.vooo, .four false 1 2 0 3 Iabab.voov, .four false 1 2 1 2 Iabab.vovo, .four false 1 2 1 3 Iabab.vovv, .four false 1 3 0 3 Iabab.vvov, .four false 1 3 1 2 Iabab.vvvo, .four false 1 3 1 3 Iabab.vvvv, .two l 0 1 L1old.1, .two l 2 3 L1old.2, .four l 0 0 1 1 L2old.1, .four l 0 2 1 3 L2old.2.1, .four l 2 2 3 3 L2old.2.2, .two true 1 0 T1old.1, .two true 3 2 T1old.2, .four true 1 1 0 0 T2old.1, .four true 1 3 0 2 T2old.2.1, .four true 3 3 2 2 T2old.2.2] :=
  raisesCast fun w => by cases w <;> cases l <;> krfl

theorem C54_uccsd_lambda_opt_l {t : Bool} (Fa : OneE (Fin (n 0)) (Fin (n 1)) K) (Fb : OneE (Fin (n 2)) (Fin (n 3)) K) (Ia : TwoE (Fin (n 0)) (Fin (n 1)) K) (Ib : TwoE (Fin (n 2)) (Fin (n 3)) K) (Iabab : TwoEFull (Fin (n 0)) (Fin (n 1)) (Fin (n 2)) (Fin (n 3)) K) (L1old : ((Fin (n 0)) → (Fin (n 1)) → K) × ((Fin (n 2)) → (Fin (n 3)) → K)) (L2old : ((Fin (n 0)) → (Fin (n 0)) → (Fin (n 1)) → (Fin (n 1)) → K) × ((Fin (n 0)) → (Fin (n 2)) → (Fin (n 1)) → (Fin (n 3)) → K) × ((Fin (n 2)) → (Fin (n 2)) → (Fin (n 3)) → (Fin (n 3)) → K)) (T1old : ((Fin (n 1)) → (Fin (n 0)) → K) × ((Fin (n 3)) → (Fin (n 2)) → K)) (T2old : ((Fin (n 1)) → (Fin (n 1)) → (Fin (n 0)) → (Fin (n 0)) → K) × ((Fin (n 1)) → (Fin (n 3)) → (Fin (n 0)) → (Fin (n 2)) → K) × ((Fin (n 3)) → (Fin (n 3)) → (Fin (n 2)) → (Fin (n 2)) → K)) :
    RaisesCast uccsd_lambda_opt
      [.two false 0 0 Fa.oo, .two false 0 1 Fa.ov, .two false 1 1 Fa.vv, .two false 2 2 Fb.oo, .two false 2 3 Fb.ov, .two false 3 3 Fb.vv, .four false 0 0 0 0 Ia.oooo, .four false 0 0 0 1 Ia.ooov, .four false 0 0 1 1 Ia.oovv, .four false 1 0 0 0 Ia.vooo, .four false 1 0 1 0 Ia.vovo, .four false 1 0 1 1 Ia.vovv, .four false 1 1 1 0 Ia.vvvo, .four false 1 1 1 1 Ia.vvvv, .four false 2 2 2 2 Ib.oooo, .four false 2 2 2 3 Ib.ooov, .four false 2 2 3 3 Ib.oovv, .four false 3 2 2 2 Ib.vooo, .four false 3 2 3 2 Ib.vovo, .four false 3 2 3 3 Ib.vovv, .four false 3 3 3 2 Ib.vvvo, .four false 3 3 3 3 Ib.vvvv, .four false 0 2 0 2 Iabab.oooo, .four false 0 2 0 3 Iabab.ooov, .four false 0 2 1 2 Iabab.oovo, .four false 0 2 1 3 Iabab.oovv, .four false 0 3 0 2 Iabab.ovoo, .four false 0 3 0 3 Iabab.ovov, .four false 0 3 1 2 Iabab.ovvo, .four false 0 3 1 3 Iabab.ovvv, .four false 1 2 0 2 Iabab.vooo, .four false 1 2 0 3 Iabab.voov, .four false 1 2 1 2 Iabab.vovo, .four false 1 2 1 3 Iabab.vovv, .four false 1 3 0 3 Iabab.vvov, .four false 1 3 1 2 Iabab.vvvo, .four false 1 3 1 3 Iabab.vvvv, .two true 0 1 L1old.1, .two true 2 3 L1old.2, .four true 0 0 1 1 L2old.1, .four true 0 2 1 3 L2old.2.1, .four true 2 2 3 3 L2old.2.2, .two t 1 0 T1old.1, .two t 3 2 T1old.2, .four t 1 1 0 0 T2old.1, .four t 1 3 0 2 T2old.2.1, .four t 3 3 2 2 T2old.2.2] :=
  raisesCast fun w => by cases w <;> cases t <;> krfl

theorem C53_uccsd_1rdm_ba {l t : Bool} (T1a : (Fin (n 1)) → (Fin (n 0)) → K) (T1b : (Fin (n 3)) → (Fin (n 2)) → K) (T2aa : (Fin (n 1)) → (Fin (n 1)) → (Fin (n 0)) → (Fin (n 0)) → K) (T2ab : (Fin (n 1)) → (Fin (n 3)) → (Fin (n 0)) → (Fin (n 2)) → K) (T2bb : (Fin (n 3)) → (Fin (n 3)) → (Fin (n 2)) → (Fin (n 2)) → K) (L1a : (Fin (n 0)) → (Fin (n 1)) → K) (L1b : (Fin (n 2)) → (Fin (n 3)) → K) (L2aa : (Fin (n 0)) → (Fin (n 0)) → (Fin (n 1)) → (Fin (n 1)) → K) (L2ab : (Fin (n 0)) → (Fin (n 2)) → (Fin (n 1)) → (Fin (n 3)) → K) (L2bb : (Fin (n 2)) → (Fin (n 2)) → (Fin (n 3)) → (Fin (n 3)) → K) :
    Computes uccsd_1rdm_ba
      [.two t 1 0 T1a, .two t 3 2 T1b, .four t 1 1 0 0 T2aa, .four t 1 3 0 2 T2ab, .four t 3 3 2 2 T2bb, .two l 0 1 L1a, .two l 2 3 L1b, .four l 0 0 1 1 L2aa, .four l 0 2 1 3 L2ab, .four l 2 2 3 3 L2bb]
      [.two (t || l) 1 1 (CC.uccsd_1rdm_ba T1a T1b T2aa T2ab T2bb L1a L1b L2aa L2ab L2bb).1, .two (t || l) 3 3 (CC.uccsd_1rdm_ba T1a T1b T2aa T2ab T2bb L1a L1b L2aa L2ab L2bb).2] :=
  computes C42_uccsd_1rdm_ba (by cases l <;> cases t <;> krfl) (by krfl)

theorem C53_uccsd_1rdm_ji {l t : Bool} (T1a : (Fin (n 1)) → (Fin (n 0)) → K) (T1b : (Fin (n 3)) → (Fin (n 2)) → K) (T2aa : (Fin (n 1)) → (Fin (n 1)) → (Fin (n 0)) → (Fin (n 0)) → K) (T2ab : (Fin (n 1)) → (Fin (n 3)) → (Fin (n 0)) → (Fin (n 2)) → K) (T2bb : (Fin (n 3)) → (Fin (n 3)) → (Fin (n 2)) → (Fin (n 2)) → K) (L1a : (Fin (n 0)) → (Fin (n 1)) → K) (L1b : (Fin (n 2)) → (Fin (n 3)) → K) (L2aa : (Fin (n 0)) → (Fin (n 0)) → (Fin (n 1)) → (Fin (n 1)) → K) (L2ab : (Fin (n 0)) → (Fin (n 2)) → (Fin (n 1)) → (Fin (n 3)) → K) (L2bb : (Fin (n 2)) → (Fin (n 2)) → (Fin (n 3)) → (Fin (n 3)) → K) :
    Computes uccsd_1rdm_ji
      [.two t 1 0 T1a, .two t 3 2 T1b, .four t 1 1 0 0 T2aa, .four t 1 3 0 2 T2ab, .four t 3 3 2 2 T2bb, .two l 0 1 L1a, .two l 2 3 L1b, .four l 0 0 1 1 L2aa, .four l 0 2 1 3 L2ab, .four l 2 2 3 3 L2bb]
      [.two (t || l) 0 0 (CC.uccsd_1rdm_ji T1a T1b T2aa T2ab T2bb L1a L1b L2aa L2ab L2bb).1, .two (t || l) 2 2 (CC.uccsd_1rdm_ji T1a T1b T2aa T2ab T2bb L1a L1b L2aa L2ab L2bb).2] :=
  computes C42_uccsd_1rdm_ji (by cases l <;> cases t <;> krfl) (by krfl)

theorem C53_uccsd_1rdm_ai {c l t : Bool} (hl : l = true → (t || c) = true) (T1a : (Fin (n 1)) → (Fin (n 0)) → K) (T1b : (Fin (n 3)) → (Fin (n 2)) → K) (T2aa : (Fin (n 1)) → (Fin (n 1)) → (Fin (n 0)) → (Fin (n 0)) → K) (T2ab : (Fin (n 1)) → (Fin (n 3)) → (Fin (n 0)) → (Fin (n 2)) → K) (T2bb : (Fin (n 3)) → (Fin (n 3)) → (Fin (n 2)) → (Fin (n 2)) → K) (L1a : (Fin (n 0)) → (Fin (n 1)) → K) (L1b : (Fin (n 2)) → (Fin (n 3)) → K) (L2aa : (Fin (n 0)) → (Fin (n 0)) → (Fin (n 1)) → (Fin (n 1)) → K) (L2ab : (Fin (n 0)) → (Fin (n 2)) → (Fin (n 1)) → (Fin (n 3)) → K) (L2bb : (Fin (n 2)) → (Fin (n 2)) → (Fin (n 3)) → (Fin (n 3)) → K) (tfac : K) :
    Computes uccsd_1rdm_ai
      [.two t 1 0 T1a, .two t 3 2 T1b, .four t 1 1 0 0 T2aa, .four t 1 3 0 2 T2ab, .four t 3 3 2 2 T2bb, .two l 0 1 L1a, .two l 2 3 L1b, .four l 0 0 1 1 L2aa, .four l 0 2 1 3 L2ab, .four l 2 2 3 3 L2bb, .num c tfac]
      [.two (t || l || c) 1 0 (CC.uccsd_1rdm_ai T1a T1b T2aa T2ab T2bb L1a L1b L2aa L2ab L2bb tfac).1, .two (t || l || c) 3 2 (CC.uccsd_1rdm_ai T1a T1b T2aa T2ab T2bb L1a L1b L2aa L2ab L2bb tfac).2] :=
  computes C42_uccsd_1rdm_ai (by cases c <;> cases l <;> cases t <;> first | exact absurd (hl rfl) Bool.false_ne_true | krfl) (by krfl)

theorem C54_uccsd_1rdm_ai (T1a : (Fin (n 1)) → (Fin (n 0)) → K) (T1b : (Fin (n 3)) → (Fin (n 2)) → K) (T2aa : (Fin (n 1)) → (Fin (n 1)) → (Fin (n 0)) → (Fin (n 0)) → K) (T2ab : (Fin (n 1)) → (Fin (n 3)) → (Fin (n 0)) → (Fin (n 2)) → K) (T2bb : (Fin (n 3)) → (Fin (n 3)) → (Fin (n 2)) → (Fin (n 2)) → K) (L1a : (Fin (n 0)) → (Fin (n 1)) → K) (L1b : (Fin (n 2)) → (Fin (n 3)) → K) (L2aa : (Fin (n 0)) → (Fin (n 0)) → (Fin (n 1)) → (Fin (n 1)) → K) (L2ab : (Fin (n 0)) → (Fin (n 2)) → (Fin (n 1)) → (Fin (n 3)) → K) (L2bb : (Fin (n 2)) → (Fin (n 2)) → (Fin (n 3)) → (Fin (n 3)) → K) (tfac : K) :
    RaisesCast uccsd_1rdm_ai
      [.two false 1 0 T1a, .two false 3 2 T1b, .four false 1 1 0 0 T2aa, .four false 1 3 0 2 T2ab, .four false 3 3 2 2 T2bb, .two true 0 1 L1a, .two true 2 3 L1b, .four true 0 0 1 1 L2aa, .four true 0 2 1 3 L2ab, .four true 2 2 3 3 L2bb, .num false tfac] :=
  raisesCast fun w => by cases w <;> krfl

theorem C53_uccsd_2rdm_ciab {l t : Bool} (T1a : (Fin (n 1)) → (Fin (n 0)) → K) (T1b : (Fin (n 3)) → (Fin (n 2)) → K) (T2aa : (Fin (n 1)) → (Fin (n 1)) → (Fin (n 0)) → (Fin (n 0)) → K) (T2ab : (Fin (n 1)) → (Fin (n 3)) → (Fin (n 0)) → (Fin (n 2)) → K) (T2bb : (Fin (n 3)) → (Fin (n 3)) → (Fin (n 2)) → (Fin (n 2)) → K) (L1a : (Fin (n 0)) → (Fin (n 1)) → K) (L1b : (Fin (n 2)) → (Fin (n 3)) → K) (L2aa : (Fin (n 0)) → (Fin (n 0)) → (Fin (n 1)) → (Fin (n 1)) → K) (L2ab : (Fin (n 0)) → (Fin (n 2)) → (Fin (n 1)) → (Fin (n 3)) → K) (L2bb : (Fin (n 2)) → (Fin (n 2)) → (Fin (n 3)) → (Fin (n 3)) → K) :
    Computes uccsd_2rdm_ciab
      [.two t 1 0 T1a, .two t 3 2 T1b, .four l 0 0 1 1 L2aa, .four l 0 2 1 3 L2ab, .four l 2 2 3 3 L2bb]
      [.four (t || l) 1 0 1 1 (CC.uccsd_2rdm_ciab T1a T1b T2aa T2ab T2bb L1a L1b L2aa L2ab L2bb).1, .four (t || l) 3 2 3 3 (CC.uccsd_2rdm_ciab T1a T1b T2aa T2ab T2bb L1a L1b L2aa L2ab L2bb).2.1, .four (t || l) 1 2 1 3 (CC.uccsd_2rdm_ciab T1a T1b T2aa T2ab T2bb L1a L1b L2aa L2ab L2bb).2.2.1, .four (t || l) 3 0 3 1 (CC.uccsd_2rdm_ciab T1a T1b T2aa T2ab T2bb L1a L1b L2aa L2ab L2bb).2.2.2] :=
  computes C42_uccsd_2rdm_ciab (by cases l <;> cases t <;> krfl) (by krfl)

theorem C53_uccsd_2rdm_jkai {l t : Bool} (T1a : (Fin (n 1)) → (Fin (n 0)) → K) (T1b : (Fin (n 3)) → (Fin (n 2)) → K) (T2aa : (Fin (n 1)) → (Fin (n 1)) → (Fin (n 0)) → (Fin (n 0)) → K) (T2ab : (Fin (n 1)) → (Fin (n 3)) → (Fin (n 0)) → (Fin (n 2)) → K) (T2bb : (Fin (n 3)) → (Fin (n 3)) → (Fin (n 2)) → (Fin (n 2)) → K) (L1a : (Fin (n 0)) → (Fin (n 1)) → K) (L1b : (Fin (n 2)) → (Fin (n 3)) → K) (L2aa : (Fin (n 0)) → (Fin (n 0)) → (Fin (n 1)) → (Fin (n 1)) → K) (L2ab : (Fin (n 0)) → (Fin (n 2)) → (Fin (n 1)) → (Fin (n 3)) → K) (L2bb : (Fin (n 2)) → (Fin (n 2)) → (Fin (n 3)) → (Fin (n 3)) → K) :
    Computes uccsd_2rdm_jkai
      [.two t 1 0 T1a, .two t 3 2 T1b, .four l 0 0 1 1 L2aa, .four l 0 2 1 3 L2ab, .four l 2 2 3 3 L2bb]
      [.four (t || l) 0 0 1 0 (CC.uccsd_2rdm_jkai T1a T1b T2aa T2ab T2bb L1a L1b L2aa L2ab L2bb).1, .four (t || l) 2 2 3 2 (CC.uccsd_2rdm_jkai T1a T1b T2aa T2ab T2bb L1a L1b L2aa L2ab L2bb).2.1, .four (t || l) 0 2 1 2 (CC.uccsd_2rdm_jkai T1a T1b T2aa T2ab T2bb L1a L1b L2aa L2ab L2bb).2.2.1, .four (t || l) 2 0 3 0 (CC.uccsd_2rdm_jkai T1a T1b T2aa T2ab T2bb L1a L1b L2aa L2ab L2bb).2.2.2] :=
  computes C42_uccsd_2rdm_jkai (by cases l <;> cases t <;> krfl) (by krfl)

theorem C53_uccsd_2rdm_cdab {l t : Bool} (T1a : (Fin (n 1)) → (Fin (n 0)) → K) (T1b : (Fin (n 3)) → (Fin (n 2)) → K) (T2aa : (Fin (n 1)) → (Fin (n 1)) → (Fin (n 0)) → (Fin (n 0)) → K) (T2ab : (Fin (n 1)) → (Fin (n 3)) → (Fin (n 0)) → (Fin (n 2)) → K) (T2bb : (Fin (n 3)) → (Fin (n 3)) → (Fin (n 2)) → (Fin (n 2)) → K) (L1a : (Fin (n 0)) → (Fin (n 1)) → K) (L1b : (Fin (n 2)) → (Fin (n 3)) → K) (L2aa : (Fin (n 0)) → (Fin (n 0)) → (Fin (n 1)) → (Fin (n 1)) → K) (L2ab : (Fin (n 0)) → (Fin (n 2)) → (Fin (n 1)) → (Fin (n 3)) → K) (L2bb : (Fin (n 2)) → (Fin (n 2)) → (Fin (n 3)) → (Fin (n 3)) → K) :
    Computes uccsd_2rdm_cdab
      [.two t 1 0 T1a, .two t 3 2 T1b, .four t 1 1 0 0 T2aa, .four t 1 3 0 2 T2ab, .four t 3 3 2 2 T2bb, .four l 0 0 1 1 L2aa, .four l 0 2 1 3 L2ab, .four l 2 2 3 3 L2bb]
      [.four (t || l) 1 1 1 1 (CC.uccsd_2rdm_cdab T1a T1b T2aa T2ab T2bb L1a L1b L2aa L2ab L2bb).1, .four (t || l) 3 3 3 3 (CC.uccsd_2rdm_cdab T1a T1b T2aa T2ab T2bb L1a L1b L2aa L2ab L2bb).2.1, .four (t || l) 1 3 1 3 (CC.uccsd_2rdm_cdab T1a T1b T2aa T2ab T2bb L1a L1b L2aa L2ab L2bb).2.2] :=
  computes C42_uccsd_2rdm_cdab (by cases l <;> cases t <;> krfl) (by krfl)

theorem C53_uccsd_2rdm_bjai {l t : Bool} (T1a : (Fin (n 1)) → (Fin (n 0)) → K) (T1b : (Fin (n 3)) → (Fin (n 2)) → K) (T2aa : (Fin (n 1)) → (Fin (n 1)) → (Fin (n 0)) → (Fin (n 0)) → K) (T2ab : (Fin (n 1)) → (Fin (n 3)) → (Fin (n 0)) → (Fin (n 2)) → K) (T2bb : (Fin (n 3)) → (Fin (n 3)) → (Fin (n 2)) → (Fin (n 2)) → K) (L1a : (Fin (n 0)) → (Fin (n 1)) → K) (L1b : (Fin (n 2)) → (Fin (n 3)) → K) (L2aa : (Fin (n 0)) → (Fin (n 0)) → (Fin (n 1)) → (Fin (n 1)) → K) (L2ab : (Fin (n 0)) → (Fin (n 2)) → (Fin (n 1)) → (Fin (n 3)) → K) (L2bb : (Fin (n 2)) → (Fin (n 2)) → (Fin (n 3)) → (Fin (n 3)) → K) :
    Computes uccsd_2rdm_bjai
      [.two t 1 0 T1a, .two t 3 2 T1b, .four t 1 1 0 0 T2aa, .four t 1 3 0 2 T2ab, .four t 3 3 2 2 T2bb, .two l 0 1 L1a, .two l 2 3 L1b, .four l 0 0 1 1 L2aa, .four l 0 2 1 3 L2ab, .four l 2 2 3 3 L2bb]
      [.four (t || l) 1 0 1 0 (CC.uccsd_2rdm_bjai T1a T1b T2aa T2ab T2bb L1a L1b L2aa L2ab L2bb).1, .four (t || l) 3 2 3 2 (CC.uccsd_2rdm_bjai T1a T1b T2aa T2ab T2bb L1a L1b L2aa L2ab L2bb).2.1, .four (t || l) 1 2 1 2 (CC.uccsd_2rdm_bjai T1a T1b T2aa T2ab T2bb L1a L1b L2aa L2ab L2bb).2.2.1, .four (t || l) 1 2 3 0 (CC.uccsd_2rdm_bjai T1a T1b T2aa T2ab T2bb L1a L1b L2aa L2ab L2bb).2.2.2.1, .four (t || l) 3 0 1 2 (CC.uccsd_2rdm_bjai T1a T1b T2aa T2ab T2bb L1a L1b L2aa L2ab L2bb).2.2.2.2.1, .four (t || l) 3 0 3 0 (CC.uccsd_2rdm_bjai T1a T1b T2aa T2ab T2bb L1a L1b L2aa L2ab L2bb).2.2.2.2.2] :=
  computes C42_uccsd_2rdm_bjai (by cases l <;> cases t <;> krfl) (by krfl)

theorem C53_uccsd_2rdm_klij {l t : Bool} (T1a : (Fin (n 1)) → (Fin (n 0)) → K) (T1b : (Fin (n 3)) → (Fin (n 2)) → K) (T2aa : (Fin (n 1)) → (Fin (n 1)) → (Fin (n 0)) → (Fin (n 0)) → K) (T2ab : (Fin (n 1)) → (Fin (n 3)) → (Fin (n 0)) → (Fin (n 2)) → K) (T2bb : (Fin (n 3)) → (Fin (n 3)) → (Fin (n 2)) → (Fin (n 2)) → K) (L1a : (Fin (n 0)) → (Fin (n 1)) → K) (L1b : (Fin (n 2)) → (Fin (n 3)) → K) (L2aa : (Fin (n 0)) → (Fin (n 0)) → (Fin (n 1)) → (Fin (n 1)) → K) (L2ab : (Fin (n 0)) → (Fin (n 2)) → (Fin (n 1)) → (Fin (n 3)) → K) (L2bb : (Fin (n 2)) → (Fin (n 2)) → (Fin (n 3)) → (Fin (n 3)) → K) :
    Computes uccsd_2rdm_klij
      [.two t 1 0 T1a, .two t 3 2 T1b, .four t 1 1 0 0 T2aa, .four t 1 3 0 2 T2ab, .four t 3 3 2 2 T2bb, .four l 0 0 1 1 L2aa, .four l 0 2 1 3 L2ab, .four l 2 2 3 3 L2bb]
      [.four (t || l) 0 0 0 0 (CC.uccsd_2rdm_klij T1a T1b T2aa T2ab T2bb L1a L1b L2aa L2ab L2bb).1, .four (t || l) 2 2 2 2 (CC.uccsd_2rdm_klij T1a T1b T2aa T2ab T2bb L1a L1b L2aa L2ab L2bb).2.1, .four (t || l) 0 2 0 2 (CC.uccsd_2rdm_klij T1a T1b T2aa T2ab T2bb L1a L1b L2aa L2ab L2bb).2.2] :=
  computes C42_uccsd_2rdm_klij (by cases l <;> cases t <;> krfl) (by krfl)

theorem C53_uccsd_2rdm_bcai {l t : Bool} (T1a : (Fin (n 1)) → (Fin (n 0)) → K) (T1b : (Fin (n 3)) → (Fin (n 2)) → K) (T2aa : (Fin (n 1)) → (Fin (n 1)) → (Fin (n 0)) → (Fin (n 0)) → K) (T2ab : (Fin (n 1)) → (Fin (n 3)) → (Fin (n 0)) → (Fin (n 2)) → K) (T2bb : (Fin (n 3)) → (Fin (n 3)) → (Fin (n 2)) → (Fin (n 2)) → K) (L1a : (Fin (n 0)) → (Fin (n 1)) → K) (L1b : (Fin (n 2)) → (Fin (n 3)) → K) (L2aa : (Fin (n 0)) → (Fin (n 0)) → (Fin (n 1)) → (Fin (n 1)) → K) (L2ab : (Fin (n 0)) → (Fin (n 2)) → (Fin (n 1)) → (Fin (n 3)) → K) (L2bb : (Fin (n 2)) → (Fin (n 2)) → (Fin (n 3)) → (Fin (n 3)) → K) :
    Computes uccsd_2rdm_bcai
      [.two t 1 0 T1a, .two t 3 2 T1b, .four t 1 1 0 0 T2aa, .four t 1 3 0 2 T2ab, .four t 3 3 2 2 T2bb, .two l 0 1 L1a, .two l 2 3 L1b, .four l 0 0 1 1 L2aa, .four l 0 2 1 3 L2ab, .four l 2 2 3 3 L2bb]
      [.four (t || l) 1 1 1 0 (CC.uccsd_2rdm_bcai T1a T1b T2aa T2ab T2bb L1a L1b L2aa L2ab L2bb).1, .four (t || l) 3 3 3 2 (CC.uccsd_2rdm_bcai T1a T1b T2aa T2ab T2bb L1a L1b L2aa L2ab L2bb).2.1, .four (t || l) 1 3 1 2 (CC.uccsd_2rdm_bcai T1a T1b T2aa T2ab T2bb L1a L1b L2aa L2ab L2bb).2.2.1, .four (t || l) 3 1 3 0 (CC.uccsd_2rdm_bcai T1a T1b T2aa T2ab T2bb L1a L1b L2aa L2ab L2bb).2.2.2] :=
  computes C42_uccsd_2rdm_bcai (by cases l <;> cases t <;> krfl) (by krfl)

theorem C53_uccsd_2rdm_kaij {l t : Bool} (T1a : (Fin (n 1)) → (Fin (n 0)) → K) (T1b : (Fin (n 3)) → (Fin (n 2)) → K) (T2aa : (Fin (n 1)) → (Fin (n 1)) → (Fin (n 0)) → (Fin (n 0)) → K) (T2ab : (Fin (n 1)) → (Fin (n 3)) → (Fin (n 0)) → (Fin (n 2)) → K) (T2bb : (Fin (n 3)) → (Fin (n 3)) → (Fin (n 2)) → (Fin (n 2)) → K) (L1a : (Fin (n 0)) → (Fin (n 1)) → K) (L1b : (Fin (n 2)) → (Fin (n 3)) → K) (L2aa : (Fin (n 0)) → (Fin (n 0)) → (Fin (n 1)) → (Fin (n 1)) → K) (L2ab : (Fin (n 0)) → (Fin (n 2)) → (Fin (n 1)) → (Fin (n 3)) → K) (L2bb : (Fin (n 2)) → (Fin (n 2)) → (Fin (n 3)) → (Fin (n 3)) → K) :
    Computes uccsd_2rdm_kaij
      [.two t 1 0 T1a, .two t 3 2 T1b, .four t 1 1 0 0 T2aa, .four t 1 3 0 2 T2ab, .four t 3 3 2 2 T2bb, .two l 0 1 L1a, .two l 2 3 L1b, .four l 0 0 1 1 L2aa, .four l 0 2 1 3 L2ab, .four l 2 2 3 3 L2bb]
      [.four (t || l) 0 1 0 0 (CC.uccsd_2rdm_kaij T1a T1b T2aa T2ab T2bb L1a L1b L2aa L2ab L2bb).1, .four (t || l) 2 3 2 2 (CC.uccsd_2rdm_kaij T1a T1b T2aa T2ab T2bb L1a L1b L2aa L2ab L2bb).2.1, .four (t || l) 0 3 0 2 (CC.uccsd_2rdm_kaij T1a T1b T2aa T2ab T2bb L1a L1b L2aa L2ab L2bb).2.2.1, .four (t || l) 2 1 2 0 (CC.uccsd_2rdm_kaij T1a T1b T2aa T2ab T2bb L1a L1b L2aa L2ab L2bb).2.2.2] :=
  computes C42_uccsd_2rdm_kaij (by cases l <;> cases t <;> krfl) (by krfl)

theorem C53_uccsd_2rdm_abij {c l t : Bool} (hl : l = true → (t || c) = true) (T1a : (Fin (n 1)) → (Fin (n 0)) → K) (T1b : (Fin (n 3)) → (Fin (n 2)) → K) (T2aa : (Fin (n 1)) → (Fin (n 1)) → (Fin (n 0)) → (Fin (n 0)) → K) (T2ab : (Fin (n 1)) → (Fin (n 3)) → (Fin (n 0)) → (Fin (n 2)) → K) (T2bb : (Fin (n 3)) → (Fin (n 3)) → (Fin (n 2)) → (Fin (n 2)) → K) (L1a : (Fin (n 0)) → (Fin (n 1)) → K) (L1b : (Fin (n 2)) → (Fin (n 3)) → K) (L2aa : (Fin (n 0)) → (Fin (n 0)) → (Fin (n 1)) → (Fin (n 1)) → K) (L2ab : (Fin (n 0)) → (Fin (n 2)) → (Fin (n 1)) → (Fin (n 3)) → K) (L2bb : (Fin (n 2)) → (Fin (n 2)) → (Fin (n 3)) → (Fin (n 3)) → K) (tfac : K) :
    Computes uccsd_2rdm_abij
      [.two t 1 0 T1a, .two t 3 2 T1b, .four t 1 1 0 0 T2aa, .four t 1 3 0 2 T2ab, .four t 3 3 2 2 T2bb, .two l 0 1 L1a, .two l 2 3 L1b, .four l 0 0 1 1 L2aa, .four l 0 2 1 3 L2ab, .four l 2 2 3 3 L2bb, .num c tfac]
      [.four (t || l || c) 1 1 0 0 (CC.uccsd_2rdm_abij T1a T1b T2aa T2ab T2bb L1a L1b L2aa L2ab L2bb tfac).1, .four (t || l || c) 3 3 2 2 (CC.uccsd_2rdm_abij T1a T1b T2aa T2ab T2bb L1a L1b L2aa L2ab L2bb tfac).2.1, .four (t || l || c) 1 3 0 2 (CC.uccsd_2rdm_abij T1a T1b T2aa T2ab T2bb L1a L1b L2aa L2ab L2bb tfac).2.2] :=
  computes C42_uccsd_2rdm_abij (by cases c <;> cases l <;> cases t <;> first | exact absurd (hl rfl) Bool.false_ne_true | krfl) (by krfl)

theorem C54_uccsd_2rdm_abij (T1a : (Fin (n 1)) → (Fin (n 0)) → K) (T1b : (Fin (n 3)) → (Fin (n 2)) → K) (T2aa : (Fin (n 1)) → (Fin (n 1)) → (Fin (n 0)) → (Fin (n 0)) → K) (T2ab : (Fin (n 1)) → (Fin (n 3)) → (Fin (n 0)) → (Fin (n 2)) → K) (T2bb : (Fin (n 3)) → (Fin (n 3)) → (Fin (n 2)) → (Fin (n 2)) → K) (L1a : (Fin (n 0)) → (Fin (n 1)) → K) (L1b : (Fin (n 2)) → (Fin (n 3)) → K) (L2aa : (Fin (n 0)) → (Fin (n 0)) → (Fin (n 1)) → (Fin (n 1)) → K) (L2ab : (Fin (n 0)) → (Fin (n 2)) → (Fin (n 1)) → (Fin (n 3)) → K) (L2bb : (Fin (n 2)) → (Fin (n 2)) → (Fin (n 3)) → (Fin (n 3)) → K) (tfac : K) :
    RaisesCast uccsd_2rdm_abij
      [.two false 1 0 T1a, .two false 3 2 T1b, .four false 1 1 0 0 T2aa, .four false 1 3 0 2 T2ab, .four false 3 3 2 2 T2bb, .two true 0 1 L1a, .two true 2 3 L1b, .four true 0 0 1 1 L2aa, .four true 0 2 1 3 L2ab, .four true 2 2 3 3 L2bb, .num false tfac] :=
  raisesCast fun w => by cases w <;> krfl

end Heap
