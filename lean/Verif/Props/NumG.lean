import Verif.Props.NumRun
import Verif.Props.HeapCC
import Verif.Model.CCEnergy
import Verif.Model.CCGT
import Verif.Model.CCGL
import Verif.Model.CCGRdm
/-!
# C53, C54: the spin-orbital routines on arrays

Generated by `tools/gen_num.py`.  C53: called with arrays of the documented shapes, of any extents, the routine raises nothing and returns
the tensors of the model of the same name.  The Booleans say which groups of arguments are complex: `i` integrals, `t` amplitudes,
`l` multipliers, `c` the number `tfac`, `p` precomputed intermediates.  C54: the other combinations raise `UFuncTypeError`.
-/

set_option linter.unusedVariables false

namespace Heap
open Prog CC
variable {n : ℕ → ℕ} {K : Type} [Field K]

theorem C53_cc_energy_d {i t : Bool} (t2 : (Fin (n 1)) → (Fin (n 1)) → (Fin (n 0)) → (Fin (n 0)) → K) (eri : (Fin (n 0)) → (Fin (n 0)) → (Fin (n 1)) → (Fin (n 1)) → K) :
    Computes cc_energy_d
      [.four t 1 1 0 0 t2, .four i 0 0 1 1 eri]
      [.num (i || t) (CC.cc_energy_d t2 eri)] :=
  computes C42_cc_energy_d (by cases i <;> cases t <;> krfl) (by krfl)

theorem C53_cc_energy_s1 {i t : Bool} (t1 : (Fin (n 1)) → (Fin (n 0)) → K) (f : (Fin (n 0)) → (Fin (n 1)) → K) :
    Computes cc_energy_s1
      [.two t 1 0 t1, .two i 0 1 f]
      [.num (i || t) (CC.cc_energy_s1 t1 f)] :=
  computes C42_cc_energy_s1 (by cases i <;> cases t <;> krfl) (by krfl)

theorem C53_cc_energy_s2 {i t : Bool} (t1 : (Fin (n 1)) → (Fin (n 0)) → K) (eri : (Fin (n 0)) → (Fin (n 0)) → (Fin (n 1)) → (Fin (n 1)) → K) :
    Computes cc_energy_s2
      [.two t 1 0 t1, .four i 0 0 1 1 eri]
      [.num (i || t) (CC.cc_energy_s2 t1 eri)] :=
  computes C42_cc_energy_s2 (by cases i <;> cases t <;> krfl) (by krfl)

theorem C53_cc_energy_s2_a {i t : Bool} (t11 : (Fin (n 1)) → (Fin (n 0)) → K) (t12 : (Fin (n 1)) → (Fin (n 0)) → K) (eri : (Fin (n 0)) → (Fin (n 0)) → (Fin (n 1)) → (Fin (n 1)) → K) :
    Computes cc_energy_s2_a
      [.two t 1 0 t11, .two t 1 0 t12, .four i 0 0 1 1 eri]
      [.num (i || t) (CC.cc_energy_s2_a t11 t12 eri)] :=
  computes C42_cc_energy_s2_a (by cases i <;> cases t <;> krfl) (by krfl)

theorem C53_cc_energy {i t : Bool} (t1 : (Fin (n 1)) → (Fin (n 0)) → K) (t2 : (Fin (n 1)) → (Fin (n 1)) → (Fin (n 0)) → (Fin (n 0)) → K) (f : (Fin (n 0)) → (Fin (n 1)) → K) (eri : (Fin (n 0)) → (Fin (n 0)) → (Fin (n 1)) → (Fin (n 1)) → K) :
    Computes cc_energy
      [.two t 1 0 t1, .four t 1 1 0 0 t2, .two i 0 1 f, .four i 0 0 1 1 eri]
      [.num (i || t) (CC.cc_energy t1 t2 f eri)] :=
  computes C42_cc_energy (by cases i <;> cases t <;> krfl) (by krfl)

theorem C53_mp2_energy {i t : Bool} (t1 : (Fin (n 1)) → (Fin (n 0)) → K) (t2 : (Fin (n 1)) → (Fin (n 1)) → (Fin (n 0)) → (Fin (n 0)) → K) (f : (Fin (n 0)) → (Fin (n 1)) → K) (eri : (Fin (n 0)) → (Fin (n 0)) → (Fin (n 1)) → (Fin (n 1)) → K) :
    Computes mp2_energy
      [.two t 1 0 t1, .four t 1 1 0 0 t2, .two i 0 1 f, .four i 0 0 1 1 eri]
      [.num (i || t) (CC.mp2_energy t1 t2 f eri)] :=
  computes C42_mp2_energy (by cases i <;> cases t <;> krfl) (by krfl)

theorem C53_lccd_simple {i t : Bool} (ht : t = true → i = true) (F : OneE (Fin (n 0)) (Fin (n 1)) K) (I : TwoE (Fin (n 0)) (Fin (n 1)) K) (T2old : (Fin (n 1)) → (Fin (n 1)) → (Fin (n 0)) → (Fin (n 0)) → K) :
    Computes lccd_simple
      [.two i 0 0 F.oo, .two i 1 1 F.vv, .four i 0 0 0 0 I.oooo, .four i 1 0 1 0 I.vovo, .four i 1 1 0 0 I.vvoo, .four i 1 1 1 1 I.vvvv, .four t 1 1 0 0 T2old]
      [.four i 1 1 0 0 (CC.lccd_simple F I T2old)] :=
  computes C42_lccd_simple (by cases i <;> cases t <;> first | exact absurd (ht rfl) Bool.false_ne_true | krfl) (by krfl)

theorem C54_lccd_simple (F : OneE (Fin (n 0)) (Fin (n 1)) K) (I : TwoE (Fin (n 0)) (Fin (n 1)) K) (T2old : (Fin (n 1)) → (Fin (n 1)) → (Fin (n 0)) → (Fin (n 0)) → K) :
    RaisesCast lccd_simple
      [.two false 0 0 F.oo, .two false 1 1 F.vv, .four false 0 0 0 0 I.oooo, .four false 1 0 1 0 I.vovo, .four false 1 1 0 0 I.vvoo, .four false 1 1 1 1 I.vvvv, .four true 1 1 0 0 T2old] :=
  raisesCast fun w => by cases w <;> krfl

theorem C53_lccsd_simple {i t : Bool} (ht : t = true → i = true) (F : OneE (Fin (n 0)) (Fin (n 1)) K) (I : TwoE (Fin (n 0)) (Fin (n 1)) K) (T1old : (Fin (n 1)) → (Fin (n 0)) → K) (T2old : (Fin (n 1)) → (Fin (n 1)) → (Fin (n 0)) → (Fin (n 0)) → K) :
    Computes lccsd_simple
      [.two i 0 0 F.oo, .two i 0 1 F.ov, .two i 1 0 F.vo, .two i 1 1 F.vv, .four i 0 0 0 0 I.oooo, .four i 0 0 0 1 I.ooov, .four i 1 0 0 0 I.vooo, .four i 1 0 1 0 I.vovo, .four i 1 0 1 1 I.vovv, .four i 1 1 0 0 I.vvoo, .four i 1 1 1 0 I.vvvo, .four i 1 1 1 1 I.vvvv, .two t 1 0 T1old, .four t 1 1 0 0 T2old]
      [.two i 1 0 (CC.lccsd_simple F I T1old T2old).1, .four i 1 1 0 0 (CC.lccsd_simple F I T1old T2old).2] :=
  computes C42_lccsd_simple (by cases i <;> cases t <;> first | exact absurd (ht rfl) Bool.false_ne_true | krfl) (by krfl)

theorem C54_lccsd_simple (F : OneE (Fin (n 0)) (Fin (n 1)) K) (I : TwoE (Fin (n 0)) (Fin (n 1)) K) (T1old : (Fin (n 1)) → (Fin (n 0)) → K) (T2old : (Fin (n 1)) → (Fin (n 1)) → (Fin (n 0)) → (Fin (n 0)) → K) :
    RaisesCast lccsd_simple
      [.two false 0 0 F.oo, .two false 0 1 F.ov, .two false 1 0 F.vo, .two false 1 1 F.vv, .four false 0 0 0 0 I.oooo, .four false 0 0 0 1 I.ooov, .four false 1 0 0 0 I.vooo, .four false 1 0 1 0 I.vovo, .four false 1 0 1 1 I.vovv, .four false 1 1 0 0 I.vvoo, .four false 1 1 1 0 I.vvvo, .four false 1 1 1 1 I.vvvv, .two true 1 0 T1old, .four true 1 1 0 0 T2old] :=
  raisesCast fun w => by cases w <;> krfl

theorem C53_ccd_simple {i t : Bool} (ht : t = true → i = true) (F : OneE (Fin (n 0)) (Fin (n 1)) K) (I : TwoE (Fin (n 0)) (Fin (n 1)) K) (T2old : (Fin (n 1)) → (Fin (n 1)) → (Fin (n 0)) → (Fin (n 0)) → K) :
    Computes ccd_simple
      [.two i 0 0 F.oo, .two i 1 1 F.vv, .four i 0 0 0 0 I.oooo, .four i 0 0 1 1 I.oovv, .four i 1 0 1 0 I.vovo, .four i 1 1 0 0 I.vvoo, .four i 1 1 1 1 I.vvvv, .four t 1 1 0 0 T2old]
      [.four i 1 1 0 0 (CC.ccd_simple F I T2old)] :=
  computes C42_ccd_simple (by cases i <;> cases t <;> first | exact absurd (ht rfl) Bool.false_ne_true | krfl) (by krfl)

theorem C54_ccd_simple (F : OneE (Fin (n 0)) (Fin (n 1)) K) (I : TwoE (Fin (n 0)) (Fin (n 1)) K) (T2old : (Fin (n 1)) → (Fin (n 1)) → (Fin (n 0)) → (Fin (n 0)) → K) :
    RaisesCast ccd_simple
      [.two false 0 0 F.oo, .two false 1 1 F.vv, .four false 0 0 0 0 I.oooo, .four false 0 0 1 1 I.oovv, .four false 1 0 1 0 I.vovo, .four false 1 1 0 0 I.vvoo, .four false 1 1 1 1 I.vvvv, .four true 1 1 0 0 T2old] :=
  raisesCast fun w => by cases w <;> krfl

theorem C53_ccd_ladder_simple {i t : Bool} (ht : t = true → i = true) (I : TwoE (Fin (n 0)) (Fin (n 1)) K) (T2old : (Fin (n 1)) → (Fin (n 1)) → (Fin (n 0)) → (Fin (n 0)) → K) :
    Computes ccd_ladder_simple
      [.four i 0 0 0 0 I.oooo, .four i 0 0 1 1 I.oovv, .four i 1 1 0 0 I.vvoo, .four i 1 1 1 1 I.vvvv, .four t 1 1 0 0 T2old]
      [.four i 1 1 0 0 (CC.ccd_ladder_simple I T2old)] :=
  computes C42_ccd_ladder_simple (by cases i <;> cases t <;> first | exact absurd (ht rfl) Bool.false_ne_true | krfl) (by krfl)

theorem C54_ccd_ladder_simple (I : TwoE (Fin (n 0)) (Fin (n 1)) K) (T2old : (Fin (n 1)) → (Fin (n 1)) → (Fin (n 0)) → (Fin (n 0)) → K) :
    RaisesCast ccd_ladder_simple
      [.four false 0 0 0 0 I.oooo, .four false 0 0 1 1 I.oovv, .four false 1 1 0 0 I.vvoo, .four false 1 1 1 1 I.vvvv, .four true 1 1 0 0 T2old] :=
  raisesCast fun w => by cases w <;> krfl

theorem C53_ccd_ring_simple {i t : Bool} (ht : t = true → i = true) (I : TwoE (Fin (n 0)) (Fin (n 1)) K) (T2old : (Fin (n 1)) → (Fin (n 1)) → (Fin (n 0)) → (Fin (n 0)) → K) :
    Computes ccd_ring_simple
      [.four i 0 0 1 1 I.oovv, .four i 1 0 1 0 I.vovo, .four i 1 1 0 0 I.vvoo, .four t 1 1 0 0 T2old]
      [.four i 1 1 0 0 (CC.ccd_ring_simple I T2old)] :=
  computes C42_ccd_ring_simple (by cases i <;> cases t <;> first | exact absurd (ht rfl) Bool.false_ne_true | krfl) (by krfl)

theorem C54_ccd_ring_simple (I : TwoE (Fin (n 0)) (Fin (n 1)) K) (T2old : (Fin (n 1)) → (Fin (n 1)) → (Fin (n 0)) → (Fin (n 0)) → K) :
    RaisesCast ccd_ring_simple
      [.four false 0 0 1 1 I.oovv, .four false 1 0 1 0 I.vovo, .four false 1 1 0 0 I.vvoo, .four true 1 1 0 0 T2old] :=
  raisesCast fun w => by cases w <;> krfl

theorem C53_ccsd_simple {i t : Bool} (ht : t = true → i = true) (F : OneE (Fin (n 0)) (Fin (n 1)) K) (I : TwoE (Fin (n 0)) (Fin (n 1)) K) (T1old : (Fin (n 1)) → (Fin (n 0)) → K) (T2old : (Fin (n 1)) → (Fin (n 1)) → (Fin (n 0)) → (Fin (n 0)) → K) :
    Computes ccsd_simple
      [.two i 0 0 F.oo, .two i 0 1 F.ov, .two i 1 0 F.vo, .two i 1 1 F.vv, .four i 0 0 0 0 I.oooo, .four i 0 0 0 1 I.ooov, .four i 0 0 1 1 I.oovv, .four i 1 0 0 0 I.vooo, .four i 1 0 1 0 I.vovo, .four i 1 0 1 1 I.vovv, .four i 1 1 0 0 I.vvoo, .four i 1 1 1 0 I.vvvo, .four i 1 1 1 1 I.vvvv, .two t 1 0 T1old, .four t 1 1 0 0 T2old]
      [.two i 1 0 (CC.ccsd_simple F I T1old T2old).1, .four i 1 1 0 0 (CC.ccsd_simple F I T1old T2old).2] :=
  computes C42_ccsd_simple (by cases i <;> cases t <;> first | exact absurd (ht rfl) Bool.false_ne_true | krfl) (by krfl)

theorem C54_ccsd_simple (F : OneE (Fin (n 0)) (Fin (n 1)) K) (I : TwoE (Fin (n 0)) (Fin (n 1)) K) (T1old : (Fin (n 1)) → (Fin (n 0)) → K) (T2old : (Fin (n 1)) → (Fin (n 1)) → (Fin (n 0)) → (Fin (n 0)) → K) :
    RaisesCast ccsd_simple
      [.two false 0 0 F.oo, .two false 0 1 F.ov, .two false 1 0 F.vo, .two false 1 1 F.vv, .four false 0 0 0 0 I.oooo, .four false 0 0 0 1 I.ooov, .four false 0 0 1 1 I.oovv, .four false 1 0 0 0 I.vooo, .four false 1 0 1 0 I.vovo, .four false 1 0 1 1 I.vovv, .four false 1 1 0 0 I.vvoo, .four false 1 1 1 0 I.vvvo, .four false 1 1 1 1 I.vvvv, .two true 1 0 T1old, .four true 1 1 0 0 T2old] :=
  raisesCast fun w => by cases w <;> krfl

theorem C53_ccsd_stanton {i t : Bool} (ht : t = true → i = true) (F : OneE (Fin (n 0)) (Fin (n 1)) K) (I : TwoE (Fin (n 0)) (Fin (n 1)) K) (T1old : (Fin (n 1)) → (Fin (n 0)) → K) (T2old : (Fin (n 1)) → (Fin (n 1)) → (Fin (n 0)) → (Fin (n 0)) → K) :
    Computes ccsd_stanton
      [.two i 0 0 F.oo, .two i 0 1 F.ov, .two i 1 0 F.vo, .two i 1 1 F.vv, .four i 0 0 0 0 I.oooo, .four i 0 0 0 1 I.ooov, .four i 0 0 1 1 I.oovv, .four i 1 0 0 0 I.vooo, .four i 1 0 1 0 I.vovo, .four i 1 0 1 1 I.vovv, .four i 1 1 0 0 I.vvoo, .four i 1 1 1 0 I.vvvo, .four i 1 1 1 1 I.vvvv, .two t 1 0 T1old, .four t 1 1 0 0 T2old]
      [.two i 1 0 (CC.ccsd_stanton F I T1old T2old).1, .four i 1 1 0 0 (CC.ccsd_stanton F I T1old T2old).2] :=
  computes C42_ccsd_stanton (by cases i <;> cases t <;> first | exact absurd (ht rfl) Bool.false_ne_true | krfl) (by krfl)

theorem C54_ccsd_stanton (F : OneE (Fin (n 0)) (Fin (n 1)) K) (I : TwoE (Fin (n 0)) (Fin (n 1)) K) (T1old : (Fin (n 1)) → (Fin (n 0)) → K) (T2old : (Fin (n 1)) → (Fin (n 1)) → (Fin (n 0)) → (Fin (n 0)) → K) :
    RaisesCast ccsd_stanton
      [.two false 0 0 F.oo, .two false 0 1 F.ov, .two false 1 0 F.vo, .two false 1 1 F.vv, .four false 0 0 0 0 I.oooo, .four false 0 0 0 1 I.ooov, .four false 0 0 1 1 I.oovv, .four false 1 0 0 0 I.vooo, .four false 1 0 1 0 I.vovo, .four false 1 0 1 1 I.vovv, .four false 1 1 0 0 I.vvoo, .four false 1 1 1 0 I.vvvo, .four false 1 1 1 1 I.vvvv, .two true 1 0 T1old, .four true 1 1 0 0 T2old] :=
  raisesCast fun w => by cases w <;> krfl

theorem C53_ccd_stanton {i t : Bool} (ht : t = true → i = true) (F : OneE (Fin (n 0)) (Fin (n 1)) K) (I : TwoE (Fin (n 0)) (Fin (n 1)) K) (T2old : (Fin (n 1)) → (Fin (n 1)) → (Fin (n 0)) → (Fin (n 0)) → K) :
    Computes ccd_stanton
      [.two i 0 0 F.oo, .two i 1 1 F.vv, .four i 0 0 0 0 I.oooo, .four i 0 0 1 1 I.oovv, .four i 1 0 1 0 I.vovo, .four i 1 1 0 0 I.vvoo, .four i 1 1 1 1 I.vvvv, .four t 1 1 0 0 T2old]
      [.four i 1 1 0 0 (CC.ccd_stanton F I T2old)] :=
  computes C42_ccd_stanton (by cases i <;> cases t <;> first | exact absurd (ht rfl) Bool.false_ne_true | krfl) (by krfl)

theorem C54_ccd_stanton (F : OneE (Fin (n 0)) (Fin (n 1)) K) (I : TwoE (Fin (n 0)) (Fin (n 1)) K) (T2old : (Fin (n 1)) → (Fin (n 1)) → (Fin (n 0)) → (Fin (n 0)) → K) :
    RaisesCast ccd_stanton
      [.two false 0 0 F.oo, .two false 1 1 F.vv, .four false 0 0 0 0 I.oooo, .four false 0 0 1 1 I.oovv, .four false 1 0 1 0 I.vovo, .four false 1 1 0 0 I.vvoo, .four false 1 1 1 1 I.vvvv, .four true 1 1 0 0 T2old] :=
  raisesCast fun w => by cases w <;> krfl

theorem C53_lambda_int {i t : Bool} (F : OneE (Fin (n 0)) (Fin (n 1)) K) (I : TwoE (Fin (n 0)) (Fin (n 1)) K) (T1old : (Fin (n 1)) → (Fin (n 0)) → K) (T2old : (Fin (n 1)) → (Fin (n 1)) → (Fin (n 0)) → (Fin (n 0)) → K) :
    Computes lambda_int
      [.two i 0 0 F.oo, .two i 0 1 F.ov, .two i 1 1 F.vv, .four i 0 0 0 0 I.oooo, .four i 0 0 0 1 I.ooov, .four i 0 0 1 1 I.oovv, .four i 1 0 0 0 I.vooo, .four i 1 0 1 0 I.vovo, .four i 1 0 1 1 I.vovv, .four i 1 1 1 0 I.vvvo, .four i 1 1 1 1 I.vvvv, .two t 1 0 T1old, .four t 1 1 0 0 T2old]
      [.four (i || t) 0 0 0 1 (CC.lambda_int F I T1old T2old).IooovT, .four (i || t) 1 0 1 1 (CC.lambda_int F I T1old T2old).IvovvT, .two (i || t) 0 1 (CC.lambda_int F I T1old T2old).IovT, .two (i || t) 0 0 (CC.lambda_int F I T1old T2old).IToo, .two (i || t) 1 1 (CC.lambda_int F I T1old T2old).ITvv, .four (i || t) 1 0 1 0 (CC.lambda_int F I T1old T2old).ITvovo, .four (i || t) 0 0 1 1 (CC.lambda_int F I T1old T2old).IToovv, .four (i || t) 1 0 0 0 (CC.lambda_int F I T1old T2old).ITvooo, .four (i || t) 1 1 1 0 (CC.lambda_int F I T1old T2old).ITvvvo, .two (i || t) 0 1 (CC.lambda_int F I T1old T2old).ITov, .four (i || t) 1 0 1 1 (CC.lambda_int F I T1old T2old).ITvovv, .four (i || t) 0 0 0 1 (CC.lambda_int F I T1old T2old).ITooov, .four (i || t) 1 0 1 0 (CC.lambda_int F I T1old T2old).ITvovo2, .four (i || t) 1 1 1 1 (CC.lambda_int F I T1old T2old).ITvvvv, .four (i || t) 0 0 0 0 (CC.lambda_int F I T1old T2old).IToooo, .four (i || t) 0 0 1 1 (CC.lambda_int F I T1old T2old).IToovv2] :=
  computes C42_lambda_int (by cases i <;> cases t <;> krfl) (by krfl)

theorem C53_ccd_lambda_simple {i l t : Bool} (ht : t = true → i = true) (hl : l = true → i = true) (F : OneE (Fin (n 0)) (Fin (n 1)) K) (I : TwoE (Fin (n 0)) (Fin (n 1)) K) (L2old : (Fin (n 0)) → (Fin (n 0)) → (Fin (n 1)) → (Fin (n 1)) → K) (T2old : (Fin (n 1)) → (Fin (n 1)) → (Fin (n 0)) → (Fin (n 0)) → K) :
    Computes ccd_lambda_simple
      [.two i 0 0 F.oo, .two i 1 1 F.vv, .four i 0 0 0 0 I.oooo, .four i 0 0 1 1 I.oovv, .four i 1 0 1 0 I.vovo, .four i 1 1 1 1 I.vvvv, .four l 0 0 1 1 L2old, .four t 1 1 0 0 T2old]
      [.four i 0 0 1 1 (CC.ccd_lambda_simple F I L2old T2old)] :=
  computes C42_ccd_lambda_simple (by cases i <;> cases l <;> cases t <;> first | exact absurd (ht rfl) Bool.false_ne_true | exact absurd (hl rfl) Bool.false_ne_true | krfl) (by krfl)

theorem C54_ccd_lambda_simple_t {l : Bool} (F : OneE (Fin (n 0)) (Fin (n 1)) K) (I : TwoE (Fin (n 0)) (Fin (n 1)) K) (L2old : (Fin (n 0)) → (Fin (n 0)) → (Fin (n 1)) → (Fin (n 1)) → K) (T2old : (Fin (n 1)) → (Fin (n 1)) → (Fin (n 0)) → (Fin (n 0)) → K) :
    RaisesCast ccd_lambda_simple
      [.two false 0 0 F.oo, .two false 1 1 F.vv, .four false 0 0 0 0 I.oooo, .four false 0 0 1 1 I.oovv, .four false 1 0 1 0 I.vovo, .four false 1 1 1 1 I.vvvv, .four l 0 0 1 1 L2old, .four true 1 1 0 0 T2old] :=
  raisesCast fun w => by cases w <;> cases l <;> krfl

theorem C54_ccd_lambda_simple_l {t : Bool} (F : OneE (Fin (n 0)) (Fin (n 1)) K) (I : TwoE (Fin (n 0)) (Fin (n 1)) K) (L2old : (Fin (n 0)) → (Fin (n 0)) → (Fin (n 1)) → (Fin (n 1)) → K) (T2old : (Fin (n 1)) → (Fin (n 1)) → (Fin (n 0)) → (Fin (n 0)) → K) :
    RaisesCast ccd_lambda_simple
      [.two false 0 0 F.oo, .two false 1 1 F.vv, .four false 0 0 0 0 I.oooo, .four false 0 0 1 1 I.oovv, .four false 1 0 1 0 I.vovo, .four false 1 1 1 1 I.vvvv, .four true 0 0 1 1 L2old, .four t 1 1 0 0 T2old] :=
  raisesCast fun w => by cases w <;> cases t <;> krfl

theorem C53_ccsd_lambda_opt {i l t : Bool} (ht : t = true → i = true) (hl : l = true → i = true) (F : OneE (Fin (n 0)) (Fin (n 1)) K) (I : TwoE (Fin (n 0)) (Fin (n 1)) K) (L1old : (Fin (n 0)) → (Fin (n 1)) → K) (L2old : (Fin (n 0)) → (Fin (n 0)) → (Fin (n 1)) → (Fin (n 1)) → K) (T1old : (Fin (n 1)) → (Fin (n 0)) → K) (T2old : (Fin (n 1)) → (Fin (n 1)) → (Fin (n 0)) → (Fin (n 0)) → K) :
    Computes ccsd_lambda_opt
      [.two i 0 0 F.oo, .two i 0 1 F.ov, .two i 1 1 F.vv, .four i 0 0 0 0 I.oooo, .four i 0 0 0 1 I.ooov, .four i 0 0 1 1 I.oovv, .four i 1 0 0 0 I.vooo, .four i 1 0 1 0 I.vovo, .four i 1 0 1 1 I.vovv, .four i 1 1 1 0 I.vvvo, .four i 1 1 1 1 I.vvvv, .two l 0 1 L1old, .four l 0 0 1 1 L2old, .two t 1 0 T1old, .four t 1 1 0 0 T2old]
      [.two i 0 1 (CC.ccsd_lambda_opt F I L1old L2old T1old T2old).1, .four i 0 0 1 1 (CC.ccsd_lambda_opt F I L1old L2old T1old T2old).2] :=
  computes C42_ccsd_lambda_opt (by cases i <;> cases l <;> cases t <;> first | exact absurd (ht rfl) Bool.false_ne_true | exact absurd (hl rfl) Bool.false_ne_true | krfl) (by krfl)

theorem C54_ccsd_lambda_opt_t {l : Bool} (F : OneE (Fin (n 0)) (Fin (n 1)) K) (I : TwoE (Fin (n 0)) (Fin (n 1)) K) (L1old : (Fin (n 0)) → (Fin (n 1)) → K) (L2old : (Fin (n 0)) → (Fin (n 0)) → (Fin (n 1)) → (Fin (n 1)) → K) (T1old : (Fin (n 1)) → (Fin (n 0)) → K) (T2old : (Fin (n 1)) → (Fin (n 1)) → (Fin (n 0)) → (Fin (n 0)) → K) :
    RaisesCast ccsd_lambda_opt
      [.two false 0 0 F.oo, .two false 0 1 F.ov, .two false 1 1 F.vv, .four false 0 0 0 0 I.oooo, .four false 0 0 0 1 I.ooov, .four false 0 0 1 1 I.oovv, .four false 1 0 0 0 I.vooo, .four false 1 0 1 0 I.vovo, .four false 1 0 1 1 I.vovv, .four false 1 1 1 0 I.vvvo, .four false 1 1 1 1 I.vvvv, .two l 0 1 L1old, .four l 0 0 1 1 L2old, .two true 1 0 T1old, .four true 1 1 0 0 T2old] :=
  raisesCast fun w => by cases w <;> cases l <;> krfl

theorem C54_ccsd_lambda_opt_l {t : Bool} (F : OneE (Fin (n 0)) (Fin (n 1)) K) (I : TwoE (Fin (n 0)) (Fin (n 1)) K) (L1old : (Fin (n 0)) → (Fin (n 1)) → K) (L2old : (Fin (n 0)) → (Fin (n 0)) → (Fin (n 1)) → (Fin (n 1)) → K) (T1old : (Fin (n 1)) → (Fin (n 0)) → K) (T2old : (Fin (n 1)) → (Fin (n 1)) → (Fin (n 0)) → (Fin (n 0)) → K) :
    RaisesCast ccsd_lambda_opt
      [.two false 0 0 F.oo, .two false 0 1 F.ov, .two false 1 1 F.vv, .four false 0 0 0 0 I.oooo, .four false 0 0 0 1 I.ooov, .four false 0 0 1 1 I.oovv, .four false 1 0 0 0 I.vooo, .four false 1 0 1 0 I.vovo, .four false 1 0 1 1 I.vovv, .four false 1 1 1 0 I.vvvo, .four false 1 1 1 1 I.vvvv, .two true 0 1 L1old, .four true 0 0 1 1 L2old, .two t 1 0 T1old, .four t 1 1 0 0 T2old] :=
  raisesCast fun w => by cases w <;> cases t <;> krfl

theorem C53_ccsd_lambda_stanton {i l t : Bool} (ht : t = true → i = true) (hl : l = true → i = true) (F : OneE (Fin (n 0)) (Fin (n 1)) K) (I : TwoE (Fin (n 0)) (Fin (n 1)) K) (L1old : (Fin (n 0)) → (Fin (n 1)) → K) (L2old : (Fin (n 0)) → (Fin (n 0)) → (Fin (n 1)) → (Fin (n 1)) → K) (T1old : (Fin (n 1)) → (Fin (n 0)) → K) (T2old : (Fin (n 1)) → (Fin (n 1)) → (Fin (n 0)) → (Fin (n 0)) → K) :
    Computes ccsd_lambda_stanton
      [.two i 0 0 F.oo, .two i 0 1 F.ov, .two i 1 1 F.vv, .four i 0 0 0 0 I.oooo, .four i 0 0 0 1 I.ooov, .four i 0 0 1 1 I.oovv, .four i 1 0 0 0 I.vooo, .four i 1 0 1 0 I.vovo, .four i 1 0 1 1 I.vovv, .four i 1 1 1 0 I.vvvo, .four i 1 1 1 1 I.vvvv, .two l 0 1 L1old, .four l 0 0 1 1 L2old, .two t 1 0 T1old, .four t 1 1 0 0 T2old]
      [.two i 0 1 (CC.ccsd_lambda_stanton F I L1old L2old T1old T2old).1, .four i 0 0 1 1 (CC.ccsd_lambda_stanton F I L1old L2old T1old T2old).2] :=
  computes C42_ccsd_lambda_stanton (by cases i <;> cases l <;> cases t <;> first | exact absurd (ht rfl) Bool.false_ne_true | exact absurd (hl rfl) Bool.false_ne_true | krfl) (by krfl)

theorem C54_ccsd_lambda_stanton_t {l : Bool} (F : OneE (Fin (n 0)) (Fin (n 1)) K) (I : TwoE (Fin (n 0)) (Fin (n 1)) K) (L1old : (Fin (n 0)) → (Fin (n 1)) → K) (L2old : (Fin (n 0)) → (Fin (n 0)) → (Fin (n 1)) → (Fin (n 1)) → K) (T1old : (Fin (n 1)) → (Fin (n 0)) → K) (T2old : (Fin (n 1)) → (Fin (n 1)) → (Fin (n 0)) → (Fin (n 0)) → K) :
    RaisesCast ccsd_lambda_stanton
      [.two false 0 0 F.oo, .two false 0 1 F.ov, .two false 1 1 F.vv, .four false 0 0 0 0 I.oooo, .four false 0 0 0 1 I.ooov, .four false 0 0 1 1 I.oovv, .four false 1 0 0 0 I.vooo, .four false 1 0 1 0 I.vovo, .four false 1 0 1 1 I.vovv, .four false 1 1 1 0 I.vvvo, .four false 1 1 1 1 I.vvvv, .two l 0 1 L1old, .four l 0 0 1 1 L2old, .two true 1 0 T1old, .four true 1 1 0 0 T2old] :=
  raisesCast fun w => by cases w <;> cases l <;> krfl

theorem C54_ccsd_lambda_stanton_l {t : Bool} (F : OneE (Fin (n 0)) (Fin (n 1)) K) (I : TwoE (Fin (n 0)) (Fin (n 1)) K) (L1old : (Fin (n 0)) → (Fin (n 1)) → K) (L2old : (Fin (n 0)) → (Fin (n 0)) → (Fin (n 1)) → (Fin (n 1)) → K) (T1old : (Fin (n 1)) → (Fin (n 0)) → K) (T2old : (Fin (n 1)) → (Fin (n 1)) → (Fin (n 0)) → (Fin (n 0)) → K) :
    RaisesCast ccsd_lambda_stanton
      [.two false 0 0 F.oo, .two false 0 1 F.ov, .two false 1 1 F.vv, .four false 0 0 0 0 I.oooo, .four false 0 0 0 1 I.ooov, .four false 0 0 1 1 I.oovv, .four false 1 0 0 0 I.vooo, .four false 1 0 1 0 I.vovo, .four false 1 0 1 1 I.vovv, .four false 1 1 1 0 I.vvvo, .four false 1 1 1 1 I.vvvv, .two true 0 1 L1old, .four true 0 0 1 1 L2old, .two t 1 0 T1old, .four t 1 1 0 0 T2old] :=
  raisesCast fun w => by cases w <;> cases t <;> krfl

theorem C53_ccsd_lambda_opt_int {i l p t : Bool} (ht : t = true → i = true) (hl : l = true → i = true) (hp : p = true → i = true) (F : OneE (Fin (n 0)) (Fin (n 1)) K) (I : TwoE (Fin (n 0)) (Fin (n 1)) K) (L1old : (Fin (n 0)) → (Fin (n 1)) → K) (L2old : (Fin (n 0)) → (Fin (n 0)) → (Fin (n 1)) → (Fin (n 1)) → K) (T1old : (Fin (n 1)) → (Fin (n 0)) → K) (T2old : (Fin (n 1)) → (Fin (n 1)) → (Fin (n 0)) → (Fin (n 0)) → K) (intor : LambdaInt (Fin (n 0)) (Fin (n 1)) K) :
    Computes ccsd_lambda_opt_int
      [.two i 0 1 F.ov, .four i 0 0 0 1 I.ooov, .four i 0 0 1 1 I.oovv, .four i 1 0 1 1 I.vovv, .two l 0 1 L1old, .four l 0 0 1 1 L2old, .two t 1 0 T1old, .four t 1 1 0 0 T2old, .two p 0 0 intor.IToo, .four p 0 0 0 0 intor.IToooo, .four p 0 0 0 1 intor.ITooov, .four p 0 0 1 1 intor.IToovv, .four p 0 0 1 1 intor.IToovv2, .two p 0 1 intor.ITov, .four p 1 0 0 0 intor.ITvooo, .four p 1 0 1 0 intor.ITvovo, .four p 1 0 1 0 intor.ITvovo2, .four p 1 0 1 1 intor.ITvovv, .two p 1 1 intor.ITvv, .four p 1 1 1 0 intor.ITvvvo, .four p 1 1 1 1 intor.ITvvvv, .four p 0 0 0 1 intor.IooovT, .four p 1 0 1 1 intor.IvovvT]
      [.two i 0 1 (CC.ccsd_lambda_opt_int F I L1old L2old T1old T2old intor).1, .four i 0 0 1 1 (CC.ccsd_lambda_opt_int F I L1old L2old T1old T2old intor).2] :=
  computes C42_ccsd_lambda_opt_int (by cases i <;> cases l <;> cases p <;> cases t <;> first | exact absurd (ht rfl) Bool.false_ne_true | exact absurd (hl rfl) Bool.false_ne_true | exact absurd (hp rfl) Bool.false_ne_true | krfl) (by krfl)

theorem C54_ccsd_lambda_opt_int_t {l p : Bool} (F : OneE (Fin (n 0)) (Fin (n 1)) K) (I : TwoE (Fin (n 0)) (Fin (n 1)) K) (L1old : (Fin (n 0)) → (Fin (n 1)) → K) (L2old : (Fin (n 0)) → (Fin (n 0)) → (Fin (n 1)) → (Fin (n 1)) → K) (T1old : (Fin (n 1)) → (Fin (n 0)) → K) (T2old : (Fin (n 1)) → (Fin (n 1)) → (Fin (n 0)) → (Fin (n 0)) → K) (intor : LambdaInt (Fin (n 0)) (Fin (n 1)) K) :
    RaisesCast ccsd_lambda_opt_int
      [.two false 0 1 F.ov, .four false 0 0 0 1 I.ooov, .four false 0 0 1 1 I.oovv, .four false 1 0 1 1 I.vovv, .two l 0 1 L1old, .four l 0 0 1 1 L2old, .two true 1 0 T1old, .four true 1 1 0 0 T2old, .two p 0 0 intor.IToo, .four p 0 0 0 0 intor.IToooo, .four p 0 0 0 1 intor.ITooov, .four p 0 0 1 1 intor.IToovv, .four p 0 0 1 1 intor.IToovv2, .two p 0 1 intor.ITov, .four p 1 0 0 0 intor.ITvooo, .four p 1 0 1 0 intor.ITvovo, .four p 1 0 1 0 intor.ITvovo2, .four p 1 0 1 1 intor.ITvovv, .two p 1 1 intor.ITvv, .four p 1 1 1 0 intor.ITvvvo, .four p 1 1 1 1 intor.ITvvvv, .four p 0 0 0 1 intor.IooovT, .four p 1 0 1 1 intor.IvovvT] :=
  raisesCast fun w => by cases w <;> cases l <;> cases p <;> krfl

theorem C54_ccsd_lambda_opt_int_l {p t : Bool} (F : OneE (Fin (n 0)) (Fin (n 1)) K) (I : TwoE (Fin (n 0)) (Fin (n 1)) K) (L1old : (Fin (n 0)) → (Fin (n 1)) → K) (L2old : (Fin (n 0)) → (Fin (n 0)) → (Fin (n 1)) → (Fin (n 1)) → K) (T1old : (Fin (n 1)) → (Fin (n 0)) → K) (T2old : (Fin (n 1)) → (Fin (n 1)) → (Fin (n 0)) → (Fin (n 0)) → K) (intor : LambdaInt (Fin (n 0)) (Fin (n 1)) K) :
    RaisesCast ccsd_lambda_opt_int
      [.two false 0 1 F.ov, .four false 0 0 0 1 I.ooov, .four false 0 0 1 1 I.oovv, .four false 1 0 1 1 I.vovv, .two true 0 1 L1old, .four true 0 0 1 1 L2old, .two t 1 0 T1old, .four t 1 1 0 0 T2old, .two p 0 0 intor.IToo, .four p 0 0 0 0 intor.IToooo, .four p 0 0 0 1 intor.ITooov, .four p 0 0 1 1 intor.IToovv, .four p 0 0 1 1 intor.IToovv2, .two p 0 1 intor.ITov, .four p 1 0 0 0 intor.ITvooo, .four p 1 0 1 0 intor.ITvovo, .four p 1 0 1 0 intor.ITvovo2, .four p 1 0 1 1 intor.ITvovv, .two p 1 1 intor.ITvv, .four p 1 1 1 0 intor.ITvvvo, .four p 1 1 1 1 intor.ITvvvv, .four p 0 0 0 1 intor.IooovT, .four p 1 0 1 1 intor.IvovvT] :=
  raisesCast fun w => by cases w <;> cases p <;> cases t <;> krfl

theorem C54_ccsd_lambda_opt_int_p {l t : Bool} (F : OneE (Fin (n 0)) (Fin (n 1)) K) (I : TwoE (Fin (n 0)) (Fin (n 1)) K) (L1old : (Fin (n 0)) → (Fin (n 1)) → K) (L2old : (Fin (n 0)) → (Fin (n 0)) → (Fin (n 1)) → (Fin (n 1)) → K) (T1old : (Fin (n 1)) → (Fin (n 0)) → K) (T2old : (Fin (n 1)) → (Fin (n 1)) → (Fin (n 0)) → (Fin (n 0)) → K) (intor : LambdaInt (Fin (n 0)) (Fin (n 1)) K) :
    RaisesCast ccsd_lambda_opt_int
      [.two false 0 1 F.ov, .four false 0 0 0 1 I.ooov, .four false 0 0 1 1 I.oovv, .four false 1 0 1 1 I.vovv, .two l 0 1 L1old, .four l 0 0 1 1 L2old, .two t 1 0 T1old, .four t 1 1 0 0 T2old, .two true 0 0 intor.IToo, .four true 0 0 0 0 intor.IToooo, .four true 0 0 0 1 intor.ITooov, .four true 0 0 1 1 intor.IToovv, .four true 0 0 1 1 intor.IToovv2, .two true 0 1 intor.ITov, .four true 1 0 0 0 intor.ITvooo, .four true 1 0 1 0 intor.ITvovo, .four true 1 0 1 0 intor.ITvovo2, .four true 1 0 1 1 intor.ITvovv, .two true 1 1 intor.ITvv, .four true 1 1 1 0 intor.ITvvvo, .four true 1 1 1 1 intor.ITvvvv, .four true 0 0 0 1 intor.IooovT, .four true 1 0 1 1 intor.IvovvT] :=
  raisesCast fun w => by cases w <;> cases l <;> cases t <;> krfl

theorem C53_ccsd_lambda_simple {i l t : Bool} (ht : t = true → i = true) (hl : l = true → i = true) (F : OneE (Fin (n 0)) (Fin (n 1)) K) (I : TwoE (Fin (n 0)) (Fin (n 1)) K) (L1old : (Fin (n 0)) → (Fin (n 1)) → K) (L2old : (Fin (n 0)) → (Fin (n 0)) → (Fin (n 1)) → (Fin (n 1)) → K) (T1old : (Fin (n 1)) → (Fin (n 0)) → K) (T2old : (Fin (n 1)) → (Fin (n 1)) → (Fin (n 0)) → (Fin (n 0)) → K) :
    Computes ccsd_lambda_simple
      [.two i 0 0 F.oo, .two i 0 1 F.ov, .two i 1 1 F.vv, .four i 0 0 0 0 I.oooo, .four i 0 0 0 1 I.ooov, .four i 0 0 1 1 I.oovv, .four i 1 0 0 0 I.vooo, .four i 1 0 1 0 I.vovo, .four i 1 0 1 1 I.vovv, .four i 1 1 1 0 I.vvvo, .four i 1 1 1 1 I.vvvv, .two l 0 1 L1old, .four l 0 0 1 1 L2old, .two t 1 0 T1old, .four t 1 1 0 0 T2old]
      [.two i 0 1 (CC.ccsd_lambda_simple F I L1old L2old T1old T2old).1, .four i 0 0 1 1 (CC.ccsd_lambda_simple F I L1old L2old T1old T2old).2] :=
  computes C42_ccsd_lambda_simple (by cases i <;> cases l <;> cases t <;> first | exact absurd (ht rfl) Bool.false_ne_true | exact absurd (hl rfl) Bool.false_ne_true | krfl) (by krfl)

theorem C54_ccsd_lambda_simple_t {l : Bool} (F : OneE (Fin (n 0)) (Fin (n 1)) K) (I : TwoE (Fin (n 0)) (Fin (n 1)) K) (L1old : (Fin (n 0)) → (Fin (n 1)) → K) (L2old : (Fin (n 0)) → (Fin (n 0)) → (Fin (n 1)) → (Fin (n 1)) → K) (T1old : (Fin (n 1)) → (Fin (n 0)) → K) (T2old : (Fin (n 1)) → (Fin (n 1)) → (Fin (n 0)) → (Fin (n 0)) → K) :
    RaisesCast ccsd_lambda_simple
      [.two false 0 0 F.oo, .two false 0 1 F.ov, .two false 1 1 F.vv, .four false 0 0 0 0 I.oooo, .four false 0 0 0 1 I.ooov, .four false 0 0 1 1 I.oovv, .four false 1 0 0 0 I.vooo, .four false 1 0 1 0 I.vovo, .four false 1 0 1 1 I.vovv, .four false 1 1 1 0 I.vvvo, .four false 1 1 1 1 I.vvvv, .two l 0 1 L1old, .four l 0 0 1 1 L2old, .two true 1 0 T1old, .four true 1 1 0 0 T2old] :=
  raisesCast fun w => by cases w <;> cases l <;> krfl

theorem C54_ccsd_lambda_simple_l {t : Bool} (F : OneE (Fin (n 0)) (Fin (n 1)) K) (I : TwoE (Fin (n 0)) (Fin (n 1)) K) (L1old : (Fin (n 0)) → (Fin (n 1)) → K) (L2old : (Fin (n 0)) → (Fin (n 0)) → (Fin (n 1)) → (Fin (n 1)) → K) (T1old : (Fin (n 1)) → (Fin (n 0)) → K) (T2old : (Fin (n 1)) → (Fin (n 1)) → (Fin (n 0)) → (Fin (n 0)) → K) :
    RaisesCast ccsd_lambda_simple
      [.two false 0 0 F.oo, .two false 0 1 F.ov, .two false 1 1 F.vv, .four false 0 0 0 0 I.oooo, .four false 0 0 0 1 I.ooov, .four false 0 0 1 1 I.oovv, .four false 1 0 0 0 I.vooo, .four false 1 0 1 0 I.vovo, .four false 1 0 1 1 I.vovv, .four false 1 1 1 0 I.vvvo, .four false 1 1 1 1 I.vvvv, .two true 0 1 L1old, .four true 0 0 1 1 L2old, .two t 1 0 T1old, .four t 1 1 0 0 T2old] :=
  raisesCast fun w => by cases w <;> cases t <;> krfl

theorem C53_ccsd_1rdm_ba {l t : Bool} (T1 : (Fin (n 1)) → (Fin (n 0)) → K) (T2 : (Fin (n 1)) → (Fin (n 1)) → (Fin (n 0)) → (Fin (n 0)) → K) (L1 : (Fin (n 0)) → (Fin (n 1)) → K) (L2 : (Fin (n 0)) → (Fin (n 0)) → (Fin (n 1)) → (Fin (n 1)) → K) :
    Computes ccsd_1rdm_ba
      [.two t 1 0 T1, .four t 1 1 0 0 T2, .two l 0 1 L1, .four l 0 0 1 1 L2]
      [.two (t || l) 1 1 (CC.ccsd_1rdm_ba T1 T2 L1 L2)] :=
  computes C42_ccsd_1rdm_ba (by cases l <;> cases t <;> krfl) (by krfl)

theorem C53_ccsd_1rdm_ji {l t : Bool} (T1 : (Fin (n 1)) → (Fin (n 0)) → K) (T2 : (Fin (n 1)) → (Fin (n 1)) → (Fin (n 0)) → (Fin (n 0)) → K) (L1 : (Fin (n 0)) → (Fin (n 1)) → K) (L2 : (Fin (n 0)) → (Fin (n 0)) → (Fin (n 1)) → (Fin (n 1)) → K) :
    Computes ccsd_1rdm_ji
      [.two t 1 0 T1, .four t 1 1 0 0 T2, .two l 0 1 L1, .four l 0 0 1 1 L2]
      [.two (t || l) 0 0 (CC.ccsd_1rdm_ji T1 T2 L1 L2)] :=
  computes C42_ccsd_1rdm_ji (by cases l <;> cases t <;> krfl) (by krfl)

theorem C53_ccsd_1rdm_ai {c l t : Bool} (T1 : (Fin (n 1)) → (Fin (n 0)) → K) (T2 : (Fin (n 1)) → (Fin (n 1)) → (Fin (n 0)) → (Fin (n 0)) → K) (L1 : (Fin (n 0)) → (Fin (n 1)) → K) (L2 : (Fin (n 0)) → (Fin (n 0)) → (Fin (n 1)) → (Fin (n 1)) → K) (tfac : K) :
    Computes ccsd_1rdm_ai
      [.two t 1 0 T1, .four t 1 1 0 0 T2, .two l 0 1 L1, .four l 0 0 1 1 L2, .num c tfac]
      [.two (t || l || c) 1 0 (CC.ccsd_1rdm_ai T1 T2 L1 L2 tfac)] :=
  computes C42_ccsd_1rdm_ai (by cases c <;> cases l <;> cases t <;> krfl) (by krfl)

theorem C53_ccsd_2rdm_cdab {l t : Bool} (T1 : (Fin (n 1)) → (Fin (n 0)) → K) (T2 : (Fin (n 1)) → (Fin (n 1)) → (Fin (n 0)) → (Fin (n 0)) → K) (L1 : (Fin (n 0)) → (Fin (n 1)) → K) (L2 : (Fin (n 0)) → (Fin (n 0)) → (Fin (n 1)) → (Fin (n 1)) → K) :
    Computes ccsd_2rdm_cdab
      [.two t 1 0 T1, .four t 1 1 0 0 T2, .four l 0 0 1 1 L2]
      [.four (t || l) 1 1 1 1 (CC.ccsd_2rdm_cdab T1 T2 L1 L2)] :=
  computes C42_ccsd_2rdm_cdab (by cases l <;> cases t <;> krfl) (by krfl)

theorem C53_ccsd_2rdm_ciab {l t : Bool} (T1 : (Fin (n 1)) → (Fin (n 0)) → K) (T2 : (Fin (n 1)) → (Fin (n 1)) → (Fin (n 0)) → (Fin (n 0)) → K) (L1 : (Fin (n 0)) → (Fin (n 1)) → K) (L2 : (Fin (n 0)) → (Fin (n 0)) → (Fin (n 1)) → (Fin (n 1)) → K) :
    Computes ccsd_2rdm_ciab
      [.two t 1 0 T1, .four l 0 0 1 1 L2]
      [.four (t || l) 1 0 1 1 (CC.ccsd_2rdm_ciab T1 T2 L1 L2)] :=
  computes C42_ccsd_2rdm_ciab (by cases l <;> cases t <;> krfl) (by krfl)

theorem C53_ccsd_2rdm_bcai {l t : Bool} (T1 : (Fin (n 1)) → (Fin (n 0)) → K) (T2 : (Fin (n 1)) → (Fin (n 1)) → (Fin (n 0)) → (Fin (n 0)) → K) (L1 : (Fin (n 0)) → (Fin (n 1)) → K) (L2 : (Fin (n 0)) → (Fin (n 0)) → (Fin (n 1)) → (Fin (n 1)) → K) :
    Computes ccsd_2rdm_bcai
      [.two t 1 0 T1, .four t 1 1 0 0 T2, .two l 0 1 L1, .four l 0 0 1 1 L2]
      [.four (t || l) 1 1 1 0 (CC.ccsd_2rdm_bcai T1 T2 L1 L2)] :=
  computes C42_ccsd_2rdm_bcai (by cases l <;> cases t <;> krfl) (by krfl)

theorem C53_ccsd_2rdm_bjai {l t : Bool} (T1 : (Fin (n 1)) → (Fin (n 0)) → K) (T2 : (Fin (n 1)) → (Fin (n 1)) → (Fin (n 0)) → (Fin (n 0)) → K) (L1 : (Fin (n 0)) → (Fin (n 1)) → K) (L2 : (Fin (n 0)) → (Fin (n 0)) → (Fin (n 1)) → (Fin (n 1)) → K) :
    Computes ccsd_2rdm_bjai
      [.two t 1 0 T1, .four t 1 1 0 0 T2, .two l 0 1 L1, .four l 0 0 1 1 L2]
      [.four (t || l) 1 0 1 0 (CC.ccsd_2rdm_bjai T1 T2 L1 L2)] :=
  computes C42_ccsd_2rdm_bjai (by cases l <;> cases t <;> krfl) (by krfl)

theorem C53_ccsd_2rdm_abij {c l t : Bool} (hl : l = true → (t || c) = true) (T1 : (Fin (n 1)) → (Fin (n 0)) → K) (T2 : (Fin (n 1)) → (Fin (n 1)) → (Fin (n 0)) → (Fin (n 0)) → K) (L1 : (Fin (n 0)) → (Fin (n 1)) → K) (L2 : (Fin (n 0)) → (Fin (n 0)) → (Fin (n 1)) → (Fin (n 1)) → K) (tfac : K) :
    Computes ccsd_2rdm_abij
      [.two t 1 0 T1, .four t 1 1 0 0 T2, .two l 0 1 L1, .four l 0 0 1 1 L2, .num c tfac]
      [.four (t || l || c) 1 1 0 0 (CC.ccsd_2rdm_abij T1 T2 L1 L2 tfac)] :=
  computes C42_ccsd_2rdm_abij (by cases c <;> cases l <;> cases t <;> first | exact absurd (hl rfl) Bool.false_ne_true | krfl) (by krfl)

theorem C54_ccsd_2rdm_abij (T1 : (Fin (n 1)) → (Fin (n 0)) → K) (T2 : (Fin (n 1)) → (Fin (n 1)) → (Fin (n 0)) → (Fin (n 0)) → K) (L1 : (Fin (n 0)) → (Fin (n 1)) → K) (L2 : (Fin (n 0)) → (Fin (n 0)) → (Fin (n 1)) → (Fin (n 1)) → K) (tfac : K) :
    RaisesCast ccsd_2rdm_abij
      [.two false 1 0 T1, .four false 1 1 0 0 T2, .two true 0 1 L1, .four true 0 0 1 1 L2, .num false tfac] :=
  raisesCast fun w => by cases w <;> krfl

theorem C53_ccsd_2rdm_jkai {l t : Bool} (T1 : (Fin (n 1)) → (Fin (n 0)) → K) (T2 : (Fin (n 1)) → (Fin (n 1)) → (Fin (n 0)) → (Fin (n 0)) → K) (L1 : (Fin (n 0)) → (Fin (n 1)) → K) (L2 : (Fin (n 0)) → (Fin (n 0)) → (Fin (n 1)) → (Fin (n 1)) → K) :
    Computes ccsd_2rdm_jkai
      [.two t 1 0 T1, .four l 0 0 1 1 L2]
      [.four (t || l) 0 0 1 0 (CC.ccsd_2rdm_jkai T1 T2 L1 L2)] :=
  computes C42_ccsd_2rdm_jkai (by cases l <;> cases t <;> krfl) (by krfl)

theorem C53_ccsd_2rdm_kaij {l t : Bool} (T1 : (Fin (n 1)) → (Fin (n 0)) → K) (T2 : (Fin (n 1)) → (Fin (n 1)) → (Fin (n 0)) → (Fin (n 0)) → K) (L1 : (Fin (n 0)) → (Fin (n 1)) → K) (L2 : (Fin (n 0)) → (Fin (n 0)) → (Fin (n 1)) → (Fin (n 1)) → K) :
    Computes ccsd_2rdm_kaij
      [.two t 1 0 T1, .four t 1 1 0 0 T2, .two l 0 1 L1, .four l 0 0 1 1 L2]
      [.four (t || l) 0 1 0 0 (CC.ccsd_2rdm_kaij T1 T2 L1 L2)] :=
  computes C42_ccsd_2rdm_kaij (by cases l <;> cases t <;> krfl) (by krfl)

theorem C53_ccsd_2rdm_klij {l t : Bool} (T1 : (Fin (n 1)) → (Fin (n 0)) → K) (T2 : (Fin (n 1)) → (Fin (n 1)) → (Fin (n 0)) → (Fin (n 0)) → K) (L1 : (Fin (n 0)) → (Fin (n 1)) → K) (L2 : (Fin (n 0)) → (Fin (n 0)) → (Fin (n 1)) → (Fin (n 1)) → K) :
    Computes ccsd_2rdm_klij
      [.two t 1 0 T1, .four t 1 1 0 0 T2, .four l 0 0 1 1 L2]
      [.four (t || l) 0 0 0 0 (CC.ccsd_2rdm_klij T1 T2 L1 L2)] :=
  computes C42_ccsd_2rdm_klij (by cases l <;> cases t <;> krfl) (by krfl)

theorem C53_ccsd_1rdm_ai_opt {c l t : Bool} (hl : l = true → (t || c) = true) (T1 : (Fin (n 1)) → (Fin (n 0)) → K) (T2 : (Fin (n 1)) → (Fin (n 1)) → (Fin (n 0)) → (Fin (n 0)) → K) (L1 : (Fin (n 0)) → (Fin (n 1)) → K) (L2 : (Fin (n 0)) → (Fin (n 0)) → (Fin (n 1)) → (Fin (n 1)) → K) (tfac : K) :
    Computes ccsd_1rdm_ai_opt
      [.two t 1 0 T1, .four t 1 1 0 0 T2, .two l 0 1 L1, .four l 0 0 1 1 L2, .num c tfac]
      [.two (t || l || c) 1 0 (CC.ccsd_1rdm_ai_opt T1 T2 L1 L2 tfac)] :=
  computes C42_ccsd_1rdm_ai_opt (by cases c <;> cases l <;> cases t <;> first | exact absurd (hl rfl) Bool.false_ne_true | krfl) (by krfl)

theorem C54_ccsd_1rdm_ai_opt (T1 : (Fin (n 1)) → (Fin (n 0)) → K) (T2 : (Fin (n 1)) → (Fin (n 1)) → (Fin (n 0)) → (Fin (n 0)) → K) (L1 : (Fin (n 0)) → (Fin (n 1)) → K) (L2 : (Fin (n 0)) → (Fin (n 0)) → (Fin (n 1)) → (Fin (n 1)) → K) (tfac : K) :
    RaisesCast ccsd_1rdm_ai_opt
      [.two false 1 0 T1, .four false 1 1 0 0 T2, .two true 0 1 L1, .four true 0 0 1 1 L2, .num false tfac] :=
  raisesCast fun w => by cases w <;> krfl

theorem C53_ccsd_2rdm_cdab_opt {l t : Bool} (T1 : (Fin (n 1)) → (Fin (n 0)) → K) (T2 : (Fin (n 1)) → (Fin (n 1)) → (Fin (n 0)) → (Fin (n 0)) → K) (L1 : (Fin (n 0)) → (Fin (n 1)) → K) (L2 : (Fin (n 0)) → (Fin (n 0)) → (Fin (n 1)) → (Fin (n 1)) → K) :
    Computes ccsd_2rdm_cdab_opt
      [.two t 1 0 T1, .four t 1 1 0 0 T2, .four l 0 0 1 1 L2]
      [.four (t || l) 1 1 1 1 (CC.ccsd_2rdm_cdab_opt T1 T2 L1 L2)] :=
  computes C42_ccsd_2rdm_cdab_opt (by cases l <;> cases t <;> krfl) (by krfl)

theorem C53_ccsd_2rdm_bcai_opt {l t : Bool} (T1 : (Fin (n 1)) → (Fin (n 0)) → K) (T2 : (Fin (n 1)) → (Fin (n 1)) → (Fin (n 0)) → (Fin (n 0)) → K) (L1 : (Fin (n 0)) → (Fin (n 1)) → K) (L2 : (Fin (n 0)) → (Fin (n 0)) → (Fin (n 1)) → (Fin (n 1)) → K) :
    Computes ccsd_2rdm_bcai_opt
      [.two t 1 0 T1, .four t 1 1 0 0 T2, .two l 0 1 L1, .four l 0 0 1 1 L2]
      [.four (t || l) 1 1 1 0 (CC.ccsd_2rdm_bcai_opt T1 T2 L1 L2)] :=
  computes C42_ccsd_2rdm_bcai_opt (by cases l <;> cases t <;> krfl) (by krfl)

theorem C53_ccsd_2rdm_bjai_opt {l t : Bool} (T1 : (Fin (n 1)) → (Fin (n 0)) → K) (T2 : (Fin (n 1)) → (Fin (n 1)) → (Fin (n 0)) → (Fin (n 0)) → K) (L1 : (Fin (n 0)) → (Fin (n 1)) → K) (L2 : (Fin (n 0)) → (Fin (n 0)) → (Fin (n 1)) → (Fin (n 1)) → K) :
    Computes ccsd_2rdm_bjai_opt
      [.two t 1 0 T1, .four t 1 1 0 0 T2, .two l 0 1 L1, .four l 0 0 1 1 L2]
      [.four (t || l) 1 0 1 0 (CC.ccsd_2rdm_bjai_opt T1 T2 L1 L2)] :=
  computes C42_ccsd_2rdm_bjai_opt (by cases l <;> cases t <;> krfl) (by krfl)

theorem C53_ccsd_2rdm_abij_opt {c l t : Bool} (hl : l = true → (t || c) = true) (T1 : (Fin (n 1)) → (Fin (n 0)) → K) (T2 : (Fin (n 1)) → (Fin (n 1)) → (Fin (n 0)) → (Fin (n 0)) → K) (L1 : (Fin (n 0)) → (Fin (n 1)) → K) (L2 : (Fin (n 0)) → (Fin (n 0)) → (Fin (n 1)) → (Fin (n 1)) → K) (tfac : K) :
    Computes ccsd_2rdm_abij_opt
      [.two t 1 0 T1, .four t 1 1 0 0 T2, .two l 0 1 L1, .four l 0 0 1 1 L2, .num c tfac]
      [.four (t || l || c) 1 1 0 0 (CC.ccsd_2rdm_abij_opt T1 T2 L1 L2 tfac)] :=
  computes C42_ccsd_2rdm_abij_opt (by cases c <;> cases l <;> cases t <;> first | exact absurd (hl rfl) Bool.false_ne_true | krfl) (by krfl)

theorem C54_ccsd_2rdm_abij_opt (T1 : (Fin (n 1)) → (Fin (n 0)) → K) (T2 : (Fin (n 1)) → (Fin (n 1)) → (Fin (n 0)) → (Fin (n 0)) → K) (L1 : (Fin (n 0)) → (Fin (n 1)) → K) (L2 : (Fin (n 0)) → (Fin (n 0)) → (Fin (n 1)) → (Fin (n 1)) → K) (tfac : K) :
    RaisesCast ccsd_2rdm_abij_opt
      [.two false 1 0 T1, .four false 1 1 0 0 T2, .two true 0 1 L1, .four true 0 0 1 1 L2, .num false tfac] :=
  raisesCast fun w => by cases w <;> krfl

theorem C53_ccsd_2rdm_kaij_opt {l t : Bool} (T1 : (Fin (n 1)) → (Fin (n 0)) → K) (T2 : (Fin (n 1)) → (Fin (n 1)) → (Fin (n 0)) → (Fin (n 0)) → K) (L1 : (Fin (n 0)) → (Fin (n 1)) → K) (L2 : (Fin (n 0)) → (Fin (n 0)) → (Fin (n 1)) → (Fin (n 1)) → K) :
    Computes ccsd_2rdm_kaij_opt
      [.two t 1 0 T1, .four t 1 1 0 0 T2, .two l 0 1 L1, .four l 0 0 1 1 L2]
      [.four (t || l) 0 1 0 0 (CC.ccsd_2rdm_kaij_opt T1 T2 L1 L2)] :=
  computes C42_ccsd_2rdm_kaij_opt (by cases l <;> cases t <;> krfl) (by krfl)

theorem C53_ccsd_2rdm_klij_opt {l t : Bool} (T1 : (Fin (n 1)) → (Fin (n 0)) → K) (T2 : (Fin (n 1)) → (Fin (n 1)) → (Fin (n 0)) → (Fin (n 0)) → K) (L1 : (Fin (n 0)) → (Fin (n 1)) → K) (L2 : (Fin (n 0)) → (Fin (n 0)) → (Fin (n 1)) → (Fin (n 1)) → K) :
    Computes ccsd_2rdm_klij_opt
      [.two t 1 0 T1, .four t 1 1 0 0 T2, .four l 0 0 1 1 L2]
      [.four (t || l) 0 0 0 0 (CC.ccsd_2rdm_klij_opt T1 T2 L1 L2)] :=
  computes C42_ccsd_2rdm_klij_opt (by cases l <;> cases t <;> krfl) (by krfl)

end Heap
