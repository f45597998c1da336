import Verif.Props.Overflow
import Verif.Props.NumU
import Verif.Props.NumR
/-!
# C105: range of each routine

Generated by `tools/gen_round.py`; the arguments and results are those of C53.
-/

set_option linter.unusedVariables false

namespace Heap
open Prog CC
variable {n : ℕ → ℕ} {K : Type} [RCLike K]

theorem C105_cc_energy_d {i t : Bool} (t2 : (Fin (n 1)) → (Fin (n 1)) → (Fin (n 0)) → (Fin (n 0)) → K) (eri : (Fin (n 0)) → (Fin (n 0)) → (Fin (n 1)) → (Fin (n 1)) → K) :
    InRange cc_energy_d
      [.four t 1 1 0 0 t2, .four i 0 0 1 1 eri]
      [.num (i || t) (CC.cc_energy_d t2 eri)] :=
  C105_in_range (C53_cc_energy_d t2 eri) C42_cc_energy_d rfl

theorem C105_cc_energy_s1 {i t : Bool} (t1 : (Fin (n 1)) → (Fin (n 0)) → K) (f : (Fin (n 0)) → (Fin (n 1)) → K) :
    InRange cc_energy_s1
      [.two t 1 0 t1, .two i 0 1 f]
      [.num (i || t) (CC.cc_energy_s1 t1 f)] :=
  C105_in_range (C53_cc_energy_s1 t1 f) C42_cc_energy_s1 rfl

theorem C105_cc_energy_s2 {i t : Bool} (t1 : (Fin (n 1)) → (Fin (n 0)) → K) (eri : (Fin (n 0)) → (Fin (n 0)) → (Fin (n 1)) → (Fin (n 1)) → K) :
    InRange cc_energy_s2
      [.two t 1 0 t1, .four i 0 0 1 1 eri]
      [.num (i || t) (CC.cc_energy_s2 t1 eri)] :=
  C105_in_range (C53_cc_energy_s2 t1 eri) C42_cc_energy_s2 rfl

theorem C105_cc_energy_s2_a {i t : Bool} (t11 : (Fin (n 1)) → (Fin (n 0)) → K) (t12 : (Fin (n 1)) → (Fin (n 0)) → K) (eri : (Fin (n 0)) → (Fin (n 0)) → (Fin (n 1)) → (Fin (n 1)) → K) :
    InRange cc_energy_s2_a
      [.two t 1 0 t11, .two t 1 0 t12, .four i 0 0 1 1 eri]
      [.num (i || t) (CC.cc_energy_s2_a t11 t12 eri)] :=
  C105_in_range (C53_cc_energy_s2_a t11 t12 eri) C42_cc_energy_s2_a rfl

theorem C105_cc_energy {i t : Bool} (t1 : (Fin (n 1)) → (Fin (n 0)) → K) (t2 : (Fin (n 1)) → (Fin (n 1)) → (Fin (n 0)) → (Fin (n 0)) → K) (f : (Fin (n 0)) → (Fin (n 1)) → K) (eri : (Fin (n 0)) → (Fin (n 0)) → (Fin (n 1)) → (Fin (n 1)) → K) :
    InRange cc_energy
      [.two t 1 0 t1, .four t 1 1 0 0 t2, .two i 0 1 f, .four i 0 0 1 1 eri]
      [.num (i || t) (CC.cc_energy t1 t2 f eri)] :=
  C105_in_range (C53_cc_energy t1 t2 f eri) C42_cc_energy rfl

theorem C105_mp2_energy {i t : Bool} (t1 : (Fin (n 1)) → (Fin (n 0)) → K) (t2 : (Fin (n 1)) → (Fin (n 1)) → (Fin (n 0)) → (Fin (n 0)) → K) (f : (Fin (n 0)) → (Fin (n 1)) → K) (eri : (Fin (n 0)) → (Fin (n 0)) → (Fin (n 1)) → (Fin (n 1)) → K) :
    InRange mp2_energy
      [.two t 1 0 t1, .four t 1 1 0 0 t2, .two i 0 1 f, .four i 0 0 1 1 eri]
      [.num (i || t) (CC.mp2_energy t1 t2 f eri)] :=
  C105_in_range (C53_mp2_energy t1 t2 f eri) C42_mp2_energy rfl

theorem C105_lccd_simple {i t : Bool} (ht : t = true → i = true) (F : OneE (Fin (n 0)) (Fin (n 1)) K) (I : TwoE (Fin (n 0)) (Fin (n 1)) K) (T2old : (Fin (n 1)) → (Fin (n 1)) → (Fin (n 0)) → (Fin (n 0)) → K) :
    InRange lccd_simple
      [.two i 0 0 F.oo, .two i 1 1 F.vv, .four i 0 0 0 0 I.oooo, .four i 1 0 1 0 I.vovo, .four i 1 1 0 0 I.vvoo, .four i 1 1 1 1 I.vvvv, .four t 1 1 0 0 T2old]
      [.four i 1 1 0 0 (CC.lccd_simple F I T2old)] :=
  C105_in_range (C53_lccd_simple ht F I T2old) C42_lccd_simple rfl

theorem C105_lccsd_simple {i t : Bool} (ht : t = true → i = true) (F : OneE (Fin (n 0)) (Fin (n 1)) K) (I : TwoE (Fin (n 0)) (Fin (n 1)) K) (T1old : (Fin (n 1)) → (Fin (n 0)) → K) (T2old : (Fin (n 1)) → (Fin (n 1)) → (Fin (n 0)) → (Fin (n 0)) → K) :
    InRange lccsd_simple
      [.two i 0 0 F.oo, .two i 0 1 F.ov, .two i 1 0 F.vo, .two i 1 1 F.vv, .four i 0 0 0 0 I.oooo, .four i 0 0 0 1 I.ooov, .four i 1 0 0 0 I.vooo, .four i 1 0 1 0 I.vovo, .four i 1 0 1 1 I.vovv, .four i 1 1 0 0 I.vvoo, .four i 1 1 1 0 I.vvvo, .four i 1 1 1 1 I.vvvv, .two t 1 0 T1old, .four t 1 1 0 0 T2old]
      [.two i 1 0 (CC.lccsd_simple F I T1old T2old).1, .four i 1 1 0 0 (CC.lccsd_simple F I T1old T2old).2] :=
  C105_in_range (C53_lccsd_simple ht F I T1old T2old) C42_lccsd_simple rfl

theorem C105_ccd_simple {i t : Bool} (ht : t = true → i = true) (F : OneE (Fin (n 0)) (Fin (n 1)) K) (I : TwoE (Fin (n 0)) (Fin (n 1)) K) (T2old : (Fin (n 1)) → (Fin (n 1)) → (Fin (n 0)) → (Fin (n 0)) → K) :
    InRange ccd_simple
      [.two i 0 0 F.oo, .two i 1 1 F.vv, .four i 0 0 0 0 I.oooo, .four i 0 0 1 1 I.oovv, .four i 1 0 1 0 I.vovo, .four i 1 1 0 0 I.vvoo, .four i 1 1 1 1 I.vvvv, .four t 1 1 0 0 T2old]
      [.four i 1 1 0 0 (CC.ccd_simple F I T2old)] :=
  C105_in_range (C53_ccd_simple ht F I T2old) C42_ccd_simple rfl

theorem C105_ccd_ladder_simple {i t : Bool} (ht : t = true → i = true) (I : TwoE (Fin (n 0)) (Fin (n 1)) K) (T2old : (Fin (n 1)) → (Fin (n 1)) → (Fin (n 0)) → (Fin (n 0)) → K) :
    InRange ccd_ladder_simple
      [.four i 0 0 0 0 I.oooo, .four i 0 0 1 1 I.oovv, .four i 1 1 0 0 I.vvoo, .four i 1 1 1 1 I.vvvv, .four t 1 1 0 0 T2old]
      [.four i 1 1 0 0 (CC.ccd_ladder_simple I T2old)] :=
  C105_in_range (C53_ccd_ladder_simple ht I T2old) C42_ccd_ladder_simple rfl

theorem C105_ccd_ring_simple {i t : Bool} (ht : t = true → i = true) (I : TwoE (Fin (n 0)) (Fin (n 1)) K) (T2old : (Fin (n 1)) → (Fin (n 1)) → (Fin (n 0)) → (Fin (n 0)) → K) :
    InRange ccd_ring_simple
      [.four i 0 0 1 1 I.oovv, .four i 1 0 1 0 I.vovo, .four i 1 1 0 0 I.vvoo, .four t 1 1 0 0 T2old]
      [.four i 1 1 0 0 (CC.ccd_ring_simple I T2old)] :=
  C105_in_range (C53_ccd_ring_simple ht I T2old) C42_ccd_ring_simple rfl

theorem C105_ccsd_simple {i t : Bool} (ht : t = true → i = true) (F : OneE (Fin (n 0)) (Fin (n 1)) K) (I : TwoE (Fin (n 0)) (Fin (n 1)) K) (T1old : (Fin (n 1)) → (Fin (n 0)) → K) (T2old : (Fin (n 1)) → (Fin (n 1)) → (Fin (n 0)) → (Fin (n 0)) → K) :
    InRange ccsd_simple
      [.two i 0 0 F.oo, .two i 0 1 F.ov, .two i 1 0 F.vo, .two i 1 1 F.vv, .four i 0 0 0 0 I.oooo, .four i 0 0 0 1 I.ooov, .four i 0 0 1 1 I.oovv, .four i 1 0 0 0 I.vooo, .four i 1 0 1 0 I.vovo, .four i 1 0 1 1 I.vovv, .four i 1 1 0 0 I.vvoo, .four i 1 1 1 0 I.vvvo, .four i 1 1 1 1 I.vvvv, .two t 1 0 T1old, .four t 1 1 0 0 T2old]
      [.two i 1 0 (CC.ccsd_simple F I T1old T2old).1, .four i 1 1 0 0 (CC.ccsd_simple F I T1old T2old).2] :=
  C105_in_range (C53_ccsd_simple ht F I T1old T2old) C42_ccsd_simple rfl

theorem C105_ccsd_stanton {i t : Bool} (ht : t = true → i = true) (F : OneE (Fin (n 0)) (Fin (n 1)) K) (I : TwoE (Fin (n 0)) (Fin (n 1)) K) (T1old : (Fin (n 1)) → (Fin (n 0)) → K) (T2old : (Fin (n 1)) → (Fin (n 1)) → (Fin (n 0)) → (Fin (n 0)) → K) :
    InRange ccsd_stanton
      [.two i 0 0 F.oo, .two i 0 1 F.ov, .two i 1 0 F.vo, .two i 1 1 F.vv, .four i 0 0 0 0 I.oooo, .four i 0 0 0 1 I.ooov, .four i 0 0 1 1 I.oovv, .four i 1 0 0 0 I.vooo, .four i 1 0 1 0 I.vovo, .four i 1 0 1 1 I.vovv, .four i 1 1 0 0 I.vvoo, .four i 1 1 1 0 I.vvvo, .four i 1 1 1 1 I.vvvv, .two t 1 0 T1old, .four t 1 1 0 0 T2old]
      [.two i 1 0 (CC.ccsd_stanton F I T1old T2old).1, .four i 1 1 0 0 (CC.ccsd_stanton F I T1old T2old).2] :=
  C105_in_range (C53_ccsd_stanton ht F I T1old T2old) C42_ccsd_stanton rfl

theorem C105_ccd_stanton {i t : Bool} (ht : t = true → i = true) (F : OneE (Fin (n 0)) (Fin (n 1)) K) (I : TwoE (Fin (n 0)) (Fin (n 1)) K) (T2old : (Fin (n 1)) → (Fin (n 1)) → (Fin (n 0)) → (Fin (n 0)) → K) :
    InRange ccd_stanton
      [.two i 0 0 F.oo, .two i 1 1 F.vv, .four i 0 0 0 0 I.oooo, .four i 0 0 1 1 I.oovv, .four i 1 0 1 0 I.vovo, .four i 1 1 0 0 I.vvoo, .four i 1 1 1 1 I.vvvv, .four t 1 1 0 0 T2old]
      [.four i 1 1 0 0 (CC.ccd_stanton F I T2old)] :=
  C105_in_range (C53_ccd_stanton ht F I T2old) C42_ccd_stanton rfl

theorem C105_lambda_int {i t : Bool} (F : OneE (Fin (n 0)) (Fin (n 1)) K) (I : TwoE (Fin (n 0)) (Fin (n 1)) K) (T1old : (Fin (n 1)) → (Fin (n 0)) → K) (T2old : (Fin (n 1)) → (Fin (n 1)) → (Fin (n 0)) → (Fin (n 0)) → K) :
    InRange lambda_int
      [.two i 0 0 F.oo, .two i 0 1 F.ov, .two i 1 1 F.vv, .four i 0 0 0 0 I.oooo, .four i 0 0 0 1 I.ooov, .four i 0 0 1 1 I.oovv, .four i 1 0 0 0 I.vooo, .four i 1 0 1 0 I.vovo, .four i 1 0 1 1 I.vovv, .four i 1 1 1 0 I.vvvo, .four i 1 1 1 1 I.vvvv, .two t 1 0 T1old, .four t 1 1 0 0 T2old]
      [.four (i || t) 0 0 0 1 (CC.lambda_int F I T1old T2old).IooovT, .four (i || t) 1 0 1 1 (CC.lambda_int F I T1old T2old).IvovvT, .two (i || t) 0 1 (CC.lambda_int F I T1old T2old).IovT, .two (i || t) 0 0 (CC.lambda_int F I T1old T2old).IToo, .two (i || t) 1 1 (CC.lambda_int F I T1old T2old).ITvv, .four (i || t) 1 0 1 0 (CC.lambda_int F I T1old T2old).ITvovo, .four (i || t) 0 0 1 1 (CC.lambda_int F I T1old T2old).IToovv, .four (i || t) 1 0 0 0 (CC.lambda_int F I T1old T2old).ITvooo, .four (i || t) 1 1 1 0 (CC.lambda_int F I T1old T2old).ITvvvo, .two (i || t) 0 1 (CC.lambda_int F I T1old T2old).ITov, .four (i || t) 1 0 1 1 (CC.lambda_int F I T1old T2old).ITvovv, .four (i || t) 0 0 0 1 (CC.lambda_int F I T1old T2old).ITooov, .four (i || t) 1 0 1 0 (CC.lambda_int F I T1old T2old).ITvovo2, .four (i || t) 1 1 1 1 (CC.lambda_int F I T1old T2old).ITvvvv, .four (i || t) 0 0 0 0 (CC.lambda_int F I T1old T2old).IToooo, .four (i || t) 0 0 1 1 (CC.lambda_int F I T1old T2old).IToovv2] :=
  C105_in_range (C53_lambda_int F I T1old T2old) C42_lambda_int rfl

theorem C105_ccd_lambda_simple {i l t : Bool} (ht : t = true → i = true) (hl : l = true → i = true) (F : OneE (Fin (n 0)) (Fin (n 1)) K) (I : TwoE (Fin (n 0)) (Fin (n 1)) K) (L2old : (Fin (n 0)) → (Fin (n 0)) → (Fin (n 1)) → (Fin (n 1)) → K) (T2old : (Fin (n 1)) → (Fin (n 1)) → (Fin (n 0)) → (Fin (n 0)) → K) :
    InRange ccd_lambda_simple
      [.two i 0 0 F.oo, .two i 1 1 F.vv, .four i 0 0 0 0 I.oooo, .four i 0 0 1 1 I.oovv, .four i 1 0 1 0 I.vovo, .four i 1 1 1 1 I.vvvv, .four l 0 0 1 1 L2old, .four t 1 1 0 0 T2old]
      [.four i 0 0 1 1 (CC.ccd_lambda_simple F I L2old T2old)] :=
  C105_in_range (C53_ccd_lambda_simple ht hl F I L2old T2old) C42_ccd_lambda_simple rfl

theorem C105_ccsd_lambda_opt {i l t : Bool} (ht : t = true → i = true) (hl : l = true → i = true) (F : OneE (Fin (n 0)) (Fin (n 1)) K) (I : TwoE (Fin (n 0)) (Fin (n 1)) K) (L1old : (Fin (n 0)) → (Fin (n 1)) → K) (L2old : (Fin (n 0)) → (Fin (n 0)) → (Fin (n 1)) → (Fin (n 1)) → K) (T1old : (Fin (n 1)) → (Fin (n 0)) → K) (T2old : (Fin (n 1)) → (Fin (n 1)) → (Fin (n 0)) → (Fin (n 0)) → K) :
    InRange ccsd_lambda_opt
      [.two i 0 0 F.oo, .two i 0 1 F.ov, .two i 1 1 F.vv, .four i 0 0 0 0 I.oooo, .four i 0 0 0 1 I.ooov, .four i 0 0 1 1 I.oovv, .four i 1 0 0 0 I.vooo, .four i 1 0 1 0 I.vovo, .four i 1 0 1 1 I.vovv, .four i 1 1 1 0 I.vvvo, .four i 1 1 1 1 I.vvvv, .two l 0 1 L1old, .four l 0 0 1 1 L2old, .two t 1 0 T1old, .four t 1 1 0 0 T2old]
      [.two i 0 1 (CC.ccsd_lambda_opt F I L1old L2old T1old T2old).1, .four i 0 0 1 1 (CC.ccsd_lambda_opt F I L1old L2old T1old T2old).2] :=
  C105_in_range (C53_ccsd_lambda_opt ht hl F I L1old L2old T1old T2old) C42_ccsd_lambda_opt rfl

theorem C105_ccsd_lambda_stanton {i l t : Bool} (ht : t = true → i = true) (hl : l = true → i = true) (F : OneE (Fin (n 0)) (Fin (n 1)) K) (I : TwoE (Fin (n 0)) (Fin (n 1)) K) (L1old : (Fin (n 0)) → (Fin (n 1)) → K) (L2old : (Fin (n 0)) → (Fin (n 0)) → (Fin (n 1)) → (Fin (n 1)) → K) (T1old : (Fin (n 1)) → (Fin (n 0)) → K) (T2old : (Fin (n 1)) → (Fin (n 1)) → (Fin (n 0)) → (Fin (n 0)) → K) :
    InRange ccsd_lambda_stanton
      [.two i 0 0 F.oo, .two i 0 1 F.ov, .two i 1 1 F.vv, .four i 0 0 0 0 I.oooo, .four i 0 0 0 1 I.ooov, .four i 0 0 1 1 I.oovv, .four i 1 0 0 0 I.vooo, .four i 1 0 1 0 I.vovo, .four i 1 0 1 1 I.vovv, .four i 1 1 1 0 I.vvvo, .four i 1 1 1 1 I.vvvv, .two l 0 1 L1old, .four l 0 0 1 1 L2old, .two t 1 0 T1old, .four t 1 1 0 0 T2old]
      [.two i 0 1 (CC.ccsd_lambda_stanton F I L1old L2old T1old T2old).1, .four i 0 0 1 1 (CC.ccsd_lambda_stanton F I L1old L2old T1old T2old).2] :=
  C105_in_range (C53_ccsd_lambda_stanton ht hl F I L1old L2old T1old T2old) C42_ccsd_lambda_stanton rfl

theorem C105_ccsd_lambda_opt_int {i l p t : Bool} (ht : t = true → i = true) (hl : l = true → i = true) (hp : p = true → i = true) (F : OneE (Fin (n 0)) (Fin (n 1)) K) (I : TwoE (Fin (n 0)) (Fin (n 1)) K) (L1old : (Fin (n 0)) → (Fin (n 1)) → K) (L2old : (Fin (n 0)) → (Fin (n 0)) → (Fin (n 1)) → (Fin (n 1)) → K) (T1old : (Fin (n 1)) → (Fin (n 0)) → K) (T2old : (Fin (n 1)) → (Fin (n 1)) → (Fin (n 0)) → (Fin (n 0)) → K) (intor : LambdaInt (Fin (n 0)) (Fin (n 1)) K) :
    InRange ccsd_lambda_opt_int
      [.two i 0 1 F.ov, .four i 0 0 0 1 I.ooov, .four i 0 0 1 1 I.oovv, .four i 1 0 1 1 I.vovv, .two l 0 1 L1old, .four l 0 0 1 1 L2old, .two t 1 0 T1old, .four t 1 1 0 0 T2old, .two p 0 0 intor.IToo, .four p 0 0 0 0 intor.IToooo, .four p 0 0 0 1 intor.ITooov, .four p 0 0 1 1 intor.IToovv, .four p 0 0 1 1 intor.IToovv2, .two p 0 1 intor.ITov, .four p 1 0 0 0 intor.ITvooo, .four p 1 0 1 0 intor.ITvovo, .four p 1 0 1 0 intor.ITvovo2, .four p 1 0 1 1 intor.ITvovv, .two p 1 1 intor.ITvv, .four p 1 1 1 0 intor.ITvvvo, .four p 1 1 1 1 intor.ITvvvv, .four p 0 0 0 1 intor.IooovT, .four p 1 0 1 1 intor.IvovvT]
      [.two i 0 1 (CC.ccsd_lambda_opt_int F I L1old L2old T1old T2old intor).1, .four i 0 0 1 1 (CC.ccsd_lambda_opt_int F I L1old L2old T1old T2old intor).2] :=
  C105_in_range (C53_ccsd_lambda_opt_int ht hl hp F I L1old L2old T1old T2old intor) C42_ccsd_lambda_opt_int rfl

theorem C105_ccsd_lambda_simple {i l t : Bool} (ht : t = true → i = true) (hl : l = true → i = true) (F : OneE (Fin (n 0)) (Fin (n 1)) K) (I : TwoE (Fin (n 0)) (Fin (n 1)) K) (L1old : (Fin (n 0)) → (Fin (n 1)) → K) (L2old : (Fin (n 0)) → (Fin (n 0)) → (Fin (n 1)) → (Fin (n 1)) → K) (T1old : (Fin (n 1)) → (Fin (n 0)) → K) (T2old : (Fin (n 1)) → (Fin (n 1)) → (Fin (n 0)) → (Fin (n 0)) → K) :
    InRange ccsd_lambda_simple
      [.two i 0 0 F.oo, .two i 0 1 F.ov, .two i 1 1 F.vv, .four i 0 0 0 0 I.oooo, .four i 0 0 0 1 I.ooov, .four i 0 0 1 1 I.oovv, .four i 1 0 0 0 I.vooo, .four i 1 0 1 0 I.vovo, .four i 1 0 1 1 I.vovv, .four i 1 1 1 0 I.vvvo, .four i 1 1 1 1 I.vvvv, .two l 0 1 L1old, .four l 0 0 1 1 L2old, .two t 1 0 T1old, .four t 1 1 0 0 T2old]
      [.two i 0 1 (CC.ccsd_lambda_simple F I L1old L2old T1old T2old).1, .four i 0 0 1 1 (CC.ccsd_lambda_simple F I L1old L2old T1old T2old).2] :=
  C105_in_range (C53_ccsd_lambda_simple ht hl F I L1old L2old T1old T2old) C42_ccsd_lambda_simple rfl

theorem C105_ccsd_1rdm_ba {l t : Bool} (T1 : (Fin (n 1)) → (Fin (n 0)) → K) (T2 : (Fin (n 1)) → (Fin (n 1)) → (Fin (n 0)) → (Fin (n 0)) → K) (L1 : (Fin (n 0)) → (Fin (n 1)) → K) (L2 : (Fin (n 0)) → (Fin (n 0)) → (Fin (n 1)) → (Fin (n 1)) → K) :
    InRange ccsd_1rdm_ba
      [.two t 1 0 T1, .four t 1 1 0 0 T2, .two l 0 1 L1, .four l 0 0 1 1 L2]
      [.two (t || l) 1 1 (CC.ccsd_1rdm_ba T1 T2 L1 L2)] :=
  C105_in_range (C53_ccsd_1rdm_ba T1 T2 L1 L2) C42_ccsd_1rdm_ba rfl

theorem C105_ccsd_1rdm_ji {l t : Bool} (T1 : (Fin (n 1)) → (Fin (n 0)) → K) (T2 : (Fin (n 1)) → (Fin (n 1)) → (Fin (n 0)) → (Fin (n 0)) → K) (L1 : (Fin (n 0)) → (Fin (n 1)) → K) (L2 : (Fin (n 0)) → (Fin (n 0)) → (Fin (n 1)) → (Fin (n 1)) → K) :
    InRange ccsd_1rdm_ji
      [.two t 1 0 T1, .four t 1 1 0 0 T2, .two l 0 1 L1, .four l 0 0 1 1 L2]
      [.two (t || l) 0 0 (CC.ccsd_1rdm_ji T1 T2 L1 L2)] :=
  C105_in_range (C53_ccsd_1rdm_ji T1 T2 L1 L2) C42_ccsd_1rdm_ji rfl

theorem C105_ccsd_1rdm_ai {c l t : Bool} (T1 : (Fin (n 1)) → (Fin (n 0)) → K) (T2 : (Fin (n 1)) → (Fin (n 1)) → (Fin (n 0)) → (Fin (n 0)) → K) (L1 : (Fin (n 0)) → (Fin (n 1)) → K) (L2 : (Fin (n 0)) → (Fin (n 0)) → (Fin (n 1)) → (Fin (n 1)) → K) (tfac : K) :
    InRange ccsd_1rdm_ai
      [.two t 1 0 T1, .four t 1 1 0 0 T2, .two l 0 1 L1, .four l 0 0 1 1 L2, .num c tfac]
      [.two (t || l || c) 1 0 (CC.ccsd_1rdm_ai T1 T2 L1 L2 tfac)] :=
  C105_in_range (C53_ccsd_1rdm_ai T1 T2 L1 L2 tfac) C42_ccsd_1rdm_ai rfl

theorem C105_ccsd_2rdm_cdab {l t : Bool} (T1 : (Fin (n 1)) → (Fin (n 0)) → K) (T2 : (Fin (n 1)) → (Fin (n 1)) → (Fin (n 0)) → (Fin (n 0)) → K) (L1 : (Fin (n 0)) → (Fin (n 1)) → K) (L2 : (Fin (n 0)) → (Fin (n 0)) → (Fin (n 1)) → (Fin (n 1)) → K) :
    InRange ccsd_2rdm_cdab
      [.two t 1 0 T1, .four t 1 1 0 0 T2, .four l 0 0 1 1 L2]
      [.four (t || l) 1 1 1 1 (CC.ccsd_2rdm_cdab T1 T2 L1 L2)] :=
  C105_in_range (C53_ccsd_2rdm_cdab T1 T2 L1 L2) C42_ccsd_2rdm_cdab rfl

theorem C105_ccsd_2rdm_ciab {l t : Bool} (T1 : (Fin (n 1)) → (Fin (n 0)) → K) (T2 : (Fin (n 1)) → (Fin (n 1)) → (Fin (n 0)) → (Fin (n 0)) → K) (L1 : (Fin (n 0)) → (Fin (n 1)) → K) (L2 : (Fin (n 0)) → (Fin (n 0)) → (Fin (n 1)) → (Fin (n 1)) → K) :
    InRange ccsd_2rdm_ciab
      [.two t 1 0 T1, .four l 0 0 1 1 L2]
      [.four (t || l) 1 0 1 1 (CC.ccsd_2rdm_ciab T1 T2 L1 L2)] :=
  C105_in_range (C53_ccsd_2rdm_ciab T1 T2 L1 L2) C42_ccsd_2rdm_ciab rfl

theorem C105_ccsd_2rdm_bcai {l t : Bool} (T1 : (Fin (n 1)) → (Fin (n 0)) → K) (T2 : (Fin (n 1)) → (Fin (n 1)) → (Fin (n 0)) → (Fin (n 0)) → K) (L1 : (Fin (n 0)) → (Fin (n 1)) → K) (L2 : (Fin (n 0)) → (Fin (n 0)) → (Fin (n 1)) → (Fin (n 1)) → K) :
    InRange ccsd_2rdm_bcai
      [.two t 1 0 T1, .four t 1 1 0 0 T2, .two l 0 1 L1, .four l 0 0 1 1 L2]
      [.four (t || l) 1 1 1 0 (CC.ccsd_2rdm_bcai T1 T2 L1 L2)] :=
  C105_in_range (C53_ccsd_2rdm_bcai T1 T2 L1 L2) C42_ccsd_2rdm_bcai rfl

theorem C105_ccsd_2rdm_bjai {l t : Bool} (T1 : (Fin (n 1)) → (Fin (n 0)) → K) (T2 : (Fin (n 1)) → (Fin (n 1)) → (Fin (n 0)) → (Fin (n 0)) → K) (L1 : (Fin (n 0)) → (Fin (n 1)) → K) (L2 : (Fin (n 0)) → (Fin (n 0)) → (Fin (n 1)) → (Fin (n 1)) → K) :
    InRange ccsd_2rdm_bjai
      [.two t 1 0 T1, .four t 1 1 0 0 T2, .two l 0 1 L1, .four l 0 0 1 1 L2]
      [.four (t || l) 1 0 1 0 (CC.ccsd_2rdm_bjai T1 T2 L1 L2)] :=
  C105_in_range (C53_ccsd_2rdm_bjai T1 T2 L1 L2) C42_ccsd_2rdm_bjai rfl

theorem C105_ccsd_2rdm_abij {c l t : Bool} (hl : l = true → (t || c) = true) (T1 : (Fin (n 1)) → (Fin (n 0)) → K) (T2 : (Fin (n 1)) → (Fin (n 1)) → (Fin (n 0)) → (Fin (n 0)) → K) (L1 : (Fin (n 0)) → (Fin (n 1)) → K) (L2 : (Fin (n 0)) → (Fin (n 0)) → (Fin (n 1)) → (Fin (n 1)) → K) (tfac : K) :
    InRange ccsd_2rdm_abij
      [.two t 1 0 T1, .four t 1 1 0 0 T2, .two l 0 1 L1, .four l 0 0 1 1 L2, .num c tfac]
      [.four (t || l || c) 1 1 0 0 (CC.ccsd_2rdm_abij T1 T2 L1 L2 tfac)] :=
  C105_in_range (C53_ccsd_2rdm_abij hl T1 T2 L1 L2 tfac) C42_ccsd_2rdm_abij rfl

theorem C105_ccsd_2rdm_jkai {l t : Bool} (T1 : (Fin (n 1)) → (Fin (n 0)) → K) (T2 : (Fin (n 1)) → (Fin (n 1)) → (Fin (n 0)) → (Fin (n 0)) → K) (L1 : (Fin (n 0)) → (Fin (n 1)) → K) (L2 : (Fin (n 0)) → (Fin (n 0)) → (Fin (n 1)) → (Fin (n 1)) → K) :
    InRange ccsd_2rdm_jkai
      [.two t 1 0 T1, .four l 0 0 1 1 L2]
      [.four (t || l) 0 0 1 0 (CC.ccsd_2rdm_jkai T1 T2 L1 L2)] :=
  C105_in_range (C53_ccsd_2rdm_jkai T1 T2 L1 L2) C42_ccsd_2rdm_jkai rfl

theorem C105_ccsd_2rdm_kaij {l t : Bool} (T1 : (Fin (n 1)) → (Fin (n 0)) → K) (T2 : (Fin (n 1)) → (Fin (n 1)) → (Fin (n 0)) → (Fin (n 0)) → K) (L1 : (Fin (n 0)) → (Fin (n 1)) → K) (L2 : (Fin (n 0)) → (Fin (n 0)) → (Fin (n 1)) → (Fin (n 1)) → K) :
    InRange ccsd_2rdm_kaij
      [.two t 1 0 T1, .four t 1 1 0 0 T2, .two l 0 1 L1, .four l 0 0 1 1 L2]
      [.four (t || l) 0 1 0 0 (CC.ccsd_2rdm_kaij T1 T2 L1 L2)] :=
  C105_in_range (C53_ccsd_2rdm_kaij T1 T2 L1 L2) C42_ccsd_2rdm_kaij rfl

theorem C105_ccsd_2rdm_klij {l t : Bool} (T1 : (Fin (n 1)) → (Fin (n 0)) → K) (T2 : (Fin (n 1)) → (Fin (n 1)) → (Fin (n 0)) → (Fin (n 0)) → K) (L1 : (Fin (n 0)) → (Fin (n 1)) → K) (L2 : (Fin (n 0)) → (Fin (n 0)) → (Fin (n 1)) → (Fin (n 1)) → K) :
    InRange ccsd_2rdm_klij
      [.two t 1 0 T1, .four t 1 1 0 0 T2, .four l 0 0 1 1 L2]
      [.four (t || l) 0 0 0 0 (CC.ccsd_2rdm_klij T1 T2 L1 L2)] :=
  C105_in_range (C53_ccsd_2rdm_klij T1 T2 L1 L2) C42_ccsd_2rdm_klij rfl

theorem C105_ccsd_1rdm_ai_opt {c l t : Bool} (hl : l = true → (t || c) = true) (T1 : (Fin (n 1)) → (Fin (n 0)) → K) (T2 : (Fin (n 1)) → (Fin (n 1)) → (Fin (n 0)) → (Fin (n 0)) → K) (L1 : (Fin (n 0)) → (Fin (n 1)) → K) (L2 : (Fin (n 0)) → (Fin (n 0)) → (Fin (n 1)) → (Fin (n 1)) → K) (tfac : K) :
    InRange ccsd_1rdm_ai_opt
      [.two t 1 0 T1, .four t 1 1 0 0 T2, .two l 0 1 L1, .four l 0 0 1 1 L2, .num c tfac]
      [.two (t || l || c) 1 0 (CC.ccsd_1rdm_ai_opt T1 T2 L1 L2 tfac)] :=
  C105_in_range (C53_ccsd_1rdm_ai_opt hl T1 T2 L1 L2 tfac) C42_ccsd_1rdm_ai_opt rfl

theorem C105_ccsd_2rdm_cdab_opt {l t : Bool} (T1 : (Fin (n 1)) → (Fin (n 0)) → K) (T2 : (Fin (n 1)) → (Fin (n 1)) → (Fin (n 0)) → (Fin (n 0)) → K) (L1 : (Fin (n 0)) → (Fin (n 1)) → K) (L2 : (Fin (n 0)) → (Fin (n 0)) → (Fin (n 1)) → (Fin (n 1)) → K) :
    InRange ccsd_2rdm_cdab_opt
      [.two t 1 0 T1, .four t 1 1 0 0 T2, .four l 0 0 1 1 L2]
      [.four (t || l) 1 1 1 1 (CC.ccsd_2rdm_cdab_opt T1 T2 L1 L2)] :=
  C105_in_range (C53_ccsd_2rdm_cdab_opt T1 T2 L1 L2) C42_ccsd_2rdm_cdab_opt rfl

theorem C105_ccsd_2rdm_bcai_opt {l t : Bool} (T1 : (Fin (n 1)) → (Fin (n 0)) → K) (T2 : (Fin (n 1)) → (Fin (n 1)) → (Fin (n 0)) → (Fin (n 0)) → K) (L1 : (Fin (n 0)) → (Fin (n 1)) → K) (L2 : (Fin (n 0)) → (Fin (n 0)) → (Fin (n 1)) → (Fin (n 1)) → K) :
    InRange ccsd_2rdm_bcai_opt
      [.two t 1 0 T1, .four t 1 1 0 0 T2, .two l 0 1 L1, .four l 0 0 1 1 L2]
      [.four (t || l) 1 1 1 0 (CC.ccsd_2rdm_bcai_opt T1 T2 L1 L2)] :=
  C105_in_range (C53_ccsd_2rdm_bcai_opt T1 T2 L1 L2) C42_ccsd_2rdm_bcai_opt rfl

theorem C105_ccsd_2rdm_bjai_opt {l t : Bool} (T1 : (Fin (n 1)) → (Fin (n 0)) → K) (T2 : (Fin (n 1)) → (Fin (n 1)) → (Fin (n 0)) → (Fin (n 0)) → K) (L1 : (Fin (n 0)) → (Fin (n 1)) → K) (L2 : (Fin (n 0)) → (Fin (n 0)) → (Fin (n 1)) → (Fin (n 1)) → K) :
    InRange ccsd_2rdm_bjai_opt
      [.two t 1 0 T1, .four t 1 1 0 0 T2, .two l 0 1 L1, .four l 0 0 1 1 L2]
      [.four (t || l) 1 0 1 0 (CC.ccsd_2rdm_bjai_opt T1 T2 L1 L2)] :=
  C105_in_range (C53_ccsd_2rdm_bjai_opt T1 T2 L1 L2) C42_ccsd_2rdm_bjai_opt rfl

theorem C105_ccsd_2rdm_abij_opt {c l t : Bool} (hl : l = true → (t || c) = true) (T1 : (Fin (n 1)) → (Fin (n 0)) → K) (T2 : (Fin (n 1)) → (Fin (n 1)) → (Fin (n 0)) → (Fin (n 0)) → K) (L1 : (Fin (n 0)) → (Fin (n 1)) → K) (L2 : (Fin (n 0)) → (Fin (n 0)) → (Fin (n 1)) → (Fin (n 1)) → K) (tfac : K) :
    InRange ccsd_2rdm_abij_opt
      [.two t 1 0 T1, .four t 1 1 0 0 T2, .two l 0 1 L1, .four l 0 0 1 1 L2, .num c tfac]
      [.four (t || l || c) 1 1 0 0 (CC.ccsd_2rdm_abij_opt T1 T2 L1 L2 tfac)] :=
  C105_in_range (C53_ccsd_2rdm_abij_opt hl T1 T2 L1 L2 tfac) C42_ccsd_2rdm_abij_opt rfl

theorem C105_ccsd_2rdm_kaij_opt {l t : Bool} (T1 : (Fin (n 1)) → (Fin (n 0)) → K) (T2 : (Fin (n 1)) → (Fin (n 1)) → (Fin (n 0)) → (Fin (n 0)) → K) (L1 : (Fin (n 0)) → (Fin (n 1)) → K) (L2 : (Fin (n 0)) → (Fin (n 0)) → (Fin (n 1)) → (Fin (n 1)) → K) :
    InRange ccsd_2rdm_kaij_opt
      [.two t 1 0 T1, .four t 1 1 0 0 T2, .two l 0 1 L1, .four l 0 0 1 1 L2]
      [.four (t || l) 0 1 0 0 (CC.ccsd_2rdm_kaij_opt T1 T2 L1 L2)] :=
  C105_in_range (C53_ccsd_2rdm_kaij_opt T1 T2 L1 L2) C42_ccsd_2rdm_kaij_opt rfl

theorem C105_ccsd_2rdm_klij_opt {l t : Bool} (T1 : (Fin (n 1)) → (Fin (n 0)) → K) (T2 : (Fin (n 1)) → (Fin (n 1)) → (Fin (n 0)) → (Fin (n 0)) → K) (L1 : (Fin (n 0)) → (Fin (n 1)) → K) (L2 : (Fin (n 0)) → (Fin (n 0)) → (Fin (n 1)) → (Fin (n 1)) → K) :
    InRange ccsd_2rdm_klij_opt
      [.two t 1 0 T1, .four t 1 1 0 0 T2, .four l 0 0 1 1 L2]
      [.four (t || l) 0 0 0 0 (CC.ccsd_2rdm_klij_opt T1 T2 L1 L2)] :=
  C105_in_range (C53_ccsd_2rdm_klij_opt T1 T2 L1 L2) C42_ccsd_2rdm_klij_opt rfl

theorem C105_ucc_energy {i t : Bool} (t1 : ((Fin (n 1)) → (Fin (n 0)) → K) × ((Fin (n 3)) → (Fin (n 2)) → K)) (t2 : ((Fin (n 1)) → (Fin (n 1)) → (Fin (n 0)) → (Fin (n 0)) → K) × ((Fin (n 1)) → (Fin (n 3)) → (Fin (n 0)) → (Fin (n 2)) → K) × ((Fin (n 3)) → (Fin (n 3)) → (Fin (n 2)) → (Fin (n 2)) → K)) (fa : (Fin (n 0)) → (Fin (n 1)) → K) (fb : (Fin (n 2)) → (Fin (n 3)) → K) (Ia : (Fin (n 0)) → (Fin (n 0)) → (Fin (n 1)) → (Fin (n 1)) → K) (Ib : (Fin (n 2)) → (Fin (n 2)) → (Fin (n 3)) → (Fin (n 3)) → K) (Iabab : (Fin (n 0)) → (Fin (n 2)) → (Fin (n 1)) → (Fin (n 3)) → K) :
    InRange ucc_energy
      [.two t 1 0 t1.1, .two t 3 2 t1.2, .four t 1 1 0 0 t2.1, .four t 1 3 0 2 t2.2.1, .four t 3 3 2 2 t2.2.2, .two i 0 1 fa, .two i 2 3 fb, .four i 0 0 1 1 Ia, .four i 2 2 3 3 Ib, .four i 0 2 1 3 Iabab]
      [.num (i || t) (CC.ucc_energy t1 t2 fa fb Ia Ib Iabab)] :=
  C105_in_range (C53_ucc_energy t1 t2 fa fb Ia Ib Iabab) C42_ucc_energy rfl

theorem C105_ump2_energy {i t : Bool} (t1 : ((Fin (n 1)) → (Fin (n 0)) → K) × ((Fin (n 3)) → (Fin (n 2)) → K)) (t2 : ((Fin (n 1)) → (Fin (n 1)) → (Fin (n 0)) → (Fin (n 0)) → K) × ((Fin (n 1)) → (Fin (n 3)) → (Fin (n 0)) → (Fin (n 2)) → K) × ((Fin (n 3)) → (Fin (n 3)) → (Fin (n 2)) → (Fin (n 2)) → K)) (fa : (Fin (n 0)) → (Fin (n 1)) → K) (fb : (Fin (n 2)) → (Fin (n 3)) → K) (Ia : (Fin (n 0)) → (Fin (n 0)) → (Fin (n 1)) → (Fin (n 1)) → K) (Ib : (Fin (n 2)) → (Fin (n 2)) → (Fin (n 3)) → (Fin (n 3)) → K) (Iabab : (Fin (n 0)) → (Fin (n 2)) → (Fin (n 1)) → (Fin (n 3)) → K) :
    InRange ump2_energy
      [.two t 1 0 t1.1, .two t 3 2 t1.2, .four t 1 1 0 0 t2.1, .four t 1 3 0 2 t2.2.1, .four t 3 3 2 2 t2.2.2, .two i 0 1 fa, .two i 2 3 fb, .four i 0 0 1 1 Ia, .four i 2 2 3 3 Ib, .four i 0 2 1 3 Iabab]
      [.num (i || t) (CC.ump2_energy t1 t2 fa fb Ia Ib Iabab)] :=
  C105_in_range (C53_ump2_energy t1 t2 fa fb Ia Ib Iabab) C42_ump2_energy rfl

theorem C105_uccsd_stanton {i t : Bool} (ht : t = true → i = true) (Faa : OneE (Fin (n 0)) (Fin (n 1)) K) (Fbb : OneE (Fin (n 2)) (Fin (n 3)) K) (Ia : TwoE (Fin (n 0)) (Fin (n 1)) K) (Ib : TwoE (Fin (n 2)) (Fin (n 3)) K) (I_abab : TwoEFull (Fin (n 0)) (Fin (n 1)) (Fin (n 2)) (Fin (n 3)) K) (T1old : ((Fin (n 1)) → (Fin (n 0)) → K) × ((Fin (n 3)) → (Fin (n 2)) → K)) (T2old : ((Fin (n 1)) → (Fin (n 1)) → (Fin (n 0)) → (Fin (n 0)) → K) × ((Fin (n 1)) → (Fin (n 3)) → (Fin (n 0)) → (Fin (n 2)) → K) × ((Fin (n 3)) → (Fin (n 3)) → (Fin (n 2)) → (Fin (n 2)) → K)) :
    InRange uccsd_stanton
      [.two i 0 0 Faa.oo, .two i 0 1 Faa.ov, .two i 1 0 Faa.vo, .two i 1 1 Faa.vv, .two i 2 2 Fbb.oo, .two i 2 3 Fbb.ov, .two i 3 2 Fbb.vo, .two i 3 3 Fbb.vv, .four i 0 0 0 0 Ia.oooo, .four i 0 0 0 1 Ia.ooov, .four i 0 0 1 1 Ia.oovv, .four i 1 0 0 0 Ia.vooo, .four i 1 0 1 0 Ia.vovo, .four i 1 0 1 1 Ia.vovv, .four i 1 1 0 0 Ia.vvoo, .four i 1 1 1 0 Ia.vvvo, .four i 1 1 1 1 Ia.vvvv, .four i 2 2 2 2 Ib.oooo, .four i 2 2 2 3 Ib.ooov, .four i 2 2 3 3 Ib.oovv, .four i 3 2 2 2 Ib.vooo, .four i 3 2 3 2 Ib.vovo, .four i 3 2 3 3 Ib.vovv, .four i 3 3 2 2 Ib.vvoo, .four i 3 3 3 2 Ib.vvvo, .four i 3 3 3 3 Ib.vvvv, .four i 0 2 0 2 I_abab.oooo, .four i 0 2 0 3 I_abab.ooov, .four i 0 2 1 2 I_abab.oovo, .four i 0 2 1 3 I_abab.oovv, .four i 0 3 0 2 I_abab.ovoo, .four i 0 3 0 3 I_abab.ovov, .four i 0 3 1 2 I_abab.ovvo, .four i 0 3 1 3 I_abab.ovvv, .four i 1 2 0 2 I_abab.vooo, .four i 1 2 0 3 I_abab.voov, .four i 1 2 1 2 I_abab.vovo, .four i 1 2 1 3 I_abab.vovv, .four i 1 3 0 2 I_abab.vvoo, .four i 1 3 0 3 I_abab.vvov, .four i 1 3 1 2 I_abab.vvvo, .four i 1 3 1 3 I_abab.vvvv, .two t 1 0 T1old.1, .two t 3 2 T1old.2, .four t 1 1 0 0 T2old.1, .four t 1 3 0 2 T2old.2.1, .four t 3 3 2 2 T2old.2.2]
      [.two i 1 0 (CC.uccsd_stanton Faa Fbb Ia Ib I_abab T1old T2old).1.1, .two i 3 2 (CC.uccsd_stanton Faa Fbb Ia Ib I_abab T1old T2old).1.2, .four i 1 1 0 0 (CC.uccsd_stanton Faa Fbb Ia Ib I_abab T1old T2old).2.1, .four i 1 3 0 2 (CC.uccsd_stanton Faa Fbb Ia Ib I_abab T1old T2old).2.2.1, .four i 3 3 2 2 (CC.uccsd_stanton Faa Fbb Ia Ib I_abab T1old T2old).2.2.2] :=
  C105_in_range (C53_uccsd_stanton ht Faa Fbb Ia Ib I_abab T1old T2old) C42_uccsd_stanton rfl

theorem C105_uccsd_lambda_opt {i l t : Bool} (ht : t = true → i = true) (hl : l = true → i = true) (Fa : OneE (Fin (n 0)) (Fin (n 1)) K) (Fb : OneE (Fin (n 2)) (Fin (n 3)) K) (Ia : TwoE (Fin (n 0)) (Fin (n 1)) K) (Ib : TwoE (Fin (n 2)) (Fin (n 3)) K) (Iabab : TwoEFull (Fin (n 0)) (Fin (n 1)) (Fin (n 2)) (Fin (n 3)) K) (L1old : ((Fin (n 0)) → (Fin (n 1)) → K) × ((Fin (n 2)) → (Fin (n 3)) → K)) (L2old : ((Fin (n 0)) → (Fin (n 0)) → (Fin (n 1)) → (Fin (n 1)) → K) × ((Fin (n 0)) → (Fin (n 2)) → (Fin (n 1)) → (Fin (n 3)) → K) × ((Fin (n 2)) → (Fin (n 2)) → (Fin (n 3)) → (Fin (n 3)) → K)) (T1old : ((Fin (n 1)) → (Fin (n 0)) → K) × ((Fin (n 3)) → (Fin (n 2)) → K)) (T2old : ((Fin (n 1)) → (Fin (n 1)) → (Fin (n 0)) → (Fin (n 0)) → K) × ((Fin (n 1)) → (Fin (n 3)) → (Fin (n 0)) → (Fin (n 2)) → K) × ((Fin (n 3)) → (Fin (n 3)) → (Fin (n 2)) → (Fin (n 2)) → K)) :
    InRange uccsd_lambda_opt
      [.two i 0 0 Fa.oo, .two i 0 1 Fa.ov, .two i 1 1 Fa.vv, .two i 2 2 Fb.oo, .two i 2 3 Fb.ov, .two i 3 3 Fb.vv, .four i 0 0 0 0 Ia.oooo, .four i 0 0 0 1 Ia.ooov, .four i 0 0 1 1 Ia.oovv, .four i 1 0 0 0 Ia.vooo, .four i 1 0 1 0 Ia.vovo, .four i 1 0 1 1 Ia.vovv, .four i 1 1 1 0 Ia.vvvo, .four i 1 1 1 1 Ia.vvvv, .four i 2 2 2 2 Ib.oooo, .four i 2 2 2 3 Ib.ooov, .four i 2 2 3 3 Ib.oovv, .four i 3 2 2 2 Ib.vooo, .four i 3 2 3 2 Ib.vovo, .four i 3 2 3 3 Ib.vovv, .four i 3 3 3 2 Ib.vvvo, .four i 3 3 3 3 Ib.vvvv, .four i 0 2 0 2 Iabab.oooo, .four i 0 2 0 3 Iabab.ooov, .four i 0 2 1 2 Iabab.oovo, .four i 0 2 1 3 Iabab.oovv, .four i 0 3 0 2 Iabab.ovoo, .four i 0 3 0 3 Iabab.ovov, .four i 0 3 1 2 Iabab.ovvo, .four i 0 3 1 3 Iabab.ovvv, .four i 1 2 0 2 Iabab.vooo, .four i 1 2 0 3 Iabab.voov, .four i 1 2 1 2 Iabab.vovo, .four i 1 2 1 3 Iabab.vovv, .four i 1 3 0 3 Iabab.vvov, .four i 1 3 1 2 Iabab.vvvo, .four i 1 3 1 3 Iabab.vvvv, .two l 0 1 L1old.1, .two l 2 3 L1old.2, .four l 0 0 1 1 L2old.1, .four l 0 2 1 3 L2old.2.1, .four l 2 2 3 3 L2old.2.2, .two t 1 0 T1old.1, .two t 3 2 T1old.2, .four t 1 1 0 0 T2old.1, .four t 1 3 0 2 T2old.2.1, .four t 3 3 2 2 T2old.2.2]
      [.two i 0 1 (CC.uccsd_lambda_opt Fa Fb Ia Ib Iabab L1old L2old T1old T2old).1.1, .two i 2 3 (CC.uccsd_lambda_opt Fa Fb Ia Ib Iabab L1old L2old T1old T2old).1.2, .four i 0 0 1 1 (CC.uccsd_lambda_opt Fa Fb Ia Ib Iabab L1old L2old T1old T2old).2.1, .four i 0 2 1 3 (CC.uccsd_lambda_opt Fa Fb Ia Ib Iabab L1old L2old T1old T2old).2.2.1, .four i 2 2 3 3 (CC.uccsd_lambda_opt Fa Fb Ia Ib Iabab L1old L2old T1old T2old).2.2.2] :=
  C105_in_range (C53_uccsd_lambda_opt ht hl Fa Fb Ia Ib Iabab L1old L2old T1old T2old) C42_uccsd_lambda_opt rfl

theorem C105_uccsd_1rdm_ba {l t : Bool} (T1a : (Fin (n 1)) → (Fin (n 0)) → K) (T1b : (Fin (n 3)) → (Fin (n 2)) → K) (T2aa : (Fin (n 1)) → (Fin (n 1)) → (Fin (n 0)) → (Fin (n 0)) → K) (T2ab : (Fin (n 1)) → (Fin (n 3)) → (Fin (n 0)) → (Fin (n 2)) → K) (T2bb : (Fin (n 3)) → (Fin (n 3)) → (Fin (n 2)) → (Fin (n 2)) → K) (L1a : (Fin (n 0)) → (Fin (n 1)) → K) (L1b : (Fin (n 2)) → (Fin (n 3)) → K) (L2aa : (Fin (n 0)) → (Fin (n 0)) → (Fin (n 1)) → (Fin (n 1)) → K) (L2ab : (Fin (n 0)) → (Fin (n 2)) → (Fin (n 1)) → (Fin (n 3)) → K) (L2bb : (Fin (n 2)) → (Fin (n 2)) → (Fin (n 3)) → (Fin (n 3)) → K) :
    InRange uccsd_1rdm_ba
      [.two t 1 0 T1a, .two t 3 2 T1b, .four t 1 1 0 0 T2aa, .four t 1 3 0 2 T2ab, .four t 3 3 2 2 T2bb, .two l 0 1 L1a, .two l 2 3 L1b, .four l 0 0 1 1 L2aa, .four l 0 2 1 3 L2ab, .four l 2 2 3 3 L2bb]
      [.two (t || l) 1 1 (CC.uccsd_1rdm_ba T1a T1b T2aa T2ab T2bb L1a L1b L2aa L2ab L2bb).1, .two (t || l) 3 3 (CC.uccsd_1rdm_ba T1a T1b T2aa T2ab T2bb L1a L1b L2aa L2ab L2bb).2] :=
  C105_in_range (C53_uccsd_1rdm_ba T1a T1b T2aa T2ab T2bb L1a L1b L2aa L2ab L2bb) C42_uccsd_1rdm_ba rfl

theorem C105_uccsd_1rdm_ji {l t : Bool} (T1a : (Fin (n 1)) → (Fin (n 0)) → K) (T1b : (Fin (n 3)) → (Fin (n 2)) → K) (T2aa : (Fin (n 1)) → (Fin (n 1)) → (Fin (n 0)) → (Fin (n 0)) → K) (T2ab : (Fin (n 1)) → (Fin (n 3)) → (Fin (n 0)) → (Fin (n 2)) → K) (T2bb : (Fin (n 3)) → (Fin (n 3)) → (Fin (n 2)) → (Fin (n 2)) → K) (L1a : (Fin (n 0)) → (Fin (n 1)) → K) (L1b : (Fin (n 2)) → (Fin (n 3)) → K) (L2aa : (Fin (n 0)) → (Fin (n 0)) → (Fin (n 1)) → (Fin (n 1)) → K) (L2ab : (Fin (n 0)) → (Fin (n 2)) → (Fin (n 1)) → (Fin (n 3)) → K) (L2bb : (Fin (n 2)) → (Fin (n 2)) → (Fin (n 3)) → (Fin (n 3)) → K) :
    InRange uccsd_1rdm_ji
      [.two t 1 0 T1a, .two t 3 2 T1b, .four t 1 1 0 0 T2aa, .four t 1 3 0 2 T2ab, .four t 3 3 2 2 T2bb, .two l 0 1 L1a, .two l 2 3 L1b, .four l 0 0 1 1 L2aa, .four l 0 2 1 3 L2ab, .four l 2 2 3 3 L2bb]
      [.two (t || l) 0 0 (CC.uccsd_1rdm_ji T1a T1b T2aa T2ab T2bb L1a L1b L2aa L2ab L2bb).1, .two (t || l) 2 2 (CC.uccsd_1rdm_ji T1a T1b T2aa T2ab T2bb L1a L1b L2aa L2ab L2bb).2] :=
  C105_in_range (C53_uccsd_1rdm_ji T1a T1b T2aa T2ab T2bb L1a L1b L2aa L2ab L2bb) C42_uccsd_1rdm_ji rfl

theorem C105_uccsd_1rdm_ai {c l t : Bool} (hl : l = true → (t || c) = true) (T1a : (Fin (n 1)) → (Fin (n 0)) → K) (T1b : (Fin (n 3)) → (Fin (n 2)) → K) (T2aa : (Fin (n 1)) → (Fin (n 1)) → (Fin (n 0)) → (Fin (n 0)) → K) (T2ab : (Fin (n 1)) → (Fin (n 3)) → (Fin (n 0)) → (Fin (n 2)) → K) (T2bb : (Fin (n 3)) → (Fin (n 3)) → (Fin (n 2)) → (Fin (n 2)) → K) (L1a : (Fin (n 0)) → (Fin (n 1)) → K) (L1b : (Fin (n 2)) → (Fin (n 3)) → K) (L2aa : (Fin (n 0)) → (Fin (n 0)) → (Fin (n 1)) → (Fin (n 1)) → K) (L2ab : (Fin (n 0)) → (Fin (n 2)) → (Fin (n 1)) → (Fin (n 3)) → K) (L2bb : (Fin (n 2)) → (Fin (n 2)) → (Fin (n 3)) → (Fin (n 3)) → K) (tfac : K) :
    InRange uccsd_1rdm_ai
      [.two t 1 0 T1a, .two t 3 2 T1b, .four t 1 1 0 0 T2aa, .four t 1 3 0 2 T2ab, .four t 3 3 2 2 T2bb, .two l 0 1 L1a, .two l 2 3 L1b, .four l 0 0 1 1 L2aa, .four l 0 2 1 3 L2ab, .four l 2 2 3 3 L2bb, .num c tfac]
      [.two (t || l || c) 1 0 (CC.uccsd_1rdm_ai T1a T1b T2aa T2ab T2bb L1a L1b L2aa L2ab L2bb tfac).1, .two (t || l || c) 3 2 (CC.uccsd_1rdm_ai T1a T1b T2aa T2ab T2bb L1a L1b L2aa L2ab L2bb tfac).2] :=
  C105_in_range (C53_uccsd_1rdm_ai hl T1a T1b T2aa T2ab T2bb L1a L1b L2aa L2ab L2bb tfac) C42_uccsd_1rdm_ai rfl

theorem C105_uccsd_2rdm_ciab {l t : Bool} (T1a : (Fin (n 1)) → (Fin (n 0)) → K) (T1b : (Fin (n 3)) → (Fin (n 2)) → K) (T2aa : (Fin (n 1)) → (Fin (n 1)) → (Fin (n 0)) → (Fin (n 0)) → K) (T2ab : (Fin (n 1)) → (Fin (n 3)) → (Fin (n 0)) → (Fin (n 2)) → K) (T2bb : (Fin (n 3)) → (Fin (n 3)) → (Fin (n 2)) → (Fin (n 2)) → K) (L1a : (Fin (n 0)) → (Fin (n 1)) → K) (L1b : (Fin (n 2)) → (Fin (n 3)) → K) (L2aa : (Fin (n 0)) → (Fin (n 0)) → (Fin (n 1)) → (Fin (n 1)) → K) (L2ab : (Fin (n 0)) → (Fin (n 2)) → (Fin (n 1)) → (Fin (n 3)) → K) (L2bb : (Fin (n 2)) → (Fin (n 2)) → (Fin (n 3)) → (Fin (n 3)) → K) :
    InRange uccsd_2rdm_ciab
      [.two t 1 0 T1a, .two t 3 2 T1b, .four l 0 0 1 1 L2aa, .four l 0 2 1 3 L2ab, .four l 2 2 3 3 L2bb]
      [.four (t || l) 1 0 1 1 (CC.uccsd_2rdm_ciab T1a T1b T2aa T2ab T2bb L1a L1b L2aa L2ab L2bb).1, .four (t || l) 3 2 3 3 (CC.uccsd_2rdm_ciab T1a T1b T2aa T2ab T2bb L1a L1b L2aa L2ab L2bb).2.1, .four (t || l) 1 2 1 3 (CC.uccsd_2rdm_ciab T1a T1b T2aa T2ab T2bb L1a L1b L2aa L2ab L2bb).2.2.1, .four (t || l) 3 0 3 1 (CC.uccsd_2rdm_ciab T1a T1b T2aa T2ab T2bb L1a L1b L2aa L2ab L2bb).2.2.2] :=
  C105_in_range (C53_uccsd_2rdm_ciab T1a T1b T2aa T2ab T2bb L1a L1b L2aa L2ab L2bb) C42_uccsd_2rdm_ciab rfl

theorem C105_uccsd_2rdm_jkai {l t : Bool} (T1a : (Fin (n 1)) → (Fin (n 0)) → K) (T1b : (Fin (n 3)) → (Fin (n 2)) → K) (T2aa : (Fin (n 1)) → (Fin (n 1)) → (Fin (n 0)) → (Fin (n 0)) → K) (T2ab : (Fin (n 1)) → (Fin (n 3)) → (Fin (n 0)) → (Fin (n 2)) → K) (T2bb : (Fin (n 3)) → (Fin (n 3)) → (Fin (n 2)) → (Fin (n 2)) → K) (L1a : (Fin (n 0)) → (Fin (n 1)) → K) (L1b : (Fin (n 2)) → (Fin (n 3)) → K) (L2aa : (Fin (n 0)) → (Fin (n 0)) → (Fin (n 1)) → (Fin (n 1)) → K) (L2ab : (Fin (n 0)) → (Fin (n 2)) → (Fin (n 1)) → (Fin (n 3)) → K) (L2bb : (Fin (n 2)) → (Fin (n 2)) → (Fin (n 3)) → (Fin (n 3)) → K) :
    InRange uccsd_2rdm_jkai
      [.two t 1 0 T1a, .two t 3 2 T1b, .four l 0 0 1 1 L2aa, .four l 0 2 1 3 L2ab, .four l 2 2 3 3 L2bb]
      [.four (t || l) 0 0 1 0 (CC.uccsd_2rdm_jkai T1a T1b T2aa T2ab T2bb L1a L1b L2aa L2ab L2bb).1, .four (t || l) 2 2 3 2 (CC.uccsd_2rdm_jkai T1a T1b T2aa T2ab T2bb L1a L1b L2aa L2ab L2bb).2.1, .four (t || l) 0 2 1 2 (CC.uccsd_2rdm_jkai T1a T1b T2aa T2ab T2bb L1a L1b L2aa L2ab L2bb).2.2.1, .four (t || l) 2 0 3 0 (CC.uccsd_2rdm_jkai T1a T1b T2aa T2ab T2bb L1a L1b L2aa L2ab L2bb).2.2.2] :=
  C105_in_range (C53_uccsd_2rdm_jkai T1a T1b T2aa T2ab T2bb L1a L1b L2aa L2ab L2bb) C42_uccsd_2rdm_jkai rfl

theorem C105_uccsd_2rdm_cdab {l t : Bool} (T1a : (Fin (n 1)) → (Fin (n 0)) → K) (T1b : (Fin (n 3)) → (Fin (n 2)) → K) (T2aa : (Fin (n 1)) → (Fin (n 1)) → (Fin (n 0)) → (Fin (n 0)) → K) (T2ab : (Fin (n 1)) → (Fin (n 3)) → (Fin (n 0)) → (Fin (n 2)) → K) (T2bb : (Fin (n 3)) → (Fin (n 3)) → (Fin (n 2)) → (Fin (n 2)) → K) (L1a : (Fin (n 0)) → (Fin (n 1)) → K) (L1b : (Fin (n 2)) → (Fin (n 3)) → K) (L2aa : (Fin (n 0)) → (Fin (n 0)) → (Fin (n 1)) → (Fin (n 1)) → K) (L2ab : (Fin (n 0)) → (Fin (n 2)) → (Fin (n 1)) → (Fin (n 3)) → K) (L2bb : (Fin (n 2)) → (Fin (n 2)) → (Fin (n 3)) → (Fin (n 3)) → K) :
    InRange uccsd_2rdm_cdab
      [.two t 1 0 T1a, .two t 3 2 T1b, .four t 1 1 0 0 T2aa, .four t 1 3 0 2 T2ab, .four t 3 3 2 2 T2bb, .four l 0 0 1 1 L2aa, .four l 0 2 1 3 L2ab, .four l 2 2 3 3 L2bb]
      [.four (t || l) 1 1 1 1 (CC.uccsd_2rdm_cdab T1a T1b T2aa T2ab T2bb L1a L1b L2aa L2ab L2bb).1, .four (t || l) 3 3 3 3 (CC.uccsd_2rdm_cdab T1a T1b T2aa T2ab T2bb L1a L1b L2aa L2ab L2bb).2.1, .four (t || l) 1 3 1 3 (CC.uccsd_2rdm_cdab T1a T1b T2aa T2ab T2bb L1a L1b L2aa L2ab L2bb).2.2] :=
  C105_in_range (C53_uccsd_2rdm_cdab T1a T1b T2aa T2ab T2bb L1a L1b L2aa L2ab L2bb) C42_uccsd_2rdm_cdab rfl

theorem C105_uccsd_2rdm_bjai {l t : Bool} (T1a : (Fin (n 1)) → (Fin (n 0)) → K) (T1b : (Fin (n 3)) → (Fin (n 2)) → K) (T2aa : (Fin (n 1)) → (Fin (n 1)) → (Fin (n 0)) → (Fin (n 0)) → K) (T2ab : (Fin (n 1)) → (Fin (n 3)) → (Fin (n 0)) → (Fin (n 2)) → K) (T2bb : (Fin (n 3)) → (Fin (n 3)) → (Fin (n 2)) → (Fin (n 2)) → K) (L1a : (Fin (n 0)) → (Fin (n 1)) → K) (L1b : (Fin (n 2)) → (Fin (n 3)) → K) (L2aa : (Fin (n 0)) → (Fin (n 0)) → (Fin (n 1)) → (Fin (n 1)) → K) (L2ab : (Fin (n 0)) → (Fin (n 2)) → (Fin (n 1)) → (Fin (n 3)) → K) (L2bb : (Fin (n 2)) → (Fin (n 2)) → (Fin (n 3)) → (Fin (n 3)) → K) :
    InRange uccsd_2rdm_bjai
      [.two t 1 0 T1a, .two t 3 2 T1b, .four t 1 1 0 0 T2aa, .four t 1 3 0 2 T2ab, .four t 3 3 2 2 T2bb, .two l 0 1 L1a, .two l 2 3 L1b, .four l 0 0 1 1 L2aa, .four l 0 2 1 3 L2ab, .four l 2 2 3 3 L2bb]
      [.four (t || l) 1 0 1 0 (CC.uccsd_2rdm_bjai T1a T1b T2aa T2ab T2bb L1a L1b L2aa L2ab L2bb).1, .four (t || l) 3 2 3 2 (CC.uccsd_2rdm_bjai T1a T1b T2aa T2ab T2bb L1a L1b L2aa L2ab L2bb).2.1, .four (t || l) 1 2 1 2 (CC.uccsd_2rdm_bjai T1a T1b T2aa T2ab T2bb L1a L1b L2aa L2ab L2bb).2.2.1, .four (t || l) 1 2 3 0 (CC.uccsd_2rdm_bjai T1a T1b T2aa T2ab T2bb L1a L1b L2aa L2ab L2bb).2.2.2.1, .four (t || l) 3 0 1 2 (CC.uccsd_2rdm_bjai T1a T1b T2aa T2ab T2bb L1a L1b L2aa L2ab L2bb).2.2.2.2.1, .four (t || l) 3 0 3 0 (CC.uccsd_2rdm_bjai T1a T1b T2aa T2ab T2bb L1a L1b L2aa L2ab L2bb).2.2.2.2.2] :=
  C105_in_range (C53_uccsd_2rdm_bjai T1a T1b T2aa T2ab T2bb L1a L1b L2aa L2ab L2bb) C42_uccsd_2rdm_bjai rfl

theorem C105_uccsd_2rdm_klij {l t : Bool} (T1a : (Fin (n 1)) → (Fin (n 0)) → K) (T1b : (Fin (n 3)) → (Fin (n 2)) → K) (T2aa : (Fin (n 1)) → (Fin (n 1)) → (Fin (n 0)) → (Fin (n 0)) → K) (T2ab : (Fin (n 1)) → (Fin (n 3)) → (Fin (n 0)) → (Fin (n 2)) → K) (T2bb : (Fin (n 3)) → (Fin (n 3)) → (Fin (n 2)) → (Fin (n 2)) → K) (L1a : (Fin (n 0)) → (Fin (n 1)) → K) (L1b : (Fin (n 2)) → (Fin (n 3)) → K) (L2aa : (Fin (n 0)) → (Fin (n 0)) → (Fin (n 1)) → (Fin (n 1)) → K) (L2ab : (Fin (n 0)) → (Fin (n 2)) → (Fin (n 1)) → (Fin (n 3)) → K) (L2bb : (Fin (n 2)) → (Fin (n 2)) → (Fin (n 3)) → (Fin (n 3)) → K) :
    InRange uccsd_2rdm_klij
      [.two t 1 0 T1a, .two t 3 2 T1b, .four t 1 1 0 0 T2aa, .four t 1 3 0 2 T2ab, .four t 3 3 2 2 T2bb, .four l 0 0 1 1 L2aa, .four l 0 2 1 3 L2ab, .four l 2 2 3 3 L2bb]
      [.four (t || l) 0 0 0 0 (CC.uccsd_2rdm_klij T1a T1b T2aa T2ab T2bb L1a L1b L2aa L2ab L2bb).1, .four (t || l) 2 2 2 2 (CC.uccsd_2rdm_klij T1a T1b T2aa T2ab T2bb L1a L1b L2aa L2ab L2bb).2.1, .four (t || l) 0 2 0 2 (CC.uccsd_2rdm_klij T1a T1b T2aa T2ab T2bb L1a L1b L2aa L2ab L2bb).2.2] :=
  C105_in_range (C53_uccsd_2rdm_klij T1a T1b T2aa T2ab T2bb L1a L1b L2aa L2ab L2bb) C42_uccsd_2rdm_klij rfl

theorem C105_uccsd_2rdm_bcai {l t : Bool} (T1a : (Fin (n 1)) → (Fin (n 0)) → K) (T1b : (Fin (n 3)) → (Fin (n 2)) → K) (T2aa : (Fin (n 1)) → (Fin (n 1)) → (Fin (n 0)) → (Fin (n 0)) → K) (T2ab : (Fin (n 1)) → (Fin (n 3)) → (Fin (n 0)) → (Fin (n 2)) → K) (T2bb : (Fin (n 3)) → (Fin (n 3)) → (Fin (n 2)) → (Fin (n 2)) → K) (L1a : (Fin (n 0)) → (Fin (n 1)) → K) (L1b : (Fin (n 2)) → (Fin (n 3)) → K) (L2aa : (Fin (n 0)) → (Fin (n 0)) → (Fin (n 1)) → (Fin (n 1)) → K) (L2ab : (Fin (n 0)) → (Fin (n 2)) → (Fin (n 1)) → (Fin (n 3)) → K) (L2bb : (Fin (n 2)) → (Fin (n 2)) → (Fin (n 3)) → (Fin (n 3)) → K) :
    InRange uccsd_2rdm_bcai
      [.two t 1 0 T1a, .two t 3 2 T1b, .four t 1 1 0 0 T2aa, .four t 1 3 0 2 T2ab, .four t 3 3 2 2 T2bb, .two l 0 1 L1a, .two l 2 3 L1b, .four l 0 0 1 1 L2aa, .four l 0 2 1 3 L2ab, .four l 2 2 3 3 L2bb]
      [.four (t || l) 1 1 1 0 (CC.uccsd_2rdm_bcai T1a T1b T2aa T2ab T2bb L1a L1b L2aa L2ab L2bb).1, .four (t || l) 3 3 3 2 (CC.uccsd_2rdm_bcai T1a T1b T2aa T2ab T2bb L1a L1b L2aa L2ab L2bb).2.1, .four (t || l) 1 3 1 2 (CC.uccsd_2rdm_bcai T1a T1b T2aa T2ab T2bb L1a L1b L2aa L2ab L2bb).2.2.1, .four (t || l) 3 1 3 0 (CC.uccsd_2rdm_bcai T1a T1b T2aa T2ab T2bb L1a L1b L2aa L2ab L2bb).2.2.2] :=
  C105_in_range (C53_uccsd_2rdm_bcai T1a T1b T2aa T2ab T2bb L1a L1b L2aa L2ab L2bb) C42_uccsd_2rdm_bcai rfl

theorem C105_uccsd_2rdm_kaij {l t : Bool} (T1a : (Fin (n 1)) → (Fin (n 0)) → K) (T1b : (Fin (n 3)) → (Fin (n 2)) → K) (T2aa : (Fin (n 1)) → (Fin (n 1)) → (Fin (n 0)) → (Fin (n 0)) → K) (T2ab : (Fin (n 1)) → (Fin (n 3)) → (Fin (n 0)) → (Fin (n 2)) → K) (T2bb : (Fin (n 3)) → (Fin (n 3)) → (Fin (n 2)) → (Fin (n 2)) → K) (L1a : (Fin (n 0)) → (Fin (n 1)) → K) (L1b : (Fin (n 2)) → (Fin (n 3)) → K) (L2aa : (Fin (n 0)) → (Fin (n 0)) → (Fin (n 1)) → (Fin (n 1)) → K) (L2ab : (Fin (n 0)) → (Fin (n 2)) → (Fin (n 1)) → (Fin (n 3)) → K) (L2bb : (Fin (n 2)) → (Fin (n 2)) → (Fin (n 3)) → (Fin (n 3)) → K) :
    InRange uccsd_2rdm_kaij
      [.two t 1 0 T1a, .two t 3 2 T1b, .four t 1 1 0 0 T2aa, .four t 1 3 0 2 T2ab, .four t 3 3 2 2 T2bb, .two l 0 1 L1a, .two l 2 3 L1b, .four l 0 0 1 1 L2aa, .four l 0 2 1 3 L2ab, .four l 2 2 3 3 L2bb]
      [.four (t || l) 0 1 0 0 (CC.uccsd_2rdm_kaij T1a T1b T2aa T2ab T2bb L1a L1b L2aa L2ab L2bb).1, .four (t || l) 2 3 2 2 (CC.uccsd_2rdm_kaij T1a T1b T2aa T2ab T2bb L1a L1b L2aa L2ab L2bb).2.1, .four (t || l) 0 3 0 2 (CC.uccsd_2rdm_kaij T1a T1b T2aa T2ab T2bb L1a L1b L2aa L2ab L2bb).2.2.1, .four (t || l) 2 1 2 0 (CC.uccsd_2rdm_kaij T1a T1b T2aa T2ab T2bb L1a L1b L2aa L2ab L2bb).2.2.2] :=
  C105_in_range (C53_uccsd_2rdm_kaij T1a T1b T2aa T2ab T2bb L1a L1b L2aa L2ab L2bb) C42_uccsd_2rdm_kaij rfl

theorem C105_uccsd_2rdm_abij {c l t : Bool} (hl : l = true → (t || c) = true) (T1a : (Fin (n 1)) → (Fin (n 0)) → K) (T1b : (Fin (n 3)) → (Fin (n 2)) → K) (T2aa : (Fin (n 1)) → (Fin (n 1)) → (Fin (n 0)) → (Fin (n 0)) → K) (T2ab : (Fin (n 1)) → (Fin (n 3)) → (Fin (n 0)) → (Fin (n 2)) → K) (T2bb : (Fin (n 3)) → (Fin (n 3)) → (Fin (n 2)) → (Fin (n 2)) → K) (L1a : (Fin (n 0)) → (Fin (n 1)) → K) (L1b : (Fin (n 2)) → (Fin (n 3)) → K) (L2aa : (Fin (n 0)) → (Fin (n 0)) → (Fin (n 1)) → (Fin (n 1)) → K) (L2ab : (Fin (n 0)) → (Fin (n 2)) → (Fin (n 1)) → (Fin (n 3)) → K) (L2bb : (Fin (n 2)) → (Fin (n 2)) → (Fin (n 3)) → (Fin (n 3)) → K) (tfac : K) :
    InRange uccsd_2rdm_abij
      [.two t 1 0 T1a, .two t 3 2 T1b, .four t 1 1 0 0 T2aa, .four t 1 3 0 2 T2ab, .four t 3 3 2 2 T2bb, .two l 0 1 L1a, .two l 2 3 L1b, .four l 0 0 1 1 L2aa, .four l 0 2 1 3 L2ab, .four l 2 2 3 3 L2bb, .num c tfac]
      [.four (t || l || c) 1 1 0 0 (CC.uccsd_2rdm_abij T1a T1b T2aa T2ab T2bb L1a L1b L2aa L2ab L2bb tfac).1, .four (t || l || c) 3 3 2 2 (CC.uccsd_2rdm_abij T1a T1b T2aa T2ab T2bb L1a L1b L2aa L2ab L2bb tfac).2.1, .four (t || l || c) 1 3 0 2 (CC.uccsd_2rdm_abij T1a T1b T2aa T2ab T2bb L1a L1b L2aa L2ab L2bb tfac).2.2] :=
  C105_in_range (C53_uccsd_2rdm_abij hl T1a T1b T2aa T2ab T2bb L1a L1b L2aa L2ab L2bb tfac) C42_uccsd_2rdm_abij rfl

theorem C105_rcc_energy {i t : Bool} (t1 : (Fin (n 1)) → (Fin (n 0)) → K) (t2 : (Fin (n 1)) → (Fin (n 1)) → (Fin (n 0)) → (Fin (n 0)) → K) (f : (Fin (n 0)) → (Fin (n 1)) → K) (I : (Fin (n 0)) → (Fin (n 0)) → (Fin (n 1)) → (Fin (n 1)) → K) :
    InRange rcc_energy
      [.two t 1 0 t1, .four t 1 1 0 0 t2, .two i 0 1 f, .four i 0 0 1 1 I]
      [.num (i || t) (CC.rcc_energy t1 t2 f I)] :=
  C105_in_range (C53_rcc_energy t1 t2 f I) C42_rcc_energy rfl

theorem C105_rccsd_stanton {i t : Bool} (ht : t = true → i = true) (F : OneE (Fin (n 0)) (Fin (n 1)) K) (I : TwoEFull (Fin (n 0)) (Fin (n 1)) (Fin (n 0)) (Fin (n 1)) K) (T1old : (Fin (n 1)) → (Fin (n 0)) → K) (T2old : (Fin (n 1)) → (Fin (n 1)) → (Fin (n 0)) → (Fin (n 0)) → K) :
    InRange rccsd_stanton
      [.two i 0 0 F.oo, .two i 0 1 F.ov, .two i 1 0 F.vo, .two i 1 1 F.vv, .four i 0 0 0 0 I.oooo, .four i 0 0 0 1 I.ooov, .four i 0 0 1 0 I.oovo, .four i 0 0 1 1 I.oovv, .four i 0 1 0 0 I.ovoo, .four i 0 1 0 1 I.ovov, .four i 0 1 1 0 I.ovvo, .four i 0 1 1 1 I.ovvv, .four i 1 0 1 0 I.vovo, .four i 1 0 1 1 I.vovv, .four i 1 1 0 0 I.vvoo, .four i 1 1 1 0 I.vvvo, .four i 1 1 1 1 I.vvvv, .two t 1 0 T1old, .four t 1 1 0 0 T2old]
      [.two i 1 0 (CC.rccsd_stanton F I T1old T2old).1, .four i 1 1 0 0 (CC.rccsd_stanton F I T1old T2old).2] :=
  C105_in_range (C53_rccsd_stanton ht F I T1old T2old) C42_rccsd_stanton rfl

theorem C105_rccsd_lambda_opt {i l t : Bool} (ht : t = true → i = true) (hl : l = true → i = true) (F : OneE (Fin (n 0)) (Fin (n 1)) K) (I : TwoEFull (Fin (n 0)) (Fin (n 1)) (Fin (n 0)) (Fin (n 1)) K) (L1old : (Fin (n 0)) → (Fin (n 1)) → K) (L2old : (Fin (n 0)) → (Fin (n 0)) → (Fin (n 1)) → (Fin (n 1)) → K) (T1old : (Fin (n 1)) → (Fin (n 0)) → K) (T2old : (Fin (n 1)) → (Fin (n 1)) → (Fin (n 0)) → (Fin (n 0)) → K) :
    InRange rccsd_lambda_opt
      [.two i 0 0 F.oo, .two i 0 1 F.ov, .two i 1 1 F.vv, .four i 0 0 0 0 I.oooo, .four i 0 0 0 1 I.ooov, .four i 0 0 1 0 I.oovo, .four i 0 0 1 1 I.oovv, .four i 0 1 0 0 I.ovoo, .four i 0 1 0 1 I.ovov, .four i 0 1 1 0 I.ovvo, .four i 0 1 1 1 I.ovvv, .four i 1 0 0 0 I.vooo, .four i 1 0 0 1 I.voov, .four i 1 0 1 0 I.vovo, .four i 1 0 1 1 I.vovv, .four i 1 1 0 1 I.vvov, .four i 1 1 1 0 I.vvvo, .four i 1 1 1 1 I.vvvv, .two l 0 1 L1old, .four l 0 0 1 1 L2old, .two t 1 0 T1old, .four t 1 1 0 0 T2old]
      [.two i 0 1 (CC.rccsd_lambda_opt F I L1old L2old T1old T2old).1, .four i 0 0 1 1 (CC.rccsd_lambda_opt F I L1old L2old T1old T2old).2] :=
  C105_in_range (C53_rccsd_lambda_opt ht hl F I L1old L2old T1old T2old) C42_rccsd_lambda_opt rfl

theorem C105_rccsd_1rdm_ba {l t : Bool} (T1 : (Fin (n 1)) → (Fin (n 0)) → K) (T2 : (Fin (n 1)) → (Fin (n 1)) → (Fin (n 0)) → (Fin (n 0)) → K) (L1 : (Fin (n 0)) → (Fin (n 1)) → K) (L2 : (Fin (n 0)) → (Fin (n 0)) → (Fin (n 1)) → (Fin (n 1)) → K) (tfac : K) :
    InRange rccsd_1rdm_ba
      [.two t 1 0 T1, .four t 1 1 0 0 T2, .two l 0 1 L1, .four l 0 0 1 1 L2]
      [.two (t || l) 1 1 (CC.rccsd_1rdm_ba T1 T2 L1 L2 tfac)] :=
  C105_in_range (C53_rccsd_1rdm_ba T1 T2 L1 L2 tfac) C42_rccsd_1rdm_ba rfl

theorem C105_rccsd_1rdm_ji {l t : Bool} (T1 : (Fin (n 1)) → (Fin (n 0)) → K) (T2 : (Fin (n 1)) → (Fin (n 1)) → (Fin (n 0)) → (Fin (n 0)) → K) (L1 : (Fin (n 0)) → (Fin (n 1)) → K) (L2 : (Fin (n 0)) → (Fin (n 0)) → (Fin (n 1)) → (Fin (n 1)) → K) (tfac : K) :
    InRange rccsd_1rdm_ji
      [.two t 1 0 T1, .four t 1 1 0 0 T2, .two l 0 1 L1, .four l 0 0 1 1 L2]
      [.two (t || l) 0 0 (CC.rccsd_1rdm_ji T1 T2 L1 L2 tfac)] :=
  C105_in_range (C53_rccsd_1rdm_ji T1 T2 L1 L2 tfac) C42_rccsd_1rdm_ji rfl

theorem C105_rccsd_1rdm_ai {c l t : Bool} (hl : l = true → (t || c) = true) (T1 : (Fin (n 1)) → (Fin (n 0)) → K) (T2 : (Fin (n 1)) → (Fin (n 1)) → (Fin (n 0)) → (Fin (n 0)) → K) (L1 : (Fin (n 0)) → (Fin (n 1)) → K) (L2 : (Fin (n 0)) → (Fin (n 0)) → (Fin (n 1)) → (Fin (n 1)) → K) (tfac : K) :
    InRange rccsd_1rdm_ai
      [.two t 1 0 T1, .four t 1 1 0 0 T2, .two l 0 1 L1, .four l 0 0 1 1 L2, .num c tfac]
      [.two (t || l || c) 1 0 (CC.rccsd_1rdm_ai T1 T2 L1 L2 tfac)] :=
  C105_in_range (C53_rccsd_1rdm_ai hl T1 T2 L1 L2 tfac) C42_rccsd_1rdm_ai rfl

theorem C105_rccsd_2rdm_ciab {l t : Bool} (T1 : (Fin (n 1)) → (Fin (n 0)) → K) (T2 : (Fin (n 1)) → (Fin (n 1)) → (Fin (n 0)) → (Fin (n 0)) → K) (L1 : (Fin (n 0)) → (Fin (n 1)) → K) (L2 : (Fin (n 0)) → (Fin (n 0)) → (Fin (n 1)) → (Fin (n 1)) → K) :
    InRange rccsd_2rdm_ciab
      [.two t 1 0 T1, .four l 0 0 1 1 L2]
      [.four (t || l) 1 0 1 1 (CC.rccsd_2rdm_ciab T1 T2 L1 L2)] :=
  C105_in_range (C53_rccsd_2rdm_ciab T1 T2 L1 L2) C42_rccsd_2rdm_ciab rfl

theorem C105_rccsd_2rdm_jkai {l t : Bool} (T1 : (Fin (n 1)) → (Fin (n 0)) → K) (T2 : (Fin (n 1)) → (Fin (n 1)) → (Fin (n 0)) → (Fin (n 0)) → K) (L1 : (Fin (n 0)) → (Fin (n 1)) → K) (L2 : (Fin (n 0)) → (Fin (n 0)) → (Fin (n 1)) → (Fin (n 1)) → K) :
    InRange rccsd_2rdm_jkai
      [.two t 1 0 T1, .four l 0 0 1 1 L2]
      [.four (t || l) 0 0 1 0 (CC.rccsd_2rdm_jkai T1 T2 L1 L2)] :=
  C105_in_range (C53_rccsd_2rdm_jkai T1 T2 L1 L2) C42_rccsd_2rdm_jkai rfl

theorem C105_rccsd_2rdm_cdab {l t : Bool} (T1 : (Fin (n 1)) → (Fin (n 0)) → K) (T2 : (Fin (n 1)) → (Fin (n 1)) → (Fin (n 0)) → (Fin (n 0)) → K) (L1 : (Fin (n 0)) → (Fin (n 1)) → K) (L2 : (Fin (n 0)) → (Fin (n 0)) → (Fin (n 1)) → (Fin (n 1)) → K) :
    InRange rccsd_2rdm_cdab
      [.two t 1 0 T1, .four t 1 1 0 0 T2, .four l 0 0 1 1 L2]
      [.four (t || l) 1 1 1 1 (CC.rccsd_2rdm_cdab T1 T2 L1 L2)] :=
  C105_in_range (C53_rccsd_2rdm_cdab T1 T2 L1 L2) C42_rccsd_2rdm_cdab rfl

theorem C105_rccsd_2rdm_bjai {l t : Bool} (T1 : (Fin (n 1)) → (Fin (n 0)) → K) (T2 : (Fin (n 1)) → (Fin (n 1)) → (Fin (n 0)) → (Fin (n 0)) → K) (L1 : (Fin (n 0)) → (Fin (n 1)) → K) (L2 : (Fin (n 0)) → (Fin (n 0)) → (Fin (n 1)) → (Fin (n 1)) → K) :
    InRange rccsd_2rdm_bjai
      [.two t 1 0 T1, .four t 1 1 0 0 T2, .four l 0 0 1 1 L2]
      [.four (t || l) 1 0 1 0 (CC.rccsd_2rdm_bjai T1 T2 L1 L2)] :=
  C105_in_range (C53_rccsd_2rdm_bjai T1 T2 L1 L2) C42_rccsd_2rdm_bjai rfl

theorem C105_rccsd_2rdm_bjia {l t : Bool} (T1 : (Fin (n 1)) → (Fin (n 0)) → K) (T2 : (Fin (n 1)) → (Fin (n 1)) → (Fin (n 0)) → (Fin (n 0)) → K) (L1 : (Fin (n 0)) → (Fin (n 1)) → K) (L2 : (Fin (n 0)) → (Fin (n 0)) → (Fin (n 1)) → (Fin (n 1)) → K) :
    InRange rccsd_2rdm_bjia
      [.two t 1 0 T1, .four t 1 1 0 0 T2, .two l 0 1 L1, .four l 0 0 1 1 L2]
      [.four (t || l) 1 0 0 1 (CC.rccsd_2rdm_bjia T1 T2 L1 L2)] :=
  C105_in_range (C53_rccsd_2rdm_bjia T1 T2 L1 L2) C42_rccsd_2rdm_bjia rfl

theorem C105_rccsd_2rdm_klij {l t : Bool} (T1 : (Fin (n 1)) → (Fin (n 0)) → K) (T2 : (Fin (n 1)) → (Fin (n 1)) → (Fin (n 0)) → (Fin (n 0)) → K) (L1 : (Fin (n 0)) → (Fin (n 1)) → K) (L2 : (Fin (n 0)) → (Fin (n 0)) → (Fin (n 1)) → (Fin (n 1)) → K) :
    InRange rccsd_2rdm_klij
      [.two t 1 0 T1, .four t 1 1 0 0 T2, .four l 0 0 1 1 L2]
      [.four (t || l) 0 0 0 0 (CC.rccsd_2rdm_klij T1 T2 L1 L2)] :=
  C105_in_range (C53_rccsd_2rdm_klij T1 T2 L1 L2) C42_rccsd_2rdm_klij rfl

theorem C105_rccsd_2rdm_bcai {l t : Bool} (T1 : (Fin (n 1)) → (Fin (n 0)) → K) (T2 : (Fin (n 1)) → (Fin (n 1)) → (Fin (n 0)) → (Fin (n 0)) → K) (L1 : (Fin (n 0)) → (Fin (n 1)) → K) (L2 : (Fin (n 0)) → (Fin (n 0)) → (Fin (n 1)) → (Fin (n 1)) → K) :
    InRange rccsd_2rdm_bcai
      [.two t 1 0 T1, .four t 1 1 0 0 T2, .two l 0 1 L1, .four l 0 0 1 1 L2]
      [.four (t || l) 1 1 1 0 (CC.rccsd_2rdm_bcai T1 T2 L1 L2)] :=
  C105_in_range (C53_rccsd_2rdm_bcai T1 T2 L1 L2) C42_rccsd_2rdm_bcai rfl

theorem C105_rccsd_2rdm_kaij {l t : Bool} (T1 : (Fin (n 1)) → (Fin (n 0)) → K) (T2 : (Fin (n 1)) → (Fin (n 1)) → (Fin (n 0)) → (Fin (n 0)) → K) (L1 : (Fin (n 0)) → (Fin (n 1)) → K) (L2 : (Fin (n 0)) → (Fin (n 0)) → (Fin (n 1)) → (Fin (n 1)) → K) :
    InRange rccsd_2rdm_kaij
      [.two t 1 0 T1, .four t 1 1 0 0 T2, .two l 0 1 L1, .four l 0 0 1 1 L2]
      [.four (t || l) 0 1 0 0 (CC.rccsd_2rdm_kaij T1 T2 L1 L2)] :=
  C105_in_range (C53_rccsd_2rdm_kaij T1 T2 L1 L2) C42_rccsd_2rdm_kaij rfl

theorem C105_rccsd_2rdm_abij {l t : Bool} (hl : l = true → t = true) (T1 : (Fin (n 1)) → (Fin (n 0)) → K) (T2 : (Fin (n 1)) → (Fin (n 1)) → (Fin (n 0)) → (Fin (n 0)) → K) (L1 : (Fin (n 0)) → (Fin (n 1)) → K) (L2 : (Fin (n 0)) → (Fin (n 0)) → (Fin (n 1)) → (Fin (n 1)) → K) :
    InRange rccsd_2rdm_abij
      [.two t 1 0 T1, .four t 1 1 0 0 T2, .two l 0 1 L1, .four l 0 0 1 1 L2]
      [.four (t || l) 1 1 0 0 (CC.rccsd_2rdm_abij T1 T2 L1 L2)] :=
  C105_in_range (C53_rccsd_2rdm_abij hl T1 T2 L1 L2) C42_rccsd_2rdm_abij rfl

end Heap
