import Verif.Props.Linear
import Verif.Props.ScaleCC
/-!
# C64: linearity in the Hamiltonian, routine by routine

Generated by `tools/gen_scale.py`.
-/

set_option linter.unusedVariables false

namespace Heap
open CC
variable {n : ℕ → ℕ} {K : Type} [Field K] (x y : K)

section
variable {A B C D : Type}
/-- `x f + y g`. -/
def lin2 (f g : A → B → K) : A → B → K := fun i j => x * f i j + y * g i j
def lin4 (f g : A → B → C → D → K) : A → B → C → D → K := fun i j a b => x * f i j a b + y * g i j a b

def _root_.CC.OneE.lin (x y : K) (F F' : OneE A B K) : OneE A B K where
  oo := lin2 x y F.oo F'.oo
  ov := lin2 x y F.ov F'.ov
  vo := lin2 x y F.vo F'.vo
  vv := lin2 x y F.vv F'.vv

def _root_.CC.TwoE.lin (x y : K) (I I' : TwoE A B K) : TwoE A B K where
  vvvv := lin4 x y I.vvvv I'.vvvv
  vvvo := lin4 x y I.vvvo I'.vvvo
  vovv := lin4 x y I.vovv I'.vovv
  vvoo := lin4 x y I.vvoo I'.vvoo
  vovo := lin4 x y I.vovo I'.vovo
  oovv := lin4 x y I.oovv I'.oovv
  vooo := lin4 x y I.vooo I'.vooo
  ooov := lin4 x y I.ooov I'.ooov
  oooo := lin4 x y I.oooo I'.oooo

def _root_.CC.TwoEFull.lin (x y : K) (I I' : TwoEFull A B C D K) : TwoEFull A B C D K where
  oooo := lin4 x y I.oooo I'.oooo
  ooov := lin4 x y I.ooov I'.ooov
  oovo := lin4 x y I.oovo I'.oovo
  oovv := lin4 x y I.oovv I'.oovv
  ovoo := lin4 x y I.ovoo I'.ovoo
  ovov := lin4 x y I.ovov I'.ovov
  ovvo := lin4 x y I.ovvo I'.ovvo
  ovvv := lin4 x y I.ovvv I'.ovvv
  vooo := lin4 x y I.vooo I'.vooo
  voov := lin4 x y I.voov I'.voov
  vovo := lin4 x y I.vovo I'.vovo
  vovv := lin4 x y I.vovv I'.vovv
  vvoo := lin4 x y I.vvoo I'.vvoo
  vvov := lin4 x y I.vvov I'.vvov
  vvvo := lin4 x y I.vvvo I'.vvvo
  vvvv := lin4 x y I.vvvv I'.vvvv

def _root_.CC.LambdaInt.lin (x y : K) (W W' : LambdaInt A B K) : LambdaInt A B K where
  IooovT := lin4 x y W.IooovT W'.IooovT
  IvovvT := lin4 x y W.IvovvT W'.IvovvT
  IovT := lin2 x y W.IovT W'.IovT
  IToo := lin2 x y W.IToo W'.IToo
  ITvv := lin2 x y W.ITvv W'.ITvv
  ITvovo := lin4 x y W.ITvovo W'.ITvovo
  IToovv := lin4 x y W.IToovv W'.IToovv
  ITvooo := lin4 x y W.ITvooo W'.ITvooo
  ITvvvo := lin4 x y W.ITvvvo W'.ITvvvo
  ITov := lin2 x y W.ITov W'.ITov
  ITvovv := lin4 x y W.ITvovv W'.ITvovv
  ITooov := lin4 x y W.ITooov W'.ITooov
  ITvovo2 := lin4 x y W.ITvovo2 W'.ITvovo2
  ITvvvv := lin4 x y W.ITvvvv W'.ITvvvv
  IToooo := lin4 x y W.IToooo W'.IToooo
  IToovv2 := lin4 x y W.IToovv2 W'.IToovv2
end

macro "lintys" : tactic => `(tactic| simp only [List.map_cons, List.map_nil, Desc.ty])

macro "linargs" : tactic => `(tactic| repeat first
  | exact .nil
  | refine .cons (dlin_four.2 rfl) ?_
  | refine .cons (dlin_two.2 rfl) ?_
  | refine .cons (dlin_same _) ?_)

theorem C64_cc_energy_d (t2 : (Fin (n 1)) → (Fin (n 1)) → (Fin (n 0)) → (Fin (n 0)) → K) (eri eri' : (Fin (n 0)) → (Fin (n 0)) → (Fin (n 1)) → (Fin (n 1)) → K) :
    CC.cc_energy_d t2 (lin4 x y eri eri') = x * (CC.cc_energy_d t2 eri) + y * (CC.cc_energy_d t2 eri') := by
  have h := linear (x := x) (y := y) (ws := [0, 1]) (us := [1]) (C53_cc_energy_d (n := n) (i := true) (t := true) t2 eri)
    (C53_cc_energy_d (n := n) (i := true) (t := true) t2 eri')
    (C53_cc_energy_d (n := n) (i := true) (t := true) t2 (lin4 x y eri eri')) rfl rfl rfl (by krfl) (by lintys) (by lintys) (by linargs)
  obtain ⟨h0, h⟩ := h.inv
  exact (dlin_num.1 h0)

theorem C64_cc_energy_s1 (t1 : (Fin (n 1)) → (Fin (n 0)) → K) (f f' : (Fin (n 0)) → (Fin (n 1)) → K) :
    CC.cc_energy_s1 t1 (lin2 x y f f') = x * (CC.cc_energy_s1 t1 f) + y * (CC.cc_energy_s1 t1 f') := by
  have h := linear (x := x) (y := y) (ws := [0, 1]) (us := [1]) (C53_cc_energy_s1 (n := n) (i := true) (t := true) t1 f)
    (C53_cc_energy_s1 (n := n) (i := true) (t := true) t1 f')
    (C53_cc_energy_s1 (n := n) (i := true) (t := true) t1 (lin2 x y f f')) rfl rfl rfl (by krfl) (by lintys) (by lintys) (by linargs)
  obtain ⟨h0, h⟩ := h.inv
  exact (dlin_num.1 h0)

theorem C64_cc_energy_s2 (t1 : (Fin (n 1)) → (Fin (n 0)) → K) (eri eri' : (Fin (n 0)) → (Fin (n 0)) → (Fin (n 1)) → (Fin (n 1)) → K) :
    CC.cc_energy_s2 t1 (lin4 x y eri eri') = x * (CC.cc_energy_s2 t1 eri) + y * (CC.cc_energy_s2 t1 eri') := by
  have h := linear (x := x) (y := y) (ws := [0, 1]) (us := [1]) (C53_cc_energy_s2 (n := n) (i := true) (t := true) t1 eri)
    (C53_cc_energy_s2 (n := n) (i := true) (t := true) t1 eri')
    (C53_cc_energy_s2 (n := n) (i := true) (t := true) t1 (lin4 x y eri eri')) rfl rfl rfl (by krfl) (by lintys) (by lintys) (by linargs)
  obtain ⟨h0, h⟩ := h.inv
  exact (dlin_num.1 h0)

theorem C64_cc_energy_s2_a (t11 : (Fin (n 1)) → (Fin (n 0)) → K) (t12 : (Fin (n 1)) → (Fin (n 0)) → K) (eri eri' : (Fin (n 0)) → (Fin (n 0)) → (Fin (n 1)) → (Fin (n 1)) → K) :
    CC.cc_energy_s2_a t11 t12 (lin4 x y eri eri') = x * (CC.cc_energy_s2_a t11 t12 eri) + y * (CC.cc_energy_s2_a t11 t12 eri') := by
  have h := linear (x := x) (y := y) (ws := [0, 0, 1]) (us := [1]) (C53_cc_energy_s2_a (n := n) (i := true) (t := true) t11 t12 eri)
    (C53_cc_energy_s2_a (n := n) (i := true) (t := true) t11 t12 eri')
    (C53_cc_energy_s2_a (n := n) (i := true) (t := true) t11 t12 (lin4 x y eri eri')) rfl rfl rfl (by krfl) (by lintys) (by lintys) (by linargs)
  obtain ⟨h0, h⟩ := h.inv
  exact (dlin_num.1 h0)

theorem C64_cc_energy (t1 : (Fin (n 1)) → (Fin (n 0)) → K) (t2 : (Fin (n 1)) → (Fin (n 1)) → (Fin (n 0)) → (Fin (n 0)) → K) (f f' : (Fin (n 0)) → (Fin (n 1)) → K) (eri eri' : (Fin (n 0)) → (Fin (n 0)) → (Fin (n 1)) → (Fin (n 1)) → K) :
    CC.cc_energy t1 t2 (lin2 x y f f') (lin4 x y eri eri') = x * (CC.cc_energy t1 t2 f eri) + y * (CC.cc_energy t1 t2 f' eri') := by
  have h := linear (x := x) (y := y) (ws := [0, 0, 1, 1]) (us := [1]) (C53_cc_energy (n := n) (i := true) (t := true) t1 t2 f eri)
    (C53_cc_energy (n := n) (i := true) (t := true) t1 t2 f' eri')
    (C53_cc_energy (n := n) (i := true) (t := true) t1 t2 (lin2 x y f f') (lin4 x y eri eri')) rfl rfl rfl (by krfl) (by lintys) (by lintys) (by linargs)
  obtain ⟨h0, h⟩ := h.inv
  exact (dlin_num.1 h0)

theorem C64_mp2_energy (t1 : (Fin (n 1)) → (Fin (n 0)) → K) (t2 : (Fin (n 1)) → (Fin (n 1)) → (Fin (n 0)) → (Fin (n 0)) → K) (f f' : (Fin (n 0)) → (Fin (n 1)) → K) (eri eri' : (Fin (n 0)) → (Fin (n 0)) → (Fin (n 1)) → (Fin (n 1)) → K) :
    CC.mp2_energy t1 t2 (lin2 x y f f') (lin4 x y eri eri') = x * (CC.mp2_energy t1 t2 f eri) + y * (CC.mp2_energy t1 t2 f' eri') := by
  have h := linear (x := x) (y := y) (ws := [0, 0, 1, 1]) (us := [1]) (C53_mp2_energy (n := n) (i := true) (t := true) t1 t2 f eri)
    (C53_mp2_energy (n := n) (i := true) (t := true) t1 t2 f' eri')
    (C53_mp2_energy (n := n) (i := true) (t := true) t1 t2 (lin2 x y f f') (lin4 x y eri eri')) rfl rfl rfl (by krfl) (by lintys) (by lintys) (by linargs)
  obtain ⟨h0, h⟩ := h.inv
  exact (dlin_num.1 h0)

theorem C64_lccd_simple (F F' : OneE (Fin (n 0)) (Fin (n 1)) K) (I I' : TwoE (Fin (n 0)) (Fin (n 1)) K) (T2old : (Fin (n 1)) → (Fin (n 1)) → (Fin (n 0)) → (Fin (n 0)) → K) :
    CC.lccd_simple (F.lin x y F') (I.lin x y I') T2old = lin4 x y (CC.lccd_simple F I T2old) (CC.lccd_simple F' I' T2old) := by
  have h := linear (x := x) (y := y) (ws := [1, 1, 1, 1, 1, 1, 0]) (us := [1]) (C53_lccd_simple (n := n) (i := true) (t := true) (fun _ => rfl) F I T2old)
    (C53_lccd_simple (n := n) (i := true) (t := true) (fun _ => rfl) F' I' T2old)
    (C53_lccd_simple (n := n) (i := true) (t := true) (fun _ => rfl) (F.lin x y F') (I.lin x y I') T2old) rfl rfl rfl (by krfl) (by lintys) (by lintys) (by linargs)
  obtain ⟨h0, h⟩ := h.inv
  exact (dlin_four.1 h0)

theorem C64_lccsd_simple (F F' : OneE (Fin (n 0)) (Fin (n 1)) K) (I I' : TwoE (Fin (n 0)) (Fin (n 1)) K) (T1old : (Fin (n 1)) → (Fin (n 0)) → K) (T2old : (Fin (n 1)) → (Fin (n 1)) → (Fin (n 0)) → (Fin (n 0)) → K) :
    CC.lccsd_simple (F.lin x y F') (I.lin x y I') T1old T2old = (lin2 x y (CC.lccsd_simple F I T1old T2old).1 (CC.lccsd_simple F' I' T1old T2old).1, lin4 x y (CC.lccsd_simple F I T1old T2old).2 (CC.lccsd_simple F' I' T1old T2old).2) := by
  have h := linear (x := x) (y := y) (ws := [1, 1, 1, 1, 1, 1, 1, 1, 1, 1, 1, 1, 0, 0]) (us := [1, 1]) (C53_lccsd_simple (n := n) (i := true) (t := true) (fun _ => rfl) F I T1old T2old)
    (C53_lccsd_simple (n := n) (i := true) (t := true) (fun _ => rfl) F' I' T1old T2old)
    (C53_lccsd_simple (n := n) (i := true) (t := true) (fun _ => rfl) (F.lin x y F') (I.lin x y I') T1old T2old) rfl rfl rfl (by krfl) (by lintys) (by lintys) (by linargs)
  obtain ⟨h0, h⟩ := h.inv
  obtain ⟨h1, h⟩ := h.inv
  exact (Prod.ext (dlin_two.1 h0) (dlin_four.1 h1))

theorem C64_ccd_simple (F F' : OneE (Fin (n 0)) (Fin (n 1)) K) (I I' : TwoE (Fin (n 0)) (Fin (n 1)) K) (T2old : (Fin (n 1)) → (Fin (n 1)) → (Fin (n 0)) → (Fin (n 0)) → K) :
    CC.ccd_simple (F.lin x y F') (I.lin x y I') T2old = lin4 x y (CC.ccd_simple F I T2old) (CC.ccd_simple F' I' T2old) := by
  have h := linear (x := x) (y := y) (ws := [1, 1, 1, 1, 1, 1, 1, 0]) (us := [1]) (C53_ccd_simple (n := n) (i := true) (t := true) (fun _ => rfl) F I T2old)
    (C53_ccd_simple (n := n) (i := true) (t := true) (fun _ => rfl) F' I' T2old)
    (C53_ccd_simple (n := n) (i := true) (t := true) (fun _ => rfl) (F.lin x y F') (I.lin x y I') T2old) rfl rfl rfl (by krfl) (by lintys) (by lintys) (by linargs)
  obtain ⟨h0, h⟩ := h.inv
  exact (dlin_four.1 h0)

theorem C64_ccd_ladder_simple (I I' : TwoE (Fin (n 0)) (Fin (n 1)) K) (T2old : (Fin (n 1)) → (Fin (n 1)) → (Fin (n 0)) → (Fin (n 0)) → K) :
    CC.ccd_ladder_simple (I.lin x y I') T2old = lin4 x y (CC.ccd_ladder_simple I T2old) (CC.ccd_ladder_simple I' T2old) := by
  have h := linear (x := x) (y := y) (ws := [1, 1, 1, 1, 0]) (us := [1]) (C53_ccd_ladder_simple (n := n) (i := true) (t := true) (fun _ => rfl) I T2old)
    (C53_ccd_ladder_simple (n := n) (i := true) (t := true) (fun _ => rfl) I' T2old)
    (C53_ccd_ladder_simple (n := n) (i := true) (t := true) (fun _ => rfl) (I.lin x y I') T2old) rfl rfl rfl (by krfl) (by lintys) (by lintys) (by linargs)
  obtain ⟨h0, h⟩ := h.inv
  exact (dlin_four.1 h0)

theorem C64_ccd_ring_simple (I I' : TwoE (Fin (n 0)) (Fin (n 1)) K) (T2old : (Fin (n 1)) → (Fin (n 1)) → (Fin (n 0)) → (Fin (n 0)) → K) :
    CC.ccd_ring_simple (I.lin x y I') T2old = lin4 x y (CC.ccd_ring_simple I T2old) (CC.ccd_ring_simple I' T2old) := by
  have h := linear (x := x) (y := y) (ws := [1, 1, 1, 0]) (us := [1]) (C53_ccd_ring_simple (n := n) (i := true) (t := true) (fun _ => rfl) I T2old)
    (C53_ccd_ring_simple (n := n) (i := true) (t := true) (fun _ => rfl) I' T2old)
    (C53_ccd_ring_simple (n := n) (i := true) (t := true) (fun _ => rfl) (I.lin x y I') T2old) rfl rfl rfl (by krfl) (by lintys) (by lintys) (by linargs)
  obtain ⟨h0, h⟩ := h.inv
  exact (dlin_four.1 h0)

theorem C64_ccsd_simple (F F' : OneE (Fin (n 0)) (Fin (n 1)) K) (I I' : TwoE (Fin (n 0)) (Fin (n 1)) K) (T1old : (Fin (n 1)) → (Fin (n 0)) → K) (T2old : (Fin (n 1)) → (Fin (n 1)) → (Fin (n 0)) → (Fin (n 0)) → K) :
    CC.ccsd_simple (F.lin x y F') (I.lin x y I') T1old T2old = (lin2 x y (CC.ccsd_simple F I T1old T2old).1 (CC.ccsd_simple F' I' T1old T2old).1, lin4 x y (CC.ccsd_simple F I T1old T2old).2 (CC.ccsd_simple F' I' T1old T2old).2) := by
  have h := linear (x := x) (y := y) (ws := [1, 1, 1, 1, 1, 1, 1, 1, 1, 1, 1, 1, 1, 0, 0]) (us := [1, 1]) (C53_ccsd_simple (n := n) (i := true) (t := true) (fun _ => rfl) F I T1old T2old)
    (C53_ccsd_simple (n := n) (i := true) (t := true) (fun _ => rfl) F' I' T1old T2old)
    (C53_ccsd_simple (n := n) (i := true) (t := true) (fun _ => rfl) (F.lin x y F') (I.lin x y I') T1old T2old) rfl rfl rfl (by krfl) (by lintys) (by lintys) (by linargs)
  obtain ⟨h0, h⟩ := h.inv
  obtain ⟨h1, h⟩ := h.inv
  exact (Prod.ext (dlin_two.1 h0) (dlin_four.1 h1))

theorem C64_ccsd_stanton (F F' : OneE (Fin (n 0)) (Fin (n 1)) K) (I I' : TwoE (Fin (n 0)) (Fin (n 1)) K) (T1old : (Fin (n 1)) → (Fin (n 0)) → K) (T2old : (Fin (n 1)) → (Fin (n 1)) → (Fin (n 0)) → (Fin (n 0)) → K) :
    CC.ccsd_stanton (F.lin x y F') (I.lin x y I') T1old T2old = (lin2 x y (CC.ccsd_stanton F I T1old T2old).1 (CC.ccsd_stanton F' I' T1old T2old).1, lin4 x y (CC.ccsd_stanton F I T1old T2old).2 (CC.ccsd_stanton F' I' T1old T2old).2) := by
  have h := linear (x := x) (y := y) (ws := [1, 1, 1, 1, 1, 1, 1, 1, 1, 1, 1, 1, 1, 0, 0]) (us := [1, 1]) (C53_ccsd_stanton (n := n) (i := true) (t := true) (fun _ => rfl) F I T1old T2old)
    (C53_ccsd_stanton (n := n) (i := true) (t := true) (fun _ => rfl) F' I' T1old T2old)
    (C53_ccsd_stanton (n := n) (i := true) (t := true) (fun _ => rfl) (F.lin x y F') (I.lin x y I') T1old T2old) rfl rfl rfl (by krfl) (by lintys) (by lintys) (by linargs)
  obtain ⟨h0, h⟩ := h.inv
  obtain ⟨h1, h⟩ := h.inv
  exact (Prod.ext (dlin_two.1 h0) (dlin_four.1 h1))

theorem C64_ccd_stanton (F F' : OneE (Fin (n 0)) (Fin (n 1)) K) (I I' : TwoE (Fin (n 0)) (Fin (n 1)) K) (T2old : (Fin (n 1)) → (Fin (n 1)) → (Fin (n 0)) → (Fin (n 0)) → K) :
    CC.ccd_stanton (F.lin x y F') (I.lin x y I') T2old = lin4 x y (CC.ccd_stanton F I T2old) (CC.ccd_stanton F' I' T2old) := by
  have h := linear (x := x) (y := y) (ws := [1, 1, 1, 1, 1, 1, 1, 0]) (us := [1]) (C53_ccd_stanton (n := n) (i := true) (t := true) (fun _ => rfl) F I T2old)
    (C53_ccd_stanton (n := n) (i := true) (t := true) (fun _ => rfl) F' I' T2old)
    (C53_ccd_stanton (n := n) (i := true) (t := true) (fun _ => rfl) (F.lin x y F') (I.lin x y I') T2old) rfl rfl rfl (by krfl) (by lintys) (by lintys) (by linargs)
  obtain ⟨h0, h⟩ := h.inv
  exact (dlin_four.1 h0)

theorem C64_lambda_int (F F' : OneE (Fin (n 0)) (Fin (n 1)) K) (I I' : TwoE (Fin (n 0)) (Fin (n 1)) K) (T1old : (Fin (n 1)) → (Fin (n 0)) → K) (T2old : (Fin (n 1)) → (Fin (n 1)) → (Fin (n 0)) → (Fin (n 0)) → K) :
    CC.lambda_int (F.lin x y F') (I.lin x y I') T1old T2old = (CC.lambda_int F I T1old T2old).lin x y (CC.lambda_int F' I' T1old T2old) := by
  have h := linear (x := x) (y := y) (ws := [1, 1, 1, 1, 1, 1, 1, 1, 1, 1, 1, 0, 0]) (us := [1, 1, 1, 1, 1, 1, 1, 1, 1, 1, 1, 1, 1, 1, 1, 1]) (C53_lambda_int (n := n) (i := true) (t := true) F I T1old T2old)
    (C53_lambda_int (n := n) (i := true) (t := true) F' I' T1old T2old)
    (C53_lambda_int (n := n) (i := true) (t := true) (F.lin x y F') (I.lin x y I') T1old T2old) rfl rfl rfl (by krfl) (by lintys) (by lintys) (by linargs)
  obtain ⟨h0, h⟩ := h.inv
  obtain ⟨h1, h⟩ := h.inv
  obtain ⟨h2, h⟩ := h.inv
  obtain ⟨h3, h⟩ := h.inv
  obtain ⟨h4, h⟩ := h.inv
  obtain ⟨h5, h⟩ := h.inv
  obtain ⟨h6, h⟩ := h.inv
  obtain ⟨h7, h⟩ := h.inv
  obtain ⟨h8, h⟩ := h.inv
  obtain ⟨h9, h⟩ := h.inv
  obtain ⟨h10, h⟩ := h.inv
  obtain ⟨h11, h⟩ := h.inv
  obtain ⟨h12, h⟩ := h.inv
  obtain ⟨h13, h⟩ := h.inv
  obtain ⟨h14, h⟩ := h.inv
  obtain ⟨h15, h⟩ := h.inv
  exact lam_ext (dlin_four.1 h0) (dlin_four.1 h1) (dlin_two.1 h2) (dlin_two.1 h3) (dlin_two.1 h4) (dlin_four.1 h5) (dlin_four.1 h6) (dlin_four.1 h7) (dlin_four.1 h8) (dlin_two.1 h9) (dlin_four.1 h10) (dlin_four.1 h11) (dlin_four.1 h12) (dlin_four.1 h13) (dlin_four.1 h14) (dlin_four.1 h15)

theorem C64_ccd_lambda_simple (F F' : OneE (Fin (n 0)) (Fin (n 1)) K) (I I' : TwoE (Fin (n 0)) (Fin (n 1)) K) (L2old : (Fin (n 0)) → (Fin (n 0)) → (Fin (n 1)) → (Fin (n 1)) → K) (T2old : (Fin (n 1)) → (Fin (n 1)) → (Fin (n 0)) → (Fin (n 0)) → K) :
    CC.ccd_lambda_simple (F.lin x y F') (I.lin x y I') L2old T2old = lin4 x y (CC.ccd_lambda_simple F I L2old T2old) (CC.ccd_lambda_simple F' I' L2old T2old) := by
  have h := linear (x := x) (y := y) (ws := [1, 1, 1, 1, 1, 1, 0, 0]) (us := [1]) (C53_ccd_lambda_simple (n := n) (i := true) (l := true) (t := true) (fun _ => rfl) (fun _ => rfl) F I L2old T2old)
    (C53_ccd_lambda_simple (n := n) (i := true) (l := true) (t := true) (fun _ => rfl) (fun _ => rfl) F' I' L2old T2old)
    (C53_ccd_lambda_simple (n := n) (i := true) (l := true) (t := true) (fun _ => rfl) (fun _ => rfl) (F.lin x y F') (I.lin x y I') L2old T2old) rfl rfl rfl (by krfl) (by lintys) (by lintys) (by linargs)
  obtain ⟨h0, h⟩ := h.inv
  exact (dlin_four.1 h0)

theorem C64_ccsd_lambda_opt (F F' : OneE (Fin (n 0)) (Fin (n 1)) K) (I I' : TwoE (Fin (n 0)) (Fin (n 1)) K) (L1old : (Fin (n 0)) → (Fin (n 1)) → K) (L2old : (Fin (n 0)) → (Fin (n 0)) → (Fin (n 1)) → (Fin (n 1)) → K) (T1old : (Fin (n 1)) → (Fin (n 0)) → K) (T2old : (Fin (n 1)) → (Fin (n 1)) → (Fin (n 0)) → (Fin (n 0)) → K) :
    CC.ccsd_lambda_opt (F.lin x y F') (I.lin x y I') L1old L2old T1old T2old = (lin2 x y (CC.ccsd_lambda_opt F I L1old L2old T1old T2old).1 (CC.ccsd_lambda_opt F' I' L1old L2old T1old T2old).1, lin4 x y (CC.ccsd_lambda_opt F I L1old L2old T1old T2old).2 (CC.ccsd_lambda_opt F' I' L1old L2old T1old T2old).2) := by
  have h := linear (x := x) (y := y) (ws := [1, 1, 1, 1, 1, 1, 1, 1, 1, 1, 1, 0, 0, 0, 0]) (us := [1, 1]) (C53_ccsd_lambda_opt (n := n) (i := true) (l := true) (t := true) (fun _ => rfl) (fun _ => rfl) F I L1old L2old T1old T2old)
    (C53_ccsd_lambda_opt (n := n) (i := true) (l := true) (t := true) (fun _ => rfl) (fun _ => rfl) F' I' L1old L2old T1old T2old)
    (C53_ccsd_lambda_opt (n := n) (i := true) (l := true) (t := true) (fun _ => rfl) (fun _ => rfl) (F.lin x y F') (I.lin x y I') L1old L2old T1old T2old) rfl rfl rfl (by krfl) (by lintys) (by lintys) (by linargs)
  obtain ⟨h0, h⟩ := h.inv
  obtain ⟨h1, h⟩ := h.inv
  exact (Prod.ext (dlin_two.1 h0) (dlin_four.1 h1))

theorem C64_ccsd_lambda_stanton (F F' : OneE (Fin (n 0)) (Fin (n 1)) K) (I I' : TwoE (Fin (n 0)) (Fin (n 1)) K) (L1old : (Fin (n 0)) → (Fin (n 1)) → K) (L2old : (Fin (n 0)) → (Fin (n 0)) → (Fin (n 1)) → (Fin (n 1)) → K) (T1old : (Fin (n 1)) → (Fin (n 0)) → K) (T2old : (Fin (n 1)) → (Fin (n 1)) → (Fin (n 0)) → (Fin (n 0)) → K) :
    CC.ccsd_lambda_stanton (F.lin x y F') (I.lin x y I') L1old L2old T1old T2old = (lin2 x y (CC.ccsd_lambda_stanton F I L1old L2old T1old T2old).1 (CC.ccsd_lambda_stanton F' I' L1old L2old T1old T2old).1, lin4 x y (CC.ccsd_lambda_stanton F I L1old L2old T1old T2old).2 (CC.ccsd_lambda_stanton F' I' L1old L2old T1old T2old).2) := by
  have h := linear (x := x) (y := y) (ws := [1, 1, 1, 1, 1, 1, 1, 1, 1, 1, 1, 0, 0, 0, 0]) (us := [1, 1]) (C53_ccsd_lambda_stanton (n := n) (i := true) (l := true) (t := true) (fun _ => rfl) (fun _ => rfl) F I L1old L2old T1old T2old)
    (C53_ccsd_lambda_stanton (n := n) (i := true) (l := true) (t := true) (fun _ => rfl) (fun _ => rfl) F' I' L1old L2old T1old T2old)
    (C53_ccsd_lambda_stanton (n := n) (i := true) (l := true) (t := true) (fun _ => rfl) (fun _ => rfl) (F.lin x y F') (I.lin x y I') L1old L2old T1old T2old) rfl rfl rfl (by krfl) (by lintys) (by lintys) (by linargs)
  obtain ⟨h0, h⟩ := h.inv
  obtain ⟨h1, h⟩ := h.inv
  exact (Prod.ext (dlin_two.1 h0) (dlin_four.1 h1))

theorem C64_ccsd_lambda_opt_int (F F' : OneE (Fin (n 0)) (Fin (n 1)) K) (I I' : TwoE (Fin (n 0)) (Fin (n 1)) K) (L1old : (Fin (n 0)) → (Fin (n 1)) → K) (L2old : (Fin (n 0)) → (Fin (n 0)) → (Fin (n 1)) → (Fin (n 1)) → K) (T1old : (Fin (n 1)) → (Fin (n 0)) → K) (T2old : (Fin (n 1)) → (Fin (n 1)) → (Fin (n 0)) → (Fin (n 0)) → K) (intor intor' : LambdaInt (Fin (n 0)) (Fin (n 1)) K) :
    CC.ccsd_lambda_opt_int (F.lin x y F') (I.lin x y I') L1old L2old T1old T2old (intor.lin x y intor') = (lin2 x y (CC.ccsd_lambda_opt_int F I L1old L2old T1old T2old intor).1 (CC.ccsd_lambda_opt_int F' I' L1old L2old T1old T2old intor').1, lin4 x y (CC.ccsd_lambda_opt_int F I L1old L2old T1old T2old intor).2 (CC.ccsd_lambda_opt_int F' I' L1old L2old T1old T2old intor').2) := by
  have h := linear (x := x) (y := y) (ws := [1, 1, 1, 1, 0, 0, 0, 0, 1, 1, 1, 1, 1, 1, 1, 1, 1, 1, 1, 1, 1, 1, 1]) (us := [1, 1]) (C53_ccsd_lambda_opt_int (n := n) (i := true) (l := true) (p := true) (t := true) (fun _ => rfl) (fun _ => rfl) (fun _ => rfl) F I L1old L2old T1old T2old intor)
    (C53_ccsd_lambda_opt_int (n := n) (i := true) (l := true) (p := true) (t := true) (fun _ => rfl) (fun _ => rfl) (fun _ => rfl) F' I' L1old L2old T1old T2old intor')
    (C53_ccsd_lambda_opt_int (n := n) (i := true) (l := true) (p := true) (t := true) (fun _ => rfl) (fun _ => rfl) (fun _ => rfl) (F.lin x y F') (I.lin x y I') L1old L2old T1old T2old (intor.lin x y intor')) rfl rfl rfl (by krfl) (by lintys) (by lintys) (by linargs)
  obtain ⟨h0, h⟩ := h.inv
  obtain ⟨h1, h⟩ := h.inv
  exact (Prod.ext (dlin_two.1 h0) (dlin_four.1 h1))

theorem C64_ccsd_lambda_simple (F F' : OneE (Fin (n 0)) (Fin (n 1)) K) (I I' : TwoE (Fin (n 0)) (Fin (n 1)) K) (L1old : (Fin (n 0)) → (Fin (n 1)) → K) (L2old : (Fin (n 0)) → (Fin (n 0)) → (Fin (n 1)) → (Fin (n 1)) → K) (T1old : (Fin (n 1)) → (Fin (n 0)) → K) (T2old : (Fin (n 1)) → (Fin (n 1)) → (Fin (n 0)) → (Fin (n 0)) → K) :
    CC.ccsd_lambda_simple (F.lin x y F') (I.lin x y I') L1old L2old T1old T2old = (lin2 x y (CC.ccsd_lambda_simple F I L1old L2old T1old T2old).1 (CC.ccsd_lambda_simple F' I' L1old L2old T1old T2old).1, lin4 x y (CC.ccsd_lambda_simple F I L1old L2old T1old T2old).2 (CC.ccsd_lambda_simple F' I' L1old L2old T1old T2old).2) := by
  have h := linear (x := x) (y := y) (ws := [1, 1, 1, 1, 1, 1, 1, 1, 1, 1, 1, 0, 0, 0, 0]) (us := [1, 1]) (C53_ccsd_lambda_simple (n := n) (i := true) (l := true) (t := true) (fun _ => rfl) (fun _ => rfl) F I L1old L2old T1old T2old)
    (C53_ccsd_lambda_simple (n := n) (i := true) (l := true) (t := true) (fun _ => rfl) (fun _ => rfl) F' I' L1old L2old T1old T2old)
    (C53_ccsd_lambda_simple (n := n) (i := true) (l := true) (t := true) (fun _ => rfl) (fun _ => rfl) (F.lin x y F') (I.lin x y I') L1old L2old T1old T2old) rfl rfl rfl (by krfl) (by lintys) (by lintys) (by linargs)
  obtain ⟨h0, h⟩ := h.inv
  obtain ⟨h1, h⟩ := h.inv
  exact (Prod.ext (dlin_two.1 h0) (dlin_four.1 h1))

theorem C64_ucc_energy (t1 : ((Fin (n 1)) → (Fin (n 0)) → K) × ((Fin (n 3)) → (Fin (n 2)) → K)) (t2 : ((Fin (n 1)) → (Fin (n 1)) → (Fin (n 0)) → (Fin (n 0)) → K) × ((Fin (n 1)) → (Fin (n 3)) → (Fin (n 0)) → (Fin (n 2)) → K) × ((Fin (n 3)) → (Fin (n 3)) → (Fin (n 2)) → (Fin (n 2)) → K)) (fa fa' : (Fin (n 0)) → (Fin (n 1)) → K) (fb fb' : (Fin (n 2)) → (Fin (n 3)) → K) (Ia Ia' : (Fin (n 0)) → (Fin (n 0)) → (Fin (n 1)) → (Fin (n 1)) → K) (Ib Ib' : (Fin (n 2)) → (Fin (n 2)) → (Fin (n 3)) → (Fin (n 3)) → K) (Iabab Iabab' : (Fin (n 0)) → (Fin (n 2)) → (Fin (n 1)) → (Fin (n 3)) → K) :
    CC.ucc_energy t1 t2 (lin2 x y fa fa') (lin2 x y fb fb') (lin4 x y Ia Ia') (lin4 x y Ib Ib') (lin4 x y Iabab Iabab') = x * (CC.ucc_energy t1 t2 fa fb Ia Ib Iabab) + y * (CC.ucc_energy t1 t2 fa' fb' Ia' Ib' Iabab') := by
  have h := linear (x := x) (y := y) (ws := [0, 0, 0, 0, 0, 1, 1, 1, 1, 1]) (us := [1]) (C53_ucc_energy (n := n) (i := true) (t := true) t1 t2 fa fb Ia Ib Iabab)
    (C53_ucc_energy (n := n) (i := true) (t := true) t1 t2 fa' fb' Ia' Ib' Iabab')
    (C53_ucc_energy (n := n) (i := true) (t := true) t1 t2 (lin2 x y fa fa') (lin2 x y fb fb') (lin4 x y Ia Ia') (lin4 x y Ib Ib') (lin4 x y Iabab Iabab')) rfl rfl rfl (by krfl) (by lintys) (by lintys) (by linargs)
  obtain ⟨h0, h⟩ := h.inv
  exact (dlin_num.1 h0)

theorem C64_ump2_energy (t1 : ((Fin (n 1)) → (Fin (n 0)) → K) × ((Fin (n 3)) → (Fin (n 2)) → K)) (t2 : ((Fin (n 1)) → (Fin (n 1)) → (Fin (n 0)) → (Fin (n 0)) → K) × ((Fin (n 1)) → (Fin (n 3)) → (Fin (n 0)) → (Fin (n 2)) → K) × ((Fin (n 3)) → (Fin (n 3)) → (Fin (n 2)) → (Fin (n 2)) → K)) (fa fa' : (Fin (n 0)) → (Fin (n 1)) → K) (fb fb' : (Fin (n 2)) → (Fin (n 3)) → K) (Ia Ia' : (Fin (n 0)) → (Fin (n 0)) → (Fin (n 1)) → (Fin (n 1)) → K) (Ib Ib' : (Fin (n 2)) → (Fin (n 2)) → (Fin (n 3)) → (Fin (n 3)) → K) (Iabab Iabab' : (Fin (n 0)) → (Fin (n 2)) → (Fin (n 1)) → (Fin (n 3)) → K) :
    CC.ump2_energy t1 t2 (lin2 x y fa fa') (lin2 x y fb fb') (lin4 x y Ia Ia') (lin4 x y Ib Ib') (lin4 x y Iabab Iabab') = x * (CC.ump2_energy t1 t2 fa fb Ia Ib Iabab) + y * (CC.ump2_energy t1 t2 fa' fb' Ia' Ib' Iabab') := by
  have h := linear (x := x) (y := y) (ws := [0, 0, 0, 0, 0, 1, 1, 1, 1, 1]) (us := [1]) (C53_ump2_energy (n := n) (i := true) (t := true) t1 t2 fa fb Ia Ib Iabab)
    (C53_ump2_energy (n := n) (i := true) (t := true) t1 t2 fa' fb' Ia' Ib' Iabab')
    (C53_ump2_energy (n := n) (i := true) (t := true) t1 t2 (lin2 x y fa fa') (lin2 x y fb fb') (lin4 x y Ia Ia') (lin4 x y Ib Ib') (lin4 x y Iabab Iabab')) rfl rfl rfl (by krfl) (by lintys) (by lintys) (by linargs)
  obtain ⟨h0, h⟩ := h.inv
  exact (dlin_num.1 h0)

theorem C64_uccsd_stanton (Faa Faa' : OneE (Fin (n 0)) (Fin (n 1)) K) (Fbb Fbb' : OneE (Fin (n 2)) (Fin (n 3)) K) (Ia Ia' : TwoE (Fin (n 0)) (Fin (n 1)) K) (Ib Ib' : TwoE (Fin (n 2)) (Fin (n 3)) K) (I_abab I_abab' : TwoEFull (Fin (n 0)) (Fin (n 1)) (Fin (n 2)) (Fin (n 3)) K) (T1old : ((Fin (n 1)) → (Fin (n 0)) → K) × ((Fin (n 3)) → (Fin (n 2)) → K)) (T2old : ((Fin (n 1)) → (Fin (n 1)) → (Fin (n 0)) → (Fin (n 0)) → K) × ((Fin (n 1)) → (Fin (n 3)) → (Fin (n 0)) → (Fin (n 2)) → K) × ((Fin (n 3)) → (Fin (n 3)) → (Fin (n 2)) → (Fin (n 2)) → K)) :
    CC.uccsd_stanton (Faa.lin x y Faa') (Fbb.lin x y Fbb') (Ia.lin x y Ia') (Ib.lin x y Ib') (I_abab.lin x y I_abab') T1old T2old = ((lin2 x y (CC.uccsd_stanton Faa Fbb Ia Ib I_abab T1old T2old).1.1 (CC.uccsd_stanton Faa' Fbb' Ia' Ib' I_abab' T1old T2old).1.1, lin2 x y (CC.uccsd_stanton Faa Fbb Ia Ib I_abab T1old T2old).1.2 (CC.uccsd_stanton Faa' Fbb' Ia' Ib' I_abab' T1old T2old).1.2), (lin4 x y (CC.uccsd_stanton Faa Fbb Ia Ib I_abab T1old T2old).2.1 (CC.uccsd_stanton Faa' Fbb' Ia' Ib' I_abab' T1old T2old).2.1, (lin4 x y (CC.uccsd_stanton Faa Fbb Ia Ib I_abab T1old T2old).2.2.1 (CC.uccsd_stanton Faa' Fbb' Ia' Ib' I_abab' T1old T2old).2.2.1, lin4 x y (CC.uccsd_stanton Faa Fbb Ia Ib I_abab T1old T2old).2.2.2 (CC.uccsd_stanton Faa' Fbb' Ia' Ib' I_abab' T1old T2old).2.2.2))) := by
  have h := linear (x := x) (y := y) (ws := [1, 1, 1, 1, 1, 1, 1, 1, 1, 1, 1, 1, 1, 1, 1, 1, 1, 1, 1, 1, 1, 1, 1, 1, 1, 1, 1, 1, 1, 1, 1, 1, 1, 1, 1, 1, 1, 1, 1, 1, 1, 1, 0, 0, 0, 0, 0]) (us := [1, 1, 1, 1, 1]) (C53_uccsd_stanton (n := n) (i := true) (t := true) (fun _ => rfl) Faa Fbb Ia Ib I_abab T1old T2old)
    (C53_uccsd_stanton (n := n) (i := true) (t := true) (fun _ => rfl) Faa' Fbb' Ia' Ib' I_abab' T1old T2old)
    (C53_uccsd_stanton (n := n) (i := true) (t := true) (fun _ => rfl) (Faa.lin x y Faa') (Fbb.lin x y Fbb') (Ia.lin x y Ia') (Ib.lin x y Ib') (I_abab.lin x y I_abab') T1old T2old) rfl rfl rfl (by krfl) (by lintys) (by lintys) (by linargs)
  obtain ⟨h0, h⟩ := h.inv
  obtain ⟨h1, h⟩ := h.inv
  obtain ⟨h2, h⟩ := h.inv
  obtain ⟨h3, h⟩ := h.inv
  obtain ⟨h4, h⟩ := h.inv
  exact (Prod.ext (Prod.ext (dlin_two.1 h0) (dlin_two.1 h1)) (Prod.ext (dlin_four.1 h2) (Prod.ext (dlin_four.1 h3) (dlin_four.1 h4))))

theorem C64_uccsd_lambda_opt (Fa Fa' : OneE (Fin (n 0)) (Fin (n 1)) K) (Fb Fb' : OneE (Fin (n 2)) (Fin (n 3)) K) (Ia Ia' : TwoE (Fin (n 0)) (Fin (n 1)) K) (Ib Ib' : TwoE (Fin (n 2)) (Fin (n 3)) K) (Iabab Iabab' : TwoEFull (Fin (n 0)) (Fin (n 1)) (Fin (n 2)) (Fin (n 3)) K) (L1old : ((Fin (n 0)) → (Fin (n 1)) → K) × ((Fin (n 2)) → (Fin (n 3)) → K)) (L2old : ((Fin (n 0)) → (Fin (n 0)) → (Fin (n 1)) → (Fin (n 1)) → K) × ((Fin (n 0)) → (Fin (n 2)) → (Fin (n 1)) → (Fin (n 3)) → K) × ((Fin (n 2)) → (Fin (n 2)) → (Fin (n 3)) → (Fin (n 3)) → K)) (T1old : ((Fin (n 1)) → (Fin (n 0)) → K) × ((Fin (n 3)) → (Fin (n 2)) → K)) (T2old : ((Fin (n 1)) → (Fin (n 1)) → (Fin (n 0)) → (Fin (n 0)) → K) × ((Fin (n 1)) → (Fin (n 3)) → (Fin (n 0)) → (Fin (n 2)) → K) × ((Fin (n 3)) → (Fin (n 3)) → (Fin (n 2)) → (Fin (n 2)) → K)) :
    CC.uccsd_lambda_opt (Fa.lin x y Fa') (Fb.lin x y Fb') (Ia.lin x y Ia') (Ib.lin x y Ib') (Iabab.lin x y Iabab') L1old L2old T1old T2old = ((lin2 x y (CC.uccsd_lambda_opt Fa Fb Ia Ib Iabab L1old L2old T1old T2old).1.1 (CC.uccsd_lambda_opt Fa' Fb' Ia' Ib' Iabab' L1old L2old T1old T2old).1.1, lin2 x y (CC.uccsd_lambda_opt Fa Fb Ia Ib Iabab L1old L2old T1old T2old).1.2 (CC.uccsd_lambda_opt Fa' Fb' Ia' Ib' Iabab' L1old L2old T1old T2old).1.2), (lin4 x y (CC.uccsd_lambda_opt Fa Fb Ia Ib Iabab L1old L2old T1old T2old).2.1 (CC.uccsd_lambda_opt Fa' Fb' Ia' Ib' Iabab' L1old L2old T1old T2old).2.1, (lin4 x y (CC.uccsd_lambda_opt Fa Fb Ia Ib Iabab L1old L2old T1old T2old).2.2.1 (CC.uccsd_lambda_opt Fa' Fb' Ia' Ib' Iabab' L1old L2old T1old T2old).2.2.1, lin4 x y (CC.uccsd_lambda_opt Fa Fb Ia Ib Iabab L1old L2old T1old T2old).2.2.2 (CC.uccsd_lambda_opt Fa' Fb' Ia' Ib' Iabab' L1old L2old T1old T2old).2.2.2))) := by
  have h := linear (x := x) (y := y) (ws := [1, 1, 1, 1, 1, 1, 1, 1, 1, 1, 1, 1, 1, 1, 1, 1, 1, 1, 1, 1, 1, 1, 1, 1, 1, 1, 1, 1, 1, 1, 1, 1, 1, 1, 1, 1, 1, 0, 0, 0, 0, 0, 0, 0, 0, 0, 0]) (us := [1, 1, 1, 1, 1]) (C53_uccsd_lambda_opt (n := n) (i := true) (l := true) (t := true) (fun _ => rfl) (fun _ => rfl) Fa Fb Ia Ib Iabab L1old L2old T1old T2old)
    (C53_uccsd_lambda_opt (n := n) (i := true) (l := true) (t := true) (fun _ => rfl) (fun _ => rfl) Fa' Fb' Ia' Ib' Iabab' L1old L2old T1old T2old)
    (C53_uccsd_lambda_opt (n := n) (i := true) (l := true) (t := true) (fun _ => rfl) (fun _ => rfl) (Fa.lin x y Fa') (Fb.lin x y Fb') (Ia.lin x y Ia') (Ib.lin x y Ib') (Iabab.lin x y Iabab') L1old L2old T1old T2old) rfl rfl rfl (by krfl) (by lintys) (by lintys) (by linargs)
  obtain ⟨h0, h⟩ := h.inv
  obtain ⟨h1, h⟩ := h.inv
  obtain ⟨h2, h⟩ := h.inv
  obtain ⟨h3, h⟩ := h.inv
  obtain ⟨h4, h⟩ := h.inv
  exact (Prod.ext (Prod.ext (dlin_two.1 h0) (dlin_two.1 h1)) (Prod.ext (dlin_four.1 h2) (Prod.ext (dlin_four.1 h3) (dlin_four.1 h4))))

theorem C64_rcc_energy (t1 : (Fin (n 1)) → (Fin (n 0)) → K) (t2 : (Fin (n 1)) → (Fin (n 1)) → (Fin (n 0)) → (Fin (n 0)) → K) (f f' : (Fin (n 0)) → (Fin (n 1)) → K) (I I' : (Fin (n 0)) → (Fin (n 0)) → (Fin (n 1)) → (Fin (n 1)) → K) :
    CC.rcc_energy t1 t2 (lin2 x y f f') (lin4 x y I I') = x * (CC.rcc_energy t1 t2 f I) + y * (CC.rcc_energy t1 t2 f' I') := by
  have h := linear (x := x) (y := y) (ws := [0, 0, 1, 1]) (us := [1]) (C53_rcc_energy (n := n) (i := true) (t := true) t1 t2 f I)
    (C53_rcc_energy (n := n) (i := true) (t := true) t1 t2 f' I')
    (C53_rcc_energy (n := n) (i := true) (t := true) t1 t2 (lin2 x y f f') (lin4 x y I I')) rfl rfl rfl (by krfl) (by lintys) (by lintys) (by linargs)
  obtain ⟨h0, h⟩ := h.inv
  exact (dlin_num.1 h0)

theorem C64_rccsd_stanton (F F' : OneE (Fin (n 0)) (Fin (n 1)) K) (I I' : TwoEFull (Fin (n 0)) (Fin (n 1)) (Fin (n 0)) (Fin (n 1)) K) (T1old : (Fin (n 1)) → (Fin (n 0)) → K) (T2old : (Fin (n 1)) → (Fin (n 1)) → (Fin (n 0)) → (Fin (n 0)) → K) :
    CC.rccsd_stanton (F.lin x y F') (I.lin x y I') T1old T2old = (lin2 x y (CC.rccsd_stanton F I T1old T2old).1 (CC.rccsd_stanton F' I' T1old T2old).1, lin4 x y (CC.rccsd_stanton F I T1old T2old).2 (CC.rccsd_stanton F' I' T1old T2old).2) := by
  have h := linear (x := x) (y := y) (ws := [1, 1, 1, 1, 1, 1, 1, 1, 1, 1, 1, 1, 1, 1, 1, 1, 1, 0, 0]) (us := [1, 1]) (C53_rccsd_stanton (n := n) (i := true) (t := true) (fun _ => rfl) F I T1old T2old)
    (C53_rccsd_stanton (n := n) (i := true) (t := true) (fun _ => rfl) F' I' T1old T2old)
    (C53_rccsd_stanton (n := n) (i := true) (t := true) (fun _ => rfl) (F.lin x y F') (I.lin x y I') T1old T2old) rfl rfl rfl (by krfl) (by lintys) (by lintys) (by linargs)
  obtain ⟨h0, h⟩ := h.inv
  obtain ⟨h1, h⟩ := h.inv
  exact (Prod.ext (dlin_two.1 h0) (dlin_four.1 h1))

theorem C64_rccsd_lambda_opt (F F' : OneE (Fin (n 0)) (Fin (n 1)) K) (I I' : TwoEFull (Fin (n 0)) (Fin (n 1)) (Fin (n 0)) (Fin (n 1)) K) (L1old : (Fin (n 0)) → (Fin (n 1)) → K) (L2old : (Fin (n 0)) → (Fin (n 0)) → (Fin (n 1)) → (Fin (n 1)) → K) (T1old : (Fin (n 1)) → (Fin (n 0)) → K) (T2old : (Fin (n 1)) → (Fin (n 1)) → (Fin (n 0)) → (Fin (n 0)) → K) :
    CC.rccsd_lambda_opt (F.lin x y F') (I.lin x y I') L1old L2old T1old T2old = (lin2 x y (CC.rccsd_lambda_opt F I L1old L2old T1old T2old).1 (CC.rccsd_lambda_opt F' I' L1old L2old T1old T2old).1, lin4 x y (CC.rccsd_lambda_opt F I L1old L2old T1old T2old).2 (CC.rccsd_lambda_opt F' I' L1old L2old T1old T2old).2) := by
  have h := linear (x := x) (y := y) (ws := [1, 1, 1, 1, 1, 1, 1, 1, 1, 1, 1, 1, 1, 1, 1, 1, 1, 1, 0, 0, 0, 0]) (us := [1, 1]) (C53_rccsd_lambda_opt (n := n) (i := true) (l := true) (t := true) (fun _ => rfl) (fun _ => rfl) F I L1old L2old T1old T2old)
    (C53_rccsd_lambda_opt (n := n) (i := true) (l := true) (t := true) (fun _ => rfl) (fun _ => rfl) F' I' L1old L2old T1old T2old)
    (C53_rccsd_lambda_opt (n := n) (i := true) (l := true) (t := true) (fun _ => rfl) (fun _ => rfl) (F.lin x y F') (I.lin x y I') L1old L2old T1old T2old) rfl rfl rfl (by krfl) (by lintys) (by lintys) (by linargs)
  obtain ⟨h0, h⟩ := h.inv
  obtain ⟨h1, h⟩ := h.inv
  exact (Prod.ext (dlin_two.1 h0) (dlin_four.1 h1))

end Heap
