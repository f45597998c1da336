import Verif.Props.Scale
import Verif.Props.NumU
import Verif.Props.NumR
/-!
# C63: homogeneity in the Hamiltonian and homomorphisms of the numbers, routine by routine

Generated by `tools/gen_scale.py`.
-/

set_option linter.unusedVariables false

namespace Heap
open CC
variable {n : ℕ → ℕ} {K L : Type} [Field K] [Field L] (σ : K →+* L) (s : L)

section
variable {A B C D : Type}
/-- The elements are mapped by the homomorphism. -/
def hom2 (f : A → B → K) : A → B → L := fun i j => σ (f i j)
def hom4 (f : A → B → C → D → K) : A → B → C → D → L := fun i j a b => σ (f i j a b)
/-- The elements are mapped and multiplied by `s`. -/
def sc2 (s : L) (σ : K →+* L) (f : A → B → K) : A → B → L := fun i j => s * σ (f i j)
def sc4 (s : L) (σ : K →+* L) (f : A → B → C → D → K) : A → B → C → D → L := fun i j a b => s * σ (f i j a b)

def _root_.CC.OneE.sc (s : L) (σ : K →+* L) (F : OneE A B K) : OneE A B L where
  oo := sc2 s σ F.oo
  ov := sc2 s σ F.ov
  vo := sc2 s σ F.vo
  vv := sc2 s σ F.vv

def _root_.CC.TwoE.sc (s : L) (σ : K →+* L) (I : TwoE A B K) : TwoE A B L where
  vvvv := sc4 s σ I.vvvv
  vvvo := sc4 s σ I.vvvo
  vovv := sc4 s σ I.vovv
  vvoo := sc4 s σ I.vvoo
  vovo := sc4 s σ I.vovo
  oovv := sc4 s σ I.oovv
  vooo := sc4 s σ I.vooo
  ooov := sc4 s σ I.ooov
  oooo := sc4 s σ I.oooo

def _root_.CC.TwoEFull.sc (s : L) (σ : K →+* L) (I : TwoEFull A B C D K) : TwoEFull A B C D L where
  oooo := sc4 s σ I.oooo
  ooov := sc4 s σ I.ooov
  oovo := sc4 s σ I.oovo
  oovv := sc4 s σ I.oovv
  ovoo := sc4 s σ I.ovoo
  ovov := sc4 s σ I.ovov
  ovvo := sc4 s σ I.ovvo
  ovvv := sc4 s σ I.ovvv
  vooo := sc4 s σ I.vooo
  voov := sc4 s σ I.voov
  vovo := sc4 s σ I.vovo
  vovv := sc4 s σ I.vovv
  vvoo := sc4 s σ I.vvoo
  vvov := sc4 s σ I.vvov
  vvvo := sc4 s σ I.vvvo
  vvvv := sc4 s σ I.vvvv

def _root_.CC.LambdaInt.sc (s : L) (σ : K →+* L) (W : LambdaInt A B K) : LambdaInt A B L where
  IooovT := sc4 s σ W.IooovT
  IvovvT := sc4 s σ W.IvovvT
  IovT := sc2 s σ W.IovT
  IToo := sc2 s σ W.IToo
  ITvv := sc2 s σ W.ITvv
  ITvovo := sc4 s σ W.ITvovo
  IToovv := sc4 s σ W.IToovv
  ITvooo := sc4 s σ W.ITvooo
  ITvvvo := sc4 s σ W.ITvvvo
  ITov := sc2 s σ W.ITov
  ITvovv := sc4 s σ W.ITvovv
  ITooov := sc4 s σ W.ITooov
  ITvovo2 := sc4 s σ W.ITvovo2
  ITvvvv := sc4 s σ W.ITvvvv
  IToooo := sc4 s σ W.IToooo
  IToovv2 := sc4 s σ W.IToovv2

theorem lam_ext {A B : LambdaInt C D K} (_ : A.IooovT = B.IooovT) (_ : A.IvovvT = B.IvovvT) (_ : A.IovT = B.IovT) (_ : A.IToo = B.IToo) (_ : A.ITvv = B.ITvv) (_ : A.ITvovo = B.ITvovo) (_ : A.IToovv = B.IToovv) (_ : A.ITvooo = B.ITvooo) (_ : A.ITvvvo = B.ITvvvo) (_ : A.ITov = B.ITov) (_ : A.ITvovv = B.ITvovv) (_ : A.ITooov = B.ITooov) (_ : A.ITvovo2 = B.ITvovo2) (_ : A.ITvvvv = B.ITvvvv) (_ : A.IToooo = B.IToooo) (_ : A.IToovv2 = B.IToovv2) : A = B := by
  obtain ⟨⟩ := A
  obtain ⟨⟩ := B
  simp_all
end

macro "scargs" : tactic => `(tactic| repeat first
  | exact .nil
  | refine .cons (dsc_four.2 rfl) ?_
  | refine .cons (dsc_two.2 rfl) ?_
  | refine .cons (dsc_num.2 rfl) ?_)

theorem C63_cc_energy_d (t2 : (Fin (n 1)) → (Fin (n 1)) → (Fin (n 0)) → (Fin (n 0)) → K) (eri : (Fin (n 0)) → (Fin (n 0)) → (Fin (n 1)) → (Fin (n 1)) → K) :
    CC.cc_energy_d (hom4 σ t2) (sc4 s σ eri) = s * σ ((CC.cc_energy_d t2 eri)) := by
  have h := scales (σ := σ) (s := s) (ws := [0, 1]) (us := [1]) (C53_cc_energy_d (n := n) (i := true) (t := true) t2 eri)
    (C53_cc_energy_d (n := n) (i := true) (t := true) (hom4 σ t2) (sc4 s σ eri)) rfl rfl (by krfl) rfl (by scargs)
  obtain ⟨h0, h⟩ := h.inv
  exact (dsc_num.1 h0)

theorem C63_cc_energy_s1 (t1 : (Fin (n 1)) → (Fin (n 0)) → K) (f : (Fin (n 0)) → (Fin (n 1)) → K) :
    CC.cc_energy_s1 (hom2 σ t1) (sc2 s σ f) = s * σ ((CC.cc_energy_s1 t1 f)) := by
  have h := scales (σ := σ) (s := s) (ws := [0, 1]) (us := [1]) (C53_cc_energy_s1 (n := n) (i := true) (t := true) t1 f)
    (C53_cc_energy_s1 (n := n) (i := true) (t := true) (hom2 σ t1) (sc2 s σ f)) rfl rfl (by krfl) rfl (by scargs)
  obtain ⟨h0, h⟩ := h.inv
  exact (dsc_num.1 h0)

theorem C63_cc_energy_s2 (t1 : (Fin (n 1)) → (Fin (n 0)) → K) (eri : (Fin (n 0)) → (Fin (n 0)) → (Fin (n 1)) → (Fin (n 1)) → K) :
    CC.cc_energy_s2 (hom2 σ t1) (sc4 s σ eri) = s * σ ((CC.cc_energy_s2 t1 eri)) := by
  have h := scales (σ := σ) (s := s) (ws := [0, 1]) (us := [1]) (C53_cc_energy_s2 (n := n) (i := true) (t := true) t1 eri)
    (C53_cc_energy_s2 (n := n) (i := true) (t := true) (hom2 σ t1) (sc4 s σ eri)) rfl rfl (by krfl) rfl (by scargs)
  obtain ⟨h0, h⟩ := h.inv
  exact (dsc_num.1 h0)

theorem C63_cc_energy_s2_a (t11 : (Fin (n 1)) → (Fin (n 0)) → K) (t12 : (Fin (n 1)) → (Fin (n 0)) → K) (eri : (Fin (n 0)) → (Fin (n 0)) → (Fin (n 1)) → (Fin (n 1)) → K) :
    CC.cc_energy_s2_a (hom2 σ t11) (hom2 σ t12) (sc4 s σ eri) = s * σ ((CC.cc_energy_s2_a t11 t12 eri)) := by
  have h := scales (σ := σ) (s := s) (ws := [0, 0, 1]) (us := [1]) (C53_cc_energy_s2_a (n := n) (i := true) (t := true) t11 t12 eri)
    (C53_cc_energy_s2_a (n := n) (i := true) (t := true) (hom2 σ t11) (hom2 σ t12) (sc4 s σ eri)) rfl rfl (by krfl) rfl (by scargs)
  obtain ⟨h0, h⟩ := h.inv
  exact (dsc_num.1 h0)

theorem C63_cc_energy (t1 : (Fin (n 1)) → (Fin (n 0)) → K) (t2 : (Fin (n 1)) → (Fin (n 1)) → (Fin (n 0)) → (Fin (n 0)) → K) (f : (Fin (n 0)) → (Fin (n 1)) → K) (eri : (Fin (n 0)) → (Fin (n 0)) → (Fin (n 1)) → (Fin (n 1)) → K) :
    CC.cc_energy (hom2 σ t1) (hom4 σ t2) (sc2 s σ f) (sc4 s σ eri) = s * σ ((CC.cc_energy t1 t2 f eri)) := by
  have h := scales (σ := σ) (s := s) (ws := [0, 0, 1, 1]) (us := [1]) (C53_cc_energy (n := n) (i := true) (t := true) t1 t2 f eri)
    (C53_cc_energy (n := n) (i := true) (t := true) (hom2 σ t1) (hom4 σ t2) (sc2 s σ f) (sc4 s σ eri)) rfl rfl (by krfl) rfl (by scargs)
  obtain ⟨h0, h⟩ := h.inv
  exact (dsc_num.1 h0)

theorem C63_mp2_energy (t1 : (Fin (n 1)) → (Fin (n 0)) → K) (t2 : (Fin (n 1)) → (Fin (n 1)) → (Fin (n 0)) → (Fin (n 0)) → K) (f : (Fin (n 0)) → (Fin (n 1)) → K) (eri : (Fin (n 0)) → (Fin (n 0)) → (Fin (n 1)) → (Fin (n 1)) → K) :
    CC.mp2_energy (hom2 σ t1) (hom4 σ t2) (sc2 s σ f) (sc4 s σ eri) = s * σ ((CC.mp2_energy t1 t2 f eri)) := by
  have h := scales (σ := σ) (s := s) (ws := [0, 0, 1, 1]) (us := [1]) (C53_mp2_energy (n := n) (i := true) (t := true) t1 t2 f eri)
    (C53_mp2_energy (n := n) (i := true) (t := true) (hom2 σ t1) (hom4 σ t2) (sc2 s σ f) (sc4 s σ eri)) rfl rfl (by krfl) rfl (by scargs)
  obtain ⟨h0, h⟩ := h.inv
  exact (dsc_num.1 h0)

theorem C63_lccd_simple (F : OneE (Fin (n 0)) (Fin (n 1)) K) (I : TwoE (Fin (n 0)) (Fin (n 1)) K) (T2old : (Fin (n 1)) → (Fin (n 1)) → (Fin (n 0)) → (Fin (n 0)) → K) :
    CC.lccd_simple (F.sc s σ) (I.sc s σ) (hom4 σ T2old) = (sc4 s σ (CC.lccd_simple F I T2old)) := by
  have h := scales (σ := σ) (s := s) (ws := [1, 1, 1, 1, 1, 1, 0]) (us := [1]) (C53_lccd_simple (n := n) (i := true) (t := true) (fun _ => rfl) F I T2old)
    (C53_lccd_simple (n := n) (i := true) (t := true) (fun _ => rfl) (F.sc s σ) (I.sc s σ) (hom4 σ T2old)) rfl rfl (by krfl) rfl (by scargs)
  obtain ⟨h0, h⟩ := h.inv
  exact (dsc_four.1 h0)

theorem C63_lccsd_simple (F : OneE (Fin (n 0)) (Fin (n 1)) K) (I : TwoE (Fin (n 0)) (Fin (n 1)) K) (T1old : (Fin (n 1)) → (Fin (n 0)) → K) (T2old : (Fin (n 1)) → (Fin (n 1)) → (Fin (n 0)) → (Fin (n 0)) → K) :
    CC.lccsd_simple (F.sc s σ) (I.sc s σ) (hom2 σ T1old) (hom4 σ T2old) = ((sc2 s σ (CC.lccsd_simple F I T1old T2old).1), (sc4 s σ (CC.lccsd_simple F I T1old T2old).2)) := by
  have h := scales (σ := σ) (s := s) (ws := [1, 1, 1, 1, 1, 1, 1, 1, 1, 1, 1, 1, 0, 0]) (us := [1, 1]) (C53_lccsd_simple (n := n) (i := true) (t := true) (fun _ => rfl) F I T1old T2old)
    (C53_lccsd_simple (n := n) (i := true) (t := true) (fun _ => rfl) (F.sc s σ) (I.sc s σ) (hom2 σ T1old) (hom4 σ T2old)) rfl rfl (by krfl) rfl (by scargs)
  obtain ⟨h0, h⟩ := h.inv
  obtain ⟨h1, h⟩ := h.inv
  exact (Prod.ext (dsc_two.1 h0) (dsc_four.1 h1))

theorem C63_ccd_simple (F : OneE (Fin (n 0)) (Fin (n 1)) K) (I : TwoE (Fin (n 0)) (Fin (n 1)) K) (T2old : (Fin (n 1)) → (Fin (n 1)) → (Fin (n 0)) → (Fin (n 0)) → K) :
    CC.ccd_simple (F.sc s σ) (I.sc s σ) (hom4 σ T2old) = (sc4 s σ (CC.ccd_simple F I T2old)) := by
  have h := scales (σ := σ) (s := s) (ws := [1, 1, 1, 1, 1, 1, 1, 0]) (us := [1]) (C53_ccd_simple (n := n) (i := true) (t := true) (fun _ => rfl) F I T2old)
    (C53_ccd_simple (n := n) (i := true) (t := true) (fun _ => rfl) (F.sc s σ) (I.sc s σ) (hom4 σ T2old)) rfl rfl (by krfl) rfl (by scargs)
  obtain ⟨h0, h⟩ := h.inv
  exact (dsc_four.1 h0)

theorem C63_ccd_ladder_simple (I : TwoE (Fin (n 0)) (Fin (n 1)) K) (T2old : (Fin (n 1)) → (Fin (n 1)) → (Fin (n 0)) → (Fin (n 0)) → K) :
    CC.ccd_ladder_simple (I.sc s σ) (hom4 σ T2old) = (sc4 s σ (CC.ccd_ladder_simple I T2old)) := by
  have h := scales (σ := σ) (s := s) (ws := [1, 1, 1, 1, 0]) (us := [1]) (C53_ccd_ladder_simple (n := n) (i := true) (t := true) (fun _ => rfl) I T2old)
    (C53_ccd_ladder_simple (n := n) (i := true) (t := true) (fun _ => rfl) (I.sc s σ) (hom4 σ T2old)) rfl rfl (by krfl) rfl (by scargs)
  obtain ⟨h0, h⟩ := h.inv
  exact (dsc_four.1 h0)

theorem C63_ccd_ring_simple (I : TwoE (Fin (n 0)) (Fin (n 1)) K) (T2old : (Fin (n 1)) → (Fin (n 1)) → (Fin (n 0)) → (Fin (n 0)) → K) :
    CC.ccd_ring_simple (I.sc s σ) (hom4 σ T2old) = (sc4 s σ (CC.ccd_ring_simple I T2old)) := by
  have h := scales (σ := σ) (s := s) (ws := [1, 1, 1, 0]) (us := [1]) (C53_ccd_ring_simple (n := n) (i := true) (t := true) (fun _ => rfl) I T2old)
    (C53_ccd_ring_simple (n := n) (i := true) (t := true) (fun _ => rfl) (I.sc s σ) (hom4 σ T2old)) rfl rfl (by krfl) rfl (by scargs)
  obtain ⟨h0, h⟩ := h.inv
  exact (dsc_four.1 h0)

theorem C63_ccsd_simple (F : OneE (Fin (n 0)) (Fin (n 1)) K) (I : TwoE (Fin (n 0)) (Fin (n 1)) K) (T1old : (Fin (n 1)) → (Fin (n 0)) → K) (T2old : (Fin (n 1)) → (Fin (n 1)) → (Fin (n 0)) → (Fin (n 0)) → K) :
    CC.ccsd_simple (F.sc s σ) (I.sc s σ) (hom2 σ T1old) (hom4 σ T2old) = ((sc2 s σ (CC.ccsd_simple F I T1old T2old).1), (sc4 s σ (CC.ccsd_simple F I T1old T2old).2)) := by
  have h := scales (σ := σ) (s := s) (ws := [1, 1, 1, 1, 1, 1, 1, 1, 1, 1, 1, 1, 1, 0, 0]) (us := [1, 1]) (C53_ccsd_simple (n := n) (i := true) (t := true) (fun _ => rfl) F I T1old T2old)
    (C53_ccsd_simple (n := n) (i := true) (t := true) (fun _ => rfl) (F.sc s σ) (I.sc s σ) (hom2 σ T1old) (hom4 σ T2old)) rfl rfl (by krfl) rfl (by scargs)
  obtain ⟨h0, h⟩ := h.inv
  obtain ⟨h1, h⟩ := h.inv
  exact (Prod.ext (dsc_two.1 h0) (dsc_four.1 h1))

theorem C63_ccsd_stanton (F : OneE (Fin (n 0)) (Fin (n 1)) K) (I : TwoE (Fin (n 0)) (Fin (n 1)) K) (T1old : (Fin (n 1)) → (Fin (n 0)) → K) (T2old : (Fin (n 1)) → (Fin (n 1)) → (Fin (n 0)) → (Fin (n 0)) → K) :
    CC.ccsd_stanton (F.sc s σ) (I.sc s σ) (hom2 σ T1old) (hom4 σ T2old) = ((sc2 s σ (CC.ccsd_stanton F I T1old T2old).1), (sc4 s σ (CC.ccsd_stanton F I T1old T2old).2)) := by
  have h := scales (σ := σ) (s := s) (ws := [1, 1, 1, 1, 1, 1, 1, 1, 1, 1, 1, 1, 1, 0, 0]) (us := [1, 1]) (C53_ccsd_stanton (n := n) (i := true) (t := true) (fun _ => rfl) F I T1old T2old)
    (C53_ccsd_stanton (n := n) (i := true) (t := true) (fun _ => rfl) (F.sc s σ) (I.sc s σ) (hom2 σ T1old) (hom4 σ T2old)) rfl rfl (by krfl) rfl (by scargs)
  obtain ⟨h0, h⟩ := h.inv
  obtain ⟨h1, h⟩ := h.inv
  exact (Prod.ext (dsc_two.1 h0) (dsc_four.1 h1))

theorem C63_ccd_stanton (F : OneE (Fin (n 0)) (Fin (n 1)) K) (I : TwoE (Fin (n 0)) (Fin (n 1)) K) (T2old : (Fin (n 1)) → (Fin (n 1)) → (Fin (n 0)) → (Fin (n 0)) → K) :
    CC.ccd_stanton (F.sc s σ) (I.sc s σ) (hom4 σ T2old) = (sc4 s σ (CC.ccd_stanton F I T2old)) := by
  have h := scales (σ := σ) (s := s) (ws := [1, 1, 1, 1, 1, 1, 1, 0]) (us := [1]) (C53_ccd_stanton (n := n) (i := true) (t := true) (fun _ => rfl) F I T2old)
    (C53_ccd_stanton (n := n) (i := true) (t := true) (fun _ => rfl) (F.sc s σ) (I.sc s σ) (hom4 σ T2old)) rfl rfl (by krfl) rfl (by scargs)
  obtain ⟨h0, h⟩ := h.inv
  exact (dsc_four.1 h0)

theorem C63_lambda_int (F : OneE (Fin (n 0)) (Fin (n 1)) K) (I : TwoE (Fin (n 0)) (Fin (n 1)) K) (T1old : (Fin (n 1)) → (Fin (n 0)) → K) (T2old : (Fin (n 1)) → (Fin (n 1)) → (Fin (n 0)) → (Fin (n 0)) → K) :
    CC.lambda_int (F.sc s σ) (I.sc s σ) (hom2 σ T1old) (hom4 σ T2old) = (CC.lambda_int F I T1old T2old).sc s σ := by
  have h := scales (σ := σ) (s := s) (ws := [1, 1, 1, 1, 1, 1, 1, 1, 1, 1, 1, 0, 0]) (us := [1, 1, 1, 1, 1, 1, 1, 1, 1, 1, 1, 1, 1, 1, 1, 1]) (C53_lambda_int (n := n) (i := true) (t := true) F I T1old T2old)
    (C53_lambda_int (n := n) (i := true) (t := true) (F.sc s σ) (I.sc s σ) (hom2 σ T1old) (hom4 σ T2old)) rfl rfl (by krfl) rfl (by scargs)
  obtain ⟨h0, h⟩ := h.inv
  obtain ⟨h1, h⟩ := h.inv
  obtain ⟨h2, h⟩ := h.inv
  obtain ⟨h3, h⟩ := h.inv
  obtain ⟨h4, h⟩ := h.inv
  obtain ⟨h5, h⟩ := h.inv
  obtain ⟨h6, h⟩ := h.inv
  obtain ⟨h7, h⟩ := h.inv
  obtain ⟨h8, h⟩ := h.inv
  obtain ⟨h9, h⟩ := h.inv
  obtain ⟨h10, h⟩ := h.inv
  obtain ⟨h11, h⟩ := h.inv
  obtain ⟨h12, h⟩ := h.inv
  obtain ⟨h13, h⟩ := h.inv
  obtain ⟨h14, h⟩ := h.inv
  obtain ⟨h15, h⟩ := h.inv
  exact lam_ext (dsc_four.1 h0) (dsc_four.1 h1) (dsc_two.1 h2) (dsc_two.1 h3) (dsc_two.1 h4) (dsc_four.1 h5) (dsc_four.1 h6) (dsc_four.1 h7) (dsc_four.1 h8) (dsc_two.1 h9) (dsc_four.1 h10) (dsc_four.1 h11) (dsc_four.1 h12) (dsc_four.1 h13) (dsc_four.1 h14) (dsc_four.1 h15)

theorem C63_ccd_lambda_simple (F : OneE (Fin (n 0)) (Fin (n 1)) K) (I : TwoE (Fin (n 0)) (Fin (n 1)) K) (L2old : (Fin (n 0)) → (Fin (n 0)) → (Fin (n 1)) → (Fin (n 1)) → K) (T2old : (Fin (n 1)) → (Fin (n 1)) → (Fin (n 0)) → (Fin (n 0)) → K) :
    CC.ccd_lambda_simple (F.sc s σ) (I.sc s σ) (hom4 σ L2old) (hom4 σ T2old) = (sc4 s σ (CC.ccd_lambda_simple F I L2old T2old)) := by
  have h := scales (σ := σ) (s := s) (ws := [1, 1, 1, 1, 1, 1, 0, 0]) (us := [1]) (C53_ccd_lambda_simple (n := n) (i := true) (l := true) (t := true) (fun _ => rfl) (fun _ => rfl) F I L2old T2old)
    (C53_ccd_lambda_simple (n := n) (i := true) (l := true) (t := true) (fun _ => rfl) (fun _ => rfl) (F.sc s σ) (I.sc s σ) (hom4 σ L2old) (hom4 σ T2old)) rfl rfl (by krfl) rfl (by scargs)
  obtain ⟨h0, h⟩ := h.inv
  exact (dsc_four.1 h0)

theorem C63_ccsd_lambda_opt (F : OneE (Fin (n 0)) (Fin (n 1)) K) (I : TwoE (Fin (n 0)) (Fin (n 1)) K) (L1old : (Fin (n 0)) → (Fin (n 1)) → K) (L2old : (Fin (n 0)) → (Fin (n 0)) → (Fin (n 1)) → (Fin (n 1)) → K) (T1old : (Fin (n 1)) → (Fin (n 0)) → K) (T2old : (Fin (n 1)) → (Fin (n 1)) → (Fin (n 0)) → (Fin (n 0)) → K) :
    CC.ccsd_lambda_opt (F.sc s σ) (I.sc s σ) (hom2 σ L1old) (hom4 σ L2old) (hom2 σ T1old) (hom4 σ T2old) = ((sc2 s σ (CC.ccsd_lambda_opt F I L1old L2old T1old T2old).1), (sc4 s σ (CC.ccsd_lambda_opt F I L1old L2old T1old T2old).2)) := by
  have h := scales (σ := σ) (s := s) (ws := [1, 1, 1, 1, 1, 1, 1, 1, 1, 1, 1, 0, 0, 0, 0]) (us := [1, 1]) (C53_ccsd_lambda_opt (n := n) (i := true) (l := true) (t := true) (fun _ => rfl) (fun _ => rfl) F I L1old L2old T1old T2old)
    (C53_ccsd_lambda_opt (n := n) (i := true) (l := true) (t := true) (fun _ => rfl) (fun _ => rfl) (F.sc s σ) (I.sc s σ) (hom2 σ L1old) (hom4 σ L2old) (hom2 σ T1old) (hom4 σ T2old)) rfl rfl (by krfl) rfl (by scargs)
  obtain ⟨h0, h⟩ := h.inv
  obtain ⟨h1, h⟩ := h.inv
  exact (Prod.ext (dsc_two.1 h0) (dsc_four.1 h1))

theorem C63_ccsd_lambda_stanton (F : OneE (Fin (n 0)) (Fin (n 1)) K) (I : TwoE (Fin (n 0)) (Fin (n 1)) K) (L1old : (Fin (n 0)) → (Fin (n 1)) → K) (L2old : (Fin (n 0)) → (Fin (n 0)) → (Fin (n 1)) → (Fin (n 1)) → K) (T1old : (Fin (n 1)) → (Fin (n 0)) → K) (T2old : (Fin (n 1)) → (Fin (n 1)) → (Fin (n 0)) → (Fin (n 0)) → K) :
    CC.ccsd_lambda_stanton (F.sc s σ) (I.sc s σ) (hom2 σ L1old) (hom4 σ L2old) (hom2 σ T1old) (hom4 σ T2old) = ((sc2 s σ (CC.ccsd_lambda_stanton F I L1old L2old T1old T2old).1), (sc4 s σ (CC.ccsd_lambda_stanton F I L1old L2old T1old T2old).2)) := by
  have h := scales (σ := σ) (s := s) (ws := [1, 1, 1, 1, 1, 1, 1, 1, 1, 1, 1, 0, 0, 0, 0]) (us := [1, 1]) (C53_ccsd_lambda_stanton (n := n) (i := true) (l := true) (t := true) (fun _ => rfl) (fun _ => rfl) F I L1old L2old T1old T2old)
    (C53_ccsd_lambda_stanton (n := n) (i := true) (l := true) (t := true) (fun _ => rfl) (fun _ => rfl) (F.sc s σ) (I.sc s σ) (hom2 σ L1old) (hom4 σ L2old) (hom2 σ T1old) (hom4 σ T2old)) rfl rfl (by krfl) rfl (by scargs)
  obtain ⟨h0, h⟩ := h.inv
  obtain ⟨h1, h⟩ := h.inv
  exact (Prod.ext (dsc_two.1 h0) (dsc_four.1 h1))

theorem C63_ccsd_lambda_opt_int (F : OneE (Fin (n 0)) (Fin (n 1)) K) (I : TwoE (Fin (n 0)) (Fin (n 1)) K) (L1old : (Fin (n 0)) → (Fin (n 1)) → K) (L2old : (Fin (n 0)) → (Fin (n 0)) → (Fin (n 1)) → (Fin (n 1)) → K) (T1old : (Fin (n 1)) → (Fin (n 0)) → K) (T2old : (Fin (n 1)) → (Fin (n 1)) → (Fin (n 0)) → (Fin (n 0)) → K) (intor : LambdaInt (Fin (n 0)) (Fin (n 1)) K) :
    CC.ccsd_lambda_opt_int (F.sc s σ) (I.sc s σ) (hom2 σ L1old) (hom4 σ L2old) (hom2 σ T1old) (hom4 σ T2old) (intor.sc s σ) = ((sc2 s σ (CC.ccsd_lambda_opt_int F I L1old L2old T1old T2old intor).1), (sc4 s σ (CC.ccsd_lambda_opt_int F I L1old L2old T1old T2old intor).2)) := by
  have h := scales (σ := σ) (s := s) (ws := [1, 1, 1, 1, 0, 0, 0, 0, 1, 1, 1, 1, 1, 1, 1, 1, 1, 1, 1, 1, 1, 1, 1]) (us := [1, 1]) (C53_ccsd_lambda_opt_int (n := n) (i := true) (l := true) (p := true) (t := true) (fun _ => rfl) (fun _ => rfl) (fun _ => rfl) F I L1old L2old T1old T2old intor)
    (C53_ccsd_lambda_opt_int (n := n) (i := true) (l := true) (p := true) (t := true) (fun _ => rfl) (fun _ => rfl) (fun _ => rfl) (F.sc s σ) (I.sc s σ) (hom2 σ L1old) (hom4 σ L2old) (hom2 σ T1old) (hom4 σ T2old) (intor.sc s σ)) rfl rfl (by krfl) rfl (by scargs)
  obtain ⟨h0, h⟩ := h.inv
  obtain ⟨h1, h⟩ := h.inv
  exact (Prod.ext (dsc_two.1 h0) (dsc_four.1 h1))

theorem C63_ccsd_lambda_simple (F : OneE (Fin (n 0)) (Fin (n 1)) K) (I : TwoE (Fin (n 0)) (Fin (n 1)) K) (L1old : (Fin (n 0)) → (Fin (n 1)) → K) (L2old : (Fin (n 0)) → (Fin (n 0)) → (Fin (n 1)) → (Fin (n 1)) → K) (T1old : (Fin (n 1)) → (Fin (n 0)) → K) (T2old : (Fin (n 1)) → (Fin (n 1)) → (Fin (n 0)) → (Fin (n 0)) → K) :
    CC.ccsd_lambda_simple (F.sc s σ) (I.sc s σ) (hom2 σ L1old) (hom4 σ L2old) (hom2 σ T1old) (hom4 σ T2old) = ((sc2 s σ (CC.ccsd_lambda_simple F I L1old L2old T1old T2old).1), (sc4 s σ (CC.ccsd_lambda_simple F I L1old L2old T1old T2old).2)) := by
  have h := scales (σ := σ) (s := s) (ws := [1, 1, 1, 1, 1, 1, 1, 1, 1, 1, 1, 0, 0, 0, 0]) (us := [1, 1]) (C53_ccsd_lambda_simple (n := n) (i := true) (l := true) (t := true) (fun _ => rfl) (fun _ => rfl) F I L1old L2old T1old T2old)
    (C53_ccsd_lambda_simple (n := n) (i := true) (l := true) (t := true) (fun _ => rfl) (fun _ => rfl) (F.sc s σ) (I.sc s σ) (hom2 σ L1old) (hom4 σ L2old) (hom2 σ T1old) (hom4 σ T2old)) rfl rfl (by krfl) rfl (by scargs)
  obtain ⟨h0, h⟩ := h.inv
  obtain ⟨h1, h⟩ := h.inv
  exact (Prod.ext (dsc_two.1 h0) (dsc_four.1 h1))

theorem C63_ccsd_1rdm_ba (T1 : (Fin (n 1)) → (Fin (n 0)) → K) (T2 : (Fin (n 1)) → (Fin (n 1)) → (Fin (n 0)) → (Fin (n 0)) → K) (L1 : (Fin (n 0)) → (Fin (n 1)) → K) (L2 : (Fin (n 0)) → (Fin (n 0)) → (Fin (n 1)) → (Fin (n 1)) → K) :
    CC.ccsd_1rdm_ba (hom2 σ T1) (hom4 σ T2) (hom2 σ L1) (hom4 σ L2) = (hom2 σ (CC.ccsd_1rdm_ba T1 T2 L1 L2)) := by
  have h := scales (σ := σ) (s := 1) (ws := [0, 0, 0, 0]) (us := [0]) (C53_ccsd_1rdm_ba (n := n) (l := true) (t := true) T1 T2 L1 L2)
    (C53_ccsd_1rdm_ba (n := n) (l := true) (t := true) (hom2 σ T1) (hom4 σ T2) (hom2 σ L1) (hom4 σ L2)) rfl rfl (by krfl) rfl (by scargs)
  obtain ⟨h0, h⟩ := h.inv
  exact (dsc_two.1 h0)

theorem C63_ccsd_1rdm_ji (T1 : (Fin (n 1)) → (Fin (n 0)) → K) (T2 : (Fin (n 1)) → (Fin (n 1)) → (Fin (n 0)) → (Fin (n 0)) → K) (L1 : (Fin (n 0)) → (Fin (n 1)) → K) (L2 : (Fin (n 0)) → (Fin (n 0)) → (Fin (n 1)) → (Fin (n 1)) → K) :
    CC.ccsd_1rdm_ji (hom2 σ T1) (hom4 σ T2) (hom2 σ L1) (hom4 σ L2) = (hom2 σ (CC.ccsd_1rdm_ji T1 T2 L1 L2)) := by
  have h := scales (σ := σ) (s := 1) (ws := [0, 0, 0, 0]) (us := [0]) (C53_ccsd_1rdm_ji (n := n) (l := true) (t := true) T1 T2 L1 L2)
    (C53_ccsd_1rdm_ji (n := n) (l := true) (t := true) (hom2 σ T1) (hom4 σ T2) (hom2 σ L1) (hom4 σ L2)) rfl rfl (by krfl) rfl (by scargs)
  obtain ⟨h0, h⟩ := h.inv
  exact (dsc_two.1 h0)

theorem C63_ccsd_1rdm_ai (T1 : (Fin (n 1)) → (Fin (n 0)) → K) (T2 : (Fin (n 1)) → (Fin (n 1)) → (Fin (n 0)) → (Fin (n 0)) → K) (L1 : (Fin (n 0)) → (Fin (n 1)) → K) (L2 : (Fin (n 0)) → (Fin (n 0)) → (Fin (n 1)) → (Fin (n 1)) → K) (tfac : K) :
    CC.ccsd_1rdm_ai (hom2 σ T1) (hom4 σ T2) (hom2 σ L1) (hom4 σ L2) (σ tfac) = (hom2 σ (CC.ccsd_1rdm_ai T1 T2 L1 L2 tfac)) := by
  have h := scales (σ := σ) (s := 1) (ws := [0, 0, 0, 0, 0]) (us := [0]) (C53_ccsd_1rdm_ai (n := n) (c := true) (l := true) (t := true) T1 T2 L1 L2 tfac)
    (C53_ccsd_1rdm_ai (n := n) (c := true) (l := true) (t := true) (hom2 σ T1) (hom4 σ T2) (hom2 σ L1) (hom4 σ L2) (σ tfac)) rfl rfl (by krfl) rfl (by scargs)
  obtain ⟨h0, h⟩ := h.inv
  exact (dsc_two.1 h0)

theorem C63_ccsd_2rdm_cdab (T1 : (Fin (n 1)) → (Fin (n 0)) → K) (T2 : (Fin (n 1)) → (Fin (n 1)) → (Fin (n 0)) → (Fin (n 0)) → K) (L1 : (Fin (n 0)) → (Fin (n 1)) → K) (L2 : (Fin (n 0)) → (Fin (n 0)) → (Fin (n 1)) → (Fin (n 1)) → K) :
    CC.ccsd_2rdm_cdab (hom2 σ T1) (hom4 σ T2) (hom2 σ L1) (hom4 σ L2) = (hom4 σ (CC.ccsd_2rdm_cdab T1 T2 L1 L2)) := by
  have h := scales (σ := σ) (s := 1) (ws := [0, 0, 0]) (us := [0]) (C53_ccsd_2rdm_cdab (n := n) (l := true) (t := true) T1 T2 L1 L2)
    (C53_ccsd_2rdm_cdab (n := n) (l := true) (t := true) (hom2 σ T1) (hom4 σ T2) (hom2 σ L1) (hom4 σ L2)) rfl rfl (by krfl) rfl (by scargs)
  obtain ⟨h0, h⟩ := h.inv
  exact (dsc_four.1 h0)

theorem C63_ccsd_2rdm_ciab (T1 : (Fin (n 1)) → (Fin (n 0)) → K) (T2 : (Fin (n 1)) → (Fin (n 1)) → (Fin (n 0)) → (Fin (n 0)) → K) (L1 : (Fin (n 0)) → (Fin (n 1)) → K) (L2 : (Fin (n 0)) → (Fin (n 0)) → (Fin (n 1)) → (Fin (n 1)) → K) :
    CC.ccsd_2rdm_ciab (hom2 σ T1) (hom4 σ T2) (hom2 σ L1) (hom4 σ L2) = (hom4 σ (CC.ccsd_2rdm_ciab T1 T2 L1 L2)) := by
  have h := scales (σ := σ) (s := 1) (ws := [0, 0]) (us := [0]) (C53_ccsd_2rdm_ciab (n := n) (l := true) (t := true) T1 T2 L1 L2)
    (C53_ccsd_2rdm_ciab (n := n) (l := true) (t := true) (hom2 σ T1) (hom4 σ T2) (hom2 σ L1) (hom4 σ L2)) rfl rfl (by krfl) rfl (by scargs)
  obtain ⟨h0, h⟩ := h.inv
  exact (dsc_four.1 h0)

theorem C63_ccsd_2rdm_bcai (T1 : (Fin (n 1)) → (Fin (n 0)) → K) (T2 : (Fin (n 1)) → (Fin (n 1)) → (Fin (n 0)) → (Fin (n 0)) → K) (L1 : (Fin (n 0)) → (Fin (n 1)) → K) (L2 : (Fin (n 0)) → (Fin (n 0)) → (Fin (n 1)) → (Fin (n 1)) → K) :
    CC.ccsd_2rdm_bcai (hom2 σ T1) (hom4 σ T2) (hom2 σ L1) (hom4 σ L2) = (hom4 σ (CC.ccsd_2rdm_bcai T1 T2 L1 L2)) := by
  have h := scales (σ := σ) (s := 1) (ws := [0, 0, 0, 0]) (us := [0]) (C53_ccsd_2rdm_bcai (n := n) (l := true) (t := true) T1 T2 L1 L2)
    (C53_ccsd_2rdm_bcai (n := n) (l := true) (t := true) (hom2 σ T1) (hom4 σ T2) (hom2 σ L1) (hom4 σ L2)) rfl rfl (by krfl) rfl (by scargs)
  obtain ⟨h0, h⟩ := h.inv
  exact (dsc_four.1 h0)

theorem C63_ccsd_2rdm_bjai (T1 : (Fin (n 1)) → (Fin (n 0)) → K) (T2 : (Fin (n 1)) → (Fin (n 1)) → (Fin (n 0)) → (Fin (n 0)) → K) (L1 : (Fin (n 0)) → (Fin (n 1)) → K) (L2 : (Fin (n 0)) → (Fin (n 0)) → (Fin (n 1)) → (Fin (n 1)) → K) :
    CC.ccsd_2rdm_bjai (hom2 σ T1) (hom4 σ T2) (hom2 σ L1) (hom4 σ L2) = (hom4 σ (CC.ccsd_2rdm_bjai T1 T2 L1 L2)) := by
  have h := scales (σ := σ) (s := 1) (ws := [0, 0, 0, 0]) (us := [0]) (C53_ccsd_2rdm_bjai (n := n) (l := true) (t := true) T1 T2 L1 L2)
    (C53_ccsd_2rdm_bjai (n := n) (l := true) (t := true) (hom2 σ T1) (hom4 σ T2) (hom2 σ L1) (hom4 σ L2)) rfl rfl (by krfl) rfl (by scargs)
  obtain ⟨h0, h⟩ := h.inv
  exact (dsc_four.1 h0)

theorem C63_ccsd_2rdm_abij (T1 : (Fin (n 1)) → (Fin (n 0)) → K) (T2 : (Fin (n 1)) → (Fin (n 1)) → (Fin (n 0)) → (Fin (n 0)) → K) (L1 : (Fin (n 0)) → (Fin (n 1)) → K) (L2 : (Fin (n 0)) → (Fin (n 0)) → (Fin (n 1)) → (Fin (n 1)) → K) (tfac : K) :
    CC.ccsd_2rdm_abij (hom2 σ T1) (hom4 σ T2) (hom2 σ L1) (hom4 σ L2) (σ tfac) = (hom4 σ (CC.ccsd_2rdm_abij T1 T2 L1 L2 tfac)) := by
  have h := scales (σ := σ) (s := 1) (ws := [0, 0, 0, 0, 0]) (us := [0]) (C53_ccsd_2rdm_abij (n := n) (c := true) (l := true) (t := true) (fun _ => rfl) T1 T2 L1 L2 tfac)
    (C53_ccsd_2rdm_abij (n := n) (c := true) (l := true) (t := true) (fun _ => rfl) (hom2 σ T1) (hom4 σ T2) (hom2 σ L1) (hom4 σ L2) (σ tfac)) rfl rfl (by krfl) rfl (by scargs)
  obtain ⟨h0, h⟩ := h.inv
  exact (dsc_four.1 h0)

theorem C63_ccsd_2rdm_jkai (T1 : (Fin (n 1)) → (Fin (n 0)) → K) (T2 : (Fin (n 1)) → (Fin (n 1)) → (Fin (n 0)) → (Fin (n 0)) → K) (L1 : (Fin (n 0)) → (Fin (n 1)) → K) (L2 : (Fin (n 0)) → (Fin (n 0)) → (Fin (n 1)) → (Fin (n 1)) → K) :
    CC.ccsd_2rdm_jkai (hom2 σ T1) (hom4 σ T2) (hom2 σ L1) (hom4 σ L2) = (hom4 σ (CC.ccsd_2rdm_jkai T1 T2 L1 L2)) := by
  have h := scales (σ := σ) (s := 1) (ws := [0, 0]) (us := [0]) (C53_ccsd_2rdm_jkai (n := n) (l := true) (t := true) T1 T2 L1 L2)
    (C53_ccsd_2rdm_jkai (n := n) (l := true) (t := true) (hom2 σ T1) (hom4 σ T2) (hom2 σ L1) (hom4 σ L2)) rfl rfl (by krfl) rfl (by scargs)
  obtain ⟨h0, h⟩ := h.inv
  exact (dsc_four.1 h0)

theorem C63_ccsd_2rdm_kaij (T1 : (Fin (n 1)) → (Fin (n 0)) → K) (T2 : (Fin (n 1)) → (Fin (n 1)) → (Fin (n 0)) → (Fin (n 0)) → K) (L1 : (Fin (n 0)) → (Fin (n 1)) → K) (L2 : (Fin (n 0)) → (Fin (n 0)) → (Fin (n 1)) → (Fin (n 1)) → K) :
    CC.ccsd_2rdm_kaij (hom2 σ T1) (hom4 σ T2) (hom2 σ L1) (hom4 σ L2) = (hom4 σ (CC.ccsd_2rdm_kaij T1 T2 L1 L2)) := by
  have h := scales (σ := σ) (s := 1) (ws := [0, 0, 0, 0]) (us := [0]) (C53_ccsd_2rdm_kaij (n := n) (l := true) (t := true) T1 T2 L1 L2)
    (C53_ccsd_2rdm_kaij (n := n) (l := true) (t := true) (hom2 σ T1) (hom4 σ T2) (hom2 σ L1) (hom4 σ L2)) rfl rfl (by krfl) rfl (by scargs)
  obtain ⟨h0, h⟩ := h.inv
  exact (dsc_four.1 h0)

theorem C63_ccsd_2rdm_klij (T1 : (Fin (n 1)) → (Fin (n 0)) → K) (T2 : (Fin (n 1)) → (Fin (n 1)) → (Fin (n 0)) → (Fin (n 0)) → K) (L1 : (Fin (n 0)) → (Fin (n 1)) → K) (L2 : (Fin (n 0)) → (Fin (n 0)) → (Fin (n 1)) → (Fin (n 1)) → K) :
    CC.ccsd_2rdm_klij (hom2 σ T1) (hom4 σ T2) (hom2 σ L1) (hom4 σ L2) = (hom4 σ (CC.ccsd_2rdm_klij T1 T2 L1 L2)) := by
  have h := scales (σ := σ) (s := 1) (ws := [0, 0, 0]) (us := [0]) (C53_ccsd_2rdm_klij (n := n) (l := true) (t := true) T1 T2 L1 L2)
    (C53_ccsd_2rdm_klij (n := n) (l := true) (t := true) (hom2 σ T1) (hom4 σ T2) (hom2 σ L1) (hom4 σ L2)) rfl rfl (by krfl) rfl (by scargs)
  obtain ⟨h0, h⟩ := h.inv
  exact (dsc_four.1 h0)

theorem C63_ccsd_1rdm_ai_opt (T1 : (Fin (n 1)) → (Fin (n 0)) → K) (T2 : (Fin (n 1)) → (Fin (n 1)) → (Fin (n 0)) → (Fin (n 0)) → K) (L1 : (Fin (n 0)) → (Fin (n 1)) → K) (L2 : (Fin (n 0)) → (Fin (n 0)) → (Fin (n 1)) → (Fin (n 1)) → K) (tfac : K) :
    CC.ccsd_1rdm_ai_opt (hom2 σ T1) (hom4 σ T2) (hom2 σ L1) (hom4 σ L2) (σ tfac) = (hom2 σ (CC.ccsd_1rdm_ai_opt T1 T2 L1 L2 tfac)) := by
  have h := scales (σ := σ) (s := 1) (ws := [0, 0, 0, 0, 0]) (us := [0]) (C53_ccsd_1rdm_ai_opt (n := n) (c := true) (l := true) (t := true) (fun _ => rfl) T1 T2 L1 L2 tfac)
    (C53_ccsd_1rdm_ai_opt (n := n) (c := true) (l := true) (t := true) (fun _ => rfl) (hom2 σ T1) (hom4 σ T2) (hom2 σ L1) (hom4 σ L2) (σ tfac)) rfl rfl (by krfl) rfl (by scargs)
  obtain ⟨h0, h⟩ := h.inv
  exact (dsc_two.1 h0)

theorem C63_ccsd_2rdm_cdab_opt (T1 : (Fin (n 1)) → (Fin (n 0)) → K) (T2 : (Fin (n 1)) → (Fin (n 1)) → (Fin (n 0)) → (Fin (n 0)) → K) (L1 : (Fin (n 0)) → (Fin (n 1)) → K) (L2 : (Fin (n 0)) → (Fin (n 0)) → (Fin (n 1)) → (Fin (n 1)) → K) :
    CC.ccsd_2rdm_cdab_opt (hom2 σ T1) (hom4 σ T2) (hom2 σ L1) (hom4 σ L2) = (hom4 σ (CC.ccsd_2rdm_cdab_opt T1 T2 L1 L2)) := by
  have h := scales (σ := σ) (s := 1) (ws := [0, 0, 0]) (us := [0]) (C53_ccsd_2rdm_cdab_opt (n := n) (l := true) (t := true) T1 T2 L1 L2)
    (C53_ccsd_2rdm_cdab_opt (n := n) (l := true) (t := true) (hom2 σ T1) (hom4 σ T2) (hom2 σ L1) (hom4 σ L2)) rfl rfl (by krfl) rfl (by scargs)
  obtain ⟨h0, h⟩ := h.inv
  exact (dsc_four.1 h0)

theorem C63_ccsd_2rdm_bcai_opt (T1 : (Fin (n 1)) → (Fin (n 0)) → K) (T2 : (Fin (n 1)) → (Fin (n 1)) → (Fin (n 0)) → (Fin (n 0)) → K) (L1 : (Fin (n 0)) → (Fin (n 1)) → K) (L2 : (Fin (n 0)) → (Fin (n 0)) → (Fin (n 1)) → (Fin (n 1)) → K) :
    CC.ccsd_2rdm_bcai_opt (hom2 σ T1) (hom4 σ T2) (hom2 σ L1) (hom4 σ L2) = (hom4 σ (CC.ccsd_2rdm_bcai_opt T1 T2 L1 L2)) := by
  have h := scales (σ := σ) (s := 1) (ws := [0, 0, 0, 0]) (us := [0]) (C53_ccsd_2rdm_bcai_opt (n := n) (l := true) (t := true) T1 T2 L1 L2)
    (C53_ccsd_2rdm_bcai_opt (n := n) (l := true) (t := true) (hom2 σ T1) (hom4 σ T2) (hom2 σ L1) (hom4 σ L2)) rfl rfl (by krfl) rfl (by scargs)
  obtain ⟨h0, h⟩ := h.inv
  exact (dsc_four.1 h0)

theorem C63_ccsd_2rdm_bjai_opt (T1 : (Fin (n 1)) → (Fin (n 0)) → K) (T2 : (Fin (n 1)) → (Fin (n 1)) → (Fin (n 0)) → (Fin (n 0)) → K) (L1 : (Fin (n 0)) → (Fin (n 1)) → K) (L2 : (Fin (n 0)) → (Fin (n 0)) → (Fin (n 1)) → (Fin (n 1)) → K) :
    CC.ccsd_2rdm_bjai_opt (hom2 σ T1) (hom4 σ T2) (hom2 σ L1) (hom4 σ L2) = (hom4 σ (CC.ccsd_2rdm_bjai_opt T1 T2 L1 L2)) := by
  have h := scales (σ := σ) (s := 1) (ws := [0, 0, 0, 0]) (us := [0]) (C53_ccsd_2rdm_bjai_opt (n := n) (l := true) (t := true) T1 T2 L1 L2)
    (C53_ccsd_2rdm_bjai_opt (n := n) (l := true) (t := true) (hom2 σ T1) (hom4 σ T2) (hom2 σ L1) (hom4 σ L2)) rfl rfl (by krfl) rfl (by scargs)
  obtain ⟨h0, h⟩ := h.inv
  exact (dsc_four.1 h0)

theorem C63_ccsd_2rdm_abij_opt (T1 : (Fin (n 1)) → (Fin (n 0)) → K) (T2 : (Fin (n 1)) → (Fin (n 1)) → (Fin (n 0)) → (Fin (n 0)) → K) (L1 : (Fin (n 0)) → (Fin (n 1)) → K) (L2 : (Fin (n 0)) → (Fin (n 0)) → (Fin (n 1)) → (Fin (n 1)) → K) (tfac : K) :
    CC.ccsd_2rdm_abij_opt (hom2 σ T1) (hom4 σ T2) (hom2 σ L1) (hom4 σ L2) (σ tfac) = (hom4 σ (CC.ccsd_2rdm_abij_opt T1 T2 L1 L2 tfac)) := by
  have h := scales (σ := σ) (s := 1) (ws := [0, 0, 0, 0, 0]) (us := [0]) (C53_ccsd_2rdm_abij_opt (n := n) (c := true) (l := true) (t := true) (fun _ => rfl) T1 T2 L1 L2 tfac)
    (C53_ccsd_2rdm_abij_opt (n := n) (c := true) (l := true) (t := true) (fun _ => rfl) (hom2 σ T1) (hom4 σ T2) (hom2 σ L1) (hom4 σ L2) (σ tfac)) rfl rfl (by krfl) rfl (by scargs)
  obtain ⟨h0, h⟩ := h.inv
  exact (dsc_four.1 h0)

theorem C63_ccsd_2rdm_kaij_opt (T1 : (Fin (n 1)) → (Fin (n 0)) → K) (T2 : (Fin (n 1)) → (Fin (n 1)) → (Fin (n 0)) → (Fin (n 0)) → K) (L1 : (Fin (n 0)) → (Fin (n 1)) → K) (L2 : (Fin (n 0)) → (Fin (n 0)) → (Fin (n 1)) → (Fin (n 1)) → K) :
    CC.ccsd_2rdm_kaij_opt (hom2 σ T1) (hom4 σ T2) (hom2 σ L1) (hom4 σ L2) = (hom4 σ (CC.ccsd_2rdm_kaij_opt T1 T2 L1 L2)) := by
  have h := scales (σ := σ) (s := 1) (ws := [0, 0, 0, 0]) (us := [0]) (C53_ccsd_2rdm_kaij_opt (n := n) (l := true) (t := true) T1 T2 L1 L2)
    (C53_ccsd_2rdm_kaij_opt (n := n) (l := true) (t := true) (hom2 σ T1) (hom4 σ T2) (hom2 σ L1) (hom4 σ L2)) rfl rfl (by krfl) rfl (by scargs)
  obtain ⟨h0, h⟩ := h.inv
  exact (dsc_four.1 h0)

theorem C63_ccsd_2rdm_klij_opt (T1 : (Fin (n 1)) → (Fin (n 0)) → K) (T2 : (Fin (n 1)) → (Fin (n 1)) → (Fin (n 0)) → (Fin (n 0)) → K) (L1 : (Fin (n 0)) → (Fin (n 1)) → K) (L2 : (Fin (n 0)) → (Fin (n 0)) → (Fin (n 1)) → (Fin (n 1)) → K) :
    CC.ccsd_2rdm_klij_opt (hom2 σ T1) (hom4 σ T2) (hom2 σ L1) (hom4 σ L2) = (hom4 σ (CC.ccsd_2rdm_klij_opt T1 T2 L1 L2)) := by
  have h := scales (σ := σ) (s := 1) (ws := [0, 0, 0]) (us := [0]) (C53_ccsd_2rdm_klij_opt (n := n) (l := true) (t := true) T1 T2 L1 L2)
    (C53_ccsd_2rdm_klij_opt (n := n) (l := true) (t := true) (hom2 σ T1) (hom4 σ T2) (hom2 σ L1) (hom4 σ L2)) rfl rfl (by krfl) rfl (by scargs)
  obtain ⟨h0, h⟩ := h.inv
  exact (dsc_four.1 h0)

theorem C63_ucc_energy (t1 : ((Fin (n 1)) → (Fin (n 0)) → K) × ((Fin (n 3)) → (Fin (n 2)) → K)) (t2 : ((Fin (n 1)) → (Fin (n 1)) → (Fin (n 0)) → (Fin (n 0)) → K) × ((Fin (n 1)) → (Fin (n 3)) → (Fin (n 0)) → (Fin (n 2)) → K) × ((Fin (n 3)) → (Fin (n 3)) → (Fin (n 2)) → (Fin (n 2)) → K)) (fa : (Fin (n 0)) → (Fin (n 1)) → K) (fb : (Fin (n 2)) → (Fin (n 3)) → K) (Ia : (Fin (n 0)) → (Fin (n 0)) → (Fin (n 1)) → (Fin (n 1)) → K) (Ib : (Fin (n 2)) → (Fin (n 2)) → (Fin (n 3)) → (Fin (n 3)) → K) (Iabab : (Fin (n 0)) → (Fin (n 2)) → (Fin (n 1)) → (Fin (n 3)) → K) :
    CC.ucc_energy ((hom2 σ t1.1), (hom2 σ t1.2)) ((hom4 σ t2.1), ((hom4 σ t2.2.1), (hom4 σ t2.2.2))) (sc2 s σ fa) (sc2 s σ fb) (sc4 s σ Ia) (sc4 s σ Ib) (sc4 s σ Iabab) = s * σ ((CC.ucc_energy t1 t2 fa fb Ia Ib Iabab)) := by
  have h := scales (σ := σ) (s := s) (ws := [0, 0, 0, 0, 0, 1, 1, 1, 1, 1]) (us := [1]) (C53_ucc_energy (n := n) (i := true) (t := true) t1 t2 fa fb Ia Ib Iabab)
    (C53_ucc_energy (n := n) (i := true) (t := true) ((hom2 σ t1.1), (hom2 σ t1.2)) ((hom4 σ t2.1), ((hom4 σ t2.2.1), (hom4 σ t2.2.2))) (sc2 s σ fa) (sc2 s σ fb) (sc4 s σ Ia) (sc4 s σ Ib) (sc4 s σ Iabab)) rfl rfl (by krfl) rfl (by scargs)
  obtain ⟨h0, h⟩ := h.inv
  exact (dsc_num.1 h0)

theorem C63_ump2_energy (t1 : ((Fin (n 1)) → (Fin (n 0)) → K) × ((Fin (n 3)) → (Fin (n 2)) → K)) (t2 : ((Fin (n 1)) → (Fin (n 1)) → (Fin (n 0)) → (Fin (n 0)) → K) × ((Fin (n 1)) → (Fin (n 3)) → (Fin (n 0)) → (Fin (n 2)) → K) × ((Fin (n 3)) → (Fin (n 3)) → (Fin (n 2)) → (Fin (n 2)) → K)) (fa : (Fin (n 0)) → (Fin (n 1)) → K) (fb : (Fin (n 2)) → (Fin (n 3)) → K) (Ia : (Fin (n 0)) → (Fin (n 0)) → (Fin (n 1)) → (Fin (n 1)) → K) (Ib : (Fin (n 2)) → (Fin (n 2)) → (Fin (n 3)) → (Fin (n 3)) → K) (Iabab : (Fin (n 0)) → (Fin (n 2)) → (Fin (n 1)) → (Fin (n 3)) → K) :
    CC.ump2_energy ((hom2 σ t1.1), (hom2 σ t1.2)) ((hom4 σ t2.1), ((hom4 σ t2.2.1), (hom4 σ t2.2.2))) (sc2 s σ fa) (sc2 s σ fb) (sc4 s σ Ia) (sc4 s σ Ib) (sc4 s σ Iabab) = s * σ ((CC.ump2_energy t1 t2 fa fb Ia Ib Iabab)) := by
  have h := scales (σ := σ) (s := s) (ws := [0, 0, 0, 0, 0, 1, 1, 1, 1, 1]) (us := [1]) (C53_ump2_energy (n := n) (i := true) (t := true) t1 t2 fa fb Ia Ib Iabab)
    (C53_ump2_energy (n := n) (i := true) (t := true) ((hom2 σ t1.1), (hom2 σ t1.2)) ((hom4 σ t2.1), ((hom4 σ t2.2.1), (hom4 σ t2.2.2))) (sc2 s σ fa) (sc2 s σ fb) (sc4 s σ Ia) (sc4 s σ Ib) (sc4 s σ Iabab)) rfl rfl (by krfl) rfl (by scargs)
  obtain ⟨h0, h⟩ := h.inv
  exact (dsc_num.1 h0)

theorem C63_uccsd_stanton (Faa : OneE (Fin (n 0)) (Fin (n 1)) K) (Fbb : OneE (Fin (n 2)) (Fin (n 3)) K) (Ia : TwoE (Fin (n 0)) (Fin (n 1)) K) (Ib : TwoE (Fin (n 2)) (Fin (n 3)) K) (I_abab : TwoEFull (Fin (n 0)) (Fin (n 1)) (Fin (n 2)) (Fin (n 3)) K) (T1old : ((Fin (n 1)) → (Fin (n 0)) → K) × ((Fin (n 3)) → (Fin (n 2)) → K)) (T2old : ((Fin (n 1)) → (Fin (n 1)) → (Fin (n 0)) → (Fin (n 0)) → K) × ((Fin (n 1)) → (Fin (n 3)) → (Fin (n 0)) → (Fin (n 2)) → K) × ((Fin (n 3)) → (Fin (n 3)) → (Fin (n 2)) → (Fin (n 2)) → K)) :
    CC.uccsd_stanton (Faa.sc s σ) (Fbb.sc s σ) (Ia.sc s σ) (Ib.sc s σ) (I_abab.sc s σ) ((hom2 σ T1old.1), (hom2 σ T1old.2)) ((hom4 σ T2old.1), ((hom4 σ T2old.2.1), (hom4 σ T2old.2.2))) = (((sc2 s σ (CC.uccsd_stanton Faa Fbb Ia Ib I_abab T1old T2old).1.1), (sc2 s σ (CC.uccsd_stanton Faa Fbb Ia Ib I_abab T1old T2old).1.2)), ((sc4 s σ (CC.uccsd_stanton Faa Fbb Ia Ib I_abab T1old T2old).2.1), ((sc4 s σ (CC.uccsd_stanton Faa Fbb Ia Ib I_abab T1old T2old).2.2.1), (sc4 s σ (CC.uccsd_stanton Faa Fbb Ia Ib I_abab T1old T2old).2.2.2)))) := by
  have h := scales (σ := σ) (s := s) (ws := [1, 1, 1, 1, 1, 1, 1, 1, 1, 1, 1, 1, 1, 1, 1, 1, 1, 1, 1, 1, 1, 1, 1, 1, 1, 1, 1, 1, 1, 1, 1, 1, 1, 1, 1, 1, 1, 1, 1, 1, 1, 1, 0, 0, 0, 0, 0]) (us := [1, 1, 1, 1, 1]) (C53_uccsd_stanton (n := n) (i := true) (t := true) (fun _ => rfl) Faa Fbb Ia Ib I_abab T1old T2old)
    (C53_uccsd_stanton (n := n) (i := true) (t := true) (fun _ => rfl) (Faa.sc s σ) (Fbb.sc s σ) (Ia.sc s σ) (Ib.sc s σ) (I_abab.sc s σ) ((hom2 σ T1old.1), (hom2 σ T1old.2)) ((hom4 σ T2old.1), ((hom4 σ T2old.2.1), (hom4 σ T2old.2.2)))) rfl rfl (by krfl) rfl (by scargs)
  obtain ⟨h0, h⟩ := h.inv
  obtain ⟨h1, h⟩ := h.inv
  obtain ⟨h2, h⟩ := h.inv
  obtain ⟨h3, h⟩ := h.inv
  obtain ⟨h4, h⟩ := h.inv
  exact (Prod.ext (Prod.ext (dsc_two.1 h0) (dsc_two.1 h1)) (Prod.ext (dsc_four.1 h2) (Prod.ext (dsc_four.1 h3) (dsc_four.1 h4))))

theorem C63_uccsd_lambda_opt (Fa : OneE (Fin (n 0)) (Fin (n 1)) K) (Fb : OneE (Fin (n 2)) (Fin (n 3)) K) (Ia : TwoE (Fin (n 0)) (Fin (n 1)) K) (Ib : TwoE (Fin (n 2)) (Fin (n 3)) K) (Iabab : TwoEFull (Fin (n 0)) (Fin (n 1)) (Fin (n 2)) (Fin (n 3)) K) (L1old : ((Fin (n 0)) → (Fin (n 1)) → K) × ((Fin (n 2)) → (Fin (n 3)) → K)) (L2old : ((Fin (n 0)) → (Fin (n 0)) → (Fin (n 1)) → (Fin (n 1)) → K) × ((Fin (n 0)) → (Fin (n 2)) → (Fin (n 1)) → (Fin (n 3)) → K) × ((Fin (n 2)) → (Fin (n 2)) → (Fin (n 3)) → (Fin (n 3)) → K)) (T1old : ((Fin (n 1)) → (Fin (n 0)) → K) × ((Fin (n 3)) → (Fin (n 2)) → K)) (T2old : ((Fin (n 1)) → (Fin (n 1)) → (Fin (n 0)) → (Fin (n 0)) → K) × ((Fin (n 1)) → (Fin (n 3)) → (Fin (n 0)) → (Fin (n 2)) → K) × ((Fin (n 3)) → (Fin (n 3)) → (Fin (n 2)) → (Fin (n 2)) → K)) :
    CC.uccsd_lambda_opt (Fa.sc s σ) (Fb.sc s σ) (Ia.sc s σ) (Ib.sc s σ) (Iabab.sc s σ) ((hom2 σ L1old.1), (hom2 σ L1old.2)) ((hom4 σ L2old.1), ((hom4 σ L2old.2.1), (hom4 σ L2old.2.2))) ((hom2 σ T1old.1), (hom2 σ T1old.2)) ((hom4 σ T2old.1), ((hom4 σ T2old.2.1), (hom4 σ T2old.2.2))) = (((sc2 s σ (CC.uccsd_lambda_opt Fa Fb Ia Ib Iabab L1old L2old T1old T2old).1.1), (sc2 s σ (CC.uccsd_lambda_opt Fa Fb Ia Ib Iabab L1old L2old T1old T2old).1.2)), ((sc4 s σ (CC.uccsd_lambda_opt Fa Fb Ia Ib Iabab L1old L2old T1old T2old).2.1), ((sc4 s σ (CC.uccsd_lambda_opt Fa Fb Ia Ib Iabab L1old L2old T1old T2old).2.2.1), (sc4 s σ (CC.uccsd_lambda_opt Fa Fb Ia Ib Iabab L1old L2old T1old T2old).2.2.2)))) := by
  have h := scales (σ := σ) (s := s) (ws := [1, 1, 1, 1, 1, 1, 1, 1, 1, 1, 1, 1, 1, 1, 1, 1, 1, 1, 1, 1, 1, 1, 1, 1, 1, 1, 1, 1, 1, 1, 1, 1, 1, 1, 1, 1, 1, 0, 0, 0, 0, 0, 0, 0, 0, 0, 0]) (us := [1, 1, 1, 1, 1]) (C53_uccsd_lambda_opt (n := n) (i := true) (l := true) (t := true) (fun _ => rfl) (fun _ => rfl) Fa Fb Ia Ib Iabab L1old L2old T1old T2old)
    (C53_uccsd_lambda_opt (n := n) (i := true) (l := true) (t := true) (fun _ => rfl) (fun _ => rfl) (Fa.sc s σ) (Fb.sc s σ) (Ia.sc s σ) (Ib.sc s σ) (Iabab.sc s σ) ((hom2 σ L1old.1), (hom2 σ L1old.2)) ((hom4 σ L2old.1), ((hom4 σ L2old.2.1), (hom4 σ L2old.2.2))) ((hom2 σ T1old.1), (hom2 σ T1old.2)) ((hom4 σ T2old.1), ((hom4 σ T2old.2.1), (hom4 σ T2old.2.2)))) rfl rfl (by krfl) rfl (by scargs)
  obtain ⟨h0, h⟩ := h.inv
  obtain ⟨h1, h⟩ := h.inv
  obtain ⟨h2, h⟩ := h.inv
  obtain ⟨h3, h⟩ := h.inv
  obtain ⟨h4, h⟩ := h.inv
  exact (Prod.ext (Prod.ext (dsc_two.1 h0) (dsc_two.1 h1)) (Prod.ext (dsc_four.1 h2) (Prod.ext (dsc_four.1 h3) (dsc_four.1 h4))))

theorem C63_uccsd_1rdm_ba (T1a : (Fin (n 1)) → (Fin (n 0)) → K) (T1b : (Fin (n 3)) → (Fin (n 2)) → K) (T2aa : (Fin (n 1)) → (Fin (n 1)) → (Fin (n 0)) → (Fin (n 0)) → K) (T2ab : (Fin (n 1)) → (Fin (n 3)) → (Fin (n 0)) → (Fin (n 2)) → K) (T2bb : (Fin (n 3)) → (Fin (n 3)) → (Fin (n 2)) → (Fin (n 2)) → K) (L1a : (Fin (n 0)) → (Fin (n 1)) → K) (L1b : (Fin (n 2)) → (Fin (n 3)) → K) (L2aa : (Fin (n 0)) → (Fin (n 0)) → (Fin (n 1)) → (Fin (n 1)) → K) (L2ab : (Fin (n 0)) → (Fin (n 2)) → (Fin (n 1)) → (Fin (n 3)) → K) (L2bb : (Fin (n 2)) → (Fin (n 2)) → (Fin (n 3)) → (Fin (n 3)) → K) :
    CC.uccsd_1rdm_ba (hom2 σ T1a) (hom2 σ T1b) (hom4 σ T2aa) (hom4 σ T2ab) (hom4 σ T2bb) (hom2 σ L1a) (hom2 σ L1b) (hom4 σ L2aa) (hom4 σ L2ab) (hom4 σ L2bb) = ((hom2 σ (CC.uccsd_1rdm_ba T1a T1b T2aa T2ab T2bb L1a L1b L2aa L2ab L2bb).1), (hom2 σ (CC.uccsd_1rdm_ba T1a T1b T2aa T2ab T2bb L1a L1b L2aa L2ab L2bb).2)) := by
  have h := scales (σ := σ) (s := 1) (ws := [0, 0, 0, 0, 0, 0, 0, 0, 0, 0]) (us := [0, 0]) (C53_uccsd_1rdm_ba (n := n) (l := true) (t := true) T1a T1b T2aa T2ab T2bb L1a L1b L2aa L2ab L2bb)
    (C53_uccsd_1rdm_ba (n := n) (l := true) (t := true) (hom2 σ T1a) (hom2 σ T1b) (hom4 σ T2aa) (hom4 σ T2ab) (hom4 σ T2bb) (hom2 σ L1a) (hom2 σ L1b) (hom4 σ L2aa) (hom4 σ L2ab) (hom4 σ L2bb)) rfl rfl (by krfl) rfl (by scargs)
  obtain ⟨h0, h⟩ := h.inv
  obtain ⟨h1, h⟩ := h.inv
  exact (Prod.ext (dsc_two.1 h0) (dsc_two.1 h1))

theorem C63_uccsd_1rdm_ji (T1a : (Fin (n 1)) → (Fin (n 0)) → K) (T1b : (Fin (n 3)) → (Fin (n 2)) → K) (T2aa : (Fin (n 1)) → (Fin (n 1)) → (Fin (n 0)) → (Fin (n 0)) → K) (T2ab : (Fin (n 1)) → (Fin (n 3)) → (Fin (n 0)) → (Fin (n 2)) → K) (T2bb : (Fin (n 3)) → (Fin (n 3)) → (Fin (n 2)) → (Fin (n 2)) → K) (L1a : (Fin (n 0)) → (Fin (n 1)) → K) (L1b : (Fin (n 2)) → (Fin (n 3)) → K) (L2aa : (Fin (n 0)) → (Fin (n 0)) → (Fin (n 1)) → (Fin (n 1)) → K) (L2ab : (Fin (n 0)) → (Fin (n 2)) → (Fin (n 1)) → (Fin (n 3)) → K) (L2bb : (Fin (n 2)) → (Fin (n 2)) → (Fin (n 3)) → (Fin (n 3)) → K) :
    CC.uccsd_1rdm_ji (hom2 σ T1a) (hom2 σ T1b) (hom4 σ T2aa) (hom4 σ T2ab) (hom4 σ T2bb) (hom2 σ L1a) (hom2 σ L1b) (hom4 σ L2aa) (hom4 σ L2ab) (hom4 σ L2bb) = ((hom2 σ (CC.uccsd_1rdm_ji T1a T1b T2aa T2ab T2bb L1a L1b L2aa L2ab L2bb).1), (hom2 σ (CC.uccsd_1rdm_ji T1a T1b T2aa T2ab T2bb L1a L1b L2aa L2ab L2bb).2)) := by
  have h := scales (σ := σ) (s := 1) (ws := [0, 0, 0, 0, 0, 0, 0, 0, 0, 0]) (us := [0, 0]) (C53_uccsd_1rdm_ji (n := n) (l := true) (t := true) T1a T1b T2aa T2ab T2bb L1a L1b L2aa L2ab L2bb)
    (C53_uccsd_1rdm_ji (n := n) (l := true) (t := true) (hom2 σ T1a) (hom2 σ T1b) (hom4 σ T2aa) (hom4 σ T2ab) (hom4 σ T2bb) (hom2 σ L1a) (hom2 σ L1b) (hom4 σ L2aa) (hom4 σ L2ab) (hom4 σ L2bb)) rfl rfl (by krfl) rfl (by scargs)
  obtain ⟨h0, h⟩ := h.inv
  obtain ⟨h1, h⟩ := h.inv
  exact (Prod.ext (dsc_two.1 h0) (dsc_two.1 h1))

theorem C63_uccsd_1rdm_ai (T1a : (Fin (n 1)) → (Fin (n 0)) → K) (T1b : (Fin (n 3)) → (Fin (n 2)) → K) (T2aa : (Fin (n 1)) → (Fin (n 1)) → (Fin (n 0)) → (Fin (n 0)) → K) (T2ab : (Fin (n 1)) → (Fin (n 3)) → (Fin (n 0)) → (Fin (n 2)) → K) (T2bb : (Fin (n 3)) → (Fin (n 3)) → (Fin (n 2)) → (Fin (n 2)) → K) (L1a : (Fin (n 0)) → (Fin (n 1)) → K) (L1b : (Fin (n 2)) → (Fin (n 3)) → K) (L2aa : (Fin (n 0)) → (Fin (n 0)) → (Fin (n 1)) → (Fin (n 1)) → K) (L2ab : (Fin (n 0)) → (Fin (n 2)) → (Fin (n 1)) → (Fin (n 3)) → K) (L2bb : (Fin (n 2)) → (Fin (n 2)) → (Fin (n 3)) → (Fin (n 3)) → K) (tfac : K) :
    CC.uccsd_1rdm_ai (hom2 σ T1a) (hom2 σ T1b) (hom4 σ T2aa) (hom4 σ T2ab) (hom4 σ T2bb) (hom2 σ L1a) (hom2 σ L1b) (hom4 σ L2aa) (hom4 σ L2ab) (hom4 σ L2bb) (σ tfac) = ((hom2 σ (CC.uccsd_1rdm_ai T1a T1b T2aa T2ab T2bb L1a L1b L2aa L2ab L2bb tfac).1), (hom2 σ (CC.uccsd_1rdm_ai T1a T1b T2aa T2ab T2bb L1a L1b L2aa L2ab L2bb tfac).2)) := by
  have h := scales (σ := σ) (s := 1) (ws := [0, 0, 0, 0, 0, 0, 0, 0, 0, 0, 0]) (us := [0, 0]) (C53_uccsd_1rdm_ai (n := n) (c := true) (l := true) (t := true) (fun _ => rfl) T1a T1b T2aa T2ab T2bb L1a L1b L2aa L2ab L2bb tfac)
    (C53_uccsd_1rdm_ai (n := n) (c := true) (l := true) (t := true) (fun _ => rfl) (hom2 σ T1a) (hom2 σ T1b) (hom4 σ T2aa) (hom4 σ T2ab) (hom4 σ T2bb) (hom2 σ L1a) (hom2 σ L1b) (hom4 σ L2aa) (hom4 σ L2ab) (hom4 σ L2bb) (σ tfac)) rfl rfl (by krfl) rfl (by scargs)
  obtain ⟨h0, h⟩ := h.inv
  obtain ⟨h1, h⟩ := h.inv
  exact (Prod.ext (dsc_two.1 h0) (dsc_two.1 h1))

theorem C63_uccsd_2rdm_ciab (T1a : (Fin (n 1)) → (Fin (n 0)) → K) (T1b : (Fin (n 3)) → (Fin (n 2)) → K) (T2aa : (Fin (n 1)) → (Fin (n 1)) → (Fin (n 0)) → (Fin (n 0)) → K) (T2ab : (Fin (n 1)) → (Fin (n 3)) → (Fin (n 0)) → (Fin (n 2)) → K) (T2bb : (Fin (n 3)) → (Fin (n 3)) → (Fin (n 2)) → (Fin (n 2)) → K) (L1a : (Fin (n 0)) → (Fin (n 1)) → K) (L1b : (Fin (n 2)) → (Fin (n 3)) → K) (L2aa : (Fin (n 0)) → (Fin (n 0)) → (Fin (n 1)) → (Fin (n 1)) → K) (L2ab : (Fin (n 0)) → (Fin (n 2)) → (Fin (n 1)) → (Fin (n 3)) → K) (L2bb : (Fin (n 2)) → (Fin (n 2)) → (Fin (n 3)) → (Fin (n 3)) → K) :
    CC.uccsd_2rdm_ciab (hom2 σ T1a) (hom2 σ T1b) (hom4 σ T2aa) (hom4 σ T2ab) (hom4 σ T2bb) (hom2 σ L1a) (hom2 σ L1b) (hom4 σ L2aa) (hom4 σ L2ab) (hom4 σ L2bb) = ((hom4 σ (CC.uccsd_2rdm_ciab T1a T1b T2aa T2ab T2bb L1a L1b L2aa L2ab L2bb).1), ((hom4 σ (CC.uccsd_2rdm_ciab T1a T1b T2aa T2ab T2bb L1a L1b L2aa L2ab L2bb).2.1), ((hom4 σ (CC.uccsd_2rdm_ciab T1a T1b T2aa T2ab T2bb L1a L1b L2aa L2ab L2bb).2.2.1), (hom4 σ (CC.uccsd_2rdm_ciab T1a T1b T2aa T2ab T2bb L1a L1b L2aa L2ab L2bb).2.2.2)))) := by
  have h := scales (σ := σ) (s := 1) (ws := [0, 0, 0, 0, 0]) (us := [0, 0, 0, 0]) (C53_uccsd_2rdm_ciab (n := n) (l := true) (t := true) T1a T1b T2aa T2ab T2bb L1a L1b L2aa L2ab L2bb)
    (C53_uccsd_2rdm_ciab (n := n) (l := true) (t := true) (hom2 σ T1a) (hom2 σ T1b) (hom4 σ T2aa) (hom4 σ T2ab) (hom4 σ T2bb) (hom2 σ L1a) (hom2 σ L1b) (hom4 σ L2aa) (hom4 σ L2ab) (hom4 σ L2bb)) rfl rfl (by krfl) rfl (by scargs)
  obtain ⟨h0, h⟩ := h.inv
  obtain ⟨h1, h⟩ := h.inv
  obtain ⟨h2, h⟩ := h.inv
  obtain ⟨h3, h⟩ := h.inv
  exact (Prod.ext (dsc_four.1 h0) (Prod.ext (dsc_four.1 h1) (Prod.ext (dsc_four.1 h2) (dsc_four.1 h3))))

theorem C63_uccsd_2rdm_jkai (T1a : (Fin (n 1)) → (Fin (n 0)) → K) (T1b : (Fin (n 3)) → (Fin (n 2)) → K) (T2aa : (Fin (n 1)) → (Fin (n 1)) → (Fin (n 0)) → (Fin (n 0)) → K) (T2ab : (Fin (n 1)) → (Fin (n 3)) → (Fin (n 0)) → (Fin (n 2)) → K) (T2bb : (Fin (n 3)) → (Fin (n 3)) → (Fin (n 2)) → (Fin (n 2)) → K) (L1a : (Fin (n 0)) → (Fin (n 1)) → K) (L1b : (Fin (n 2)) → (Fin (n 3)) → K) (L2aa : (Fin (n 0)) → (Fin (n 0)) → (Fin (n 1)) → (Fin (n 1)) → K) (L2ab : (Fin (n 0)) → (Fin (n 2)) → (Fin (n 1)) → (Fin (n 3)) → K) (L2bb : (Fin (n 2)) → (Fin (n 2)) → (Fin (n 3)) → (Fin (n 3)) → K) :
    CC.uccsd_2rdm_jkai (hom2 σ T1a) (hom2 σ T1b) (hom4 σ T2aa) (hom4 σ T2ab) (hom4 σ T2bb) (hom2 σ L1a) (hom2 σ L1b) (hom4 σ L2aa) (hom4 σ L2ab) (hom4 σ L2bb) = ((hom4 σ (CC.uccsd_2rdm_jkai T1a T1b T2aa T2ab T2bb L1a L1b L2aa L2ab L2bb).1), ((hom4 σ (CC.uccsd_2rdm_jkai T1a T1b T2aa T2ab T2bb L1a L1b L2aa L2ab L2bb).2.1), ((hom4 σ (CC.uccsd_2rdm_jkai T1a T1b T2aa T2ab T2bb L1a L1b L2aa L2ab L2bb).2.2.1), (hom4 σ (CC.uccsd_2rdm_jkai T1a T1b T2aa T2ab T2bb L1a L1b L2aa L2ab L2bb).2.2.2)))) := by
  have h := scales (σ := σ) (s := 1) (ws := [0, 0, 0, 0, 0]) (us := [0, 0, 0, 0]) (C53_uccsd_2rdm_jkai (n := n) (l := true) (t := true) T1a T1b T2aa T2ab T2bb L1a L1b L2aa L2ab L2bb)
    (C53_uccsd_2rdm_jkai (n := n) (l := true) (t := true) (hom2 σ T1a) (hom2 σ T1b) (hom4 σ T2aa) (hom4 σ T2ab) (hom4 σ T2bb) (hom2 σ L1a) (hom2 σ L1b) (hom4 σ L2aa) (hom4 σ L2ab) (hom4 σ L2bb)) rfl rfl (by krfl) rfl (by scargs)
  obtain ⟨h0, h⟩ := h.inv
  obtain ⟨h1, h⟩ := h.inv
  obtain ⟨h2, h⟩ := h.inv
  obtain ⟨h3, h⟩ := h.inv
  exact (Prod.ext (dsc_four.1 h0) (Prod.ext (dsc_four.1 h1) (Prod.ext (dsc_four.1 h2) (dsc_four.1 h3))))

theorem C63_uccsd_2rdm_cdab (T1a : (Fin (n 1)) → (Fin (n 0)) → K) (T1b : (Fin (n 3)) → (Fin (n 2)) → K) (T2aa : (Fin (n 1)) → (Fin (n 1)) → (Fin (n 0)) → (Fin (n 0)) → K) (T2ab : (Fin (n 1)) → (Fin (n 3)) → (Fin (n 0)) → (Fin (n 2)) → K) (T2bb : (Fin (n 3)) → (Fin (n 3)) → (Fin (n 2)) → (Fin (n 2)) → K) (L1a : (Fin (n 0)) → (Fin (n 1)) → K) (L1b : (Fin (n 2)) → (Fin (n 3)) → K) (L2aa : (Fin (n 0)) → (Fin (n 0)) → (Fin (n 1)) → (Fin (n 1)) → K) (L2ab : (Fin (n 0)) → (Fin (n 2)) → (Fin (n 1)) → (Fin (n 3)) → K) (L2bb : (Fin (n 2)) → (Fin (n 2)) → (Fin (n 3)) → (Fin (n 3)) → K) :
    CC.uccsd_2rdm_cdab (hom2 σ T1a) (hom2 σ T1b) (hom4 σ T2aa) (hom4 σ T2ab) (hom4 σ T2bb) (hom2 σ L1a) (hom2 σ L1b) (hom4 σ L2aa) (hom4 σ L2ab) (hom4 σ L2bb) = ((hom4 σ (CC.uccsd_2rdm_cdab T1a T1b T2aa T2ab T2bb L1a L1b L2aa L2ab L2bb).1), ((hom4 σ (CC.uccsd_2rdm_cdab T1a T1b T2aa T2ab T2bb L1a L1b L2aa L2ab L2bb).2.1), (hom4 σ (CC.uccsd_2rdm_cdab T1a T1b T2aa T2ab T2bb L1a L1b L2aa L2ab L2bb).2.2))) := by
  have h := scales (σ := σ) (s := 1) (ws := [0, 0, 0, 0, 0, 0, 0, 0]) (us := [0, 0, 0]) (C53_uccsd_2rdm_cdab (n := n) (l := true) (t := true) T1a T1b T2aa T2ab T2bb L1a L1b L2aa L2ab L2bb)
    (C53_uccsd_2rdm_cdab (n := n) (l := true) (t := true) (hom2 σ T1a) (hom2 σ T1b) (hom4 σ T2aa) (hom4 σ T2ab) (hom4 σ T2bb) (hom2 σ L1a) (hom2 σ L1b) (hom4 σ L2aa) (hom4 σ L2ab) (hom4 σ L2bb)) rfl rfl (by krfl) rfl (by scargs)
  obtain ⟨h0, h⟩ := h.inv
  obtain ⟨h1, h⟩ := h.inv
  obtain ⟨h2, h⟩ := h.inv
  exact (Prod.ext (dsc_four.1 h0) (Prod.ext (dsc_four.1 h1) (dsc_four.1 h2)))

theorem C63_uccsd_2rdm_bjai (T1a : (Fin (n 1)) → (Fin (n 0)) → K) (T1b : (Fin (n 3)) → (Fin (n 2)) → K) (T2aa : (Fin (n 1)) → (Fin (n 1)) → (Fin (n 0)) → (Fin (n 0)) → K) (T2ab : (Fin (n 1)) → (Fin (n 3)) → (Fin (n 0)) → (Fin (n 2)) → K) (T2bb : (Fin (n 3)) → (Fin (n 3)) → (Fin (n 2)) → (Fin (n 2)) → K) (L1a : (Fin (n 0)) → (Fin (n 1)) → K) (L1b : (Fin (n 2)) → (Fin (n 3)) → K) (L2aa : (Fin (n 0)) → (Fin (n 0)) → (Fin (n 1)) → (Fin (n 1)) → K) (L2ab : (Fin (n 0)) → (Fin (n 2)) → (Fin (n 1)) → (Fin (n 3)) → K) (L2bb : (Fin (n 2)) → (Fin (n 2)) → (Fin (n 3)) → (Fin (n 3)) → K) :
    CC.uccsd_2rdm_bjai (hom2 σ T1a) (hom2 σ T1b) (hom4 σ T2aa) (hom4 σ T2ab) (hom4 σ T2bb) (hom2 σ L1a) (hom2 σ L1b) (hom4 σ L2aa) (hom4 σ L2ab) (hom4 σ L2bb) = ((hom4 σ (CC.uccsd_2rdm_bjai T1a T1b T2aa T2ab T2bb L1a L1b L2aa L2ab L2bb).1), ((hom4 σ (CC.uccsd_2rdm_bjai T1a T1b T2aa T2ab T2bb L1a L1b L2aa L2ab L2bb).2.1), ((hom4 σ (CC.uccsd_2rdm_bjai T1a T1b T2aa T2ab T2bb L1a L1b L2aa L2ab L2bb).2.2.1), ((hom4 σ (CC.uccsd_2rdm_bjai T1a T1b T2aa T2ab T2bb L1a L1b L2aa L2ab L2bb).2.2.2.1), ((hom4 σ (CC.uccsd_2rdm_bjai T1a T1b T2aa T2ab T2bb L1a L1b L2aa L2ab L2bb).2.2.2.2.1), (hom4 σ (CC.uccsd_2rdm_bjai T1a T1b T2aa T2ab T2bb L1a L1b L2aa L2ab L2bb).2.2.2.2.2)))))) := by
  have h := scales (σ := σ) (s := 1) (ws := [0, 0, 0, 0, 0, 0, 0, 0, 0, 0]) (us := [0, 0, 0, 0, 0, 0]) (C53_uccsd_2rdm_bjai (n := n) (l := true) (t := true) T1a T1b T2aa T2ab T2bb L1a L1b L2aa L2ab L2bb)
    (C53_uccsd_2rdm_bjai (n := n) (l := true) (t := true) (hom2 σ T1a) (hom2 σ T1b) (hom4 σ T2aa) (hom4 σ T2ab) (hom4 σ T2bb) (hom2 σ L1a) (hom2 σ L1b) (hom4 σ L2aa) (hom4 σ L2ab) (hom4 σ L2bb)) rfl rfl (by krfl) rfl (by scargs)
  obtain ⟨h0, h⟩ := h.inv
  obtain ⟨h1, h⟩ := h.inv
  obtain ⟨h2, h⟩ := h.inv
  obtain ⟨h3, h⟩ := h.inv
  obtain ⟨h4, h⟩ := h.inv
  obtain ⟨h5, h⟩ := h.inv
  exact (Prod.ext (dsc_four.1 h0) (Prod.ext (dsc_four.1 h1) (Prod.ext (dsc_four.1 h2) (Prod.ext (dsc_four.1 h3) (Prod.ext (dsc_four.1 h4) (dsc_four.1 h5))))))

theorem C63_uccsd_2rdm_klij (T1a : (Fin (n 1)) → (Fin (n 0)) → K) (T1b : (Fin (n 3)) → (Fin (n 2)) → K) (T2aa : (Fin (n 1)) → (Fin (n 1)) → (Fin (n 0)) → (Fin (n 0)) → K) (T2ab : (Fin (n 1)) → (Fin (n 3)) → (Fin (n 0)) → (Fin (n 2)) → K) (T2bb : (Fin (n 3)) → (Fin (n 3)) → (Fin (n 2)) → (Fin (n 2)) → K) (L1a : (Fin (n 0)) → (Fin (n 1)) → K) (L1b : (Fin (n 2)) → (Fin (n 3)) → K) (L2aa : (Fin (n 0)) → (Fin (n 0)) → (Fin (n 1)) → (Fin (n 1)) → K) (L2ab : (Fin (n 0)) → (Fin (n 2)) → (Fin (n 1)) → (Fin (n 3)) → K) (L2bb : (Fin (n 2)) → (Fin (n 2)) → (Fin (n 3)) → (Fin (n 3)) → K) :
    CC.uccsd_2rdm_klij (hom2 σ T1a) (hom2 σ T1b) (hom4 σ T2aa) (hom4 σ T2ab) (hom4 σ T2bb) (hom2 σ L1a) (hom2 σ L1b) (hom4 σ L2aa) (hom4 σ L2ab) (hom4 σ L2bb) = ((hom4 σ (CC.uccsd_2rdm_klij T1a T1b T2aa T2ab T2bb L1a L1b L2aa L2ab L2bb).1), ((hom4 σ (CC.uccsd_2rdm_klij T1a T1b T2aa T2ab T2bb L1a L1b L2aa L2ab L2bb).2.1), (hom4 σ (CC.uccsd_2rdm_klij T1a T1b T2aa T2ab T2bb L1a L1b L2aa L2ab L2bb).2.2))) := by
  have h := scales (σ := σ) (s := 1) (ws := [0, 0, 0, 0, 0, 0, 0, 0]) (us := [0, 0, 0]) (C53_uccsd_2rdm_klij (n := n) (l := true) (t := true) T1a T1b T2aa T2ab T2bb L1a L1b L2aa L2ab L2bb)
    (C53_uccsd_2rdm_klij (n := n) (l := true) (t := true) (hom2 σ T1a) (hom2 σ T1b) (hom4 σ T2aa) (hom4 σ T2ab) (hom4 σ T2bb) (hom2 σ L1a) (hom2 σ L1b) (hom4 σ L2aa) (hom4 σ L2ab) (hom4 σ L2bb)) rfl rfl (by krfl) rfl (by scargs)
  obtain ⟨h0, h⟩ := h.inv
  obtain ⟨h1, h⟩ := h.inv
  obtain ⟨h2, h⟩ := h.inv
  exact (Prod.ext (dsc_four.1 h0) (Prod.ext (dsc_four.1 h1) (dsc_four.1 h2)))

theorem C63_uccsd_2rdm_bcai (T1a : (Fin (n 1)) → (Fin (n 0)) → K) (T1b : (Fin (n 3)) → (Fin (n 2)) → K) (T2aa : (Fin (n 1)) → (Fin (n 1)) → (Fin (n 0)) → (Fin (n 0)) → K) (T2ab : (Fin (n 1)) → (Fin (n 3)) → (Fin (n 0)) → (Fin (n 2)) → K) (T2bb : (Fin (n 3)) → (Fin (n 3)) → (Fin (n 2)) → (Fin (n 2)) → K) (L1a : (Fin (n 0)) → (Fin (n 1)) → K) (L1b : (Fin (n 2)) → (Fin (n 3)) → K) (L2aa : (Fin (n 0)) → (Fin (n 0)) → (Fin (n 1)) → (Fin (n 1)) → K) (L2ab : (Fin (n 0)) → (Fin (n 2)) → (Fin (n 1)) → (Fin (n 3)) → K) (L2bb : (Fin (n 2)) → (Fin (n 2)) → (Fin (n 3)) → (Fin (n 3)) → K) :
    CC.uccsd_2rdm_bcai (hom2 σ T1a) (hom2 σ T1b) (hom4 σ T2aa) (hom4 σ T2ab) (hom4 σ T2bb) (hom2 σ L1a) (hom2 σ L1b) (hom4 σ L2aa) (hom4 σ L2ab) (hom4 σ L2bb) = ((hom4 σ (CC.uccsd_2rdm_bcai T1a T1b T2aa T2ab T2bb L1a L1b L2aa L2ab L2bb).1), ((hom4 σ (CC.uccsd_2rdm_bcai T1a T1b T2aa T2ab T2bb L1a L1b L2aa L2ab L2bb).2.1), ((hom4 σ (CC.uccsd_2rdm_bcai T1a T1b T2aa T2ab T2bb L1a L1b L2aa L2ab L2bb).2.2.1), (hom4 σ (CC.uccsd_2rdm_bcai T1a T1b T2aa T2ab T2bb L1a L1b L2aa L2ab L2bb).2.2.2)))) := by
  have h := scales (σ := σ) (s := 1) (ws := [0, 0, 0, 0, 0, 0, 0, 0, 0, 0]) (us := [0, 0, 0, 0]) (C53_uccsd_2rdm_bcai (n := n) (l := true) (t := true) T1a T1b T2aa T2ab T2bb L1a L1b L2aa L2ab L2bb)
    (C53_uccsd_2rdm_bcai (n := n) (l := true) (t := true) (hom2 σ T1a) (hom2 σ T1b) (hom4 σ T2aa) (hom4 σ T2ab) (hom4 σ T2bb) (hom2 σ L1a) (hom2 σ L1b) (hom4 σ L2aa) (hom4 σ L2ab) (hom4 σ L2bb)) rfl rfl (by krfl) rfl (by scargs)
  obtain ⟨h0, h⟩ := h.inv
  obtain ⟨h1, h⟩ := h.inv
  obtain ⟨h2, h⟩ := h.inv
  obtain ⟨h3, h⟩ := h.inv
  exact (Prod.ext (dsc_four.1 h0) (Prod.ext (dsc_four.1 h1) (Prod.ext (dsc_four.1 h2) (dsc_four.1 h3))))

theorem C63_uccsd_2rdm_kaij (T1a : (Fin (n 1)) → (Fin (n 0)) → K) (T1b : (Fin (n 3)) → (Fin (n 2)) → K) (T2aa : (Fin (n 1)) → (Fin (n 1)) → (Fin (n 0)) → (Fin (n 0)) → K) (T2ab : (Fin (n 1)) → (Fin (n 3)) → (Fin (n 0)) → (Fin (n 2)) → K) (T2bb : (Fin (n 3)) → (Fin (n 3)) → (Fin (n 2)) → (Fin (n 2)) → K) (L1a : (Fin (n 0)) → (Fin (n 1)) → K) (L1b : (Fin (n 2)) → (Fin (n 3)) → K) (L2aa : (Fin (n 0)) → (Fin (n 0)) → (Fin (n 1)) → (Fin (n 1)) → K) (L2ab : (Fin (n 0)) → (Fin (n 2)) → (Fin (n 1)) → (Fin (n 3)) → K) (L2bb : (Fin (n 2)) → (Fin (n 2)) → (Fin (n 3)) → (Fin (n 3)) → K) :
    CC.uccsd_2rdm_kaij (hom2 σ T1a) (hom2 σ T1b) (hom4 σ T2aa) (hom4 σ T2ab) (hom4 σ T2bb) (hom2 σ L1a) (hom2 σ L1b) (hom4 σ L2aa) (hom4 σ L2ab) (hom4 σ L2bb) = ((hom4 σ (CC.uccsd_2rdm_kaij T1a T1b T2aa T2ab T2bb L1a L1b L2aa L2ab L2bb).1), ((hom4 σ (CC.uccsd_2rdm_kaij T1a T1b T2aa T2ab T2bb L1a L1b L2aa L2ab L2bb).2.1), ((hom4 σ (CC.uccsd_2rdm_kaij T1a T1b T2aa T2ab T2bb L1a L1b L2aa L2ab L2bb).2.2.1), (hom4 σ (CC.uccsd_2rdm_kaij T1a T1b T2aa T2ab T2bb L1a L1b L2aa L2ab L2bb).2.2.2)))) := by
  have h := scales (σ := σ) (s := 1) (ws := [0, 0, 0, 0, 0, 0, 0, 0, 0, 0]) (us := [0, 0, 0, 0]) (C53_uccsd_2rdm_kaij (n := n) (l := true) (t := true) T1a T1b T2aa T2ab T2bb L1a L1b L2aa L2ab L2bb)
    (C53_uccsd_2rdm_kaij (n := n) (l := true) (t := true) (hom2 σ T1a) (hom2 σ T1b) (hom4 σ T2aa) (hom4 σ T2ab) (hom4 σ T2bb) (hom2 σ L1a) (hom2 σ L1b) (hom4 σ L2aa) (hom4 σ L2ab) (hom4 σ L2bb)) rfl rfl (by krfl) rfl (by scargs)
  obtain ⟨h0, h⟩ := h.inv
  obtain ⟨h1, h⟩ := h.inv
  obtain ⟨h2, h⟩ := h.inv
  obtain ⟨h3, h⟩ := h.inv
  exact (Prod.ext (dsc_four.1 h0) (Prod.ext (dsc_four.1 h1) (Prod.ext (dsc_four.1 h2) (dsc_four.1 h3))))

theorem C63_uccsd_2rdm_abij (T1a : (Fin (n 1)) → (Fin (n 0)) → K) (T1b : (Fin (n 3)) → (Fin (n 2)) → K) (T2aa : (Fin (n 1)) → (Fin (n 1)) → (Fin (n 0)) → (Fin (n 0)) → K) (T2ab : (Fin (n 1)) → (Fin (n 3)) → (Fin (n 0)) → (Fin (n 2)) → K) (T2bb : (Fin (n 3)) → (Fin (n 3)) → (Fin (n 2)) → (Fin (n 2)) → K) (L1a : (Fin (n 0)) → (Fin (n 1)) → K) (L1b : (Fin (n 2)) → (Fin (n 3)) → K) (L2aa : (Fin (n 0)) → (Fin (n 0)) → (Fin (n 1)) → (Fin (n 1)) → K) (L2ab : (Fin (n 0)) → (Fin (n 2)) → (Fin (n 1)) → (Fin (n 3)) → K) (L2bb : (Fin (n 2)) → (Fin (n 2)) → (Fin (n 3)) → (Fin (n 3)) → K) (tfac : K) :
    CC.uccsd_2rdm_abij (hom2 σ T1a) (hom2 σ T1b) (hom4 σ T2aa) (hom4 σ T2ab) (hom4 σ T2bb) (hom2 σ L1a) (hom2 σ L1b) (hom4 σ L2aa) (hom4 σ L2ab) (hom4 σ L2bb) (σ tfac) = ((hom4 σ (CC.uccsd_2rdm_abij T1a T1b T2aa T2ab T2bb L1a L1b L2aa L2ab L2bb tfac).1), ((hom4 σ (CC.uccsd_2rdm_abij T1a T1b T2aa T2ab T2bb L1a L1b L2aa L2ab L2bb tfac).2.1), (hom4 σ (CC.uccsd_2rdm_abij T1a T1b T2aa T2ab T2bb L1a L1b L2aa L2ab L2bb tfac).2.2))) := by
  have h := scales (σ := σ) (s := 1) (ws := [0, 0, 0, 0, 0, 0, 0, 0, 0, 0, 0]) (us := [0, 0, 0]) (C53_uccsd_2rdm_abij (n := n) (c := true) (l := true) (t := true) (fun _ => rfl) T1a T1b T2aa T2ab T2bb L1a L1b L2aa L2ab L2bb tfac)
    (C53_uccsd_2rdm_abij (n := n) (c := true) (l := true) (t := true) (fun _ => rfl) (hom2 σ T1a) (hom2 σ T1b) (hom4 σ T2aa) (hom4 σ T2ab) (hom4 σ T2bb) (hom2 σ L1a) (hom2 σ L1b) (hom4 σ L2aa) (hom4 σ L2ab) (hom4 σ L2bb) (σ tfac)) rfl rfl (by krfl) rfl (by scargs)
  obtain ⟨h0, h⟩ := h.inv
  obtain ⟨h1, h⟩ := h.inv
  obtain ⟨h2, h⟩ := h.inv
  exact (Prod.ext (dsc_four.1 h0) (Prod.ext (dsc_four.1 h1) (dsc_four.1 h2)))

theorem C63_rcc_energy (t1 : (Fin (n 1)) → (Fin (n 0)) → K) (t2 : (Fin (n 1)) → (Fin (n 1)) → (Fin (n 0)) → (Fin (n 0)) → K) (f : (Fin (n 0)) → (Fin (n 1)) → K) (I : (Fin (n 0)) → (Fin (n 0)) → (Fin (n 1)) → (Fin (n 1)) → K) :
    CC.rcc_energy (hom2 σ t1) (hom4 σ t2) (sc2 s σ f) (sc4 s σ I) = s * σ ((CC.rcc_energy t1 t2 f I)) := by
  have h := scales (σ := σ) (s := s) (ws := [0, 0, 1, 1]) (us := [1]) (C53_rcc_energy (n := n) (i := true) (t := true) t1 t2 f I)
    (C53_rcc_energy (n := n) (i := true) (t := true) (hom2 σ t1) (hom4 σ t2) (sc2 s σ f) (sc4 s σ I)) rfl rfl (by krfl) rfl (by scargs)
  obtain ⟨h0, h⟩ := h.inv
  exact (dsc_num.1 h0)

theorem C63_rccsd_stanton (F : OneE (Fin (n 0)) (Fin (n 1)) K) (I : TwoEFull (Fin (n 0)) (Fin (n 1)) (Fin (n 0)) (Fin (n 1)) K) (T1old : (Fin (n 1)) → (Fin (n 0)) → K) (T2old : (Fin (n 1)) → (Fin (n 1)) → (Fin (n 0)) → (Fin (n 0)) → K) :
    CC.rccsd_stanton (F.sc s σ) (I.sc s σ) (hom2 σ T1old) (hom4 σ T2old) = ((sc2 s σ (CC.rccsd_stanton F I T1old T2old).1), (sc4 s σ (CC.rccsd_stanton F I T1old T2old).2)) := by
  have h := scales (σ := σ) (s := s) (ws := [1, 1, 1, 1, 1, 1, 1, 1, 1, 1, 1, 1, 1, 1, 1, 1, 1, 0, 0]) (us := [1, 1]) (C53_rccsd_stanton (n := n) (i := true) (t := true) (fun _ => rfl) F I T1old T2old)
    (C53_rccsd_stanton (n := n) (i := true) (t := true) (fun _ => rfl) (F.sc s σ) (I.sc s σ) (hom2 σ T1old) (hom4 σ T2old)) rfl rfl (by krfl) rfl (by scargs)
  obtain ⟨h0, h⟩ := h.inv
  obtain ⟨h1, h⟩ := h.inv
  exact (Prod.ext (dsc_two.1 h0) (dsc_four.1 h1))

theorem C63_rccsd_lambda_opt (F : OneE (Fin (n 0)) (Fin (n 1)) K) (I : TwoEFull (Fin (n 0)) (Fin (n 1)) (Fin (n 0)) (Fin (n 1)) K) (L1old : (Fin (n 0)) → (Fin (n 1)) → K) (L2old : (Fin (n 0)) → (Fin (n 0)) → (Fin (n 1)) → (Fin (n 1)) → K) (T1old : (Fin (n 1)) → (Fin (n 0)) → K) (T2old : (Fin (n 1)) → (Fin (n 1)) → (Fin (n 0)) → (Fin (n 0)) → K) :
    CC.rccsd_lambda_opt (F.sc s σ) (I.sc s σ) (hom2 σ L1old) (hom4 σ L2old) (hom2 σ T1old) (hom4 σ T2old) = ((sc2 s σ (CC.rccsd_lambda_opt F I L1old L2old T1old T2old).1), (sc4 s σ (CC.rccsd_lambda_opt F I L1old L2old T1old T2old).2)) := by
  have h := scales (σ := σ) (s := s) (ws := [1, 1, 1, 1, 1, 1, 1, 1, 1, 1, 1, 1, 1, 1, 1, 1, 1, 1, 0, 0, 0, 0]) (us := [1, 1]) (C53_rccsd_lambda_opt (n := n) (i := true) (l := true) (t := true) (fun _ => rfl) (fun _ => rfl) F I L1old L2old T1old T2old)
    (C53_rccsd_lambda_opt (n := n) (i := true) (l := true) (t := true) (fun _ => rfl) (fun _ => rfl) (F.sc s σ) (I.sc s σ) (hom2 σ L1old) (hom4 σ L2old) (hom2 σ T1old) (hom4 σ T2old)) rfl rfl (by krfl) rfl (by scargs)
  obtain ⟨h0, h⟩ := h.inv
  obtain ⟨h1, h⟩ := h.inv
  exact (Prod.ext (dsc_two.1 h0) (dsc_four.1 h1))

theorem C63_rccsd_1rdm_ba (T1 : (Fin (n 1)) → (Fin (n 0)) → K) (T2 : (Fin (n 1)) → (Fin (n 1)) → (Fin (n 0)) → (Fin (n 0)) → K) (L1 : (Fin (n 0)) → (Fin (n 1)) → K) (L2 : (Fin (n 0)) → (Fin (n 0)) → (Fin (n 1)) → (Fin (n 1)) → K) (tfac : K) :
    CC.rccsd_1rdm_ba (hom2 σ T1) (hom4 σ T2) (hom2 σ L1) (hom4 σ L2) (σ tfac) = (hom2 σ (CC.rccsd_1rdm_ba T1 T2 L1 L2 tfac)) := by
  have h := scales (σ := σ) (s := 1) (ws := [0, 0, 0, 0]) (us := [0]) (C53_rccsd_1rdm_ba (n := n) (l := true) (t := true) T1 T2 L1 L2 tfac)
    (C53_rccsd_1rdm_ba (n := n) (l := true) (t := true) (hom2 σ T1) (hom4 σ T2) (hom2 σ L1) (hom4 σ L2) (σ tfac)) rfl rfl (by krfl) rfl (by scargs)
  obtain ⟨h0, h⟩ := h.inv
  exact (dsc_two.1 h0)

theorem C63_rccsd_1rdm_ji (T1 : (Fin (n 1)) → (Fin (n 0)) → K) (T2 : (Fin (n 1)) → (Fin (n 1)) → (Fin (n 0)) → (Fin (n 0)) → K) (L1 : (Fin (n 0)) → (Fin (n 1)) → K) (L2 : (Fin (n 0)) → (Fin (n 0)) → (Fin (n 1)) → (Fin (n 1)) → K) (tfac : K) :
    CC.rccsd_1rdm_ji (hom2 σ T1) (hom4 σ T2) (hom2 σ L1) (hom4 σ L2) (σ tfac) = (hom2 σ (CC.rccsd_1rdm_ji T1 T2 L1 L2 tfac)) := by
  have h := scales (σ := σ) (s := 1) (ws := [0, 0, 0, 0]) (us := [0]) (C53_rccsd_1rdm_ji (n := n) (l := true) (t := true) T1 T2 L1 L2 tfac)
    (C53_rccsd_1rdm_ji (n := n) (l := true) (t := true) (hom2 σ T1) (hom4 σ T2) (hom2 σ L1) (hom4 σ L2) (σ tfac)) rfl rfl (by krfl) rfl (by scargs)
  obtain ⟨h0, h⟩ := h.inv
  exact (dsc_two.1 h0)

theorem C63_rccsd_1rdm_ai (T1 : (Fin (n 1)) → (Fin (n 0)) → K) (T2 : (Fin (n 1)) → (Fin (n 1)) → (Fin (n 0)) → (Fin (n 0)) → K) (L1 : (Fin (n 0)) → (Fin (n 1)) → K) (L2 : (Fin (n 0)) → (Fin (n 0)) → (Fin (n 1)) → (Fin (n 1)) → K) (tfac : K) :
    CC.rccsd_1rdm_ai (hom2 σ T1) (hom4 σ T2) (hom2 σ L1) (hom4 σ L2) (σ tfac) = (hom2 σ (CC.rccsd_1rdm_ai T1 T2 L1 L2 tfac)) := by
  have h := scales (σ := σ) (s := 1) (ws := [0, 0, 0, 0, 0]) (us := [0]) (C53_rccsd_1rdm_ai (n := n) (c := true) (l := true) (t := true) (fun _ => rfl) T1 T2 L1 L2 tfac)
    (C53_rccsd_1rdm_ai (n := n) (c := true) (l := true) (t := true) (fun _ => rfl) (hom2 σ T1) (hom4 σ T2) (hom2 σ L1) (hom4 σ L2) (σ tfac)) rfl rfl (by krfl) rfl (by scargs)
  obtain ⟨h0, h⟩ := h.inv
  exact (dsc_two.1 h0)

theorem C63_rccsd_2rdm_ciab (T1 : (Fin (n 1)) → (Fin (n 0)) → K) (T2 : (Fin (n 1)) → (Fin (n 1)) → (Fin (n 0)) → (Fin (n 0)) → K) (L1 : (Fin (n 0)) → (Fin (n 1)) → K) (L2 : (Fin (n 0)) → (Fin (n 0)) → (Fin (n 1)) → (Fin (n 1)) → K) :
    CC.rccsd_2rdm_ciab (hom2 σ T1) (hom4 σ T2) (hom2 σ L1) (hom4 σ L2) = (hom4 σ (CC.rccsd_2rdm_ciab T1 T2 L1 L2)) := by
  have h := scales (σ := σ) (s := 1) (ws := [0, 0]) (us := [0]) (C53_rccsd_2rdm_ciab (n := n) (l := true) (t := true) T1 T2 L1 L2)
    (C53_rccsd_2rdm_ciab (n := n) (l := true) (t := true) (hom2 σ T1) (hom4 σ T2) (hom2 σ L1) (hom4 σ L2)) rfl rfl (by krfl) rfl (by scargs)
  obtain ⟨h0, h⟩ := h.inv
  exact (dsc_four.1 h0)

theorem C63_rccsd_2rdm_jkai (T1 : (Fin (n 1)) → (Fin (n 0)) → K) (T2 : (Fin (n 1)) → (Fin (n 1)) → (Fin (n 0)) → (Fin (n 0)) → K) (L1 : (Fin (n 0)) → (Fin (n 1)) → K) (L2 : (Fin (n 0)) → (Fin (n 0)) → (Fin (n 1)) → (Fin (n 1)) → K) :
    CC.rccsd_2rdm_jkai (hom2 σ T1) (hom4 σ T2) (hom2 σ L1) (hom4 σ L2) = (hom4 σ (CC.rccsd_2rdm_jkai T1 T2 L1 L2)) := by
  have h := scales (σ := σ) (s := 1) (ws := [0, 0]) (us := [0]) (C53_rccsd_2rdm_jkai (n := n) (l := true) (t := true) T1 T2 L1 L2)
    (C53_rccsd_2rdm_jkai (n := n) (l := true) (t := true) (hom2 σ T1) (hom4 σ T2) (hom2 σ L1) (hom4 σ L2)) rfl rfl (by krfl) rfl (by scargs)
  obtain ⟨h0, h⟩ := h.inv
  exact (dsc_four.1 h0)

theorem C63_rccsd_2rdm_cdab (T1 : (Fin (n 1)) → (Fin (n 0)) → K) (T2 : (Fin (n 1)) → (Fin (n 1)) → (Fin (n 0)) → (Fin (n 0)) → K) (L1 : (Fin (n 0)) → (Fin (n 1)) → K) (L2 : (Fin (n 0)) → (Fin (n 0)) → (Fin (n 1)) → (Fin (n 1)) → K) :
    CC.rccsd_2rdm_cdab (hom2 σ T1) (hom4 σ T2) (hom2 σ L1) (hom4 σ L2) = (hom4 σ (CC.rccsd_2rdm_cdab T1 T2 L1 L2)) := by
  have h := scales (σ := σ) (s := 1) (ws := [0, 0, 0]) (us := [0]) (C53_rccsd_2rdm_cdab (n := n) (l := true) (t := true) T1 T2 L1 L2)
    (C53_rccsd_2rdm_cdab (n := n) (l := true) (t := true) (hom2 σ T1) (hom4 σ T2) (hom2 σ L1) (hom4 σ L2)) rfl rfl (by krfl) rfl (by scargs)
  obtain ⟨h0, h⟩ := h.inv
  exact (dsc_four.1 h0)

theorem C63_rccsd_2rdm_bjai (T1 : (Fin (n 1)) → (Fin (n 0)) → K) (T2 : (Fin (n 1)) → (Fin (n 1)) → (Fin (n 0)) → (Fin (n 0)) → K) (L1 : (Fin (n 0)) → (Fin (n 1)) → K) (L2 : (Fin (n 0)) → (Fin (n 0)) → (Fin (n 1)) → (Fin (n 1)) → K) :
    CC.rccsd_2rdm_bjai (hom2 σ T1) (hom4 σ T2) (hom2 σ L1) (hom4 σ L2) = (hom4 σ (CC.rccsd_2rdm_bjai T1 T2 L1 L2)) := by
  have h := scales (σ := σ) (s := 1) (ws := [0, 0, 0]) (us := [0]) (C53_rccsd_2rdm_bjai (n := n) (l := true) (t := true) T1 T2 L1 L2)
    (C53_rccsd_2rdm_bjai (n := n) (l := true) (t := true) (hom2 σ T1) (hom4 σ T2) (hom2 σ L1) (hom4 σ L2)) rfl rfl (by krfl) rfl (by scargs)
  obtain ⟨h0, h⟩ := h.inv
  exact (dsc_four.1 h0)

theorem C63_rccsd_2rdm_bjia (T1 : (Fin (n 1)) → (Fin (n 0)) → K) (T2 : (Fin (n 1)) → (Fin (n 1)) → (Fin (n 0)) → (Fin (n 0)) → K) (L1 : (Fin (n 0)) → (Fin (n 1)) → K) (L2 : (Fin (n 0)) → (Fin (n 0)) → (Fin (n 1)) → (Fin (n 1)) → K) :
    CC.rccsd_2rdm_bjia (hom2 σ T1) (hom4 σ T2) (hom2 σ L1) (hom4 σ L2) = (hom4 σ (CC.rccsd_2rdm_bjia T1 T2 L1 L2)) := by
  have h := scales (σ := σ) (s := 1) (ws := [0, 0, 0, 0]) (us := [0]) (C53_rccsd_2rdm_bjia (n := n) (l := true) (t := true) T1 T2 L1 L2)
    (C53_rccsd_2rdm_bjia (n := n) (l := true) (t := true) (hom2 σ T1) (hom4 σ T2) (hom2 σ L1) (hom4 σ L2)) rfl rfl (by krfl) rfl (by scargs)
  obtain ⟨h0, h⟩ := h.inv
  exact (dsc_four.1 h0)

theorem C63_rccsd_2rdm_klij (T1 : (Fin (n 1)) → (Fin (n 0)) → K) (T2 : (Fin (n 1)) → (Fin (n 1)) → (Fin (n 0)) → (Fin (n 0)) → K) (L1 : (Fin (n 0)) → (Fin (n 1)) → K) (L2 : (Fin (n 0)) → (Fin (n 0)) → (Fin (n 1)) → (Fin (n 1)) → K) :
    CC.rccsd_2rdm_klij (hom2 σ T1) (hom4 σ T2) (hom2 σ L1) (hom4 σ L2) = (hom4 σ (CC.rccsd_2rdm_klij T1 T2 L1 L2)) := by
  have h := scales (σ := σ) (s := 1) (ws := [0, 0, 0]) (us := [0]) (C53_rccsd_2rdm_klij (n := n) (l := true) (t := true) T1 T2 L1 L2)
    (C53_rccsd_2rdm_klij (n := n) (l := true) (t := true) (hom2 σ T1) (hom4 σ T2) (hom2 σ L1) (hom4 σ L2)) rfl rfl (by krfl) rfl (by scargs)
  obtain ⟨h0, h⟩ := h.inv
  exact (dsc_four.1 h0)

theorem C63_rccsd_2rdm_bcai (T1 : (Fin (n 1)) → (Fin (n 0)) → K) (T2 : (Fin (n 1)) → (Fin (n 1)) → (Fin (n 0)) → (Fin (n 0)) → K) (L1 : (Fin (n 0)) → (Fin (n 1)) → K) (L2 : (Fin (n 0)) → (Fin (n 0)) → (Fin (n 1)) → (Fin (n 1)) → K) :
    CC.rccsd_2rdm_bcai (hom2 σ T1) (hom4 σ T2) (hom2 σ L1) (hom4 σ L2) = (hom4 σ (CC.rccsd_2rdm_bcai T1 T2 L1 L2)) := by
  have h := scales (σ := σ) (s := 1) (ws := [0, 0, 0, 0]) (us := [0]) (C53_rccsd_2rdm_bcai (n := n) (l := true) (t := true) T1 T2 L1 L2)
    (C53_rccsd_2rdm_bcai (n := n) (l := true) (t := true) (hom2 σ T1) (hom4 σ T2) (hom2 σ L1) (hom4 σ L2)) rfl rfl (by krfl) rfl (by scargs)
  obtain ⟨h0, h⟩ := h.inv
  exact (dsc_four.1 h0)

theorem C63_rccsd_2rdm_kaij (T1 : (Fin (n 1)) → (Fin (n 0)) → K) (T2 : (Fin (n 1)) → (Fin (n 1)) → (Fin (n 0)) → (Fin (n 0)) → K) (L1 : (Fin (n 0)) → (Fin (n 1)) → K) (L2 : (Fin (n 0)) → (Fin (n 0)) → (Fin (n 1)) → (Fin (n 1)) → K) :
    CC.rccsd_2rdm_kaij (hom2 σ T1) (hom4 σ T2) (hom2 σ L1) (hom4 σ L2) = (hom4 σ (CC.rccsd_2rdm_kaij T1 T2 L1 L2)) := by
  have h := scales (σ := σ) (s := 1) (ws := [0, 0, 0, 0]) (us := [0]) (C53_rccsd_2rdm_kaij (n := n) (l := true) (t := true) T1 T2 L1 L2)
    (C53_rccsd_2rdm_kaij (n := n) (l := true) (t := true) (hom2 σ T1) (hom4 σ T2) (hom2 σ L1) (hom4 σ L2)) rfl rfl (by krfl) rfl (by scargs)
  obtain ⟨h0, h⟩ := h.inv
  exact (dsc_four.1 h0)

theorem C63_rccsd_2rdm_abij (T1 : (Fin (n 1)) → (Fin (n 0)) → K) (T2 : (Fin (n 1)) → (Fin (n 1)) → (Fin (n 0)) → (Fin (n 0)) → K) (L1 : (Fin (n 0)) → (Fin (n 1)) → K) (L2 : (Fin (n 0)) → (Fin (n 0)) → (Fin (n 1)) → (Fin (n 1)) → K) :
    CC.rccsd_2rdm_abij (hom2 σ T1) (hom4 σ T2) (hom2 σ L1) (hom4 σ L2) = (hom4 σ (CC.rccsd_2rdm_abij T1 T2 L1 L2)) := by
  have h := scales (σ := σ) (s := 1) (ws := [0, 0, 0, 0]) (us := [0]) (C53_rccsd_2rdm_abij (n := n) (l := true) (t := true) (fun _ => rfl) T1 T2 L1 L2)
    (C53_rccsd_2rdm_abij (n := n) (l := true) (t := true) (fun _ => rfl) (hom2 σ T1) (hom4 σ T2) (hom2 σ L1) (hom4 σ L2)) rfl rfl (by krfl) rfl (by scargs)
  obtain ⟨h0, h⟩ := h.inv
  exact (dsc_four.1 h0)

end Heap
