import Verif.Props.GSecond
import Verif.Props.URdm
import Verif.Props.RRdm
/-!
# C57: sum rules of the density matrices

Particle number is conserved for each spin: the corrections to the one-particle density matrix are traceless and contracting one electron of the
two-particle density matrix leaves the one-particle density matrix.  The code returns normal-ordered blocks, for which the contraction over all
orbitals is `-γ` (virtual-virtual), `γ` (occupied-occupied), 0 (mixed blocks, and whenever the contracted electron has the other spin).
-/
set_option linter.unusedVariables false
set_option linter.unusedSectionVars false
namespace CC
open Finset Verif.Tensor

section g
variable {K : Type} [Field K] [CharZero K] {O V : Type} [Fintype O] [Fintype V]
variable (T1 : V → O → K) (T2 : V → V → O → O → K) (L1 : O → V → K) (L2 : O → O → V → V → K)

/-- C57: the correlation part of the one-particle density matrix is traceless. -/
theorem C57_trace : (∑ a, ccsd_1rdm_ba T1 T2 L1 L2 a a) + (∑ i, ccsd_1rdm_ji T1 T2 L1 L2 i i) = 0 := by tensor

variable (hT : Anti T2) (hL : Anti L2)
include hT hL

/-- C57: contraction of the two-particle density matrix to the virtual-virtual, occupied-occupied and mixed blocks. -/
theorem C57_vv (b a : V) : (∑ c, ccsd_2rdm_cdab T1 T2 L1 L2 b c a c) + (∑ k, ccsd_2rdm_bjai T1 T2 L1 L2 b k a k) = - ccsd_1rdm_ba T1 T2 L1 L2 b a := by
  obtain ⟨_, _⟩ := hT; obtain ⟨_, _⟩ := hL
  tensor
theorem C57_oo (j i : O) : (∑ l, ccsd_2rdm_klij T1 T2 L1 L2 j l i l) + (∑ a, ccsd_2rdm_bjai T1 T2 L1 L2 a j a i) = ccsd_1rdm_ji T1 T2 L1 L2 j i := by
  obtain ⟨_, _⟩ := hT; obtain ⟨_, _⟩ := hL
  tensor
theorem C57_ov (a : V) (i : O) : (∑ k, ccsd_2rdm_kaij T1 T2 L1 L2 k a i k) + (∑ c, ccsd_2rdm_bcai T1 T2 L1 L2 a c c i) = 0 := by
  obtain ⟨_, _⟩ := hT; obtain ⟨_, _⟩ := hL
  tensor
theorem C57_vo (i : O) (a : V) : (∑ k, ccsd_2rdm_jkai T1 T2 L1 L2 i k a k) - (∑ c, ccsd_2rdm_ciab T1 T2 L1 L2 c i a c) = 0 := by
  obtain ⟨_, _⟩ := hT; obtain ⟨_, _⟩ := hL
  tensor

omit [CharZero K] [Fintype O] [Fintype V] hT hL in
example : (∀ b a, (∑ c, ccsd_2rdm_cdab T10 T20 L10 L20 b c a c) + (∑ k, ccsd_2rdm_bjai T10 T20 L10 L20 b k a k) = - ccsd_1rdm_ba T10 T20 L10 L20 b a) ∧
    ccsd_1rdm_ba T10 T20 L10 L20 0 1 ≠ 0 ∧ (∑ a, ccsd_1rdm_ba T10 T20 L10 L20 a a) ≠ 0 ∧ (∑ c, ccsd_2rdm_bcai T10 T20 L10 L20 0 c c 1) ≠ 0 ∧
    (∑ c, ccsd_2rdm_ciab T10 T20 L10 L20 c 1 0 c) ≠ 0 ∧ ccsd_1rdm_ji T10 T20 L10 L20 0 1 ≠ 0 :=
  ⟨C57_vv _ _ _ _ T20_anti L20_anti, by decide +kernel, by decide +kernel, by decide +kernel, by decide +kernel, by decide +kernel⟩
end g

section u
variable {K : Type} [Field K] [CharZero K] {Oa Va Ob Vb : Type} [Fintype Oa] [Fintype Va] [Fintype Ob] [Fintype Vb]
variable (T1a : Va → Oa → K) (T1b : Vb → Ob → K) (T2aa : Va → Va → Oa → Oa → K) (T2ab : Va → Vb → Oa → Ob → K) (T2bb : Vb → Vb → Ob → Ob → K)
  (L1a : Oa → Va → K) (L1b : Ob → Vb → K) (L2aa : Oa → Oa → Va → Va → K) (L2ab : Oa → Ob → Va → Vb → K) (L2bb : Ob → Ob → Vb → Vb → K)

local notation "ba" => uccsd_1rdm_ba T1a T1b T2aa T2ab T2bb L1a L1b L2aa L2ab L2bb
local notation "ji" => uccsd_1rdm_ji T1a T1b T2aa T2ab T2bb L1a L1b L2aa L2ab L2bb
local notation "cdab" => uccsd_2rdm_cdab T1a T1b T2aa T2ab T2bb L1a L1b L2aa L2ab L2bb
local notation "ciab" => uccsd_2rdm_ciab T1a T1b T2aa T2ab T2bb L1a L1b L2aa L2ab L2bb
local notation "bcai" => uccsd_2rdm_bcai T1a T1b T2aa T2ab T2bb L1a L1b L2aa L2ab L2bb
local notation "bjai" => uccsd_2rdm_bjai T1a T1b T2aa T2ab T2bb L1a L1b L2aa L2ab L2bb
local notation "jkai" => uccsd_2rdm_jkai T1a T1b T2aa T2ab T2bb L1a L1b L2aa L2ab L2bb
local notation "kaij" => uccsd_2rdm_kaij T1a T1b T2aa T2ab T2bb L1a L1b L2aa L2ab L2bb
local notation "klij" => uccsd_2rdm_klij T1a T1b T2aa T2ab T2bb L1a L1b L2aa L2ab L2bb

variable (hTa : Anti T2aa) (hTb : Anti T2bb) (hLa : Anti L2aa) (hLb : Anti L2bb)
include hTa hTb hLa hLb

/-- C57: the same for each spin of the unrestricted routines (`_ab`: one alpha electron left, a beta electron contracted). -/
theorem C57_utrace_a : (∑ a, (ba).1 a a) + (∑ i, (ji).1 i i) = 0 := by
  obtain ⟨_, _⟩ := hTa; obtain ⟨_, _⟩ := hTb; obtain ⟨_, _⟩ := hLa; obtain ⟨_, _⟩ := hLb
  tensor
theorem C57_utrace_b : (∑ a, (ba).2 a a) + (∑ i, (ji).2 i i) = 0 := by
  obtain ⟨_, _⟩ := hTa; obtain ⟨_, _⟩ := hTb; obtain ⟨_, _⟩ := hLa; obtain ⟨_, _⟩ := hLb
  tensor
theorem C57_uvv_aa (b a : Va) : (∑ c, (cdab).1 b c a c) + (∑ k, (bjai).1 b k a k) = - (ba).1 b a := by
  obtain ⟨_, _⟩ := hTa; obtain ⟨_, _⟩ := hTb; obtain ⟨_, _⟩ := hLa; obtain ⟨_, _⟩ := hLb
  tensor
theorem C57_uvv_bb (b a : Vb) : (∑ c, (cdab).2.1 b c a c) + (∑ k, (bjai).2.1 b k a k) = - (ba).2 b a := by
  obtain ⟨_, _⟩ := hTa; obtain ⟨_, _⟩ := hTb; obtain ⟨_, _⟩ := hLa; obtain ⟨_, _⟩ := hLb
  tensor
theorem C57_uvv_ab (b a : Va) : (∑ c, (cdab).2.2 b c a c) + (∑ k, (bjai).2.2.1 b k a k) = 0 := by
  obtain ⟨_, _⟩ := hTa; obtain ⟨_, _⟩ := hTb; obtain ⟨_, _⟩ := hLa; obtain ⟨_, _⟩ := hLb
  tensor
theorem C57_uvv_ba (b a : Vb) : (∑ c, (cdab).2.2 c b c a) + (∑ k, (bjai).2.2.2.2.2 b k a k) = 0 := by
  obtain ⟨_, _⟩ := hTa; obtain ⟨_, _⟩ := hTb; obtain ⟨_, _⟩ := hLa; obtain ⟨_, _⟩ := hLb
  tensor
theorem C57_uoo_aa (j i : Oa) : (∑ l, (klij).1 j l i l) + (∑ a, (bjai).1 a j a i) = (ji).1 j i := by
  obtain ⟨_, _⟩ := hTa; obtain ⟨_, _⟩ := hTb; obtain ⟨_, _⟩ := hLa; obtain ⟨_, _⟩ := hLb
  tensor
theorem C57_uoo_bb (j i : Ob) : (∑ l, (klij).2.1 j l i l) + (∑ a, (bjai).2.1 a j a i) = (ji).2 j i := by
  obtain ⟨_, _⟩ := hTa; obtain ⟨_, _⟩ := hTb; obtain ⟨_, _⟩ := hLa; obtain ⟨_, _⟩ := hLb
  tensor
theorem C57_uoo_ab (j i : Oa) : (∑ l, (klij).2.2 j l i l) + (∑ a, (bjai).2.2.2.2.2 a j a i) = 0 := by
  obtain ⟨_, _⟩ := hTa; obtain ⟨_, _⟩ := hTb; obtain ⟨_, _⟩ := hLa; obtain ⟨_, _⟩ := hLb
  tensor
theorem C57_uoo_ba (j i : Ob) : (∑ l, (klij).2.2 l j l i) + (∑ a, (bjai).2.2.1 a j a i) = 0 := by
  obtain ⟨_, _⟩ := hTa; obtain ⟨_, _⟩ := hTb; obtain ⟨_, _⟩ := hLa; obtain ⟨_, _⟩ := hLb
  tensor
theorem C57_uov_aa (a : Va) (i : Oa) : (∑ k, (kaij).1 k a i k) + (∑ c, (bcai).1 a c c i) = 0 := by
  obtain ⟨_, _⟩ := hTa; obtain ⟨_, _⟩ := hTb; obtain ⟨_, _⟩ := hLa; obtain ⟨_, _⟩ := hLb
  tensor
theorem C57_uov_bb (a : Vb) (i : Ob) : (∑ k, (kaij).2.1 k a i k) + (∑ c, (bcai).2.1 a c c i) = 0 := by
  obtain ⟨_, _⟩ := hTa; obtain ⟨_, _⟩ := hTb; obtain ⟨_, _⟩ := hLa; obtain ⟨_, _⟩ := hLb
  tensor
theorem C57_uov_ab (a : Va) (i : Oa) : (∑ k, (kaij).2.2.2 k a k i) + (∑ c, (bcai).2.2.2 c a c i) = 0 := by
  obtain ⟨_, _⟩ := hTa; obtain ⟨_, _⟩ := hTb; obtain ⟨_, _⟩ := hLa; obtain ⟨_, _⟩ := hLb
  tensor
theorem C57_uov_ba (a : Vb) (i : Ob) : (∑ k, (kaij).2.2.1 k a k i) + (∑ c, (bcai).2.2.1 c a c i) = 0 := by
  obtain ⟨_, _⟩ := hTa; obtain ⟨_, _⟩ := hTb; obtain ⟨_, _⟩ := hLa; obtain ⟨_, _⟩ := hLb
  tensor
theorem C57_uvo_aa (i : Oa) (a : Va) : (∑ k, (jkai).1 i k a k) - (∑ c, (ciab).1 c i a c) = 0 := by
  obtain ⟨_, _⟩ := hTa; obtain ⟨_, _⟩ := hTb; obtain ⟨_, _⟩ := hLa; obtain ⟨_, _⟩ := hLb
  tensor
theorem C57_uvo_bb (i : Ob) (a : Vb) : (∑ k, (jkai).2.1 i k a k) - (∑ c, (ciab).2.1 c i a c) = 0 := by
  obtain ⟨_, _⟩ := hTa; obtain ⟨_, _⟩ := hTb; obtain ⟨_, _⟩ := hLa; obtain ⟨_, _⟩ := hLb
  tensor
theorem C57_uvo_ab (i : Oa) (a : Va) : (∑ k, (jkai).2.2.1 i k a k) + (∑ c, (ciab).2.2.2 c i c a) = 0 := by
  obtain ⟨_, _⟩ := hTa; obtain ⟨_, _⟩ := hTb; obtain ⟨_, _⟩ := hLa; obtain ⟨_, _⟩ := hLb
  tensor
theorem C57_uvo_ba (i : Ob) (a : Vb) : (∑ k, (jkai).2.2.2 i k a k) + (∑ c, (ciab).2.2.1 c i c a) = 0 := by
  obtain ⟨_, _⟩ := hTa; obtain ⟨_, _⟩ := hTb; obtain ⟨_, _⟩ := hLa; obtain ⟨_, _⟩ := hLb
  tensor

omit [CharZero K] [Fintype Oa] [Fintype Va] [Fintype Ob] [Fintype Vb] hTa hTb hLa hLb in
example : (∀ b a, (∑ c, (uccsd_2rdm_cdab (SG 2 3 1) (SG 3 2 2) (TG 2 3 1) (TM 2 3 3 2 1) (TG 3 2 2) (SG 3 2 1) (SG 2 3 1) (TG 3 2 1) (TM 3 2 2 3 2) (TG 2 3 1)).2.2 b c a c)
      + (∑ k, (uccsd_2rdm_bjai (SG 2 3 1) (SG 3 2 2) (TG 2 3 1) (TM 2 3 3 2 1) (TG 3 2 2) (SG 3 2 1) (SG 2 3 1) (TG 3 2 1) (TM 3 2 2 3 2) (TG 2 3 1)).2.2.1 b k a k) = 0) ∧
    (∑ c, (uccsd_2rdm_cdab (SG 2 3 1) (SG 3 2 2) (TG 2 3 1) (TM 2 3 3 2 1) (TG 3 2 2) (SG 3 2 1) (SG 2 3 1) (TG 3 2 1) (TM 3 2 2 3 2) (TG 2 3 1)).2.2 0 c 1 c) ≠ 0 :=
  ⟨C57_uvv_ab _ _ _ _ _ _ _ _ _ _ (TG_anti _ _ _) (TG_anti _ _ _) (TG_anti _ _ _) (TG_anti _ _ _), by decide +kernel⟩
end u

section r
variable {K : Type} [Field K] [CharZero K] {O V : Type} [Fintype O] [Fintype V]
variable (T1 : V → O → K) (T2 : V → V → O → O → K) (L1 : O → V → K) (L2 : O → O → V → V → K) (tfac : K)
variable (hT : PairSym T2) (hL : PairSym L2)
include hT hL
/-- C57: the same for the restricted routines (`_x`: exchange-type contraction, from the same-spin rules). -/
theorem C57_rtrace : (∑ a, rccsd_1rdm_ba T1 T2 L1 L2 tfac a a) + (∑ i, rccsd_1rdm_ji T1 T2 L1 L2 tfac i i) = 0 := by
  tensor
theorem C57_rvv (b a : V) : (∑ c, rccsd_2rdm_cdab T1 T2 L1 L2 b c a c) + (∑ k, rccsd_2rdm_bjai T1 T2 L1 L2 b k a k) = 0 := by
  tensor
theorem C57_rvv_x (b a : V) : (∑ c, rccsd_2rdm_cdab T1 T2 L1 L2 b c c a) + (∑ k, rccsd_2rdm_bjia T1 T2 L1 L2 b k k a) = rccsd_1rdm_ba T1 T2 L1 L2 tfac b a := by
  tensor
theorem C57_roo (j i : O) : (∑ l, rccsd_2rdm_klij T1 T2 L1 L2 j l i l) + (∑ a, rccsd_2rdm_bjai T1 T2 L1 L2 a j a i) = 0 := by
  tensor
theorem C57_roo_x (j i : O) : (∑ l, rccsd_2rdm_klij T1 T2 L1 L2 j l l i) + (∑ a, rccsd_2rdm_bjia T1 T2 L1 L2 a j i a) = - rccsd_1rdm_ji T1 T2 L1 L2 tfac j i := by
  tensor
theorem C57_rov (a : V) (i : O) : (∑ k, rccsd_2rdm_kaij T1 T2 L1 L2 k a k i) + (∑ c, rccsd_2rdm_bcai T1 T2 L1 L2 c a c i) = 0 := by
  tensor
theorem C57_rov_x (a : V) (i : O) : (∑ k, rccsd_2rdm_kaij T1 T2 L1 L2 k a i k) + (∑ c, rccsd_2rdm_bcai T1 T2 L1 L2 a c c i) = 0 := by
  tensor
theorem C57_rvo (i : O) (a : V) : (∑ k, rccsd_2rdm_jkai T1 T2 L1 L2 i k a k) + (∑ c, rccsd_2rdm_ciab T1 T2 L1 L2 c i c a) = 0 := by
  tensor
theorem C57_rvo_x (i : O) (a : V) : (∑ k, rccsd_2rdm_jkai T1 T2 L1 L2 k i a k) + (∑ c, rccsd_2rdm_ciab T1 T2 L1 L2 c i a c) = 0 := by
  tensor

omit [CharZero K] [Fintype O] [Fintype V] hT hL in
example : (∀ b a, (∑ c, rccsd_2rdm_cdab (SG 3 2 1) (TR 3 2 1) (SG 2 3 2) (TR 2 3 2) b c c a) + (∑ k, rccsd_2rdm_bjia (SG 3 2 1) (TR 3 2 1) (SG 2 3 2) (TR 2 3 2) b k k a)
      = rccsd_1rdm_ba (SG 3 2 1) (TR 3 2 1) (SG 2 3 2) (TR 2 3 2) 1 b a) ∧ rccsd_1rdm_ba (SG 3 2 1) (TR 3 2 1) (SG 2 3 2) (TR 2 3 2) 1 0 1 ≠ 0 :=
  ⟨C57_rvv_x _ _ _ _ _ (TR_pair _ _ _) (TR_pair _ _ _), by decide +kernel⟩
end r
end CC

namespace Sq
open Finset CC Verif.Tensor
variable {K O V : Type} [Field K] [CharZero K] [DecidableEq O] [DecidableEq V] [Fintype O] [Fintype V]
  (t : V → O → K) (t2 : V → V → O → O → K) (l : O → V → K) (l2 : O → O → V → V → K)

/-- C57: the trace of the one-particle density matrix is the number of electrons. -/
theorem C57_electrons : ∑ p, (gam0 p p + one (gam t t2 l l2) p p) = (Fintype.card O : K) := by
  have e := C57_trace t t2 l l2
  simp only [Fintype.sum_sum_type, gam0, one, gam, dl, sum_add_distrib, if_true, sum_const_zero, sum_const, card_univ, nsmul_eq_mul, mul_one]
  linear_combination e

/-- C57: contracting one electron of the two-particle density matrix leaves the one-particle density matrix, times the number of remaining electrons. -/
theorem C57_contraction (hT : Anti t2) (hL : Anti l2) (p q : O ⊕ V) :
    ∑ s, tot (one (gam t t2 l l2)) (full (gam2 t t2 l l2)) p s q s = ((Fintype.card O : K) - 1) * (gam0 p q + one (gam t t2 l l2) p q) := by
  have e := C57_trace t t2 l l2
  rcases p with i | a <;> rcases q with j | b
  · have h := C57_oo t t2 l l2 hT hL j i
    simp [Fintype.sum_sum_type, tot, full, gam2, gam0, one, gam, dl, sum_add_distrib, sum_sub_distrib]
    split_ifs with hij
    · linear_combination e + h
    · linear_combination h
  · have h := C57_ov t t2 l l2 hT hL b i
    simp [Fintype.sum_sum_type, tot, full, gam2, gam0, one, gam, dl, sum_add_distrib, sum_sub_distrib]
    linear_combination -h
  · have h := C57_vo t t2 l l2 hT hL j a
    simp [Fintype.sum_sum_type, tot, full, gam2, gam0, one, gam, dl, sum_add_distrib, sum_sub_distrib]
    linear_combination h
  · have h := C57_vv t t2 l l2 hT hL b a
    simp [Fintype.sum_sum_type, tot, full, gam2, gam0, one, gam, dl, sum_add_distrib, sum_sub_distrib]
    linear_combination h

example : (∀ p q, ∑ s, tot (one (gam T10 T20 L10 L20)) (full (gam2 T10 T20 L10 L20)) p s q s = ((Fintype.card (Fin 3) : ℚ) - 1) * (gam0 p q + one (gam T10 T20 L10 L20) p q)) ∧
    one (gam T10 T20 L10 L20) (.inl 0) (.inl 1) ≠ 0 :=
  ⟨C57_contraction _ _ _ _ T20_anti L20_anti, by decide +kernel⟩
end Sq
