import Verif.Tensor.Tactic
import Verif.Model.CCGRdm
import Verif.Model.CCURdm
import Verif.Model.Spin
import Verif.Spec.SymU
/-!
# C17, C18: unrestricted density matrices are the spin blocks of the generalized ones

Every element of the generalized density is accounted for: the statements equate whole spin-orbital arrays,
assembled with the code's own `T1_to_spin`, `T2_to_spin` and `int_to_spin_block`; a block that the
unrestricted routine does not return is obtained from one that it returns by exchanging a pair of equivalent indices.
-/
set_option linter.unusedVariables false
namespace CC
open Verif.Tensor

variable {K : Type} [Field K] [CharZero K] {Oa Va Ob Vb : Type}
  [Fintype Oa] [Fintype Va] [Fintype Ob] [Fintype Vb]

variable (T1a : Va → Oa → K) (T1b : Vb → Ob → K) (T2aa : Va → Va → Oa → Oa → K)
  (T2ab : Va → Vb → Oa → Ob → K) (T2bb : Vb → Vb → Ob → Ob → K)
  (L1a : Oa → Va → K) (L1b : Ob → Vb → K) (L2aa : Oa → Oa → Va → Va → K)
  (L2ab : Oa → Ob → Va → Vb → K) (L2bb : Ob → Ob → Vb → Vb → K) (tfac : K)

variable (hTa : Anti T2aa) (hTb : Anti T2bb) (hLa : Anti L2aa) (hLb : Anti L2bb)
include hTa hTb hLa hLb

/-- C17: `uccsd_1rdm_ba` returns the two diagonal spin blocks of `ccsd_1rdm_ba`; the mixed-spin blocks vanish. -/
theorem C17_ba :
    ccsd_1rdm_ba (T1_to_spin T1a T1b) (T2_to_spin T2aa T2ab T2bb) (T1_to_spin L1a L1b) (T2_to_spin L2aa L2ab L2bb)
    = blk2 (uccsd_1rdm_ba T1a T1b T2aa T2ab T2bb L1a L1b L2aa L2ab L2bb).1
        (uccsd_1rdm_ba T1a T1b T2aa T2ab T2bb L1a L1b L2aa L2ab L2bb).2 := by
  obtain ⟨_, _⟩ := hTa
  obtain ⟨_, _⟩ := hTb
  obtain ⟨_, _⟩ := hLa
  obtain ⟨_, _⟩ := hLb
  funext b a
  rcases b with b | b <;> rcases a with a | a <;> tensor_split [T1_to_spin, T2_to_spin]

/-- C17: `uccsd_1rdm_ji` returns the two diagonal spin blocks of `ccsd_1rdm_ji`; the mixed-spin blocks vanish. -/
theorem C17_ji :
    ccsd_1rdm_ji (T1_to_spin T1a T1b) (T2_to_spin T2aa T2ab T2bb) (T1_to_spin L1a L1b) (T2_to_spin L2aa L2ab L2bb)
    = blk2 (uccsd_1rdm_ji T1a T1b T2aa T2ab T2bb L1a L1b L2aa L2ab L2bb).1
        (uccsd_1rdm_ji T1a T1b T2aa T2ab T2bb L1a L1b L2aa L2ab L2bb).2 := by
  obtain ⟨_, _⟩ := hTa
  obtain ⟨_, _⟩ := hTb
  obtain ⟨_, _⟩ := hLa
  obtain ⟨_, _⟩ := hLb
  funext j i
  rcases j with j | j <;> rcases i with i | i <;> tensor_split [T1_to_spin, T2_to_spin]

/-- C17: `uccsd_1rdm_ai` returns the two diagonal spin blocks of `ccsd_1rdm_ai`; the mixed-spin blocks vanish. -/
theorem C17_ai :
    ccsd_1rdm_ai (T1_to_spin T1a T1b) (T2_to_spin T2aa T2ab T2bb) (T1_to_spin L1a L1b) (T2_to_spin L2aa L2ab L2bb) tfac
    = blk2 (uccsd_1rdm_ai T1a T1b T2aa T2ab T2bb L1a L1b L2aa L2ab L2bb tfac).1
        (uccsd_1rdm_ai T1a T1b T2aa T2ab T2bb L1a L1b L2aa L2ab L2bb tfac).2 := by
  obtain ⟨_, _⟩ := hTa
  obtain ⟨_, _⟩ := hTb
  obtain ⟨_, _⟩ := hLa
  obtain ⟨_, _⟩ := hLb
  funext a i
  rcases a with a | a <;> rcases i with i | i <;> tensor_split [T1_to_spin, T2_to_spin]

/-- C18: `uccsd_2rdm_ciab` returns spin blocks of `ccsd_2rdm_ciab`. -/
theorem C18_ciab :
    ccsd_2rdm_ciab (T1_to_spin T1a T1b) (T2_to_spin T2aa T2ab T2bb) (T1_to_spin L1a L1b) (T2_to_spin L2aa L2ab L2bb)
    = int_to_spin_block
        (uccsd_2rdm_ciab T1a T1b T2aa T2ab T2bb L1a L1b L2aa L2ab L2bb).1
        (uccsd_2rdm_ciab T1a T1b T2aa T2ab T2bb L1a L1b L2aa L2ab L2bb).2.1
        (uccsd_2rdm_ciab T1a T1b T2aa T2ab T2bb L1a L1b L2aa L2ab L2bb).2.2.1
        (uccsd_2rdm_ciab T1a T1b T2aa T2ab T2bb L1a L1b L2aa L2ab L2bb).2.2.2
        (fun x y z w => -(uccsd_2rdm_ciab T1a T1b T2aa T2ab T2bb L1a L1b L2aa L2ab L2bb).2.2.1 x y w z)
        (fun x y z w => -(uccsd_2rdm_ciab T1a T1b T2aa T2ab T2bb L1a L1b L2aa L2ab L2bb).2.2.2 x y w z) := by
  obtain ⟨_, _⟩ := hTa
  obtain ⟨_, _⟩ := hTb
  obtain ⟨_, _⟩ := hLa
  obtain ⟨_, _⟩ := hLb
  funext c i a b
  rcases c with c | c <;> rcases i with i | i <;> rcases a with a | a <;> rcases b with b | b <;>
    tensor_split [T1_to_spin, T2_to_spin]

/-- C18: `uccsd_2rdm_jkai` returns spin blocks of `ccsd_2rdm_jkai`. -/
theorem C18_jkai :
    ccsd_2rdm_jkai (T1_to_spin T1a T1b) (T2_to_spin T2aa T2ab T2bb) (T1_to_spin L1a L1b) (T2_to_spin L2aa L2ab L2bb)
    = int_to_spin_block
        (uccsd_2rdm_jkai T1a T1b T2aa T2ab T2bb L1a L1b L2aa L2ab L2bb).1
        (uccsd_2rdm_jkai T1a T1b T2aa T2ab T2bb L1a L1b L2aa L2ab L2bb).2.1
        (uccsd_2rdm_jkai T1a T1b T2aa T2ab T2bb L1a L1b L2aa L2ab L2bb).2.2.1
        (uccsd_2rdm_jkai T1a T1b T2aa T2ab T2bb L1a L1b L2aa L2ab L2bb).2.2.2
        (fun x y z w => -(uccsd_2rdm_jkai T1a T1b T2aa T2ab T2bb L1a L1b L2aa L2ab L2bb).2.2.2 y x z w)
        (fun x y z w => -(uccsd_2rdm_jkai T1a T1b T2aa T2ab T2bb L1a L1b L2aa L2ab L2bb).2.2.1 y x z w) := by
  obtain ⟨_, _⟩ := hTa
  obtain ⟨_, _⟩ := hTb
  obtain ⟨_, _⟩ := hLa
  obtain ⟨_, _⟩ := hLb
  funext j k a i
  rcases j with j | j <;> rcases k with k | k <;> rcases a with a | a <;> rcases i with i | i <;>
    tensor_split [T1_to_spin, T2_to_spin]

/-- C18: `uccsd_2rdm_cdab` returns spin blocks of `ccsd_2rdm_cdab`. -/
theorem C18_cdab :
    ccsd_2rdm_cdab (T1_to_spin T1a T1b) (T2_to_spin T2aa T2ab T2bb) (T1_to_spin L1a L1b) (T2_to_spin L2aa L2ab L2bb)
    = int_to_spin_block
        (uccsd_2rdm_cdab T1a T1b T2aa T2ab T2bb L1a L1b L2aa L2ab L2bb).1
        (uccsd_2rdm_cdab T1a T1b T2aa T2ab T2bb L1a L1b L2aa L2ab L2bb).2.1
        (fun x y z w => (uccsd_2rdm_cdab T1a T1b T2aa T2ab T2bb L1a L1b L2aa L2ab L2bb).2.2 x y z w)
        (fun x y z w => (uccsd_2rdm_cdab T1a T1b T2aa T2ab T2bb L1a L1b L2aa L2ab L2bb).2.2 y x w z)
        (fun x y z w => -(uccsd_2rdm_cdab T1a T1b T2aa T2ab T2bb L1a L1b L2aa L2ab L2bb).2.2 x y w z)
        (fun x y z w => -(uccsd_2rdm_cdab T1a T1b T2aa T2ab T2bb L1a L1b L2aa L2ab L2bb).2.2 y x z w) := by
  obtain ⟨_, _⟩ := hTa
  obtain ⟨_, _⟩ := hTb
  obtain ⟨_, _⟩ := hLa
  obtain ⟨_, _⟩ := hLb
  funext c d a b
  rcases c with c | c <;> rcases d with d | d <;> rcases a with a | a <;> rcases b with b | b <;>
    tensor_split [T1_to_spin, T2_to_spin]

/-- C18: `uccsd_2rdm_bjai` returns spin blocks of `ccsd_2rdm_bjai`. -/
theorem C18_bjai :
    ccsd_2rdm_bjai (T1_to_spin T1a T1b) (T2_to_spin T2aa T2ab T2bb) (T1_to_spin L1a L1b) (T2_to_spin L2aa L2ab L2bb)
    = int_to_spin_block
        (uccsd_2rdm_bjai T1a T1b T2aa T2ab T2bb L1a L1b L2aa L2ab L2bb).1
        (uccsd_2rdm_bjai T1a T1b T2aa T2ab T2bb L1a L1b L2aa L2ab L2bb).2.1
        (uccsd_2rdm_bjai T1a T1b T2aa T2ab T2bb L1a L1b L2aa L2ab L2bb).2.2.1
        (uccsd_2rdm_bjai T1a T1b T2aa T2ab T2bb L1a L1b L2aa L2ab L2bb).2.2.2.2.2
        (uccsd_2rdm_bjai T1a T1b T2aa T2ab T2bb L1a L1b L2aa L2ab L2bb).2.2.2.1
        (uccsd_2rdm_bjai T1a T1b T2aa T2ab T2bb L1a L1b L2aa L2ab L2bb).2.2.2.2.1 := by
  obtain ⟨_, _⟩ := hTa
  obtain ⟨_, _⟩ := hTb
  obtain ⟨_, _⟩ := hLa
  obtain ⟨_, _⟩ := hLb
  funext b j a i
  rcases b with b | b <;> rcases j with j | j <;> rcases a with a | a <;> rcases i with i | i <;>
    tensor_split [T1_to_spin, T2_to_spin]

/-- C18: `uccsd_2rdm_klij` returns spin blocks of `ccsd_2rdm_klij`. -/
theorem C18_klij :
    ccsd_2rdm_klij (T1_to_spin T1a T1b) (T2_to_spin T2aa T2ab T2bb) (T1_to_spin L1a L1b) (T2_to_spin L2aa L2ab L2bb)
    = int_to_spin_block
        (uccsd_2rdm_klij T1a T1b T2aa T2ab T2bb L1a L1b L2aa L2ab L2bb).1
        (uccsd_2rdm_klij T1a T1b T2aa T2ab T2bb L1a L1b L2aa L2ab L2bb).2.1
        (fun x y z w => (uccsd_2rdm_klij T1a T1b T2aa T2ab T2bb L1a L1b L2aa L2ab L2bb).2.2 x y z w)
        (fun x y z w => (uccsd_2rdm_klij T1a T1b T2aa T2ab T2bb L1a L1b L2aa L2ab L2bb).2.2 y x w z)
        (fun x y z w => -(uccsd_2rdm_klij T1a T1b T2aa T2ab T2bb L1a L1b L2aa L2ab L2bb).2.2 x y w z)
        (fun x y z w => -(uccsd_2rdm_klij T1a T1b T2aa T2ab T2bb L1a L1b L2aa L2ab L2bb).2.2 y x z w) := by
  obtain ⟨_, _⟩ := hTa
  obtain ⟨_, _⟩ := hTb
  obtain ⟨_, _⟩ := hLa
  obtain ⟨_, _⟩ := hLb
  funext k l i j
  rcases k with k | k <;> rcases l with l | l <;> rcases i with i | i <;> rcases j with j | j <;>
    tensor_split [T1_to_spin, T2_to_spin]

/-- C18: `uccsd_2rdm_bcai` returns spin blocks of `ccsd_2rdm_bcai`. -/
theorem C18_bcai :
    ccsd_2rdm_bcai (T1_to_spin T1a T1b) (T2_to_spin T2aa T2ab T2bb) (T1_to_spin L1a L1b) (T2_to_spin L2aa L2ab L2bb)
    = int_to_spin_block
        (uccsd_2rdm_bcai T1a T1b T2aa T2ab T2bb L1a L1b L2aa L2ab L2bb).1
        (uccsd_2rdm_bcai T1a T1b T2aa T2ab T2bb L1a L1b L2aa L2ab L2bb).2.1
        (uccsd_2rdm_bcai T1a T1b T2aa T2ab T2bb L1a L1b L2aa L2ab L2bb).2.2.1
        (uccsd_2rdm_bcai T1a T1b T2aa T2ab T2bb L1a L1b L2aa L2ab L2bb).2.2.2
        (fun x y z w => -(uccsd_2rdm_bcai T1a T1b T2aa T2ab T2bb L1a L1b L2aa L2ab L2bb).2.2.2 y x z w)
        (fun x y z w => -(uccsd_2rdm_bcai T1a T1b T2aa T2ab T2bb L1a L1b L2aa L2ab L2bb).2.2.1 y x z w) := by
  obtain ⟨_, _⟩ := hTa
  obtain ⟨_, _⟩ := hTb
  obtain ⟨_, _⟩ := hLa
  obtain ⟨_, _⟩ := hLb
  funext b c a i
  rcases b with b | b <;> rcases c with c | c <;> rcases a with a | a <;> rcases i with i | i <;>
    tensor_split [T1_to_spin, T2_to_spin]

/-- C18: `uccsd_2rdm_kaij` returns spin blocks of `ccsd_2rdm_kaij`. -/
theorem C18_kaij :
    ccsd_2rdm_kaij (T1_to_spin T1a T1b) (T2_to_spin T2aa T2ab T2bb) (T1_to_spin L1a L1b) (T2_to_spin L2aa L2ab L2bb)
    = int_to_spin_block
        (uccsd_2rdm_kaij T1a T1b T2aa T2ab T2bb L1a L1b L2aa L2ab L2bb).1
        (uccsd_2rdm_kaij T1a T1b T2aa T2ab T2bb L1a L1b L2aa L2ab L2bb).2.1
        (uccsd_2rdm_kaij T1a T1b T2aa T2ab T2bb L1a L1b L2aa L2ab L2bb).2.2.1
        (uccsd_2rdm_kaij T1a T1b T2aa T2ab T2bb L1a L1b L2aa L2ab L2bb).2.2.2
        (fun x y z w => -(uccsd_2rdm_kaij T1a T1b T2aa T2ab T2bb L1a L1b L2aa L2ab L2bb).2.2.1 x y w z)
        (fun x y z w => -(uccsd_2rdm_kaij T1a T1b T2aa T2ab T2bb L1a L1b L2aa L2ab L2bb).2.2.2 x y w z) := by
  obtain ⟨_, _⟩ := hTa
  obtain ⟨_, _⟩ := hTb
  obtain ⟨_, _⟩ := hLa
  obtain ⟨_, _⟩ := hLb
  funext k a i j
  rcases k with k | k <;> rcases a with a | a <;> rcases i with i | i <;> rcases j with j | j <;>
    tensor_split [T1_to_spin, T2_to_spin]

/-- C18: `uccsd_2rdm_abij` returns spin blocks of `ccsd_2rdm_abij`. -/
theorem C18_abij :
    ccsd_2rdm_abij (T1_to_spin T1a T1b) (T2_to_spin T2aa T2ab T2bb) (T1_to_spin L1a L1b) (T2_to_spin L2aa L2ab L2bb) tfac
    = T2_to_spin (uccsd_2rdm_abij T1a T1b T2aa T2ab T2bb L1a L1b L2aa L2ab L2bb tfac).1
        (uccsd_2rdm_abij T1a T1b T2aa T2ab T2bb L1a L1b L2aa L2ab L2bb tfac).2.2
        (uccsd_2rdm_abij T1a T1b T2aa T2ab T2bb L1a L1b L2aa L2ab L2bb tfac).2.1 := by
  obtain ⟨_, _⟩ := hTa
  obtain ⟨_, _⟩ := hTb
  obtain ⟨_, _⟩ := hLa
  obtain ⟨_, _⟩ := hLb
  funext a b i j
  rcases a with a | a <;> rcases b with b | b <;> rcases i with i | i <;> rcases j with j | j <;>
    tensor_split [T1_to_spin, T2_to_spin]

/-! Concrete data meeting the hypotheses, with unequal numbers of orbitals and non-zero densities. -/
omit [CharZero K] [Fintype Oa] [Fintype Va] [Fintype Ob] [Fintype Vb] hTa hTb hLa hLb in
example : Anti (TG 2 3 1) ∧ Anti (TG 3 2 5) ∧ Anti (TG 3 2 4) ∧ Anti (TG 2 3 7) ∧
    (uccsd_1rdm_ba (SG 2 3 1) (SG 3 2 2) (TG 2 3 1) (TM 2 3 3 2 1) (TG 3 2 5)
      (SG 3 2 1) (SG 2 3 2) (TG 3 2 4) (TM 3 2 2 3 1) (TG 2 3 7)).1 0 1 ≠ 0 ∧
    (uccsd_2rdm_bjai (SG 2 3 1) (SG 3 2 2) (TG 2 3 1) (TM 2 3 3 2 1) (TG 3 2 5)
      (SG 3 2 1) (SG 2 3 2) (TG 3 2 4) (TM 3 2 2 3 1) (TG 2 3 7)).2.2.1 0 1 1 0 ≠ 0 :=
  ⟨TG_anti .., TG_anti .., TG_anti .., TG_anti .., by decide +kernel, by decide +kernel⟩

end CC
