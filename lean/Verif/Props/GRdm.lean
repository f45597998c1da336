import Verif.Tensor.Tactic
import Verif.Model.CCGRdm
import Verif.Model.CCGT
import Verif.Model.CCEnergy
import Verif.Spec.Sym
import Verif.Spec.Lagrangian
/-!
# C09-C11: generalized reduced density matrices
-/
set_option linter.unusedVariables false
namespace CC
open Verif.Tensor

variable {K : Type} [Field K] [CharZero K] {O V : Type} [Fintype O] [Fintype V]

/-! ## C09 -/

omit [CharZero K] in
theorem C09_1rdm_ba : ccsd_1rdm_ba_opt (K := K) (O := O) (V := V) = ccsd_1rdm_ba := rfl
omit [CharZero K] in
theorem C09_1rdm_ji : ccsd_1rdm_ji_opt (K := K) (O := O) (V := V) = ccsd_1rdm_ji := rfl
omit [CharZero K] [Fintype V] in
theorem C09_2rdm_ciab : ccsd_2rdm_ciab_opt (K := K) (O := O) (V := V) = ccsd_2rdm_ciab := rfl
omit [CharZero K] [Fintype O] in
theorem C09_2rdm_jkai : ccsd_2rdm_jkai_opt (K := K) (O := O) (V := V) = ccsd_2rdm_jkai := rfl

section
variable (T1 : V → O → K) (T2 : V → V → O → O → K) (hT : Anti T2)
  (L1 : O → V → K) (L2 : O → O → V → V → K) (hL : Anti L2)
include hT hL

theorem C09_1rdm_ai (tfac : K) :
    ccsd_1rdm_ai_opt T1 T2 L1 L2 tfac = ccsd_1rdm_ai T1 T2 L1 L2 tfac := by
  obtain ⟨_, _⟩ := hT; obtain ⟨_, _⟩ := hL
  funext a i; tensor

theorem C09_2rdm_cdab : ccsd_2rdm_cdab_opt T1 T2 L1 L2 = ccsd_2rdm_cdab T1 T2 L1 L2 := by
  obtain ⟨_, _⟩ := hT; obtain ⟨_, _⟩ := hL
  funext c d a b; tensor

theorem C09_2rdm_bcai : ccsd_2rdm_bcai_opt T1 T2 L1 L2 = ccsd_2rdm_bcai T1 T2 L1 L2 := by
  obtain ⟨_, _⟩ := hT; obtain ⟨_, _⟩ := hL
  funext b c a i; tensor

theorem C09_2rdm_bjai : ccsd_2rdm_bjai_opt T1 T2 L1 L2 = ccsd_2rdm_bjai T1 T2 L1 L2 := by
  obtain ⟨_, _⟩ := hT; obtain ⟨_, _⟩ := hL
  funext b j a i; tensor

theorem C09_2rdm_abij (tfac : K) :
    ccsd_2rdm_abij_opt T1 T2 L1 L2 tfac = ccsd_2rdm_abij T1 T2 L1 L2 tfac := by
  obtain ⟨_, _⟩ := hT; obtain ⟨_, _⟩ := hL
  funext a b i j; tensor

theorem C09_2rdm_kaij : ccsd_2rdm_kaij_opt T1 T2 L1 L2 = ccsd_2rdm_kaij T1 T2 L1 L2 := by
  obtain ⟨_, _⟩ := hT; obtain ⟨_, _⟩ := hL
  funext k a i j; tensor

theorem C09_2rdm_klij : ccsd_2rdm_klij_opt T1 T2 L1 L2 = ccsd_2rdm_klij T1 T2 L1 L2 := by
  obtain ⟨_, _⟩ := hT; obtain ⟨_, _⟩ := hL
  funext k l i j; tensor

/-! ## C11 -/

theorem C11_cdab : Anti (ccsd_2rdm_cdab T1 T2 L1 L2) := by
  obtain ⟨_, _⟩ := hT; obtain ⟨_, _⟩ := hL
  constructor <;> intro c d a b <;> tensor
theorem C11_ciab : Anti34 (ccsd_2rdm_ciab T1 T2 L1 L2) := by
  obtain ⟨_, _⟩ := hT; obtain ⟨_, _⟩ := hL
  intro c d a b; tensor
theorem C11_bcai : Anti12 (ccsd_2rdm_bcai T1 T2 L1 L2) := by
  obtain ⟨_, _⟩ := hT; obtain ⟨_, _⟩ := hL
  intro c d a b; tensor
theorem C11_abij (tfac : K) : Anti (ccsd_2rdm_abij T1 T2 L1 L2 tfac) := by
  obtain ⟨_, _⟩ := hT; obtain ⟨_, _⟩ := hL
  constructor <;> intro c d a b <;> tensor
theorem C11_jkai : Anti12 (ccsd_2rdm_jkai T1 T2 L1 L2) := by
  obtain ⟨_, _⟩ := hT; obtain ⟨_, _⟩ := hL
  intro c d a b; tensor
theorem C11_kaij : Anti34 (ccsd_2rdm_kaij T1 T2 L1 L2) := by
  obtain ⟨_, _⟩ := hT; obtain ⟨_, _⟩ := hL
  intro c d a b; tensor
theorem C11_klij : Anti (ccsd_2rdm_klij T1 T2 L1 L2) := by
  obtain ⟨_, _⟩ := hT; obtain ⟨_, _⟩ := hL
  constructor <;> intro c d a b <;> tensor

/-! ## C10 -/

/-- C10: contraction of all density blocks (with `tfac = 1`, the default) with the Hamiltonian blocks
is the CC Lagrangian, for every Fock matrix and every antisymmetric interaction. -/
theorem C10_densities_give_lagrangian (F : OneE O V K) (I : TwoE O V K) (hI : AntiI I) :
    (∑ a, ∑ b, F.vv a b * ccsd_1rdm_ba T1 T2 L1 L2 b a)
    + (∑ i, ∑ j, F.oo i j * ccsd_1rdm_ji T1 T2 L1 L2 j i)
    + (∑ a, ∑ i, F.vo a i * L1 i a)
    + (∑ i, ∑ a, F.ov i a * ccsd_1rdm_ai T1 T2 L1 L2 1 a i)
    + (1/4) * (∑ a, ∑ b, ∑ i, ∑ j, I.vvoo a b i j * L2 i j a b)
    + (1/4) * (∑ i, ∑ j, ∑ a, ∑ b, I.oovv i j a b * ccsd_2rdm_abij T1 T2 L1 L2 1 a b i j)
    + (1/4) * (∑ a, ∑ b, ∑ c, ∑ d, I.vvvv a b c d * ccsd_2rdm_cdab T1 T2 L1 L2 c d a b)
    + (1/2) * (∑ a, ∑ b, ∑ c, ∑ i, I.vvvo a b c i * ccsd_2rdm_ciab T1 T2 L1 L2 c i a b)
    + (1/2) * (∑ a, ∑ i, ∑ b, ∑ c, I.vovv a i b c * ccsd_2rdm_bcai T1 T2 L1 L2 b c a i)
    + (∑ a, ∑ i, ∑ b, ∑ j, I.vovo a i b j * ccsd_2rdm_bjai T1 T2 L1 L2 b j a i)
    + (1/2) * (∑ a, ∑ i, ∑ j, ∑ k, I.vooo a i j k * ccsd_2rdm_jkai T1 T2 L1 L2 j k a i)
    + (1/2) * (∑ i, ∑ j, ∑ k, ∑ a, I.ooov i j k a * ccsd_2rdm_kaij T1 T2 L1 L2 k a i j)
    + (1/4) * (∑ i, ∑ j, ∑ k, ∑ l, I.oooo i j k l * ccsd_2rdm_klij T1 T2 L1 L2 k l i j)
    = Spec.lagrangian F I L1 L2 T1 T2 := by
  obtain ⟨_, _⟩ := hT; obtain ⟨_, _⟩ := hL
  obtain ⟨_, _, _, _, _, _, _, _, _, _, _, _⟩ := hI
  tensor

end

example : Anti T20 ∧ Anti L20 ∧ AntiI I0 ∧ (ccsd_2rdm_abij T10 T20 L10 L20 1) 0 1 0 1 ≠ 0 ∧
    Spec.lagrangian F0 I0 L10 L20 T10 T20 ≠ 0 :=
  ⟨T20_anti, L20_anti, I0_anti, by decide +kernel, by decide +kernel⟩

end CC
