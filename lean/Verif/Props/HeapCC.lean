import Verif.Model.HeapProg
import Verif.Props.HeapFun
/-!
# C42: the routines of `cc_energy.py` and `cc_equations.py` leave their arguments alone

Generated by `tools/gen_heap.py`.  Each theorem is the soundness theorem `chkFun_sound` applied to the routine, whose premise is computed
by the kernel; the routine is a fixed program, the theorem is about all its executions (`LeavesArguments`).
-/

namespace Heap
open Prog

theorem C42_cc_energy_d : LeavesArguments cc_energy_d := chkFun_sound (by decide +kernel)
theorem C42_cc_energy_s1 : LeavesArguments cc_energy_s1 := chkFun_sound (by decide +kernel)
theorem C42_cc_energy_s2 : LeavesArguments cc_energy_s2 := chkFun_sound (by decide +kernel)
theorem C42_cc_energy_s2_a : LeavesArguments cc_energy_s2_a := chkFun_sound (by decide +kernel)
theorem C42_cc_energy : LeavesArguments cc_energy := chkFun_sound (by decide +kernel)
theorem C42_mp2_energy : LeavesArguments mp2_energy := chkFun_sound (by decide +kernel)
theorem C42_ucc_energy : LeavesArguments ucc_energy := chkFun_sound (by decide +kernel)
theorem C42_rcc_energy : LeavesArguments rcc_energy := chkFun_sound (by decide +kernel)
theorem C42_ump2_energy : LeavesArguments ump2_energy := chkFun_sound (by decide +kernel)
theorem C42_lccd_simple : LeavesArguments lccd_simple := chkFun_sound (by decide +kernel)
theorem C42_lccsd_simple : LeavesArguments lccsd_simple := chkFun_sound (by decide +kernel)
theorem C42_ccd_simple : LeavesArguments ccd_simple := chkFun_sound (by decide +kernel)
theorem C42_ccd_ladder_simple : LeavesArguments ccd_ladder_simple := chkFun_sound (by decide +kernel)
theorem C42_ccd_ring_simple : LeavesArguments ccd_ring_simple := chkFun_sound (by decide +kernel)
theorem C42_ccsd_simple : LeavesArguments ccsd_simple := chkFun_sound (by decide +kernel)
theorem C42_ccsd_stanton : LeavesArguments ccsd_stanton := chkFun_sound (by decide +kernel)
theorem C42_uccsd_stanton : LeavesArguments uccsd_stanton := chkFun_sound (by decide +kernel)
theorem C42_rccsd_stanton : LeavesArguments rccsd_stanton := chkFun_sound (by decide +kernel)
theorem C42_ccd_stanton : LeavesArguments ccd_stanton := chkFun_sound (by decide +kernel)
theorem C42_lambda_int : LeavesArguments lambda_int := chkFun_sound (by decide +kernel)
theorem C42_ccd_lambda_simple : LeavesArguments ccd_lambda_simple := chkFun_sound (by decide +kernel)
theorem C42_ccsd_lambda_opt : LeavesArguments ccsd_lambda_opt := chkFun_sound (by decide +kernel)
theorem C42_ccsd_lambda_stanton : LeavesArguments ccsd_lambda_stanton := chkFun_sound (by decide +kernel)
theorem C42_ccsd_lambda_opt_int : LeavesArguments ccsd_lambda_opt_int := chkFun_sound (by decide +kernel)
theorem C42_uccsd_lambda_opt : LeavesArguments uccsd_lambda_opt := chkFun_sound (by decide +kernel)
theorem C42_rccsd_lambda_opt : LeavesArguments rccsd_lambda_opt := chkFun_sound (by decide +kernel)
theorem C42_ccsd_lambda_simple : LeavesArguments ccsd_lambda_simple := chkFun_sound (by decide +kernel)
theorem C42_ccsd_1rdm_ba : LeavesArguments ccsd_1rdm_ba := chkFun_sound (by decide +kernel)
theorem C42_ccsd_1rdm_ji : LeavesArguments ccsd_1rdm_ji := chkFun_sound (by decide +kernel)
theorem C42_ccsd_1rdm_ai : LeavesArguments ccsd_1rdm_ai := chkFun_sound (by decide +kernel)
theorem C42_ccsd_2rdm_cdab : LeavesArguments ccsd_2rdm_cdab := chkFun_sound (by decide +kernel)
theorem C42_ccsd_2rdm_ciab : LeavesArguments ccsd_2rdm_ciab := chkFun_sound (by decide +kernel)
theorem C42_ccsd_2rdm_bcai : LeavesArguments ccsd_2rdm_bcai := chkFun_sound (by decide +kernel)
theorem C42_ccsd_2rdm_bjai : LeavesArguments ccsd_2rdm_bjai := chkFun_sound (by decide +kernel)
theorem C42_ccsd_2rdm_abij : LeavesArguments ccsd_2rdm_abij := chkFun_sound (by decide +kernel)
theorem C42_ccsd_2rdm_jkai : LeavesArguments ccsd_2rdm_jkai := chkFun_sound (by decide +kernel)
theorem C42_ccsd_2rdm_kaij : LeavesArguments ccsd_2rdm_kaij := chkFun_sound (by decide +kernel)
theorem C42_ccsd_2rdm_klij : LeavesArguments ccsd_2rdm_klij := chkFun_sound (by decide +kernel)
theorem C42_ccsd_1rdm_ai_opt : LeavesArguments ccsd_1rdm_ai_opt := chkFun_sound (by decide +kernel)
theorem C42_ccsd_2rdm_cdab_opt : LeavesArguments ccsd_2rdm_cdab_opt := chkFun_sound (by decide +kernel)
theorem C42_ccsd_2rdm_bcai_opt : LeavesArguments ccsd_2rdm_bcai_opt := chkFun_sound (by decide +kernel)
theorem C42_ccsd_2rdm_bjai_opt : LeavesArguments ccsd_2rdm_bjai_opt := chkFun_sound (by decide +kernel)
theorem C42_ccsd_2rdm_abij_opt : LeavesArguments ccsd_2rdm_abij_opt := chkFun_sound (by decide +kernel)
theorem C42_ccsd_2rdm_kaij_opt : LeavesArguments ccsd_2rdm_kaij_opt := chkFun_sound (by decide +kernel)
theorem C42_ccsd_2rdm_klij_opt : LeavesArguments ccsd_2rdm_klij_opt := chkFun_sound (by decide +kernel)
theorem C42_uccsd_1rdm_ba : LeavesArguments uccsd_1rdm_ba := chkFun_sound (by decide +kernel)
theorem C42_uccsd_1rdm_ji : LeavesArguments uccsd_1rdm_ji := chkFun_sound (by decide +kernel)
theorem C42_uccsd_1rdm_ai : LeavesArguments uccsd_1rdm_ai := chkFun_sound (by decide +kernel)
theorem C42_rccsd_1rdm_ba : LeavesArguments rccsd_1rdm_ba := chkFun_sound (by decide +kernel)
theorem C42_rccsd_1rdm_ji : LeavesArguments rccsd_1rdm_ji := chkFun_sound (by decide +kernel)
theorem C42_rccsd_1rdm_ai : LeavesArguments rccsd_1rdm_ai := chkFun_sound (by decide +kernel)
theorem C42_uccsd_2rdm_ciab : LeavesArguments uccsd_2rdm_ciab := chkFun_sound (by decide +kernel)
theorem C42_uccsd_2rdm_jkai : LeavesArguments uccsd_2rdm_jkai := chkFun_sound (by decide +kernel)
theorem C42_uccsd_2rdm_cdab : LeavesArguments uccsd_2rdm_cdab := chkFun_sound (by decide +kernel)
theorem C42_uccsd_2rdm_bjai : LeavesArguments uccsd_2rdm_bjai := chkFun_sound (by decide +kernel)
theorem C42_uccsd_2rdm_klij : LeavesArguments uccsd_2rdm_klij := chkFun_sound (by decide +kernel)
theorem C42_uccsd_2rdm_bcai : LeavesArguments uccsd_2rdm_bcai := chkFun_sound (by decide +kernel)
theorem C42_uccsd_2rdm_kaij : LeavesArguments uccsd_2rdm_kaij := chkFun_sound (by decide +kernel)
theorem C42_uccsd_2rdm_abij : LeavesArguments uccsd_2rdm_abij := chkFun_sound (by decide +kernel)
theorem C42_rccsd_2rdm_ciab : LeavesArguments rccsd_2rdm_ciab := chkFun_sound (by decide +kernel)
theorem C42_rccsd_2rdm_jkai : LeavesArguments rccsd_2rdm_jkai := chkFun_sound (by decide +kernel)
theorem C42_rccsd_2rdm_cdab : LeavesArguments rccsd_2rdm_cdab := chkFun_sound (by decide +kernel)
theorem C42_rccsd_2rdm_bjai : LeavesArguments rccsd_2rdm_bjai := chkFun_sound (by decide +kernel)
theorem C42_rccsd_2rdm_bjia : LeavesArguments rccsd_2rdm_bjia := chkFun_sound (by decide +kernel)
theorem C42_rccsd_2rdm_klij : LeavesArguments rccsd_2rdm_klij := chkFun_sound (by decide +kernel)
theorem C42_rccsd_2rdm_bcai : LeavesArguments rccsd_2rdm_bcai := chkFun_sound (by decide +kernel)
theorem C42_rccsd_2rdm_kaij : LeavesArguments rccsd_2rdm_kaij := chkFun_sound (by decide +kernel)
theorem C42_rccsd_2rdm_abij : LeavesArguments rccsd_2rdm_abij := chkFun_sound (by decide +kernel)

/-- all arguments may be one and the same array -/
example (W : Type) (J : Interp W) (w : W) : ∃ rs M', ccsd_simple.run J (List.replicate ccsd_simple.params.length (0, [])) ⟨1, fun _ => w⟩ = some (rs, M') ∧
    M'.heap 0 = w := by
  obtain ⟨rs, M', h1, h2, -⟩ := C42_ccsd_simple W J ⟨1, fun _ => w⟩ (List.replicate ccsd_simple.params.length (0, [])) (by simp)
    (fun r hr => by rw [List.eq_of_mem_replicate hr]; exact Nat.one_pos)
  exact ⟨rs, M', h1, h2 0 Nat.one_pos⟩

end Heap
