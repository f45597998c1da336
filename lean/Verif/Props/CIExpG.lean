import Verif.Props.CIExpLoc
/-!
# C37: the loops of `gmakeCfromT`

Generated by tools/gen_ciexp.py.
-/
set_option linter.unusedSectionVars false
set_option linter.unusedVariables false
set_option linter.unusedSimpArgs false
set_option linter.unreachableTactic false
set_option linter.unusedTactic false
namespace CI
open Fock
variable {K : Type} [Field K] [CharZero K] {n order : ℕ} {R : Finset ℕ} {B : List (Option Dstring)} {L : List (Finset ℕ)} (hB : Locates n B L)
  (hL : FullG L R n order) (hR : R ⊆ Finset.range n) {iocc ivir : List ℕ} (ho' : ∀ i, i < iocc.length → iocc.getD i 0 ∈ R)
  (hv' : ∀ a, a < ivir.length → ivir.getD a 0 ∉ R) (hn' : ∀ a, a < ivir.length → ivir.getD a 0 < n)
  (T1 : ℕ → ℕ → K) (T2 : ℕ → ℕ → ℕ → ℕ → K)
include hB hL hR ho' hv' hn'

theorem add_g_T1 (ho : 1 ≤ order) :
    Adds (L) (g_T1 B (ofSet n R) iocc ivir T1 T2)
      ((oT1 iocc ivir T1) (det R)) := by
  have key : Adds (L) (g_T1 B (ofSet n R) iocc ivir T1 T2)
      (∑ ii ∈ Finset.range iocc.length, ∑ ia ∈ Finset.range ivir.length, ((T1 ia ii)) • (E (iocc.getD ii 0) (ivir.getD ia 0) (det R))) := by
    unfold g_T1
    refine Adds.loop_enum fun ii hii => ?_
    change Adds _ (fun C => _) _
    refine Adds.loop_enum fun ia hia => ?_
    change Adds _ (fun C => _) _
    intro c
    rcases (GSt.ref (K := K) hR).step hR (ho' ii hii) (hv' ia hia) (hn' ia hia) with ⟨e1, z1⟩ | ⟨s1, S1, e1, st1⟩
    · simp only [e1, Except.bind]
      refine skip_tab ?_ c
      simp only [Module.End.mul_apply, Module.End.one_apply] at z1
      simp only [z1, map_zero, smul_zero]
    · simp only [e1, Except.bind]
      exact leafL hB hL st1 ho _ rfl (by push_cast; ring) c
  refine key.congr ?_
  simp only [oT1, LinearMap.sum_apply, LinearMap.smul_apply, Module.End.mul_apply, map_sum, map_smul, Finset.smul_sum, smul_smul]

theorem add_g_T2 (ho : 2 ≤ order) :
    Adds (L) (g_T2 B (ofSet n R) iocc ivir T1 T2)
      ((oT2 iocc ivir T2) (det R)) := by
  have key : Adds (L) (g_T2 B (ofSet n R) iocc ivir T1 T2)
      (∑ ii ∈ Finset.range iocc.length, ∑ ij ∈ Finset.range iocc.length, ∑ ia ∈ Finset.range ivir.length, ∑ ib ∈ Finset.range ivir.length, ((triG iocc ivir T2 ia ib ii ij)) • (E (iocc.getD ij 0) (ivir.getD ib 0) (E (iocc.getD ii 0) (ivir.getD ia 0) (det R)))) := by
    unfold g_T2
    refine Adds.loop_enum fun ii hii => ?_
    change Adds _ (fun C => _) _
    refine Adds.loop_enum fun ij hij => ?_
    change Adds _ (fun C => _) _
    refine Adds.ite (fun gij => ?_) (fun h => by simp only [triG_i _ _ _ h, mul_zero, zero_mul, zero_smul, Finset.sum_const_zero])
    refine Adds.loop_enum fun ia hia => ?_
    change Adds _ (fun C => _) _
    refine Adds.loop_enum fun ib hib => ?_
    change Adds _ (fun C => _) _
    refine Adds.ite (fun gib => ?_) (fun h => by simp only [triG_a _ _ _ h, mul_zero, zero_mul, zero_smul, Finset.sum_const_zero])
    intro c
    rcases (GSt.ref (K := K) hR).step hR (ho' ii hii) (hv' ia hia) (hn' ia hia) with ⟨e1, z1⟩ | ⟨s1, S1, e1, st1⟩
    · simp only [e1, Except.bind]
      refine skip_tab ?_ c
      simp only [Module.End.mul_apply, Module.End.one_apply] at z1
      simp only [z1, map_zero, smul_zero]
    · simp only [e1, Except.bind]
      rcases st1.step hR (ho' ij hij) (hv' ib hib) (hn' ib hib) with ⟨e2, z2⟩ | ⟨s2, S2, e2, st2⟩
      · simp only [e2, Except.bind]
        refine skip_tab ?_ c
        simp only [Module.End.mul_apply, Module.End.one_apply] at z2
        simp only [z2, map_zero, smul_zero]
      · simp only [e2, Except.bind]
        rw [triG_pos T2 gij gib]
        exact leafL hB hL st2 ho _ rfl (by push_cast; ring) c
  refine key.congr ?_
  simp only [oT2, LinearMap.sum_apply, LinearMap.smul_apply, Module.End.mul_apply, map_sum, map_smul, Finset.smul_sum, smul_smul]

theorem add_g_T1_T1 (ho : 2 ≤ order) :
    Adds (L) (g_T1_T1 B (ofSet n R) iocc ivir T1 T2)
      ((1 / 2 : K) • (oT1 iocc ivir T1) ((oT1 iocc ivir T1) (det R))) := by
  have key : Adds (L) (g_T1_T1 B (ofSet n R) iocc ivir T1 T2)
      (∑ ii ∈ Finset.range iocc.length, ∑ ij ∈ Finset.range iocc.length, ∑ ia ∈ Finset.range ivir.length, ∑ ib ∈ Finset.range ivir.length, (((1 / 2) : K) * ((T1 ia ii) * (T1 ib ij))) • (E (iocc.getD ij 0) (ivir.getD ib 0) (E (iocc.getD ii 0) (ivir.getD ia 0) (det R)))) := by
    unfold g_T1_T1
    refine Adds.loop_enum fun ii hii => ?_
    change Adds _ (fun C => _) _
    refine Adds.loop_enum fun ij hij => ?_
    change Adds _ (fun C => _) _
    refine Adds.loop_enum fun ia hia => ?_
    change Adds _ (fun C => _) _
    refine Adds.loop_enum fun ib hib => ?_
    change Adds _ (fun C => _) _
    intro c
    rcases (GSt.ref (K := K) hR).step hR (ho' ii hii) (hv' ia hia) (hn' ia hia) with ⟨e1, z1⟩ | ⟨s1, S1, e1, st1⟩
    · simp only [e1, Except.bind]
      refine skip_tab ?_ c
      simp only [Module.End.mul_apply, Module.End.one_apply] at z1
      simp only [z1, map_zero, smul_zero]
    · simp only [e1, Except.bind]
      rcases st1.step hR (ho' ij hij) (hv' ib hib) (hn' ib hib) with ⟨e2, z2⟩ | ⟨s2, S2, e2, st2⟩
      · simp only [e2, Except.bind]
        refine skip_tab ?_ c
        simp only [Module.End.mul_apply, Module.End.one_apply] at z2
        simp only [z2, map_zero, smul_zero]
      · simp only [e2, Except.bind]
        exact leafL hB hL st2 ho _ rfl (by push_cast; ring) c
  refine key.congr ?_
  simp only [oT1, LinearMap.sum_apply, LinearMap.smul_apply, Module.End.mul_apply, map_sum, map_smul, Finset.smul_sum, smul_smul]
  refine Eq.trans (Finset.sum_congr rfl fun _ _ => Finset.sum_comm) ?_
  refine Finset.sum_congr rfl fun _ _ => Finset.sum_congr rfl fun _ _ => Finset.sum_congr rfl fun _ _ => Finset.sum_congr rfl fun _ _ => ?_
  first | rfl | (congr 1; ring)

theorem add_g_T1_T2 (ho : 3 ≤ order) :
    Adds (L) (g_T1_T2 B (ofSet n R) iocc ivir T1 T2)
      ((oT2 iocc ivir T2) ((oT1 iocc ivir T1) (det R))) := by
  have key : Adds (L) (g_T1_T2 B (ofSet n R) iocc ivir T1 T2)
      (∑ ii ∈ Finset.range iocc.length, ∑ ij ∈ Finset.range iocc.length, ∑ ik ∈ Finset.range iocc.length, ∑ ia ∈ Finset.range ivir.length, ∑ ib ∈ Finset.range ivir.length, ∑ ic ∈ Finset.range ivir.length, ((T1 ia ii) * (triG iocc ivir T2 ib ic ij ik)) • (E (iocc.getD ik 0) (ivir.getD ic 0) (E (iocc.getD ij 0) (ivir.getD ib 0) (E (iocc.getD ii 0) (ivir.getD ia 0) (det R))))) := by
    unfold g_T1_T2
    refine Adds.loop_enum fun ii hii => ?_
    change Adds _ (fun C => _) _
    refine Adds.loop_enum fun ij hij => ?_
    change Adds _ (fun C => _) _
    refine Adds.loop_enum fun ik hik => ?_
    change Adds _ (fun C => _) _
    refine Adds.ite (fun gik => ?_) (fun h => by simp only [triG_i _ _ _ h, mul_zero, zero_mul, zero_smul, Finset.sum_const_zero])
    refine Adds.loop_enum fun ia hia => ?_
    change Adds _ (fun C => _) _
    refine Adds.loop_enum fun ib hib => ?_
    change Adds _ (fun C => _) _
    refine Adds.loop_enum fun ic hic => ?_
    change Adds _ (fun C => _) _
    refine Adds.ite (fun gic => ?_) (fun h => by simp only [triG_a _ _ _ h, mul_zero, zero_mul, zero_smul, Finset.sum_const_zero])
    intro c
    rcases (GSt.ref (K := K) hR).step hR (ho' ii hii) (hv' ia hia) (hn' ia hia) with ⟨e1, z1⟩ | ⟨s1, S1, e1, st1⟩
    · simp only [e1, Except.bind]
      refine skip_tab ?_ c
      simp only [Module.End.mul_apply, Module.End.one_apply] at z1
      simp only [z1, map_zero, smul_zero]
    · simp only [e1, Except.bind]
      rcases st1.step hR (ho' ij hij) (hv' ib hib) (hn' ib hib) with ⟨e2, z2⟩ | ⟨s2, S2, e2, st2⟩
      · simp only [e2, Except.bind]
        refine skip_tab ?_ c
        simp only [Module.End.mul_apply, Module.End.one_apply] at z2
        simp only [z2, map_zero, smul_zero]
      · simp only [e2, Except.bind]
        rcases st2.step hR (ho' ik hik) (hv' ic hic) (hn' ic hic) with ⟨e3, z3⟩ | ⟨s3, S3, e3, st3⟩
        · simp only [e3, Except.bind]
          refine skip_tab ?_ c
          simp only [Module.End.mul_apply, Module.End.one_apply] at z3
          simp only [z3, map_zero, smul_zero]
        · simp only [e3, Except.bind]
          rw [triG_pos T2 gik gic]
          exact leafL hB hL st3 ho _ rfl (by push_cast; ring) c
  refine key.congr ?_
  simp only [oT1, oT2, LinearMap.sum_apply, LinearMap.smul_apply, Module.End.mul_apply, map_sum, map_smul, Finset.smul_sum, smul_smul]
  refine Eq.trans (Finset.sum_congr rfl fun _ _ => Finset.sum_comm) ?_
  refine Eq.trans (Finset.sum_congr rfl fun _ _ => Finset.sum_congr rfl fun _ _ => Finset.sum_comm) ?_
  refine Finset.sum_congr rfl fun _ _ => Finset.sum_congr rfl fun _ _ => Finset.sum_congr rfl fun _ _ => Finset.sum_congr rfl fun _ _ => Finset.sum_congr rfl fun _ _ => Finset.sum_congr rfl fun _ _ => ?_
  first | rfl | (congr 1; ring)

theorem add_g_T1_T1_T1 (ho : 3 ≤ order) :
    Adds (L) (g_T1_T1_T1 B (ofSet n R) iocc ivir T1 T2)
      ((1 / 6 : K) • (oT1 iocc ivir T1) ((oT1 iocc ivir T1) ((oT1 iocc ivir T1) (det R)))) := by
  have key : Adds (L) (g_T1_T1_T1 B (ofSet n R) iocc ivir T1 T2)
      (∑ ii ∈ Finset.range iocc.length, ∑ ij ∈ Finset.range iocc.length, ∑ ik ∈ Finset.range iocc.length, ∑ ia ∈ Finset.range ivir.length, ∑ ib ∈ Finset.range ivir.length, ∑ ic ∈ Finset.range ivir.length, (((1 / 6) : K) * ((T1 ia ii) * (T1 ib ij) * (T1 ic ik))) • (E (iocc.getD ik 0) (ivir.getD ic 0) (E (iocc.getD ij 0) (ivir.getD ib 0) (E (iocc.getD ii 0) (ivir.getD ia 0) (det R))))) := by
    unfold g_T1_T1_T1
    refine Adds.loop_enum fun ii hii => ?_
    change Adds _ (fun C => _) _
    refine Adds.loop_enum fun ij hij => ?_
    change Adds _ (fun C => _) _
    refine Adds.loop_enum fun ik hik => ?_
    change Adds _ (fun C => _) _
    refine Adds.loop_enum fun ia hia => ?_
    change Adds _ (fun C => _) _
    refine Adds.loop_enum fun ib hib => ?_
    change Adds _ (fun C => _) _
    refine Adds.loop_enum fun ic hic => ?_
    change Adds _ (fun C => _) _
    intro c
    rcases (GSt.ref (K := K) hR).step hR (ho' ii hii) (hv' ia hia) (hn' ia hia) with ⟨e1, z1⟩ | ⟨s1, S1, e1, st1⟩
    · simp only [e1, Except.bind]
      refine skip_tab ?_ c
      simp only [Module.End.mul_apply, Module.End.one_apply] at z1
      simp only [z1, map_zero, smul_zero]
    · simp only [e1, Except.bind]
      rcases st1.step hR (ho' ij hij) (hv' ib hib) (hn' ib hib) with ⟨e2, z2⟩ | ⟨s2, S2, e2, st2⟩
      · simp only [e2, Except.bind]
        refine skip_tab ?_ c
        simp only [Module.End.mul_apply, Module.End.one_apply] at z2
        simp only [z2, map_zero, smul_zero]
      · simp only [e2, Except.bind]
        rcases st2.step hR (ho' ik hik) (hv' ic hic) (hn' ic hic) with ⟨e3, z3⟩ | ⟨s3, S3, e3, st3⟩
        · simp only [e3, Except.bind]
          refine skip_tab ?_ c
          simp only [Module.End.mul_apply, Module.End.one_apply] at z3
          simp only [z3, map_zero, smul_zero]
        · simp only [e3, Except.bind]
          exact leafL hB hL st3 ho _ rfl (by push_cast; ring) c
  refine key.congr ?_
  simp only [oT1, LinearMap.sum_apply, LinearMap.smul_apply, Module.End.mul_apply, map_sum, map_smul, Finset.smul_sum, smul_smul]
  refine Eq.trans (Finset.sum_congr rfl fun _ _ => Finset.sum_comm) ?_
  refine Eq.trans (Finset.sum_congr rfl fun _ _ => Finset.sum_congr rfl fun _ _ => Finset.sum_congr rfl fun _ _ => Finset.sum_comm) ?_
  refine Eq.trans (Finset.sum_congr rfl fun _ _ => Finset.sum_congr rfl fun _ _ => Finset.sum_comm) ?_
  refine Finset.sum_congr rfl fun _ _ => Finset.sum_congr rfl fun _ _ => Finset.sum_congr rfl fun _ _ => Finset.sum_congr rfl fun _ _ => Finset.sum_congr rfl fun _ _ => Finset.sum_congr rfl fun _ _ => ?_
  first | rfl | (congr 1; ring)

theorem add_g_T2_T2 (ho : 4 ≤ order) :
    Adds (L) (g_T2_T2 B (ofSet n R) iocc ivir T1 T2)
      ((1 / 2 : K) • (oT2 iocc ivir T2) ((oT2 iocc ivir T2) (det R))) := by
  have key : Adds (L) (g_T2_T2 B (ofSet n R) iocc ivir T1 T2)
      (∑ ii ∈ Finset.range iocc.length, ∑ ij ∈ Finset.range iocc.length, ∑ ik ∈ Finset.range iocc.length, ∑ il ∈ Finset.range iocc.length, ∑ ia ∈ Finset.range ivir.length, ∑ ib ∈ Finset.range ivir.length, ∑ ic ∈ Finset.range ivir.length, ∑ idd ∈ Finset.range ivir.length, (((1 / 2) : K) * ((triG iocc ivir T2 ia ib ii ij) * (triG iocc ivir T2 ic idd ik il))) • (E (iocc.getD il 0) (ivir.getD idd 0) (E (iocc.getD ik 0) (ivir.getD ic 0) (E (iocc.getD ij 0) (ivir.getD ib 0) (E (iocc.getD ii 0) (ivir.getD ia 0) (det R)))))) := by
    unfold g_T2_T2
    refine Adds.loop_enum fun ii hii => ?_
    change Adds _ (fun C => _) _
    refine Adds.loop_enum fun ij hij => ?_
    change Adds _ (fun C => _) _
    refine Adds.ite (fun gij => ?_) (fun h => by simp only [triG_i _ _ _ h, mul_zero, zero_mul, zero_smul, Finset.sum_const_zero])
    refine Adds.loop_enum fun ik hik => ?_
    change Adds _ (fun C => _) _
    refine Adds.loop_enum fun il hil => ?_
    change Adds _ (fun C => _) _
    refine Adds.ite (fun gil => ?_) (fun h => by simp only [triG_i _ _ _ h, mul_zero, zero_mul, zero_smul, Finset.sum_const_zero])
    refine Adds.loop_enum fun ia hia => ?_
    change Adds _ (fun C => _) _
    refine Adds.loop_enum fun ib hib => ?_
    change Adds _ (fun C => _) _
    refine Adds.ite (fun gib => ?_) (fun h => by simp only [triG_a _ _ _ h, mul_zero, zero_mul, zero_smul, Finset.sum_const_zero])
    refine Adds.loop_enum fun ic hic => ?_
    change Adds _ (fun C => _) _
    refine Adds.loop_enum fun idd hidd => ?_
    change Adds _ (fun C => _) _
    refine Adds.ite (fun gidd => ?_) (fun h => by simp only [triG_a _ _ _ h, mul_zero, zero_mul, zero_smul, Finset.sum_const_zero])
    intro c
    rcases (GSt.ref (K := K) hR).step hR (ho' ii hii) (hv' ia hia) (hn' ia hia) with ⟨e1, z1⟩ | ⟨s1, S1, e1, st1⟩
    · simp only [e1, Except.bind]
      refine skip_tab ?_ c
      simp only [Module.End.mul_apply, Module.End.one_apply] at z1
      simp only [z1, map_zero, smul_zero]
    · simp only [e1, Except.bind]
      rcases st1.step hR (ho' ij hij) (hv' ib hib) (hn' ib hib) with ⟨e2, z2⟩ | ⟨s2, S2, e2, st2⟩
      · simp only [e2, Except.bind]
        refine skip_tab ?_ c
        simp only [Module.End.mul_apply, Module.End.one_apply] at z2
        simp only [z2, map_zero, smul_zero]
      · simp only [e2, Except.bind]
        rcases st2.step hR (ho' ik hik) (hv' ic hic) (hn' ic hic) with ⟨e3, z3⟩ | ⟨s3, S3, e3, st3⟩
        · simp only [e3, Except.bind]
          refine skip_tab ?_ c
          simp only [Module.End.mul_apply, Module.End.one_apply] at z3
          simp only [z3, map_zero, smul_zero]
        · simp only [e3, Except.bind]
          rcases st3.step hR (ho' il hil) (hv' idd hidd) (hn' idd hidd) with ⟨e4, z4⟩ | ⟨s4, S4, e4, st4⟩
          · simp only [e4, Except.bind]
            refine skip_tab ?_ c
            simp only [Module.End.mul_apply, Module.End.one_apply] at z4
            simp only [z4, map_zero, smul_zero]
          · simp only [e4, Except.bind]
            rw [triG_pos T2 gij gib, triG_pos T2 gil gidd]
            exact leafL hB hL st4 ho _ rfl (by push_cast; ring) c
  refine key.congr ?_
  simp only [oT2, LinearMap.sum_apply, LinearMap.smul_apply, Module.End.mul_apply, map_sum, map_smul, Finset.smul_sum, smul_smul]
  refine Eq.trans (Finset.sum_congr rfl fun _ _ => Finset.sum_congr rfl fun _ _ => Finset.sum_congr rfl fun _ _ => Finset.sum_comm) ?_
  refine Eq.trans (Finset.sum_congr rfl fun _ _ => Finset.sum_congr rfl fun _ _ => Finset.sum_comm) ?_
  refine Eq.trans (Finset.sum_congr rfl fun _ _ => Finset.sum_congr rfl fun _ _ => Finset.sum_congr rfl fun _ _ => Finset.sum_congr rfl fun _ _ => Finset.sum_comm) ?_
  refine Eq.trans (Finset.sum_congr rfl fun _ _ => Finset.sum_congr rfl fun _ _ => Finset.sum_congr rfl fun _ _ => Finset.sum_comm) ?_
  refine Finset.sum_congr rfl fun _ _ => Finset.sum_congr rfl fun _ _ => Finset.sum_congr rfl fun _ _ => Finset.sum_congr rfl fun _ _ => Finset.sum_congr rfl fun _ _ => Finset.sum_congr rfl fun _ _ => Finset.sum_congr rfl fun _ _ => Finset.sum_congr rfl fun _ _ => ?_
  first | rfl | (congr 1; ring)

theorem add_g_T1_T1_T2 (ho : 4 ≤ order) :
    Adds (L) (g_T1_T1_T2 B (ofSet n R) iocc ivir T1 T2)
      ((1 / 2 : K) • (oT2 iocc ivir T2) ((oT1 iocc ivir T1) ((oT1 iocc ivir T1) (det R)))) := by
  have key : Adds (L) (g_T1_T1_T2 B (ofSet n R) iocc ivir T1 T2)
      (∑ ii ∈ Finset.range iocc.length, ∑ ij ∈ Finset.range iocc.length, ∑ ik ∈ Finset.range iocc.length, ∑ il ∈ Finset.range iocc.length, ∑ ia ∈ Finset.range ivir.length, ∑ ib ∈ Finset.range ivir.length, ∑ ic ∈ Finset.range ivir.length, ∑ idd ∈ Finset.range ivir.length, (((1 / 2) : K) * ((T1 ia ii) * (T1 ib ij) * (triG iocc ivir T2 ic idd ik il))) • (E (iocc.getD il 0) (ivir.getD idd 0) (E (iocc.getD ik 0) (ivir.getD ic 0) (E (iocc.getD ij 0) (ivir.getD ib 0) (E (iocc.getD ii 0) (ivir.getD ia 0) (det R)))))) := by
    unfold g_T1_T1_T2
    refine Adds.loop_enum fun ii hii => ?_
    change Adds _ (fun C => _) _
    refine Adds.loop_enum fun ij hij => ?_
    change Adds _ (fun C => _) _
    refine Adds.loop_enum fun ik hik => ?_
    change Adds _ (fun C => _) _
    refine Adds.loop_enum fun il hil => ?_
    change Adds _ (fun C => _) _
    refine Adds.ite (fun gil => ?_) (fun h => by simp only [triG_i _ _ _ h, mul_zero, zero_mul, zero_smul, Finset.sum_const_zero])
    refine Adds.loop_enum fun ia hia => ?_
    change Adds _ (fun C => _) _
    refine Adds.loop_enum fun ib hib => ?_
    change Adds _ (fun C => _) _
    refine Adds.loop_enum fun ic hic => ?_
    change Adds _ (fun C => _) _
    refine Adds.loop_enum fun idd hidd => ?_
    change Adds _ (fun C => _) _
    refine Adds.ite (fun gidd => ?_) (fun h => by simp only [triG_a _ _ _ h, mul_zero, zero_mul, zero_smul, Finset.sum_const_zero])
    intro c
    rcases (GSt.ref (K := K) hR).step hR (ho' ii hii) (hv' ia hia) (hn' ia hia) with ⟨e1, z1⟩ | ⟨s1, S1, e1, st1⟩
    · simp only [e1, Except.bind]
      refine skip_tab ?_ c
      simp only [Module.End.mul_apply, Module.End.one_apply] at z1
      simp only [z1, map_zero, smul_zero]
    · simp only [e1, Except.bind]
      rcases st1.step hR (ho' ij hij) (hv' ib hib) (hn' ib hib) with ⟨e2, z2⟩ | ⟨s2, S2, e2, st2⟩
      · simp only [e2, Except.bind]
        refine skip_tab ?_ c
        simp only [Module.End.mul_apply, Module.End.one_apply] at z2
        simp only [z2, map_zero, smul_zero]
      · simp only [e2, Except.bind]
        rcases st2.step hR (ho' ik hik) (hv' ic hic) (hn' ic hic) with ⟨e3, z3⟩ | ⟨s3, S3, e3, st3⟩
        · simp only [e3, Except.bind]
          refine skip_tab ?_ c
          simp only [Module.End.mul_apply, Module.End.one_apply] at z3
          simp only [z3, map_zero, smul_zero]
        · simp only [e3, Except.bind]
          rcases st3.step hR (ho' il hil) (hv' idd hidd) (hn' idd hidd) with ⟨e4, z4⟩ | ⟨s4, S4, e4, st4⟩
          · simp only [e4, Except.bind]
            refine skip_tab ?_ c
            simp only [Module.End.mul_apply, Module.End.one_apply] at z4
            simp only [z4, map_zero, smul_zero]
          · simp only [e4, Except.bind]
            rw [triG_pos T2 gil gidd]
            exact leafL hB hL st4 ho _ rfl (by push_cast; ring) c
  refine key.congr ?_
  simp only [oT1, oT2, LinearMap.sum_apply, LinearMap.smul_apply, Module.End.mul_apply, map_sum, map_smul, Finset.smul_sum, smul_smul]
  refine Eq.trans (Finset.sum_congr rfl fun _ _ => Finset.sum_comm) ?_
  refine Eq.trans (Finset.sum_congr rfl fun _ _ => Finset.sum_congr rfl fun _ _ => Finset.sum_congr rfl fun _ _ => Finset.sum_comm) ?_
  refine Eq.trans (Finset.sum_congr rfl fun _ _ => Finset.sum_congr rfl fun _ _ => Finset.sum_comm) ?_
  refine Eq.trans (Finset.sum_congr rfl fun _ _ => Finset.sum_congr rfl fun _ _ => Finset.sum_congr rfl fun _ _ => Finset.sum_congr rfl fun _ _ => Finset.sum_comm) ?_
  refine Eq.trans (Finset.sum_congr rfl fun _ _ => Finset.sum_congr rfl fun _ _ => Finset.sum_congr rfl fun _ _ => Finset.sum_comm) ?_
  refine Finset.sum_congr rfl fun _ _ => Finset.sum_congr rfl fun _ _ => Finset.sum_congr rfl fun _ _ => Finset.sum_congr rfl fun _ _ => Finset.sum_congr rfl fun _ _ => Finset.sum_congr rfl fun _ _ => Finset.sum_congr rfl fun _ _ => Finset.sum_congr rfl fun _ _ => ?_
  first | rfl | (congr 1; ring)

theorem add_g_T1_T1_T1_T1 (ho : 4 ≤ order) :
    Adds (L) (g_T1_T1_T1_T1 B (ofSet n R) iocc ivir T1 T2)
      ((1 / 24 : K) • (oT1 iocc ivir T1) ((oT1 iocc ivir T1) ((oT1 iocc ivir T1) ((oT1 iocc ivir T1) (det R))))) := by
  have key : Adds (L) (g_T1_T1_T1_T1 B (ofSet n R) iocc ivir T1 T2)
      (∑ ii ∈ Finset.range iocc.length, ∑ ij ∈ Finset.range iocc.length, ∑ ik ∈ Finset.range iocc.length, ∑ il ∈ Finset.range iocc.length, ∑ ia ∈ Finset.range ivir.length, ∑ ib ∈ Finset.range ivir.length, ∑ ic ∈ Finset.range ivir.length, ∑ idd ∈ Finset.range ivir.length, (((1 / 24) : K) * ((T1 ia ii) * (T1 ib ij) * (T1 ic ik) * (T1 idd il))) • (E (iocc.getD il 0) (ivir.getD idd 0) (E (iocc.getD ik 0) (ivir.getD ic 0) (E (iocc.getD ij 0) (ivir.getD ib 0) (E (iocc.getD ii 0) (ivir.getD ia 0) (det R)))))) := by
    unfold g_T1_T1_T1_T1
    refine Adds.loop_enum fun ii hii => ?_
    change Adds _ (fun C => _) _
    refine Adds.loop_enum fun ij hij => ?_
    change Adds _ (fun C => _) _
    refine Adds.loop_enum fun ik hik => ?_
    change Adds _ (fun C => _) _
    refine Adds.loop_enum fun il hil => ?_
    change Adds _ (fun C => _) _
    refine Adds.loop_enum fun ia hia => ?_
    change Adds _ (fun C => _) _
    refine Adds.loop_enum fun ib hib => ?_
    change Adds _ (fun C => _) _
    refine Adds.loop_enum fun ic hic => ?_
    change Adds _ (fun C => _) _
    refine Adds.loop_enum fun idd hidd => ?_
    change Adds _ (fun C => _) _
    intro c
    rcases (GSt.ref (K := K) hR).step hR (ho' ii hii) (hv' ia hia) (hn' ia hia) with ⟨e1, z1⟩ | ⟨s1, S1, e1, st1⟩
    · simp only [e1, Except.bind]
      refine skip_tab ?_ c
      simp only [Module.End.mul_apply, Module.End.one_apply] at z1
      simp only [z1, map_zero, smul_zero]
    · simp only [e1, Except.bind]
      rcases st1.step hR (ho' ij hij) (hv' ib hib) (hn' ib hib) with ⟨e2, z2⟩ | ⟨s2, S2, e2, st2⟩
      · simp only [e2, Except.bind]
        refine skip_tab ?_ c
        simp only [Module.End.mul_apply, Module.End.one_apply] at z2
        simp only [z2, map_zero, smul_zero]
      · simp only [e2, Except.bind]
        rcases st2.step hR (ho' ik hik) (hv' ic hic) (hn' ic hic) with ⟨e3, z3⟩ | ⟨s3, S3, e3, st3⟩
        · simp only [e3, Except.bind]
          refine skip_tab ?_ c
          simp only [Module.End.mul_apply, Module.End.one_apply] at z3
          simp only [z3, map_zero, smul_zero]
        · simp only [e3, Except.bind]
          rcases st3.step hR (ho' il hil) (hv' idd hidd) (hn' idd hidd) with ⟨e4, z4⟩ | ⟨s4, S4, e4, st4⟩
          · simp only [e4, Except.bind]
            refine skip_tab ?_ c
            simp only [Module.End.mul_apply, Module.End.one_apply] at z4
            simp only [z4, map_zero, smul_zero]
          · simp only [e4, Except.bind]
            exact leafL hB hL st4 ho _ rfl (by push_cast; ring) c
  refine key.congr ?_
  simp only [oT1, LinearMap.sum_apply, LinearMap.smul_apply, Module.End.mul_apply, map_sum, map_smul, Finset.smul_sum, smul_smul]
  refine Eq.trans (Finset.sum_congr rfl fun _ _ => Finset.sum_comm) ?_
  refine Eq.trans (Finset.sum_congr rfl fun _ _ => Finset.sum_congr rfl fun _ _ => Finset.sum_congr rfl fun _ _ => Finset.sum_comm) ?_
  refine Eq.trans (Finset.sum_congr rfl fun _ _ => Finset.sum_congr rfl fun _ _ => Finset.sum_comm) ?_
  refine Eq.trans (Finset.sum_congr rfl fun _ _ => Finset.sum_congr rfl fun _ _ => Finset.sum_congr rfl fun _ _ => Finset.sum_congr rfl fun _ _ => Finset.sum_congr rfl fun _ _ => Finset.sum_comm) ?_
  refine Eq.trans (Finset.sum_congr rfl fun _ _ => Finset.sum_congr rfl fun _ _ => Finset.sum_congr rfl fun _ _ => Finset.sum_congr rfl fun _ _ => Finset.sum_comm) ?_
  refine Eq.trans (Finset.sum_congr rfl fun _ _ => Finset.sum_congr rfl fun _ _ => Finset.sum_congr rfl fun _ _ => Finset.sum_comm) ?_
  refine Finset.sum_congr rfl fun _ _ => Finset.sum_congr rfl fun _ _ => Finset.sum_congr rfl fun _ _ => Finset.sum_congr rfl fun _ _ => Finset.sum_congr rfl fun _ _ => Finset.sum_congr rfl fun _ _ => Finset.sum_congr rfl fun _ _ => Finset.sum_congr rfl fun _ _ => ?_
  first | rfl | (congr 1; ring)

end CI
