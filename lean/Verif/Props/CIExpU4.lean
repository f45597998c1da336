import Verif.Props.CIExpLoc
/-!
# C37: the loops of `makeCfromT`

Generated by tools/gen_ciexp.py.
-/
set_option linter.unusedSectionVars false
set_option linter.unusedVariables false
set_option linter.unusedSimpArgs false
set_option linter.unreachableTactic false
set_option linter.unusedTactic false
namespace CI
open Fock
variable {K : Type} [Field K] [CharZero K] {noa nva nob nvb order : ℕ} {B : List Pair} {L : List (Finset SO)}
  (hB : PLocates (noa + nva) (nob + nvb) B L) (hL : Full L noa (noa + nva) nob (nob + nvb) order)
  (T1a T1b : ℕ → ℕ → K) (T2aa T2ab T2bb : ℕ → ℕ → ℕ → ℕ → K)
include hB hL

theorem add_u_T2aa_T2aa (ho : 4 ≤ order) :
    Adds (L) (u_T2aa_T2aa B (ofSet (noa + nva) (Finset.range noa)) (ofSet (nob + nvb) (Finset.range nob)) noa nva nob nvb T1a T1b T2aa T2ab T2bb)
      ((1 / 2 : K) • (oT2aa noa nva T2aa) ((oT2aa noa nva T2aa) (det (uref noa nob)))) := by
  have key : Adds (L) (u_T2aa_T2aa B (ofSet (noa + nva) (Finset.range noa)) (ofSet (nob + nvb) (Finset.range nob)) noa nva nob nvb T1a T1b T2aa T2ab T2bb)
      (∑ i ∈ Finset.range noa, ∑ j ∈ Finset.range noa, ∑ k ∈ Finset.range noa, ∑ l ∈ Finset.range noa, ∑ a ∈ Finset.range nva, ∑ b ∈ Finset.range nva, ∑ c ∈ Finset.range nva, ∑ d ∈ Finset.range nva, (((1 / 2) : K) * ((tri T2aa a b i j) * (tri T2aa c d k l))) • (E (up l) (up (d + noa)) (E (up k) (up (c + noa)) (E (up j) (up (b + noa)) (E (up i) (up (a + noa)) (det (uref noa nob))))))) := by
    unfold u_T2aa_T2aa
    refine Adds.loop_range fun i hi => ?_
    refine Adds.loop_lt (fun j gj hj => ?_) (fun j h => by simp only [tri_i _ _ _ h, mul_zero, zero_mul, zero_smul, Finset.sum_const_zero])
    refine Adds.loop_range fun k hk => ?_
    refine Adds.loop_lt (fun l gl hl => ?_) (fun l h => by simp only [tri_i _ _ _ h, mul_zero, zero_mul, zero_smul, Finset.sum_const_zero])
    refine Adds.loop_range fun a ha => ?_
    refine Adds.loop_lt (fun b gb hb => ?_) (fun b h => by simp only [tri_a _ _ _ h, mul_zero, zero_mul, zero_smul, Finset.sum_const_zero])
    refine Adds.loop_range fun c hc => ?_
    refine Adds.loop_lt (fun d gd hd => ?_) (fun d h => by simp only [tri_a _ _ _ h, mul_zero, zero_mul, zero_smul, Finset.sum_const_zero])
    intro c
    rcases (ASt.ref (K := K) noa nva).step hi ha with ⟨e1, z1⟩ | ⟨s1, S1, e1, st1⟩
    · simp only [e1, Except.bind]
      refine skip_tab ?_ c
      simp only [Module.End.mul_apply, Module.End.one_apply] at z1
      unfold uref
      simp only [E_up_dn, z1, map_zero, smul_zero]
    · simp only [e1, Except.bind]
      rcases st1.step hj hb with ⟨e2, z2⟩ | ⟨s2, S2, e2, st2⟩
      · simp only [e2, Except.bind]
        refine skip_tab ?_ c
        simp only [Module.End.mul_apply, Module.End.one_apply] at z2
        unfold uref
        simp only [E_up_dn, z2, map_zero, smul_zero]
      · simp only [e2, Except.bind]
        rcases st2.step hk hc with ⟨e3, z3⟩ | ⟨s3, S3, e3, st3⟩
        · simp only [e3, Except.bind]
          refine skip_tab ?_ c
          simp only [Module.End.mul_apply, Module.End.one_apply] at z3
          unfold uref
          simp only [E_up_dn, z3, map_zero, smul_zero]
        · simp only [e3, Except.bind]
          rcases st3.step hl hd with ⟨e4, z4⟩ | ⟨s4, S4, e4, st4⟩
          · simp only [e4, Except.bind]
            refine skip_tab ?_ c
            simp only [Module.End.mul_apply, Module.End.one_apply] at z4
            unfold uref
            simp only [E_up_dn, z4, map_zero, smul_zero]
          · simp only [e4, Except.bind]
            rw [tri_pos T2aa gj gb, tri_pos T2aa gl gd]
            exact leafUL hB hL st4 (BSt.ref (K := K) nob nvb) (by omega) _ rfl (by push_cast; ring) c
  refine key.congr ?_
  simp only [oT2aa, LinearMap.sum_apply, LinearMap.smul_apply, Module.End.mul_apply, map_sum, map_smul, Finset.smul_sum, smul_smul, E_dn_up]
  refine Eq.trans (Finset.sum_congr rfl fun _ _ => Finset.sum_congr rfl fun _ _ => Finset.sum_congr rfl fun _ _ => Finset.sum_comm) ?_
  refine Eq.trans (Finset.sum_congr rfl fun _ _ => Finset.sum_congr rfl fun _ _ => Finset.sum_comm) ?_
  refine Eq.trans (Finset.sum_congr rfl fun _ _ => Finset.sum_congr rfl fun _ _ => Finset.sum_congr rfl fun _ _ => Finset.sum_congr rfl fun _ _ => Finset.sum_comm) ?_
  refine Eq.trans (Finset.sum_congr rfl fun _ _ => Finset.sum_congr rfl fun _ _ => Finset.sum_congr rfl fun _ _ => Finset.sum_comm) ?_
  refine Finset.sum_congr rfl fun _ _ => Finset.sum_congr rfl fun _ _ => Finset.sum_congr rfl fun _ _ => Finset.sum_congr rfl fun _ _ => Finset.sum_congr rfl fun _ _ => Finset.sum_congr rfl fun _ _ => Finset.sum_congr rfl fun _ _ => Finset.sum_congr rfl fun _ _ => ?_
  first | rfl | (congr 1; ring)

theorem add_u_T2aa_T2ab (ho : 4 ≤ order) :
    Adds (L) (u_T2aa_T2ab B (ofSet (noa + nva) (Finset.range noa)) (ofSet (nob + nvb) (Finset.range nob)) noa nva nob nvb T1a T1b T2aa T2ab T2bb)
      ((oT2ab noa nva nob nvb T2ab) ((oT2aa noa nva T2aa) (det (uref noa nob)))) := by
  have key : Adds (L) (u_T2aa_T2ab B (ofSet (noa + nva) (Finset.range noa)) (ofSet (nob + nvb) (Finset.range nob)) noa nva nob nvb T1a T1b T2aa T2ab T2bb)
      (∑ i ∈ Finset.range noa, ∑ j ∈ Finset.range noa, ∑ k ∈ Finset.range noa, ∑ l ∈ Finset.range nob, ∑ a ∈ Finset.range nva, ∑ b ∈ Finset.range nva, ∑ c ∈ Finset.range nva, ∑ d ∈ Finset.range nvb, ((tri T2aa a b i j) * (T2ab c d k l)) • (E (up k) (up (c + noa)) (E (up j) (up (b + noa)) (E (up i) (up (a + noa)) (E (dn l) (dn (d + nob)) (det (uref noa nob))))))) := by
    unfold u_T2aa_T2ab
    refine Adds.loop_range fun i hi => ?_
    refine Adds.loop_lt (fun j gj hj => ?_) (fun j h => by simp only [tri_i _ _ _ h, mul_zero, zero_mul, zero_smul, Finset.sum_const_zero])
    refine Adds.loop_range fun k hk => ?_
    refine Adds.loop_range fun l hl => ?_
    refine Adds.loop_range fun a ha => ?_
    refine Adds.loop_lt (fun b gb hb => ?_) (fun b h => by simp only [tri_a _ _ _ h, mul_zero, zero_mul, zero_smul, Finset.sum_const_zero])
    refine Adds.loop_range fun c hc => ?_
    refine Adds.loop_range fun d hd => ?_
    intro c
    rcases (ASt.ref (K := K) noa nva).step hi ha with ⟨e1, z1⟩ | ⟨s1, S1, e1, st1⟩
    · simp only [e1, Except.bind]
      refine skip_tab ?_ c
      simp only [Module.End.mul_apply, Module.End.one_apply] at z1
      unfold uref
      simp only [E_up_dn, z1, map_zero, smul_zero]
    · simp only [e1, Except.bind]
      rcases st1.step hj hb with ⟨e2, z2⟩ | ⟨s2, S2, e2, st2⟩
      · simp only [e2, Except.bind]
        refine skip_tab ?_ c
        simp only [Module.End.mul_apply, Module.End.one_apply] at z2
        unfold uref
        simp only [E_up_dn, z2, map_zero, smul_zero]
      · simp only [e2, Except.bind]
        rcases st2.step hk hc with ⟨e3, z3⟩ | ⟨s3, S3, e3, st3⟩
        · simp only [e3, Except.bind]
          rcases (BSt.ref (K := K) nob nvb).step hl hd with ⟨e4, z4⟩ | ⟨s4, S4, e4, st4⟩
          · simp only [e4, Except.bind]
            refine skip_tab ?_ c
            simp only [Module.End.mul_apply, Module.End.one_apply] at z3
            unfold uref
            simp only [E_up_dn, z3, map_zero, smul_zero]
          · simp only [e4, Except.bind]
            refine skip_tab ?_ c
            simp only [Module.End.mul_apply, Module.End.one_apply] at z3
            unfold uref
            simp only [E_up_dn, z3, map_zero, smul_zero]
        · simp only [e3, Except.bind]
          rcases (BSt.ref (K := K) nob nvb).step hl hd with ⟨e5, z5⟩ | ⟨s5, S5, e5, st5⟩
          · simp only [e5, Except.bind]
            refine skip_tab ?_ c
            simp only [Module.End.mul_apply, Module.End.one_apply] at z5
            unfold uref
            simp only [z5, map_zero, smul_zero]
          · simp only [e5, Except.bind]
            rw [tri_pos T2aa gj gb]
            exact leafUL hB hL st3 st5 (by omega) _ rfl (by push_cast; ring) c
  refine key.congr ?_
  simp only [oT2aa, oT2ab, LinearMap.sum_apply, LinearMap.smul_apply, Module.End.mul_apply, map_sum, map_smul, Finset.smul_sum, smul_smul, E_dn_up]
  refine Eq.trans (Finset.sum_congr rfl fun _ _ => Finset.sum_congr rfl fun _ _ => Finset.sum_congr rfl fun _ _ => Finset.sum_comm) ?_
  refine Eq.trans (Finset.sum_congr rfl fun _ _ => Finset.sum_congr rfl fun _ _ => Finset.sum_comm) ?_
  refine Eq.trans (Finset.sum_congr rfl fun _ _ => Finset.sum_congr rfl fun _ _ => Finset.sum_congr rfl fun _ _ => Finset.sum_congr rfl fun _ _ => Finset.sum_comm) ?_
  refine Eq.trans (Finset.sum_congr rfl fun _ _ => Finset.sum_congr rfl fun _ _ => Finset.sum_congr rfl fun _ _ => Finset.sum_comm) ?_
  refine Finset.sum_congr rfl fun _ _ => Finset.sum_congr rfl fun _ _ => Finset.sum_congr rfl fun _ _ => Finset.sum_congr rfl fun _ _ => Finset.sum_congr rfl fun _ _ => Finset.sum_congr rfl fun _ _ => Finset.sum_congr rfl fun _ _ => Finset.sum_congr rfl fun _ _ => ?_
  first | rfl | (congr 1; ring)

theorem add_u_T2aa_T2bb (ho : 4 ≤ order) :
    Adds (L) (u_T2aa_T2bb B (ofSet (noa + nva) (Finset.range noa)) (ofSet (nob + nvb) (Finset.range nob)) noa nva nob nvb T1a T1b T2aa T2ab T2bb)
      ((oT2bb nob nvb T2bb) ((oT2aa noa nva T2aa) (det (uref noa nob)))) := by
  have key : Adds (L) (u_T2aa_T2bb B (ofSet (noa + nva) (Finset.range noa)) (ofSet (nob + nvb) (Finset.range nob)) noa nva nob nvb T1a T1b T2aa T2ab T2bb)
      (∑ i ∈ Finset.range noa, ∑ j ∈ Finset.range noa, ∑ k ∈ Finset.range nob, ∑ l ∈ Finset.range nob, ∑ a ∈ Finset.range nva, ∑ b ∈ Finset.range nva, ∑ c ∈ Finset.range nvb, ∑ d ∈ Finset.range nvb, ((tri T2aa a b i j) * (tri T2bb c d k l)) • (E (up j) (up (b + noa)) (E (up i) (up (a + noa)) (E (dn l) (dn (d + nob)) (E (dn k) (dn (c + nob)) (det (uref noa nob))))))) := by
    unfold u_T2aa_T2bb
    refine Adds.loop_range fun i hi => ?_
    refine Adds.loop_lt (fun j gj hj => ?_) (fun j h => by simp only [tri_i _ _ _ h, mul_zero, zero_mul, zero_smul, Finset.sum_const_zero])
    refine Adds.loop_range fun k hk => ?_
    refine Adds.loop_lt (fun l gl hl => ?_) (fun l h => by simp only [tri_i _ _ _ h, mul_zero, zero_mul, zero_smul, Finset.sum_const_zero])
    refine Adds.loop_range fun a ha => ?_
    refine Adds.loop_lt (fun b gb hb => ?_) (fun b h => by simp only [tri_a _ _ _ h, mul_zero, zero_mul, zero_smul, Finset.sum_const_zero])
    refine Adds.loop_range fun c hc => ?_
    refine Adds.loop_lt (fun d gd hd => ?_) (fun d h => by simp only [tri_a _ _ _ h, mul_zero, zero_mul, zero_smul, Finset.sum_const_zero])
    intro c
    rcases (ASt.ref (K := K) noa nva).step hi ha with ⟨e1, z1⟩ | ⟨s1, S1, e1, st1⟩
    · simp only [e1, Except.bind]
      refine skip_tab ?_ c
      simp only [Module.End.mul_apply, Module.End.one_apply] at z1
      unfold uref
      simp only [E_up_dn, z1, map_zero, smul_zero]
    · simp only [e1, Except.bind]
      rcases st1.step hj hb with ⟨e2, z2⟩ | ⟨s2, S2, e2, st2⟩
      · simp only [e2, Except.bind]
        rcases (BSt.ref (K := K) nob nvb).step hk hc with ⟨e3, z3⟩ | ⟨s3, S3, e3, st3⟩
        · simp only [e3, Except.bind]
          refine skip_tab ?_ c
          simp only [Module.End.mul_apply, Module.End.one_apply] at z3
          unfold uref
          simp only [z3, map_zero, smul_zero]
        · simp only [e3, Except.bind]
          rcases st3.step hl hd with ⟨e4, z4⟩ | ⟨s4, S4, e4, st4⟩
          · simp only [e4, Except.bind]
            refine skip_tab ?_ c
            simp only [Module.End.mul_apply, Module.End.one_apply] at z2
            unfold uref
            simp only [E_up_dn, z2, map_zero, smul_zero]
          · simp only [e4, Except.bind]
            refine skip_tab ?_ c
            simp only [Module.End.mul_apply, Module.End.one_apply] at z2
            unfold uref
            simp only [E_up_dn, z2, map_zero, smul_zero]
      · simp only [e2, Except.bind]
        rcases (BSt.ref (K := K) nob nvb).step hk hc with ⟨e5, z5⟩ | ⟨s5, S5, e5, st5⟩
        · simp only [e5, Except.bind]
          refine skip_tab ?_ c
          simp only [Module.End.mul_apply, Module.End.one_apply] at z5
          unfold uref
          simp only [z5, map_zero, smul_zero]
        · simp only [e5, Except.bind]
          rcases st5.step hl hd with ⟨e6, z6⟩ | ⟨s6, S6, e6, st6⟩
          · simp only [e6, Except.bind]
            refine skip_tab ?_ c
            simp only [Module.End.mul_apply, Module.End.one_apply] at z6
            unfold uref
            simp only [z6, map_zero, smul_zero]
          · simp only [e6, Except.bind]
            rw [tri_pos T2aa gj gb, tri_pos T2bb gl gd]
            exact leafUL hB hL st2 st6 (by omega) _ rfl (by push_cast; ring) c
  refine key.congr ?_
  simp only [oT2aa, oT2bb, LinearMap.sum_apply, LinearMap.smul_apply, Module.End.mul_apply, map_sum, map_smul, Finset.smul_sum, smul_smul, E_dn_up]
  refine Eq.trans (Finset.sum_congr rfl fun _ _ => Finset.sum_congr rfl fun _ _ => Finset.sum_congr rfl fun _ _ => Finset.sum_comm) ?_
  refine Eq.trans (Finset.sum_congr rfl fun _ _ => Finset.sum_congr rfl fun _ _ => Finset.sum_comm) ?_
  refine Eq.trans (Finset.sum_congr rfl fun _ _ => Finset.sum_congr rfl fun _ _ => Finset.sum_congr rfl fun _ _ => Finset.sum_congr rfl fun _ _ => Finset.sum_comm) ?_
  refine Eq.trans (Finset.sum_congr rfl fun _ _ => Finset.sum_congr rfl fun _ _ => Finset.sum_congr rfl fun _ _ => Finset.sum_comm) ?_
  refine Finset.sum_congr rfl fun _ _ => Finset.sum_congr rfl fun _ _ => Finset.sum_congr rfl fun _ _ => Finset.sum_congr rfl fun _ _ => Finset.sum_congr rfl fun _ _ => Finset.sum_congr rfl fun _ _ => Finset.sum_congr rfl fun _ _ => Finset.sum_congr rfl fun _ _ => ?_
  first | rfl | (congr 1; ring)

theorem add_u_T2ab_T2ab (ho : 4 ≤ order) :
    Adds (L) (u_T2ab_T2ab B (ofSet (noa + nva) (Finset.range noa)) (ofSet (nob + nvb) (Finset.range nob)) noa nva nob nvb T1a T1b T2aa T2ab T2bb)
      ((1 / 2 : K) • (oT2ab noa nva nob nvb T2ab) ((oT2ab noa nva nob nvb T2ab) (det (uref noa nob)))) := by
  have key : Adds (L) (u_T2ab_T2ab B (ofSet (noa + nva) (Finset.range noa)) (ofSet (nob + nvb) (Finset.range nob)) noa nva nob nvb T1a T1b T2aa T2ab T2bb)
      (∑ i ∈ Finset.range noa, ∑ j ∈ Finset.range nob, ∑ k ∈ Finset.range noa, ∑ l ∈ Finset.range nob, ∑ a ∈ Finset.range nva, ∑ b ∈ Finset.range nvb, ∑ c ∈ Finset.range nva, ∑ d ∈ Finset.range nvb, (((1 / 2) : K) * ((T2ab a b i j) * (T2ab c d k l))) • (E (up k) (up (c + noa)) (E (up i) (up (a + noa)) (E (dn l) (dn (d + nob)) (E (dn j) (dn (b + nob)) (det (uref noa nob))))))) := by
    unfold u_T2ab_T2ab
    refine Adds.loop_range fun i hi => ?_
    refine Adds.loop_range fun j hj => ?_
    refine Adds.loop_range fun k hk => ?_
    refine Adds.loop_range fun l hl => ?_
    refine Adds.loop_range fun a ha => ?_
    refine Adds.loop_range fun b hb => ?_
    refine Adds.loop_range fun c hc => ?_
    refine Adds.loop_range fun d hd => ?_
    intro c
    rcases (ASt.ref (K := K) noa nva).step hi ha with ⟨e1, z1⟩ | ⟨s1, S1, e1, st1⟩
    · simp only [e1, Except.bind]
      refine skip_tab ?_ c
      simp only [Module.End.mul_apply, Module.End.one_apply] at z1
      unfold uref
      simp only [E_up_dn, z1, map_zero, smul_zero]
    · simp only [e1, Except.bind]
      rcases st1.step hk hc with ⟨e2, z2⟩ | ⟨s2, S2, e2, st2⟩
      · simp only [e2, Except.bind]
        rcases (BSt.ref (K := K) nob nvb).step hj hb with ⟨e3, z3⟩ | ⟨s3, S3, e3, st3⟩
        · simp only [e3, Except.bind]
          refine skip_tab ?_ c
          simp only [Module.End.mul_apply, Module.End.one_apply] at z3
          unfold uref
          simp only [z3, map_zero, smul_zero]
        · simp only [e3, Except.bind]
          rcases st3.step hl hd with ⟨e4, z4⟩ | ⟨s4, S4, e4, st4⟩
          · simp only [e4, Except.bind]
            refine skip_tab ?_ c
            simp only [Module.End.mul_apply, Module.End.one_apply] at z2
            unfold uref
            simp only [E_up_dn, z2, map_zero, smul_zero]
          · simp only [e4, Except.bind]
            refine skip_tab ?_ c
            simp only [Module.End.mul_apply, Module.End.one_apply] at z2
            unfold uref
            simp only [E_up_dn, z2, map_zero, smul_zero]
      · simp only [e2, Except.bind]
        rcases (BSt.ref (K := K) nob nvb).step hj hb with ⟨e5, z5⟩ | ⟨s5, S5, e5, st5⟩
        · simp only [e5, Except.bind]
          refine skip_tab ?_ c
          simp only [Module.End.mul_apply, Module.End.one_apply] at z5
          unfold uref
          simp only [z5, map_zero, smul_zero]
        · simp only [e5, Except.bind]
          rcases st5.step hl hd with ⟨e6, z6⟩ | ⟨s6, S6, e6, st6⟩
          · simp only [e6, Except.bind]
            refine skip_tab ?_ c
            simp only [Module.End.mul_apply, Module.End.one_apply] at z6
            unfold uref
            simp only [z6, map_zero, smul_zero]
          · simp only [e6, Except.bind]
            exact leafUL hB hL st2 st6 (by omega) _ rfl (by push_cast; ring) c
  refine key.congr ?_
  simp only [oT2ab, LinearMap.sum_apply, LinearMap.smul_apply, Module.End.mul_apply, map_sum, map_smul, Finset.smul_sum, smul_smul, E_dn_up]
  refine Eq.trans (Finset.sum_congr rfl fun _ _ => Finset.sum_congr rfl fun _ _ => Finset.sum_congr rfl fun _ _ => Finset.sum_comm) ?_
  refine Eq.trans (Finset.sum_congr rfl fun _ _ => Finset.sum_congr rfl fun _ _ => Finset.sum_comm) ?_
  refine Eq.trans (Finset.sum_congr rfl fun _ _ => Finset.sum_congr rfl fun _ _ => Finset.sum_congr rfl fun _ _ => Finset.sum_congr rfl fun _ _ => Finset.sum_comm) ?_
  refine Eq.trans (Finset.sum_congr rfl fun _ _ => Finset.sum_congr rfl fun _ _ => Finset.sum_congr rfl fun _ _ => Finset.sum_comm) ?_
  refine Finset.sum_congr rfl fun _ _ => Finset.sum_congr rfl fun _ _ => Finset.sum_congr rfl fun _ _ => Finset.sum_congr rfl fun _ _ => Finset.sum_congr rfl fun _ _ => Finset.sum_congr rfl fun _ _ => Finset.sum_congr rfl fun _ _ => Finset.sum_congr rfl fun _ _ => ?_
  first | rfl | (congr 1; ring)

theorem add_u_T2ab_T2bb (ho : 4 ≤ order) :
    Adds (L) (u_T2ab_T2bb B (ofSet (noa + nva) (Finset.range noa)) (ofSet (nob + nvb) (Finset.range nob)) noa nva nob nvb T1a T1b T2aa T2ab T2bb)
      ((oT2bb nob nvb T2bb) ((oT2ab noa nva nob nvb T2ab) (det (uref noa nob)))) := by
  have key : Adds (L) (u_T2ab_T2bb B (ofSet (noa + nva) (Finset.range noa)) (ofSet (nob + nvb) (Finset.range nob)) noa nva nob nvb T1a T1b T2aa T2ab T2bb)
      (∑ i ∈ Finset.range noa, ∑ j ∈ Finset.range nob, ∑ k ∈ Finset.range nob, ∑ l ∈ Finset.range nob, ∑ a ∈ Finset.range nva, ∑ b ∈ Finset.range nvb, ∑ c ∈ Finset.range nvb, ∑ d ∈ Finset.range nvb, ((T2ab a b i j) * (tri T2bb c d k l)) • (E (up i) (up (a + noa)) (E (dn l) (dn (d + nob)) (E (dn k) (dn (c + nob)) (E (dn j) (dn (b + nob)) (det (uref noa nob))))))) := by
    unfold u_T2ab_T2bb
    refine Adds.loop_range fun i hi => ?_
    refine Adds.loop_range fun j hj => ?_
    refine Adds.loop_range fun k hk => ?_
    refine Adds.loop_lt (fun l gl hl => ?_) (fun l h => by simp only [tri_i _ _ _ h, mul_zero, zero_mul, zero_smul, Finset.sum_const_zero])
    refine Adds.loop_range fun a ha => ?_
    refine Adds.loop_range fun b hb => ?_
    refine Adds.loop_range fun c hc => ?_
    refine Adds.loop_lt (fun d gd hd => ?_) (fun d h => by simp only [tri_a _ _ _ h, mul_zero, zero_mul, zero_smul, Finset.sum_const_zero])
    intro c
    rcases (ASt.ref (K := K) noa nva).step hi ha with ⟨e1, z1⟩ | ⟨s1, S1, e1, st1⟩
    · simp only [e1, Except.bind]
      rcases (BSt.ref (K := K) nob nvb).step hj hb with ⟨e2, z2⟩ | ⟨s2, S2, e2, st2⟩
      · simp only [e2, Except.bind]
        refine skip_tab ?_ c
        simp only [Module.End.mul_apply, Module.End.one_apply] at z2
        unfold uref
        simp only [z2, map_zero, smul_zero]
      · simp only [e2, Except.bind]
        rcases st2.step hk hc with ⟨e3, z3⟩ | ⟨s3, S3, e3, st3⟩
        · simp only [e3, Except.bind]
          refine skip_tab ?_ c
          simp only [Module.End.mul_apply, Module.End.one_apply] at z3
          unfold uref
          simp only [z3, map_zero, smul_zero]
        · simp only [e3, Except.bind]
          rcases st3.step hl hd with ⟨e4, z4⟩ | ⟨s4, S4, e4, st4⟩
          · simp only [e4, Except.bind]
            refine skip_tab ?_ c
            simp only [Module.End.mul_apply, Module.End.one_apply] at z1
            unfold uref
            simp only [E_up_dn, z1, map_zero, smul_zero]
          · simp only [e4, Except.bind]
            refine skip_tab ?_ c
            simp only [Module.End.mul_apply, Module.End.one_apply] at z1
            unfold uref
            simp only [E_up_dn, z1, map_zero, smul_zero]
    · simp only [e1, Except.bind]
      rcases (BSt.ref (K := K) nob nvb).step hj hb with ⟨e5, z5⟩ | ⟨s5, S5, e5, st5⟩
      · simp only [e5, Except.bind]
        refine skip_tab ?_ c
        simp only [Module.End.mul_apply, Module.End.one_apply] at z5
        unfold uref
        simp only [z5, map_zero, smul_zero]
      · simp only [e5, Except.bind]
        rcases st5.step hk hc with ⟨e6, z6⟩ | ⟨s6, S6, e6, st6⟩
        · simp only [e6, Except.bind]
          refine skip_tab ?_ c
          simp only [Module.End.mul_apply, Module.End.one_apply] at z6
          unfold uref
          simp only [z6, map_zero, smul_zero]
        · simp only [e6, Except.bind]
          rcases st6.step hl hd with ⟨e7, z7⟩ | ⟨s7, S7, e7, st7⟩
          · simp only [e7, Except.bind]
            refine skip_tab ?_ c
            simp only [Module.End.mul_apply, Module.End.one_apply] at z7
            unfold uref
            simp only [z7, map_zero, smul_zero]
          · simp only [e7, Except.bind]
            rw [tri_pos T2bb gl gd]
            exact leafUL hB hL st1 st7 (by omega) _ rfl (by push_cast; ring) c
  refine key.congr ?_
  simp only [oT2ab, oT2bb, LinearMap.sum_apply, LinearMap.smul_apply, Module.End.mul_apply, map_sum, map_smul, Finset.smul_sum, smul_smul, E_dn_up]
  refine Eq.trans (Finset.sum_congr rfl fun _ _ => Finset.sum_congr rfl fun _ _ => Finset.sum_congr rfl fun _ _ => Finset.sum_comm) ?_
  refine Eq.trans (Finset.sum_congr rfl fun _ _ => Finset.sum_congr rfl fun _ _ => Finset.sum_comm) ?_
  refine Eq.trans (Finset.sum_congr rfl fun _ _ => Finset.sum_congr rfl fun _ _ => Finset.sum_congr rfl fun _ _ => Finset.sum_congr rfl fun _ _ => Finset.sum_comm) ?_
  refine Eq.trans (Finset.sum_congr rfl fun _ _ => Finset.sum_congr rfl fun _ _ => Finset.sum_congr rfl fun _ _ => Finset.sum_comm) ?_
  refine Finset.sum_congr rfl fun _ _ => Finset.sum_congr rfl fun _ _ => Finset.sum_congr rfl fun _ _ => Finset.sum_congr rfl fun _ _ => Finset.sum_congr rfl fun _ _ => Finset.sum_congr rfl fun _ _ => Finset.sum_congr rfl fun _ _ => Finset.sum_congr rfl fun _ _ => ?_
  first | rfl | (congr 1; ring)

theorem add_u_T2bb_T2bb (ho : 4 ≤ order) :
    Adds (L) (u_T2bb_T2bb B (ofSet (noa + nva) (Finset.range noa)) (ofSet (nob + nvb) (Finset.range nob)) noa nva nob nvb T1a T1b T2aa T2ab T2bb)
      ((1 / 2 : K) • (oT2bb nob nvb T2bb) ((oT2bb nob nvb T2bb) (det (uref noa nob)))) := by
  have key : Adds (L) (u_T2bb_T2bb B (ofSet (noa + nva) (Finset.range noa)) (ofSet (nob + nvb) (Finset.range nob)) noa nva nob nvb T1a T1b T2aa T2ab T2bb)
      (∑ i ∈ Finset.range nob, ∑ j ∈ Finset.range nob, ∑ k ∈ Finset.range nob, ∑ l ∈ Finset.range nob, ∑ a ∈ Finset.range nvb, ∑ b ∈ Finset.range nvb, ∑ c ∈ Finset.range nvb, ∑ d ∈ Finset.range nvb, (((1 / 2) : K) * ((tri T2bb a b i j) * (tri T2bb c d k l))) • (E (dn l) (dn (d + nob)) (E (dn k) (dn (c + nob)) (E (dn j) (dn (b + nob)) (E (dn i) (dn (a + nob)) (det (uref noa nob))))))) := by
    unfold u_T2bb_T2bb
    refine Adds.loop_range fun i hi => ?_
    refine Adds.loop_lt (fun j gj hj => ?_) (fun j h => by simp only [tri_i _ _ _ h, mul_zero, zero_mul, zero_smul, Finset.sum_const_zero])
    refine Adds.loop_range fun k hk => ?_
    refine Adds.loop_lt (fun l gl hl => ?_) (fun l h => by simp only [tri_i _ _ _ h, mul_zero, zero_mul, zero_smul, Finset.sum_const_zero])
    refine Adds.loop_range fun a ha => ?_
    refine Adds.loop_lt (fun b gb hb => ?_) (fun b h => by simp only [tri_a _ _ _ h, mul_zero, zero_mul, zero_smul, Finset.sum_const_zero])
    refine Adds.loop_range fun c hc => ?_
    refine Adds.loop_lt (fun d gd hd => ?_) (fun d h => by simp only [tri_a _ _ _ h, mul_zero, zero_mul, zero_smul, Finset.sum_const_zero])
    intro c
    rcases (BSt.ref (K := K) nob nvb).step hi ha with ⟨e1, z1⟩ | ⟨s1, S1, e1, st1⟩
    · simp only [e1, Except.bind]
      refine skip_tab ?_ c
      simp only [Module.End.mul_apply, Module.End.one_apply] at z1
      unfold uref
      simp only [z1, map_zero, smul_zero]
    · simp only [e1, Except.bind]
      rcases st1.step hj hb with ⟨e2, z2⟩ | ⟨s2, S2, e2, st2⟩
      · simp only [e2, Except.bind]
        refine skip_tab ?_ c
        simp only [Module.End.mul_apply, Module.End.one_apply] at z2
        unfold uref
        simp only [z2, map_zero, smul_zero]
      · simp only [e2, Except.bind]
        rcases st2.step hk hc with ⟨e3, z3⟩ | ⟨s3, S3, e3, st3⟩
        · simp only [e3, Except.bind]
          refine skip_tab ?_ c
          simp only [Module.End.mul_apply, Module.End.one_apply] at z3
          unfold uref
          simp only [z3, map_zero, smul_zero]
        · simp only [e3, Except.bind]
          rcases st3.step hl hd with ⟨e4, z4⟩ | ⟨s4, S4, e4, st4⟩
          · simp only [e4, Except.bind]
            refine skip_tab ?_ c
            simp only [Module.End.mul_apply, Module.End.one_apply] at z4
            unfold uref
            simp only [z4, map_zero, smul_zero]
          · simp only [e4, Except.bind]
            rw [tri_pos T2bb gj gb, tri_pos T2bb gl gd]
            exact leafUL hB hL (ASt.ref (K := K) noa nva) st4 (by omega) _ rfl (by push_cast; ring) c
  refine key.congr ?_
  simp only [oT2bb, LinearMap.sum_apply, LinearMap.smul_apply, Module.End.mul_apply, map_sum, map_smul, Finset.smul_sum, smul_smul, E_dn_up]
  refine Eq.trans (Finset.sum_congr rfl fun _ _ => Finset.sum_congr rfl fun _ _ => Finset.sum_congr rfl fun _ _ => Finset.sum_comm) ?_
  refine Eq.trans (Finset.sum_congr rfl fun _ _ => Finset.sum_congr rfl fun _ _ => Finset.sum_comm) ?_
  refine Eq.trans (Finset.sum_congr rfl fun _ _ => Finset.sum_congr rfl fun _ _ => Finset.sum_congr rfl fun _ _ => Finset.sum_congr rfl fun _ _ => Finset.sum_comm) ?_
  refine Eq.trans (Finset.sum_congr rfl fun _ _ => Finset.sum_congr rfl fun _ _ => Finset.sum_congr rfl fun _ _ => Finset.sum_comm) ?_
  refine Finset.sum_congr rfl fun _ _ => Finset.sum_congr rfl fun _ _ => Finset.sum_congr rfl fun _ _ => Finset.sum_congr rfl fun _ _ => Finset.sum_congr rfl fun _ _ => Finset.sum_congr rfl fun _ _ => Finset.sum_congr rfl fun _ _ => Finset.sum_congr rfl fun _ _ => ?_
  first | rfl | (congr 1; ring)

theorem add_u_T1a_T1a_T2aa (ho : 4 ≤ order) :
    Adds (L) (u_T1a_T1a_T2aa B (ofSet (noa + nva) (Finset.range noa)) (ofSet (nob + nvb) (Finset.range nob)) noa nva nob nvb T1a T1b T2aa T2ab T2bb)
      ((1 / 2 : K) • (oT2aa noa nva T2aa) ((oT1a noa nva T1a) ((oT1a noa nva T1a) (det (uref noa nob))))) := by
  have key : Adds (L) (u_T1a_T1a_T2aa B (ofSet (noa + nva) (Finset.range noa)) (ofSet (nob + nvb) (Finset.range nob)) noa nva nob nvb T1a T1b T2aa T2ab T2bb)
      (∑ i ∈ Finset.range noa, ∑ j ∈ Finset.range noa, ∑ k ∈ Finset.range noa, ∑ l ∈ Finset.range noa, ∑ a ∈ Finset.range nva, ∑ b ∈ Finset.range nva, ∑ c ∈ Finset.range nva, ∑ d ∈ Finset.range nva, (((1 / 2) : K) * ((T1a a i) * (T1a b j) * (tri T2aa c d k l))) • (E (up l) (up (d + noa)) (E (up k) (up (c + noa)) (E (up j) (up (b + noa)) (E (up i) (up (a + noa)) (det (uref noa nob))))))) := by
    unfold u_T1a_T1a_T2aa
    refine Adds.loop_range fun i hi => ?_
    refine Adds.loop_range fun j hj => ?_
    refine Adds.loop_range fun k hk => ?_
    refine Adds.loop_lt (fun l gl hl => ?_) (fun l h => by simp only [tri_i _ _ _ h, mul_zero, zero_mul, zero_smul, Finset.sum_const_zero])
    refine Adds.loop_range fun a ha => ?_
    refine Adds.loop_range fun b hb => ?_
    refine Adds.loop_range fun c hc => ?_
    refine Adds.loop_lt (fun d gd hd => ?_) (fun d h => by simp only [tri_a _ _ _ h, mul_zero, zero_mul, zero_smul, Finset.sum_const_zero])
    intro c
    rcases (ASt.ref (K := K) noa nva).step hi ha with ⟨e1, z1⟩ | ⟨s1, S1, e1, st1⟩
    · simp only [e1, Except.bind]
      refine skip_tab ?_ c
      simp only [Module.End.mul_apply, Module.End.one_apply] at z1
      unfold uref
      simp only [E_up_dn, z1, map_zero, smul_zero]
    · simp only [e1, Except.bind]
      rcases st1.step hj hb with ⟨e2, z2⟩ | ⟨s2, S2, e2, st2⟩
      · simp only [e2, Except.bind]
        refine skip_tab ?_ c
        simp only [Module.End.mul_apply, Module.End.one_apply] at z2
        unfold uref
        simp only [E_up_dn, z2, map_zero, smul_zero]
      · simp only [e2, Except.bind]
        rcases st2.step hk hc with ⟨e3, z3⟩ | ⟨s3, S3, e3, st3⟩
        · simp only [e3, Except.bind]
          refine skip_tab ?_ c
          simp only [Module.End.mul_apply, Module.End.one_apply] at z3
          unfold uref
          simp only [E_up_dn, z3, map_zero, smul_zero]
        · simp only [e3, Except.bind]
          rcases st3.step hl hd with ⟨e4, z4⟩ | ⟨s4, S4, e4, st4⟩
          · simp only [e4, Except.bind]
            refine skip_tab ?_ c
            simp only [Module.End.mul_apply, Module.End.one_apply] at z4
            unfold uref
            simp only [E_up_dn, z4, map_zero, smul_zero]
          · simp only [e4, Except.bind]
            rw [tri_pos T2aa gl gd]
            exact leafUL hB hL st4 (BSt.ref (K := K) nob nvb) (by omega) _ rfl (by push_cast; ring) c
  refine key.congr ?_
  simp only [oT1a, oT2aa, LinearMap.sum_apply, LinearMap.smul_apply, Module.End.mul_apply, map_sum, map_smul, Finset.smul_sum, smul_smul, E_dn_up]
  refine Eq.trans (Finset.sum_congr rfl fun _ _ => Finset.sum_comm) ?_
  refine Eq.trans (Finset.sum_congr rfl fun _ _ => Finset.sum_congr rfl fun _ _ => Finset.sum_congr rfl fun _ _ => Finset.sum_comm) ?_
  refine Eq.trans (Finset.sum_congr rfl fun _ _ => Finset.sum_congr rfl fun _ _ => Finset.sum_comm) ?_
  refine Eq.trans (Finset.sum_congr rfl fun _ _ => Finset.sum_congr rfl fun _ _ => Finset.sum_congr rfl fun _ _ => Finset.sum_congr rfl fun _ _ => Finset.sum_comm) ?_
  refine Eq.trans (Finset.sum_congr rfl fun _ _ => Finset.sum_congr rfl fun _ _ => Finset.sum_congr rfl fun _ _ => Finset.sum_comm) ?_
  refine Finset.sum_congr rfl fun _ _ => Finset.sum_congr rfl fun _ _ => Finset.sum_congr rfl fun _ _ => Finset.sum_congr rfl fun _ _ => Finset.sum_congr rfl fun _ _ => Finset.sum_congr rfl fun _ _ => Finset.sum_congr rfl fun _ _ => Finset.sum_congr rfl fun _ _ => ?_
  first | rfl | (congr 1; ring)

theorem add_u_T1a_T1a_T2ab (ho : 4 ≤ order) :
    Adds (L) (u_T1a_T1a_T2ab B (ofSet (noa + nva) (Finset.range noa)) (ofSet (nob + nvb) (Finset.range nob)) noa nva nob nvb T1a T1b T2aa T2ab T2bb)
      ((1 / 2 : K) • (oT2ab noa nva nob nvb T2ab) ((oT1a noa nva T1a) ((oT1a noa nva T1a) (det (uref noa nob))))) := by
  have key : Adds (L) (u_T1a_T1a_T2ab B (ofSet (noa + nva) (Finset.range noa)) (ofSet (nob + nvb) (Finset.range nob)) noa nva nob nvb T1a T1b T2aa T2ab T2bb)
      (∑ i ∈ Finset.range noa, ∑ j ∈ Finset.range noa, ∑ k ∈ Finset.range noa, ∑ l ∈ Finset.range nob, ∑ a ∈ Finset.range nva, ∑ b ∈ Finset.range nva, ∑ c ∈ Finset.range nva, ∑ d ∈ Finset.range nvb, (((1 / 2) : K) * ((T1a a i) * (T1a b j) * (T2ab c d k l))) • (E (up k) (up (c + noa)) (E (up j) (up (b + noa)) (E (up i) (up (a + noa)) (E (dn l) (dn (d + nob)) (det (uref noa nob))))))) := by
    unfold u_T1a_T1a_T2ab
    refine Adds.loop_range fun i hi => ?_
    refine Adds.loop_range fun j hj => ?_
    refine Adds.loop_range fun k hk => ?_
    refine Adds.loop_range fun l hl => ?_
    refine Adds.loop_range fun a ha => ?_
    refine Adds.loop_range fun b hb => ?_
    refine Adds.loop_range fun c hc => ?_
    refine Adds.loop_range fun d hd => ?_
    intro c
    rcases (ASt.ref (K := K) noa nva).step hi ha with ⟨e1, z1⟩ | ⟨s1, S1, e1, st1⟩
    · simp only [e1, Except.bind]
      refine skip_tab ?_ c
      simp only [Module.End.mul_apply, Module.End.one_apply] at z1
      unfold uref
      simp only [E_up_dn, z1, map_zero, smul_zero]
    · simp only [e1, Except.bind]
      rcases st1.step hj hb with ⟨e2, z2⟩ | ⟨s2, S2, e2, st2⟩
      · simp only [e2, Except.bind]
        refine skip_tab ?_ c
        simp only [Module.End.mul_apply, Module.End.one_apply] at z2
        unfold uref
        simp only [E_up_dn, z2, map_zero, smul_zero]
      · simp only [e2, Except.bind]
        rcases st2.step hk hc with ⟨e3, z3⟩ | ⟨s3, S3, e3, st3⟩
        · simp only [e3, Except.bind]
          rcases (BSt.ref (K := K) nob nvb).step hl hd with ⟨e4, z4⟩ | ⟨s4, S4, e4, st4⟩
          · simp only [e4, Except.bind]
            refine skip_tab ?_ c
            simp only [Module.End.mul_apply, Module.End.one_apply] at z3
            unfold uref
            simp only [E_up_dn, z3, map_zero, smul_zero]
          · simp only [e4, Except.bind]
            refine skip_tab ?_ c
            simp only [Module.End.mul_apply, Module.End.one_apply] at z3
            unfold uref
            simp only [E_up_dn, z3, map_zero, smul_zero]
        · simp only [e3, Except.bind]
          rcases (BSt.ref (K := K) nob nvb).step hl hd with ⟨e5, z5⟩ | ⟨s5, S5, e5, st5⟩
          · simp only [e5, Except.bind]
            refine skip_tab ?_ c
            simp only [Module.End.mul_apply, Module.End.one_apply] at z5
            unfold uref
            simp only [z5, map_zero, smul_zero]
          · simp only [e5, Except.bind]
            exact leafUL hB hL st3 st5 (by omega) _ rfl (by push_cast; ring) c
  refine key.congr ?_
  simp only [oT1a, oT2ab, LinearMap.sum_apply, LinearMap.smul_apply, Module.End.mul_apply, map_sum, map_smul, Finset.smul_sum, smul_smul, E_dn_up]
  refine Eq.trans (Finset.sum_congr rfl fun _ _ => Finset.sum_comm) ?_
  refine Eq.trans (Finset.sum_congr rfl fun _ _ => Finset.sum_congr rfl fun _ _ => Finset.sum_congr rfl fun _ _ => Finset.sum_comm) ?_
  refine Eq.trans (Finset.sum_congr rfl fun _ _ => Finset.sum_congr rfl fun _ _ => Finset.sum_comm) ?_
  refine Eq.trans (Finset.sum_congr rfl fun _ _ => Finset.sum_congr rfl fun _ _ => Finset.sum_congr rfl fun _ _ => Finset.sum_congr rfl fun _ _ => Finset.sum_comm) ?_
  refine Eq.trans (Finset.sum_congr rfl fun _ _ => Finset.sum_congr rfl fun _ _ => Finset.sum_congr rfl fun _ _ => Finset.sum_comm) ?_
  refine Finset.sum_congr rfl fun _ _ => Finset.sum_congr rfl fun _ _ => Finset.sum_congr rfl fun _ _ => Finset.sum_congr rfl fun _ _ => Finset.sum_congr rfl fun _ _ => Finset.sum_congr rfl fun _ _ => Finset.sum_congr rfl fun _ _ => Finset.sum_congr rfl fun _ _ => ?_
  first | rfl | (congr 1; ring)

theorem add_u_T1a_T1b_T2aa (ho : 4 ≤ order) :
    Adds (L) (u_T1a_T1b_T2aa B (ofSet (noa + nva) (Finset.range noa)) (ofSet (nob + nvb) (Finset.range nob)) noa nva nob nvb T1a T1b T2aa T2ab T2bb)
      ((oT2aa noa nva T2aa) ((oT1b nob nvb T1b) ((oT1a noa nva T1a) (det (uref noa nob))))) := by
  have key : Adds (L) (u_T1a_T1b_T2aa B (ofSet (noa + nva) (Finset.range noa)) (ofSet (nob + nvb) (Finset.range nob)) noa nva nob nvb T1a T1b T2aa T2ab T2bb)
      (∑ i ∈ Finset.range noa, ∑ j ∈ Finset.range nob, ∑ k ∈ Finset.range noa, ∑ l ∈ Finset.range noa, ∑ a ∈ Finset.range nva, ∑ b ∈ Finset.range nvb, ∑ c ∈ Finset.range nva, ∑ d ∈ Finset.range nva, ((T1a a i) * (T1b b j) * (tri T2aa c d k l)) • (E (up l) (up (d + noa)) (E (up k) (up (c + noa)) (E (up i) (up (a + noa)) (E (dn j) (dn (b + nob)) (det (uref noa nob))))))) := by
    unfold u_T1a_T1b_T2aa
    refine Adds.loop_range fun i hi => ?_
    refine Adds.loop_range fun j hj => ?_
    refine Adds.loop_range fun k hk => ?_
    refine Adds.loop_lt (fun l gl hl => ?_) (fun l h => by simp only [tri_i _ _ _ h, mul_zero, zero_mul, zero_smul, Finset.sum_const_zero])
    refine Adds.loop_range fun a ha => ?_
    refine Adds.loop_range fun b hb => ?_
    refine Adds.loop_range fun c hc => ?_
    refine Adds.loop_lt (fun d gd hd => ?_) (fun d h => by simp only [tri_a _ _ _ h, mul_zero, zero_mul, zero_smul, Finset.sum_const_zero])
    intro c
    rcases (ASt.ref (K := K) noa nva).step hi ha with ⟨e1, z1⟩ | ⟨s1, S1, e1, st1⟩
    · simp only [e1, Except.bind]
      refine skip_tab ?_ c
      simp only [Module.End.mul_apply, Module.End.one_apply] at z1
      unfold uref
      simp only [E_up_dn, z1, map_zero, smul_zero]
    · simp only [e1, Except.bind]
      rcases st1.step hk hc with ⟨e2, z2⟩ | ⟨s2, S2, e2, st2⟩
      · simp only [e2, Except.bind]
        refine skip_tab ?_ c
        simp only [Module.End.mul_apply, Module.End.one_apply] at z2
        unfold uref
        simp only [E_up_dn, z2, map_zero, smul_zero]
      · simp only [e2, Except.bind]
        rcases st2.step hl hd with ⟨e3, z3⟩ | ⟨s3, S3, e3, st3⟩
        · simp only [e3, Except.bind]
          rcases (BSt.ref (K := K) nob nvb).step hj hb with ⟨e4, z4⟩ | ⟨s4, S4, e4, st4⟩
          · simp only [e4, Except.bind]
            refine skip_tab ?_ c
            simp only [Module.End.mul_apply, Module.End.one_apply] at z3
            unfold uref
            simp only [E_up_dn, z3, map_zero, smul_zero]
          · simp only [e4, Except.bind]
            refine skip_tab ?_ c
            simp only [Module.End.mul_apply, Module.End.one_apply] at z3
            unfold uref
            simp only [E_up_dn, z3, map_zero, smul_zero]
        · simp only [e3, Except.bind]
          rcases (BSt.ref (K := K) nob nvb).step hj hb with ⟨e5, z5⟩ | ⟨s5, S5, e5, st5⟩
          · simp only [e5, Except.bind]
            refine skip_tab ?_ c
            simp only [Module.End.mul_apply, Module.End.one_apply] at z5
            unfold uref
            simp only [z5, map_zero, smul_zero]
          · simp only [e5, Except.bind]
            rw [tri_pos T2aa gl gd]
            exact leafUL hB hL st3 st5 (by omega) _ rfl (by push_cast; ring) c
  refine key.congr ?_
  simp only [oT1a, oT1b, oT2aa, LinearMap.sum_apply, LinearMap.smul_apply, Module.End.mul_apply, map_sum, map_smul, Finset.smul_sum, smul_smul, E_dn_up]
  refine Eq.trans (Finset.sum_congr rfl fun _ _ => Finset.sum_comm) ?_
  refine Eq.trans (Finset.sum_congr rfl fun _ _ => Finset.sum_congr rfl fun _ _ => Finset.sum_congr rfl fun _ _ => Finset.sum_comm) ?_
  refine Eq.trans (Finset.sum_congr rfl fun _ _ => Finset.sum_congr rfl fun _ _ => Finset.sum_comm) ?_
  refine Eq.trans (Finset.sum_congr rfl fun _ _ => Finset.sum_congr rfl fun _ _ => Finset.sum_congr rfl fun _ _ => Finset.sum_congr rfl fun _ _ => Finset.sum_comm) ?_
  refine Eq.trans (Finset.sum_congr rfl fun _ _ => Finset.sum_congr rfl fun _ _ => Finset.sum_congr rfl fun _ _ => Finset.sum_comm) ?_
  refine Finset.sum_congr rfl fun _ _ => Finset.sum_congr rfl fun _ _ => Finset.sum_congr rfl fun _ _ => Finset.sum_congr rfl fun _ _ => Finset.sum_congr rfl fun _ _ => Finset.sum_congr rfl fun _ _ => Finset.sum_congr rfl fun _ _ => Finset.sum_congr rfl fun _ _ => ?_
  first | rfl | (congr 1; ring)

theorem add_u_T1a_T1a_T2bb (ho : 4 ≤ order) :
    Adds (L) (u_T1a_T1a_T2bb B (ofSet (noa + nva) (Finset.range noa)) (ofSet (nob + nvb) (Finset.range nob)) noa nva nob nvb T1a T1b T2aa T2ab T2bb)
      ((1 / 2 : K) • (oT2bb nob nvb T2bb) ((oT1a noa nva T1a) ((oT1a noa nva T1a) (det (uref noa nob))))) := by
  have key : Adds (L) (u_T1a_T1a_T2bb B (ofSet (noa + nva) (Finset.range noa)) (ofSet (nob + nvb) (Finset.range nob)) noa nva nob nvb T1a T1b T2aa T2ab T2bb)
      (∑ i ∈ Finset.range noa, ∑ j ∈ Finset.range noa, ∑ k ∈ Finset.range nob, ∑ l ∈ Finset.range nob, ∑ a ∈ Finset.range nva, ∑ b ∈ Finset.range nva, ∑ c ∈ Finset.range nvb, ∑ d ∈ Finset.range nvb, (((1 / 2) : K) * ((T1a a i) * (T1a b j) * (tri T2bb c d k l))) • (E (up j) (up (b + noa)) (E (up i) (up (a + noa)) (E (dn l) (dn (d + nob)) (E (dn k) (dn (c + nob)) (det (uref noa nob))))))) := by
    unfold u_T1a_T1a_T2bb
    refine Adds.loop_range fun i hi => ?_
    refine Adds.loop_range fun j hj => ?_
    refine Adds.loop_range fun k hk => ?_
    refine Adds.loop_lt (fun l gl hl => ?_) (fun l h => by simp only [tri_i _ _ _ h, mul_zero, zero_mul, zero_smul, Finset.sum_const_zero])
    refine Adds.loop_range fun a ha => ?_
    refine Adds.loop_range fun b hb => ?_
    refine Adds.loop_range fun c hc => ?_
    refine Adds.loop_lt (fun d gd hd => ?_) (fun d h => by simp only [tri_a _ _ _ h, mul_zero, zero_mul, zero_smul, Finset.sum_const_zero])
    intro c
    rcases (ASt.ref (K := K) noa nva).step hi ha with ⟨e1, z1⟩ | ⟨s1, S1, e1, st1⟩
    · simp only [e1, Except.bind]
      refine skip_tab ?_ c
      simp only [Module.End.mul_apply, Module.End.one_apply] at z1
      unfold uref
      simp only [E_up_dn, z1, map_zero, smul_zero]
    · simp only [e1, Except.bind]
      rcases st1.step hj hb with ⟨e2, z2⟩ | ⟨s2, S2, e2, st2⟩
      · simp only [e2, Except.bind]
        refine skip_tab ?_ c
        simp only [Module.End.mul_apply, Module.End.one_apply] at z2
        unfold uref
        simp only [E_up_dn, z2, map_zero, smul_zero]
      · simp only [e2, Except.bind]
        rcases (BSt.ref (K := K) nob nvb).step hk hc with ⟨e3, z3⟩ | ⟨s3, S3, e3, st3⟩
        · simp only [e3, Except.bind]
          refine skip_tab ?_ c
          simp only [Module.End.mul_apply, Module.End.one_apply] at z3
          unfold uref
          simp only [z3, map_zero, smul_zero]
        · simp only [e3, Except.bind]
          rcases st3.step hl hd with ⟨e4, z4⟩ | ⟨s4, S4, e4, st4⟩
          · simp only [e4, Except.bind]
            refine skip_tab ?_ c
            simp only [Module.End.mul_apply, Module.End.one_apply] at z4
            unfold uref
            simp only [z4, map_zero, smul_zero]
          · simp only [e4, Except.bind]
            rw [tri_pos T2bb gl gd]
            exact leafUL hB hL st2 st4 (by omega) _ rfl (by push_cast; ring) c
  refine key.congr ?_
  simp only [oT1a, oT2bb, LinearMap.sum_apply, LinearMap.smul_apply, Module.End.mul_apply, map_sum, map_smul, Finset.smul_sum, smul_smul, E_dn_up]
  refine Eq.trans (Finset.sum_congr rfl fun _ _ => Finset.sum_comm) ?_
  refine Eq.trans (Finset.sum_congr rfl fun _ _ => Finset.sum_congr rfl fun _ _ => Finset.sum_congr rfl fun _ _ => Finset.sum_comm) ?_
  refine Eq.trans (Finset.sum_congr rfl fun _ _ => Finset.sum_congr rfl fun _ _ => Finset.sum_comm) ?_
  refine Eq.trans (Finset.sum_congr rfl fun _ _ => Finset.sum_congr rfl fun _ _ => Finset.sum_congr rfl fun _ _ => Finset.sum_congr rfl fun _ _ => Finset.sum_comm) ?_
  refine Eq.trans (Finset.sum_congr rfl fun _ _ => Finset.sum_congr rfl fun _ _ => Finset.sum_congr rfl fun _ _ => Finset.sum_comm) ?_
  refine Finset.sum_congr rfl fun _ _ => Finset.sum_congr rfl fun _ _ => Finset.sum_congr rfl fun _ _ => Finset.sum_congr rfl fun _ _ => Finset.sum_congr rfl fun _ _ => Finset.sum_congr rfl fun _ _ => Finset.sum_congr rfl fun _ _ => Finset.sum_congr rfl fun _ _ => ?_
  first | rfl | (congr 1; ring)

theorem add_u_T1a_T1b_T2ab (ho : 4 ≤ order) :
    Adds (L) (u_T1a_T1b_T2ab B (ofSet (noa + nva) (Finset.range noa)) (ofSet (nob + nvb) (Finset.range nob)) noa nva nob nvb T1a T1b T2aa T2ab T2bb)
      ((oT2ab noa nva nob nvb T2ab) ((oT1b nob nvb T1b) ((oT1a noa nva T1a) (det (uref noa nob))))) := by
  have key : Adds (L) (u_T1a_T1b_T2ab B (ofSet (noa + nva) (Finset.range noa)) (ofSet (nob + nvb) (Finset.range nob)) noa nva nob nvb T1a T1b T2aa T2ab T2bb)
      (∑ i ∈ Finset.range noa, ∑ j ∈ Finset.range nob, ∑ k ∈ Finset.range noa, ∑ l ∈ Finset.range nob, ∑ a ∈ Finset.range nva, ∑ b ∈ Finset.range nvb, ∑ c ∈ Finset.range nva, ∑ d ∈ Finset.range nvb, ((T1a a i) * (T1b b j) * (T2ab c d k l)) • (E (up k) (up (c + noa)) (E (up i) (up (a + noa)) (E (dn l) (dn (d + nob)) (E (dn j) (dn (b + nob)) (det (uref noa nob))))))) := by
    unfold u_T1a_T1b_T2ab
    refine Adds.loop_range fun i hi => ?_
    refine Adds.loop_range fun j hj => ?_
    refine Adds.loop_range fun k hk => ?_
    refine Adds.loop_range fun l hl => ?_
    refine Adds.loop_range fun a ha => ?_
    refine Adds.loop_range fun b hb => ?_
    refine Adds.loop_range fun c hc => ?_
    refine Adds.loop_range fun d hd => ?_
    intro c
    rcases (ASt.ref (K := K) noa nva).step hi ha with ⟨e1, z1⟩ | ⟨s1, S1, e1, st1⟩
    · simp only [e1, Except.bind]
      refine skip_tab ?_ c
      simp only [Module.End.mul_apply, Module.End.one_apply] at z1
      unfold uref
      simp only [E_up_dn, z1, map_zero, smul_zero]
    · simp only [e1, Except.bind]
      rcases st1.step hk hc with ⟨e2, z2⟩ | ⟨s2, S2, e2, st2⟩
      · simp only [e2, Except.bind]
        rcases (BSt.ref (K := K) nob nvb).step hj hb with ⟨e3, z3⟩ | ⟨s3, S3, e3, st3⟩
        · simp only [e3, Except.bind]
          refine skip_tab ?_ c
          simp only [Module.End.mul_apply, Module.End.one_apply] at z3
          unfold uref
          simp only [z3, map_zero, smul_zero]
        · simp only [e3, Except.bind]
          rcases st3.step hl hd with ⟨e4, z4⟩ | ⟨s4, S4, e4, st4⟩
          · simp only [e4, Except.bind]
            refine skip_tab ?_ c
            simp only [Module.End.mul_apply, Module.End.one_apply] at z2
            unfold uref
            simp only [E_up_dn, z2, map_zero, smul_zero]
          · simp only [e4, Except.bind]
            refine skip_tab ?_ c
            simp only [Module.End.mul_apply, Module.End.one_apply] at z2
            unfold uref
            simp only [E_up_dn, z2, map_zero, smul_zero]
      · simp only [e2, Except.bind]
        rcases (BSt.ref (K := K) nob nvb).step hj hb with ⟨e5, z5⟩ | ⟨s5, S5, e5, st5⟩
        · simp only [e5, Except.bind]
          refine skip_tab ?_ c
          simp only [Module.End.mul_apply, Module.End.one_apply] at z5
          unfold uref
          simp only [z5, map_zero, smul_zero]
        · simp only [e5, Except.bind]
          rcases st5.step hl hd with ⟨e6, z6⟩ | ⟨s6, S6, e6, st6⟩
          · simp only [e6, Except.bind]
            refine skip_tab ?_ c
            simp only [Module.End.mul_apply, Module.End.one_apply] at z6
            unfold uref
            simp only [z6, map_zero, smul_zero]
          · simp only [e6, Except.bind]
            exact leafUL hB hL st2 st6 (by omega) _ rfl (by push_cast; ring) c
  refine key.congr ?_
  simp only [oT1a, oT1b, oT2ab, LinearMap.sum_apply, LinearMap.smul_apply, Module.End.mul_apply, map_sum, map_smul, Finset.smul_sum, smul_smul, E_dn_up]
  refine Eq.trans (Finset.sum_congr rfl fun _ _ => Finset.sum_comm) ?_
  refine Eq.trans (Finset.sum_congr rfl fun _ _ => Finset.sum_congr rfl fun _ _ => Finset.sum_congr rfl fun _ _ => Finset.sum_comm) ?_
  refine Eq.trans (Finset.sum_congr rfl fun _ _ => Finset.sum_congr rfl fun _ _ => Finset.sum_comm) ?_
  refine Eq.trans (Finset.sum_congr rfl fun _ _ => Finset.sum_congr rfl fun _ _ => Finset.sum_congr rfl fun _ _ => Finset.sum_congr rfl fun _ _ => Finset.sum_comm) ?_
  refine Eq.trans (Finset.sum_congr rfl fun _ _ => Finset.sum_congr rfl fun _ _ => Finset.sum_congr rfl fun _ _ => Finset.sum_comm) ?_
  refine Finset.sum_congr rfl fun _ _ => Finset.sum_congr rfl fun _ _ => Finset.sum_congr rfl fun _ _ => Finset.sum_congr rfl fun _ _ => Finset.sum_congr rfl fun _ _ => Finset.sum_congr rfl fun _ _ => Finset.sum_congr rfl fun _ _ => Finset.sum_congr rfl fun _ _ => ?_
  first | rfl | (congr 1; ring)

theorem add_u_T1a_T1b_T2bb (ho : 4 ≤ order) :
    Adds (L) (u_T1a_T1b_T2bb B (ofSet (noa + nva) (Finset.range noa)) (ofSet (nob + nvb) (Finset.range nob)) noa nva nob nvb T1a T1b T2aa T2ab T2bb)
      ((oT2bb nob nvb T2bb) ((oT1b nob nvb T1b) ((oT1a noa nva T1a) (det (uref noa nob))))) := by
  have key : Adds (L) (u_T1a_T1b_T2bb B (ofSet (noa + nva) (Finset.range noa)) (ofSet (nob + nvb) (Finset.range nob)) noa nva nob nvb T1a T1b T2aa T2ab T2bb)
      (∑ i ∈ Finset.range noa, ∑ j ∈ Finset.range nob, ∑ k ∈ Finset.range nob, ∑ l ∈ Finset.range nob, ∑ a ∈ Finset.range nva, ∑ b ∈ Finset.range nvb, ∑ c ∈ Finset.range nvb, ∑ d ∈ Finset.range nvb, ((T1a a i) * (T1b b j) * (tri T2bb c d k l)) • (E (up i) (up (a + noa)) (E (dn l) (dn (d + nob)) (E (dn k) (dn (c + nob)) (E (dn j) (dn (b + nob)) (det (uref noa nob))))))) := by
    unfold u_T1a_T1b_T2bb
    refine Adds.loop_range fun i hi => ?_
    refine Adds.loop_range fun j hj => ?_
    refine Adds.loop_range fun k hk => ?_
    refine Adds.loop_lt (fun l gl hl => ?_) (fun l h => by simp only [tri_i _ _ _ h, mul_zero, zero_mul, zero_smul, Finset.sum_const_zero])
    refine Adds.loop_range fun a ha => ?_
    refine Adds.loop_range fun b hb => ?_
    refine Adds.loop_range fun c hc => ?_
    refine Adds.loop_lt (fun d gd hd => ?_) (fun d h => by simp only [tri_a _ _ _ h, mul_zero, zero_mul, zero_smul, Finset.sum_const_zero])
    intro c
    rcases (ASt.ref (K := K) noa nva).step hi ha with ⟨e1, z1⟩ | ⟨s1, S1, e1, st1⟩
    · simp only [e1, Except.bind]
      rcases (BSt.ref (K := K) nob nvb).step hj hb with ⟨e2, z2⟩ | ⟨s2, S2, e2, st2⟩
      · simp only [e2, Except.bind]
        refine skip_tab ?_ c
        simp only [Module.End.mul_apply, Module.End.one_apply] at z2
        unfold uref
        simp only [z2, map_zero, smul_zero]
      · simp only [e2, Except.bind]
        rcases st2.step hk hc with ⟨e3, z3⟩ | ⟨s3, S3, e3, st3⟩
        · simp only [e3, Except.bind]
          refine skip_tab ?_ c
          simp only [Module.End.mul_apply, Module.End.one_apply] at z3
          unfold uref
          simp only [z3, map_zero, smul_zero]
        · simp only [e3, Except.bind]
          rcases st3.step hl hd with ⟨e4, z4⟩ | ⟨s4, S4, e4, st4⟩
          · simp only [e4, Except.bind]
            refine skip_tab ?_ c
            simp only [Module.End.mul_apply, Module.End.one_apply] at z1
            unfold uref
            simp only [E_up_dn, z1, map_zero, smul_zero]
          · simp only [e4, Except.bind]
            refine skip_tab ?_ c
            simp only [Module.End.mul_apply, Module.End.one_apply] at z1
            unfold uref
            simp only [E_up_dn, z1, map_zero, smul_zero]
    · simp only [e1, Except.bind]
      rcases (BSt.ref (K := K) nob nvb).step hj hb with ⟨e5, z5⟩ | ⟨s5, S5, e5, st5⟩
      · simp only [e5, Except.bind]
        refine skip_tab ?_ c
        simp only [Module.End.mul_apply, Module.End.one_apply] at z5
        unfold uref
        simp only [z5, map_zero, smul_zero]
      · simp only [e5, Except.bind]
        rcases st5.step hk hc with ⟨e6, z6⟩ | ⟨s6, S6, e6, st6⟩
        · simp only [e6, Except.bind]
          refine skip_tab ?_ c
          simp only [Module.End.mul_apply, Module.End.one_apply] at z6
          unfold uref
          simp only [z6, map_zero, smul_zero]
        · simp only [e6, Except.bind]
          rcases st6.step hl hd with ⟨e7, z7⟩ | ⟨s7, S7, e7, st7⟩
          · simp only [e7, Except.bind]
            refine skip_tab ?_ c
            simp only [Module.End.mul_apply, Module.End.one_apply] at z7
            unfold uref
            simp only [z7, map_zero, smul_zero]
          · simp only [e7, Except.bind]
            rw [tri_pos T2bb gl gd]
            exact leafUL hB hL st1 st7 (by omega) _ rfl (by push_cast; ring) c
  refine key.congr ?_
  simp only [oT1a, oT1b, oT2bb, LinearMap.sum_apply, LinearMap.smul_apply, Module.End.mul_apply, map_sum, map_smul, Finset.smul_sum, smul_smul, E_dn_up]
  refine Eq.trans (Finset.sum_congr rfl fun _ _ => Finset.sum_comm) ?_
  refine Eq.trans (Finset.sum_congr rfl fun _ _ => Finset.sum_congr rfl fun _ _ => Finset.sum_congr rfl fun _ _ => Finset.sum_comm) ?_
  refine Eq.trans (Finset.sum_congr rfl fun _ _ => Finset.sum_congr rfl fun _ _ => Finset.sum_comm) ?_
  refine Eq.trans (Finset.sum_congr rfl fun _ _ => Finset.sum_congr rfl fun _ _ => Finset.sum_congr rfl fun _ _ => Finset.sum_congr rfl fun _ _ => Finset.sum_comm) ?_
  refine Eq.trans (Finset.sum_congr rfl fun _ _ => Finset.sum_congr rfl fun _ _ => Finset.sum_congr rfl fun _ _ => Finset.sum_comm) ?_
  refine Finset.sum_congr rfl fun _ _ => Finset.sum_congr rfl fun _ _ => Finset.sum_congr rfl fun _ _ => Finset.sum_congr rfl fun _ _ => Finset.sum_congr rfl fun _ _ => Finset.sum_congr rfl fun _ _ => Finset.sum_congr rfl fun _ _ => Finset.sum_congr rfl fun _ _ => ?_
  first | rfl | (congr 1; ring)

theorem add_u_T1b_T1b_T2ab (ho : 4 ≤ order) :
    Adds (L) (u_T1b_T1b_T2ab B (ofSet (noa + nva) (Finset.range noa)) (ofSet (nob + nvb) (Finset.range nob)) noa nva nob nvb T1a T1b T2aa T2ab T2bb)
      ((1 / 2 : K) • (oT2ab noa nva nob nvb T2ab) ((oT1b nob nvb T1b) ((oT1b nob nvb T1b) (det (uref noa nob))))) := by
  have key : Adds (L) (u_T1b_T1b_T2ab B (ofSet (noa + nva) (Finset.range noa)) (ofSet (nob + nvb) (Finset.range nob)) noa nva nob nvb T1a T1b T2aa T2ab T2bb)
      (∑ i ∈ Finset.range nob, ∑ j ∈ Finset.range nob, ∑ k ∈ Finset.range noa, ∑ l ∈ Finset.range nob, ∑ a ∈ Finset.range nvb, ∑ b ∈ Finset.range nvb, ∑ c ∈ Finset.range nva, ∑ d ∈ Finset.range nvb, (((1 / 2) : K) * ((T1b a i) * (T1b b j) * (T2ab c d k l))) • (E (up k) (up (c + noa)) (E (dn l) (dn (d + nob)) (E (dn j) (dn (b + nob)) (E (dn i) (dn (a + nob)) (det (uref noa nob))))))) := by
    unfold u_T1b_T1b_T2ab
    refine Adds.loop_range fun i hi => ?_
    refine Adds.loop_range fun j hj => ?_
    refine Adds.loop_range fun k hk => ?_
    refine Adds.loop_range fun l hl => ?_
    refine Adds.loop_range fun a ha => ?_
    refine Adds.loop_range fun b hb => ?_
    refine Adds.loop_range fun c hc => ?_
    refine Adds.loop_range fun d hd => ?_
    intro c
    rcases (ASt.ref (K := K) noa nva).step hk hc with ⟨e1, z1⟩ | ⟨s1, S1, e1, st1⟩
    · simp only [e1, Except.bind]
      rcases (BSt.ref (K := K) nob nvb).step hi ha with ⟨e2, z2⟩ | ⟨s2, S2, e2, st2⟩
      · simp only [e2, Except.bind]
        refine skip_tab ?_ c
        simp only [Module.End.mul_apply, Module.End.one_apply] at z2
        unfold uref
        simp only [z2, map_zero, smul_zero]
      · simp only [e2, Except.bind]
        rcases st2.step hj hb with ⟨e3, z3⟩ | ⟨s3, S3, e3, st3⟩
        · simp only [e3, Except.bind]
          refine skip_tab ?_ c
          simp only [Module.End.mul_apply, Module.End.one_apply] at z3
          unfold uref
          simp only [z3, map_zero, smul_zero]
        · simp only [e3, Except.bind]
          rcases st3.step hl hd with ⟨e4, z4⟩ | ⟨s4, S4, e4, st4⟩
          · simp only [e4, Except.bind]
            refine skip_tab ?_ c
            simp only [Module.End.mul_apply, Module.End.one_apply] at z1
            unfold uref
            simp only [E_up_dn, z1, map_zero, smul_zero]
          · simp only [e4, Except.bind]
            refine skip_tab ?_ c
            simp only [Module.End.mul_apply, Module.End.one_apply] at z1
            unfold uref
            simp only [E_up_dn, z1, map_zero, smul_zero]
    · simp only [e1, Except.bind]
      rcases (BSt.ref (K := K) nob nvb).step hi ha with ⟨e5, z5⟩ | ⟨s5, S5, e5, st5⟩
      · simp only [e5, Except.bind]
        refine skip_tab ?_ c
        simp only [Module.End.mul_apply, Module.End.one_apply] at z5
        unfold uref
        simp only [z5, map_zero, smul_zero]
      · simp only [e5, Except.bind]
        rcases st5.step hj hb with ⟨e6, z6⟩ | ⟨s6, S6, e6, st6⟩
        · simp only [e6, Except.bind]
          refine skip_tab ?_ c
          simp only [Module.End.mul_apply, Module.End.one_apply] at z6
          unfold uref
          simp only [z6, map_zero, smul_zero]
        · simp only [e6, Except.bind]
          rcases st6.step hl hd with ⟨e7, z7⟩ | ⟨s7, S7, e7, st7⟩
          · simp only [e7, Except.bind]
            refine skip_tab ?_ c
            simp only [Module.End.mul_apply, Module.End.one_apply] at z7
            unfold uref
            simp only [z7, map_zero, smul_zero]
          · simp only [e7, Except.bind]
            exact leafUL hB hL st1 st7 (by omega) _ rfl (by push_cast; ring) c
  refine key.congr ?_
  simp only [oT1b, oT2ab, LinearMap.sum_apply, LinearMap.smul_apply, Module.End.mul_apply, map_sum, map_smul, Finset.smul_sum, smul_smul, E_dn_up]
  refine Eq.trans (Finset.sum_congr rfl fun _ _ => Finset.sum_comm) ?_
  refine Eq.trans (Finset.sum_congr rfl fun _ _ => Finset.sum_congr rfl fun _ _ => Finset.sum_congr rfl fun _ _ => Finset.sum_comm) ?_
  refine Eq.trans (Finset.sum_congr rfl fun _ _ => Finset.sum_congr rfl fun _ _ => Finset.sum_comm) ?_
  refine Eq.trans (Finset.sum_congr rfl fun _ _ => Finset.sum_congr rfl fun _ _ => Finset.sum_congr rfl fun _ _ => Finset.sum_congr rfl fun _ _ => Finset.sum_comm) ?_
  refine Eq.trans (Finset.sum_congr rfl fun _ _ => Finset.sum_congr rfl fun _ _ => Finset.sum_congr rfl fun _ _ => Finset.sum_comm) ?_
  refine Finset.sum_congr rfl fun _ _ => Finset.sum_congr rfl fun _ _ => Finset.sum_congr rfl fun _ _ => Finset.sum_congr rfl fun _ _ => Finset.sum_congr rfl fun _ _ => Finset.sum_congr rfl fun _ _ => Finset.sum_congr rfl fun _ _ => Finset.sum_congr rfl fun _ _ => ?_
  first | rfl | (congr 1; ring)

theorem add_u_T1b_T1b_T2bb (ho : 4 ≤ order) :
    Adds (L) (u_T1b_T1b_T2bb B (ofSet (noa + nva) (Finset.range noa)) (ofSet (nob + nvb) (Finset.range nob)) noa nva nob nvb T1a T1b T2aa T2ab T2bb)
      ((1 / 2 : K) • (oT2bb nob nvb T2bb) ((oT1b nob nvb T1b) ((oT1b nob nvb T1b) (det (uref noa nob))))) := by
  have key : Adds (L) (u_T1b_T1b_T2bb B (ofSet (noa + nva) (Finset.range noa)) (ofSet (nob + nvb) (Finset.range nob)) noa nva nob nvb T1a T1b T2aa T2ab T2bb)
      (∑ i ∈ Finset.range nob, ∑ j ∈ Finset.range nob, ∑ k ∈ Finset.range nob, ∑ l ∈ Finset.range nob, ∑ a ∈ Finset.range nvb, ∑ b ∈ Finset.range nvb, ∑ c ∈ Finset.range nvb, ∑ d ∈ Finset.range nvb, (((1 / 2) : K) * ((T1b a i) * (T1b b j) * (tri T2bb c d k l))) • (E (dn l) (dn (d + nob)) (E (dn k) (dn (c + nob)) (E (dn j) (dn (b + nob)) (E (dn i) (dn (a + nob)) (det (uref noa nob))))))) := by
    unfold u_T1b_T1b_T2bb
    refine Adds.loop_range fun i hi => ?_
    refine Adds.loop_range fun j hj => ?_
    refine Adds.loop_range fun k hk => ?_
    refine Adds.loop_lt (fun l gl hl => ?_) (fun l h => by simp only [tri_i _ _ _ h, mul_zero, zero_mul, zero_smul, Finset.sum_const_zero])
    refine Adds.loop_range fun a ha => ?_
    refine Adds.loop_range fun b hb => ?_
    refine Adds.loop_range fun c hc => ?_
    refine Adds.loop_lt (fun d gd hd => ?_) (fun d h => by simp only [tri_a _ _ _ h, mul_zero, zero_mul, zero_smul, Finset.sum_const_zero])
    intro c
    rcases (BSt.ref (K := K) nob nvb).step hi ha with ⟨e1, z1⟩ | ⟨s1, S1, e1, st1⟩
    · simp only [e1, Except.bind]
      refine skip_tab ?_ c
      simp only [Module.End.mul_apply, Module.End.one_apply] at z1
      unfold uref
      simp only [z1, map_zero, smul_zero]
    · simp only [e1, Except.bind]
      rcases st1.step hj hb with ⟨e2, z2⟩ | ⟨s2, S2, e2, st2⟩
      · simp only [e2, Except.bind]
        refine skip_tab ?_ c
        simp only [Module.End.mul_apply, Module.End.one_apply] at z2
        unfold uref
        simp only [z2, map_zero, smul_zero]
      · simp only [e2, Except.bind]
        rcases st2.step hk hc with ⟨e3, z3⟩ | ⟨s3, S3, e3, st3⟩
        · simp only [e3, Except.bind]
          refine skip_tab ?_ c
          simp only [Module.End.mul_apply, Module.End.one_apply] at z3
          unfold uref
          simp only [z3, map_zero, smul_zero]
        · simp only [e3, Except.bind]
          rcases st3.step hl hd with ⟨e4, z4⟩ | ⟨s4, S4, e4, st4⟩
          · simp only [e4, Except.bind]
            refine skip_tab ?_ c
            simp only [Module.End.mul_apply, Module.End.one_apply] at z4
            unfold uref
            simp only [z4, map_zero, smul_zero]
          · simp only [e4, Except.bind]
            rw [tri_pos T2bb gl gd]
            exact leafUL hB hL (ASt.ref (K := K) noa nva) st4 (by omega) _ rfl (by push_cast; ring) c
  refine key.congr ?_
  simp only [oT1b, oT2bb, LinearMap.sum_apply, LinearMap.smul_apply, Module.End.mul_apply, map_sum, map_smul, Finset.smul_sum, smul_smul, E_dn_up]
  refine Eq.trans (Finset.sum_congr rfl fun _ _ => Finset.sum_comm) ?_
  refine Eq.trans (Finset.sum_congr rfl fun _ _ => Finset.sum_congr rfl fun _ _ => Finset.sum_congr rfl fun _ _ => Finset.sum_comm) ?_
  refine Eq.trans (Finset.sum_congr rfl fun _ _ => Finset.sum_congr rfl fun _ _ => Finset.sum_comm) ?_
  refine Eq.trans (Finset.sum_congr rfl fun _ _ => Finset.sum_congr rfl fun _ _ => Finset.sum_congr rfl fun _ _ => Finset.sum_congr rfl fun _ _ => Finset.sum_comm) ?_
  refine Eq.trans (Finset.sum_congr rfl fun _ _ => Finset.sum_congr rfl fun _ _ => Finset.sum_congr rfl fun _ _ => Finset.sum_comm) ?_
  refine Finset.sum_congr rfl fun _ _ => Finset.sum_congr rfl fun _ _ => Finset.sum_congr rfl fun _ _ => Finset.sum_congr rfl fun _ _ => Finset.sum_congr rfl fun _ _ => Finset.sum_congr rfl fun _ _ => Finset.sum_congr rfl fun _ _ => Finset.sum_congr rfl fun _ _ => ?_
  first | rfl | (congr 1; ring)

theorem add_u_T1a_T1a_T1a_T1a (ho : 4 ≤ order) :
    Adds (L) (u_T1a_T1a_T1a_T1a B (ofSet (noa + nva) (Finset.range noa)) (ofSet (nob + nvb) (Finset.range nob)) noa nva nob nvb T1a T1b T2aa T2ab T2bb)
      ((1 / 24 : K) • (oT1a noa nva T1a) ((oT1a noa nva T1a) ((oT1a noa nva T1a) ((oT1a noa nva T1a) (det (uref noa nob)))))) := by
  have key : Adds (L) (u_T1a_T1a_T1a_T1a B (ofSet (noa + nva) (Finset.range noa)) (ofSet (nob + nvb) (Finset.range nob)) noa nva nob nvb T1a T1b T2aa T2ab T2bb)
      (∑ i ∈ Finset.range noa, ∑ j ∈ Finset.range noa, ∑ k ∈ Finset.range noa, ∑ l ∈ Finset.range noa, ∑ a ∈ Finset.range nva, ∑ b ∈ Finset.range nva, ∑ c ∈ Finset.range nva, ∑ d ∈ Finset.range nva, (((1 / 24) : K) * ((T1a a i) * (T1a b j) * (T1a c k) * (T1a d l))) • (E (up l) (up (d + noa)) (E (up k) (up (c + noa)) (E (up j) (up (b + noa)) (E (up i) (up (a + noa)) (det (uref noa nob))))))) := by
    unfold u_T1a_T1a_T1a_T1a
    refine Adds.loop_range fun i hi => ?_
    refine Adds.loop_range fun j hj => ?_
    refine Adds.loop_range fun k hk => ?_
    refine Adds.loop_range fun l hl => ?_
    refine Adds.loop_range fun a ha => ?_
    refine Adds.loop_range fun b hb => ?_
    refine Adds.loop_range fun c hc => ?_
    refine Adds.loop_range fun d hd => ?_
    intro c
    rcases (ASt.ref (K := K) noa nva).step hi ha with ⟨e1, z1⟩ | ⟨s1, S1, e1, st1⟩
    · simp only [e1, Except.bind]
      refine skip_tab ?_ c
      simp only [Module.End.mul_apply, Module.End.one_apply] at z1
      unfold uref
      simp only [E_up_dn, z1, map_zero, smul_zero]
    · simp only [e1, Except.bind]
      rcases st1.step hj hb with ⟨e2, z2⟩ | ⟨s2, S2, e2, st2⟩
      · simp only [e2, Except.bind]
        refine skip_tab ?_ c
        simp only [Module.End.mul_apply, Module.End.one_apply] at z2
        unfold uref
        simp only [E_up_dn, z2, map_zero, smul_zero]
      · simp only [e2, Except.bind]
        rcases st2.step hk hc with ⟨e3, z3⟩ | ⟨s3, S3, e3, st3⟩
        · simp only [e3, Except.bind]
          refine skip_tab ?_ c
          simp only [Module.End.mul_apply, Module.End.one_apply] at z3
          unfold uref
          simp only [E_up_dn, z3, map_zero, smul_zero]
        · simp only [e3, Except.bind]
          rcases st3.step hl hd with ⟨e4, z4⟩ | ⟨s4, S4, e4, st4⟩
          · simp only [e4, Except.bind]
            refine skip_tab ?_ c
            simp only [Module.End.mul_apply, Module.End.one_apply] at z4
            unfold uref
            simp only [E_up_dn, z4, map_zero, smul_zero]
          · simp only [e4, Except.bind]
            exact leafUL hB hL st4 (BSt.ref (K := K) nob nvb) (by omega) _ rfl (by push_cast; ring) c
  refine key.congr ?_
  simp only [oT1a, LinearMap.sum_apply, LinearMap.smul_apply, Module.End.mul_apply, map_sum, map_smul, Finset.smul_sum, smul_smul, E_dn_up]
  refine Eq.trans (Finset.sum_congr rfl fun _ _ => Finset.sum_comm) ?_
  refine Eq.trans (Finset.sum_congr rfl fun _ _ => Finset.sum_congr rfl fun _ _ => Finset.sum_congr rfl fun _ _ => Finset.sum_comm) ?_
  refine Eq.trans (Finset.sum_congr rfl fun _ _ => Finset.sum_congr rfl fun _ _ => Finset.sum_comm) ?_
  refine Eq.trans (Finset.sum_congr rfl fun _ _ => Finset.sum_congr rfl fun _ _ => Finset.sum_congr rfl fun _ _ => Finset.sum_congr rfl fun _ _ => Finset.sum_congr rfl fun _ _ => Finset.sum_comm) ?_
  refine Eq.trans (Finset.sum_congr rfl fun _ _ => Finset.sum_congr rfl fun _ _ => Finset.sum_congr rfl fun _ _ => Finset.sum_congr rfl fun _ _ => Finset.sum_comm) ?_
  refine Eq.trans (Finset.sum_congr rfl fun _ _ => Finset.sum_congr rfl fun _ _ => Finset.sum_congr rfl fun _ _ => Finset.sum_comm) ?_
  refine Finset.sum_congr rfl fun _ _ => Finset.sum_congr rfl fun _ _ => Finset.sum_congr rfl fun _ _ => Finset.sum_congr rfl fun _ _ => Finset.sum_congr rfl fun _ _ => Finset.sum_congr rfl fun _ _ => Finset.sum_congr rfl fun _ _ => Finset.sum_congr rfl fun _ _ => ?_
  first | rfl | (congr 1; ring)

theorem add_u_T1a_T1a_T1a_T1b (ho : 4 ≤ order) :
    Adds (L) (u_T1a_T1a_T1a_T1b B (ofSet (noa + nva) (Finset.range noa)) (ofSet (nob + nvb) (Finset.range nob)) noa nva nob nvb T1a T1b T2aa T2ab T2bb)
      ((1 / 6 : K) • (oT1b nob nvb T1b) ((oT1a noa nva T1a) ((oT1a noa nva T1a) ((oT1a noa nva T1a) (det (uref noa nob)))))) := by
  have key : Adds (L) (u_T1a_T1a_T1a_T1b B (ofSet (noa + nva) (Finset.range noa)) (ofSet (nob + nvb) (Finset.range nob)) noa nva nob nvb T1a T1b T2aa T2ab T2bb)
      (∑ i ∈ Finset.range noa, ∑ j ∈ Finset.range noa, ∑ k ∈ Finset.range noa, ∑ l ∈ Finset.range nob, ∑ a ∈ Finset.range nva, ∑ b ∈ Finset.range nva, ∑ c ∈ Finset.range nva, ∑ d ∈ Finset.range nvb, (((1 / 6) : K) * ((T1a a i) * (T1a b j) * (T1a c k) * (T1b d l))) • (E (up k) (up (c + noa)) (E (up j) (up (b + noa)) (E (up i) (up (a + noa)) (E (dn l) (dn (d + nob)) (det (uref noa nob))))))) := by
    unfold u_T1a_T1a_T1a_T1b
    refine Adds.loop_range fun i hi => ?_
    refine Adds.loop_range fun j hj => ?_
    refine Adds.loop_range fun k hk => ?_
    refine Adds.loop_range fun l hl => ?_
    refine Adds.loop_range fun a ha => ?_
    refine Adds.loop_range fun b hb => ?_
    refine Adds.loop_range fun c hc => ?_
    refine Adds.loop_range fun d hd => ?_
    intro c
    rcases (ASt.ref (K := K) noa nva).step hi ha with ⟨e1, z1⟩ | ⟨s1, S1, e1, st1⟩
    · simp only [e1, Except.bind]
      refine skip_tab ?_ c
      simp only [Module.End.mul_apply, Module.End.one_apply] at z1
      unfold uref
      simp only [E_up_dn, z1, map_zero, smul_zero]
    · simp only [e1, Except.bind]
      rcases st1.step hj hb with ⟨e2, z2⟩ | ⟨s2, S2, e2, st2⟩
      · simp only [e2, Except.bind]
        refine skip_tab ?_ c
        simp only [Module.End.mul_apply, Module.End.one_apply] at z2
        unfold uref
        simp only [E_up_dn, z2, map_zero, smul_zero]
      · simp only [e2, Except.bind]
        rcases st2.step hk hc with ⟨e3, z3⟩ | ⟨s3, S3, e3, st3⟩
        · simp only [e3, Except.bind]
          rcases (BSt.ref (K := K) nob nvb).step hl hd with ⟨e4, z4⟩ | ⟨s4, S4, e4, st4⟩
          · simp only [e4, Except.bind]
            refine skip_tab ?_ c
            simp only [Module.End.mul_apply, Module.End.one_apply] at z3
            unfold uref
            simp only [E_up_dn, z3, map_zero, smul_zero]
          · simp only [e4, Except.bind]
            refine skip_tab ?_ c
            simp only [Module.End.mul_apply, Module.End.one_apply] at z3
            unfold uref
            simp only [E_up_dn, z3, map_zero, smul_zero]
        · simp only [e3, Except.bind]
          rcases (BSt.ref (K := K) nob nvb).step hl hd with ⟨e5, z5⟩ | ⟨s5, S5, e5, st5⟩
          · simp only [e5, Except.bind]
            refine skip_tab ?_ c
            simp only [Module.End.mul_apply, Module.End.one_apply] at z5
            unfold uref
            simp only [z5, map_zero, smul_zero]
          · simp only [e5, Except.bind]
            exact leafUL hB hL st3 st5 (by omega) _ rfl (by push_cast; ring) c
  refine key.congr ?_
  simp only [oT1a, oT1b, LinearMap.sum_apply, LinearMap.smul_apply, Module.End.mul_apply, map_sum, map_smul, Finset.smul_sum, smul_smul, E_dn_up]
  refine Eq.trans (Finset.sum_congr rfl fun _ _ => Finset.sum_comm) ?_
  refine Eq.trans (Finset.sum_congr rfl fun _ _ => Finset.sum_congr rfl fun _ _ => Finset.sum_congr rfl fun _ _ => Finset.sum_comm) ?_
  refine Eq.trans (Finset.sum_congr rfl fun _ _ => Finset.sum_congr rfl fun _ _ => Finset.sum_comm) ?_
  refine Eq.trans (Finset.sum_congr rfl fun _ _ => Finset.sum_congr rfl fun _ _ => Finset.sum_congr rfl fun _ _ => Finset.sum_congr rfl fun _ _ => Finset.sum_congr rfl fun _ _ => Finset.sum_comm) ?_
  refine Eq.trans (Finset.sum_congr rfl fun _ _ => Finset.sum_congr rfl fun _ _ => Finset.sum_congr rfl fun _ _ => Finset.sum_congr rfl fun _ _ => Finset.sum_comm) ?_
  refine Eq.trans (Finset.sum_congr rfl fun _ _ => Finset.sum_congr rfl fun _ _ => Finset.sum_congr rfl fun _ _ => Finset.sum_comm) ?_
  refine Finset.sum_congr rfl fun _ _ => Finset.sum_congr rfl fun _ _ => Finset.sum_congr rfl fun _ _ => Finset.sum_congr rfl fun _ _ => Finset.sum_congr rfl fun _ _ => Finset.sum_congr rfl fun _ _ => Finset.sum_congr rfl fun _ _ => Finset.sum_congr rfl fun _ _ => ?_
  first | rfl | (congr 1; ring)

theorem add_u_T1a_T1a_T1b_T1b (ho : 4 ≤ order) :
    Adds (L) (u_T1a_T1a_T1b_T1b B (ofSet (noa + nva) (Finset.range noa)) (ofSet (nob + nvb) (Finset.range nob)) noa nva nob nvb T1a T1b T2aa T2ab T2bb)
      ((1 / 4 : K) • (oT1b nob nvb T1b) ((oT1b nob nvb T1b) ((oT1a noa nva T1a) ((oT1a noa nva T1a) (det (uref noa nob)))))) := by
  have key : Adds (L) (u_T1a_T1a_T1b_T1b B (ofSet (noa + nva) (Finset.range noa)) (ofSet (nob + nvb) (Finset.range nob)) noa nva nob nvb T1a T1b T2aa T2ab T2bb)
      (∑ i ∈ Finset.range noa, ∑ j ∈ Finset.range noa, ∑ k ∈ Finset.range nob, ∑ l ∈ Finset.range nob, ∑ a ∈ Finset.range nva, ∑ b ∈ Finset.range nva, ∑ c ∈ Finset.range nvb, ∑ d ∈ Finset.range nvb, (((1 / 4) : K) * ((T1a a i) * (T1a b j) * (T1b c k) * (T1b d l))) • (E (up j) (up (b + noa)) (E (up i) (up (a + noa)) (E (dn l) (dn (d + nob)) (E (dn k) (dn (c + nob)) (det (uref noa nob))))))) := by
    unfold u_T1a_T1a_T1b_T1b
    refine Adds.loop_range fun i hi => ?_
    refine Adds.loop_range fun j hj => ?_
    refine Adds.loop_range fun k hk => ?_
    refine Adds.loop_range fun l hl => ?_
    refine Adds.loop_range fun a ha => ?_
    refine Adds.loop_range fun b hb => ?_
    refine Adds.loop_range fun c hc => ?_
    refine Adds.loop_range fun d hd => ?_
    intro c
    rcases (ASt.ref (K := K) noa nva).step hi ha with ⟨e1, z1⟩ | ⟨s1, S1, e1, st1⟩
    · simp only [e1, Except.bind]
      refine skip_tab ?_ c
      simp only [Module.End.mul_apply, Module.End.one_apply] at z1
      unfold uref
      simp only [E_up_dn, z1, map_zero, smul_zero]
    · simp only [e1, Except.bind]
      rcases st1.step hj hb with ⟨e2, z2⟩ | ⟨s2, S2, e2, st2⟩
      · simp only [e2, Except.bind]
        rcases (BSt.ref (K := K) nob nvb).step hk hc with ⟨e3, z3⟩ | ⟨s3, S3, e3, st3⟩
        · simp only [e3, Except.bind]
          refine skip_tab ?_ c
          simp only [Module.End.mul_apply, Module.End.one_apply] at z3
          unfold uref
          simp only [z3, map_zero, smul_zero]
        · simp only [e3, Except.bind]
          rcases st3.step hl hd with ⟨e4, z4⟩ | ⟨s4, S4, e4, st4⟩
          · simp only [e4, Except.bind]
            refine skip_tab ?_ c
            simp only [Module.End.mul_apply, Module.End.one_apply] at z2
            unfold uref
            simp only [E_up_dn, z2, map_zero, smul_zero]
          · simp only [e4, Except.bind]
            refine skip_tab ?_ c
            simp only [Module.End.mul_apply, Module.End.one_apply] at z2
            unfold uref
            simp only [E_up_dn, z2, map_zero, smul_zero]
      · simp only [e2, Except.bind]
        rcases (BSt.ref (K := K) nob nvb).step hk hc with ⟨e5, z5⟩ | ⟨s5, S5, e5, st5⟩
        · simp only [e5, Except.bind]
          refine skip_tab ?_ c
          simp only [Module.End.mul_apply, Module.End.one_apply] at z5
          unfold uref
          simp only [z5, map_zero, smul_zero]
        · simp only [e5, Except.bind]
          rcases st5.step hl hd with ⟨e6, z6⟩ | ⟨s6, S6, e6, st6⟩
          · simp only [e6, Except.bind]
            refine skip_tab ?_ c
            simp only [Module.End.mul_apply, Module.End.one_apply] at z6
            unfold uref
            simp only [z6, map_zero, smul_zero]
          · simp only [e6, Except.bind]
            exact leafUL hB hL st2 st6 (by omega) _ rfl (by push_cast; ring) c
  refine key.congr ?_
  simp only [oT1a, oT1b, LinearMap.sum_apply, LinearMap.smul_apply, Module.End.mul_apply, map_sum, map_smul, Finset.smul_sum, smul_smul, E_dn_up]
  refine Eq.trans (Finset.sum_congr rfl fun _ _ => Finset.sum_comm) ?_
  refine Eq.trans (Finset.sum_congr rfl fun _ _ => Finset.sum_congr rfl fun _ _ => Finset.sum_congr rfl fun _ _ => Finset.sum_comm) ?_
  refine Eq.trans (Finset.sum_congr rfl fun _ _ => Finset.sum_congr rfl fun _ _ => Finset.sum_comm) ?_
  refine Eq.trans (Finset.sum_congr rfl fun _ _ => Finset.sum_congr rfl fun _ _ => Finset.sum_congr rfl fun _ _ => Finset.sum_congr rfl fun _ _ => Finset.sum_congr rfl fun _ _ => Finset.sum_comm) ?_
  refine Eq.trans (Finset.sum_congr rfl fun _ _ => Finset.sum_congr rfl fun _ _ => Finset.sum_congr rfl fun _ _ => Finset.sum_congr rfl fun _ _ => Finset.sum_comm) ?_
  refine Eq.trans (Finset.sum_congr rfl fun _ _ => Finset.sum_congr rfl fun _ _ => Finset.sum_congr rfl fun _ _ => Finset.sum_comm) ?_
  refine Finset.sum_congr rfl fun _ _ => Finset.sum_congr rfl fun _ _ => Finset.sum_congr rfl fun _ _ => Finset.sum_congr rfl fun _ _ => Finset.sum_congr rfl fun _ _ => Finset.sum_congr rfl fun _ _ => Finset.sum_congr rfl fun _ _ => Finset.sum_congr rfl fun _ _ => ?_
  first | rfl | (congr 1; ring)

theorem add_u_T1a_T1b_T1b_T1b (ho : 4 ≤ order) :
    Adds (L) (u_T1a_T1b_T1b_T1b B (ofSet (noa + nva) (Finset.range noa)) (ofSet (nob + nvb) (Finset.range nob)) noa nva nob nvb T1a T1b T2aa T2ab T2bb)
      ((1 / 6 : K) • (oT1b nob nvb T1b) ((oT1b nob nvb T1b) ((oT1b nob nvb T1b) ((oT1a noa nva T1a) (det (uref noa nob)))))) := by
  have key : Adds (L) (u_T1a_T1b_T1b_T1b B (ofSet (noa + nva) (Finset.range noa)) (ofSet (nob + nvb) (Finset.range nob)) noa nva nob nvb T1a T1b T2aa T2ab T2bb)
      (∑ i ∈ Finset.range noa, ∑ j ∈ Finset.range nob, ∑ k ∈ Finset.range nob, ∑ l ∈ Finset.range nob, ∑ a ∈ Finset.range nva, ∑ b ∈ Finset.range nvb, ∑ c ∈ Finset.range nvb, ∑ d ∈ Finset.range nvb, (((1 / 6) : K) * ((T1a a i) * (T1b b j) * (T1b c k) * (T1b d l))) • (E (up i) (up (a + noa)) (E (dn l) (dn (d + nob)) (E (dn k) (dn (c + nob)) (E (dn j) (dn (b + nob)) (det (uref noa nob))))))) := by
    unfold u_T1a_T1b_T1b_T1b
    refine Adds.loop_range fun i hi => ?_
    refine Adds.loop_range fun j hj => ?_
    refine Adds.loop_range fun k hk => ?_
    refine Adds.loop_range fun l hl => ?_
    refine Adds.loop_range fun a ha => ?_
    refine Adds.loop_range fun b hb => ?_
    refine Adds.loop_range fun c hc => ?_
    refine Adds.loop_range fun d hd => ?_
    intro c
    rcases (ASt.ref (K := K) noa nva).step hi ha with ⟨e1, z1⟩ | ⟨s1, S1, e1, st1⟩
    · simp only [e1, Except.bind]
      rcases (BSt.ref (K := K) nob nvb).step hj hb with ⟨e2, z2⟩ | ⟨s2, S2, e2, st2⟩
      · simp only [e2, Except.bind]
        refine skip_tab ?_ c
        simp only [Module.End.mul_apply, Module.End.one_apply] at z2
        unfold uref
        simp only [z2, map_zero, smul_zero]
      · simp only [e2, Except.bind]
        rcases st2.step hk hc with ⟨e3, z3⟩ | ⟨s3, S3, e3, st3⟩
        · simp only [e3, Except.bind]
          refine skip_tab ?_ c
          simp only [Module.End.mul_apply, Module.End.one_apply] at z3
          unfold uref
          simp only [z3, map_zero, smul_zero]
        · simp only [e3, Except.bind]
          rcases st3.step hl hd with ⟨e4, z4⟩ | ⟨s4, S4, e4, st4⟩
          · simp only [e4, Except.bind]
            refine skip_tab ?_ c
            simp only [Module.End.mul_apply, Module.End.one_apply] at z1
            unfold uref
            simp only [E_up_dn, z1, map_zero, smul_zero]
          · simp only [e4, Except.bind]
            refine skip_tab ?_ c
            simp only [Module.End.mul_apply, Module.End.one_apply] at z1
            unfold uref
            simp only [E_up_dn, z1, map_zero, smul_zero]
    · simp only [e1, Except.bind]
      rcases (BSt.ref (K := K) nob nvb).step hj hb with ⟨e5, z5⟩ | ⟨s5, S5, e5, st5⟩
      · simp only [e5, Except.bind]
        refine skip_tab ?_ c
        simp only [Module.End.mul_apply, Module.End.one_apply] at z5
        unfold uref
        simp only [z5, map_zero, smul_zero]
      · simp only [e5, Except.bind]
        rcases st5.step hk hc with ⟨e6, z6⟩ | ⟨s6, S6, e6, st6⟩
        · simp only [e6, Except.bind]
          refine skip_tab ?_ c
          simp only [Module.End.mul_apply, Module.End.one_apply] at z6
          unfold uref
          simp only [z6, map_zero, smul_zero]
        · simp only [e6, Except.bind]
          rcases st6.step hl hd with ⟨e7, z7⟩ | ⟨s7, S7, e7, st7⟩
          · simp only [e7, Except.bind]
            refine skip_tab ?_ c
            simp only [Module.End.mul_apply, Module.End.one_apply] at z7
            unfold uref
            simp only [z7, map_zero, smul_zero]
          · simp only [e7, Except.bind]
            exact leafUL hB hL st1 st7 (by omega) _ rfl (by push_cast; ring) c
  refine key.congr ?_
  simp only [oT1a, oT1b, LinearMap.sum_apply, LinearMap.smul_apply, Module.End.mul_apply, map_sum, map_smul, Finset.smul_sum, smul_smul, E_dn_up]
  refine Eq.trans (Finset.sum_congr rfl fun _ _ => Finset.sum_comm) ?_
  refine Eq.trans (Finset.sum_congr rfl fun _ _ => Finset.sum_congr rfl fun _ _ => Finset.sum_congr rfl fun _ _ => Finset.sum_comm) ?_
  refine Eq.trans (Finset.sum_congr rfl fun _ _ => Finset.sum_congr rfl fun _ _ => Finset.sum_comm) ?_
  refine Eq.trans (Finset.sum_congr rfl fun _ _ => Finset.sum_congr rfl fun _ _ => Finset.sum_congr rfl fun _ _ => Finset.sum_congr rfl fun _ _ => Finset.sum_congr rfl fun _ _ => Finset.sum_comm) ?_
  refine Eq.trans (Finset.sum_congr rfl fun _ _ => Finset.sum_congr rfl fun _ _ => Finset.sum_congr rfl fun _ _ => Finset.sum_congr rfl fun _ _ => Finset.sum_comm) ?_
  refine Eq.trans (Finset.sum_congr rfl fun _ _ => Finset.sum_congr rfl fun _ _ => Finset.sum_congr rfl fun _ _ => Finset.sum_comm) ?_
  refine Finset.sum_congr rfl fun _ _ => Finset.sum_congr rfl fun _ _ => Finset.sum_congr rfl fun _ _ => Finset.sum_congr rfl fun _ _ => Finset.sum_congr rfl fun _ _ => Finset.sum_congr rfl fun _ _ => Finset.sum_congr rfl fun _ _ => Finset.sum_congr rfl fun _ _ => ?_
  first | rfl | (congr 1; ring)

theorem add_u_T1b_T1b_T1b_T1b (ho : 4 ≤ order) :
    Adds (L) (u_T1b_T1b_T1b_T1b B (ofSet (noa + nva) (Finset.range noa)) (ofSet (nob + nvb) (Finset.range nob)) noa nva nob nvb T1a T1b T2aa T2ab T2bb)
      ((1 / 24 : K) • (oT1b nob nvb T1b) ((oT1b nob nvb T1b) ((oT1b nob nvb T1b) ((oT1b nob nvb T1b) (det (uref noa nob)))))) := by
  have key : Adds (L) (u_T1b_T1b_T1b_T1b B (ofSet (noa + nva) (Finset.range noa)) (ofSet (nob + nvb) (Finset.range nob)) noa nva nob nvb T1a T1b T2aa T2ab T2bb)
      (∑ i ∈ Finset.range nob, ∑ j ∈ Finset.range nob, ∑ k ∈ Finset.range nob, ∑ l ∈ Finset.range nob, ∑ a ∈ Finset.range nvb, ∑ b ∈ Finset.range nvb, ∑ c ∈ Finset.range nvb, ∑ d ∈ Finset.range nvb, (((1 / 24) : K) * ((T1b a i) * (T1b b j) * (T1b c k) * (T1b d l))) • (E (dn l) (dn (d + nob)) (E (dn k) (dn (c + nob)) (E (dn j) (dn (b + nob)) (E (dn i) (dn (a + nob)) (det (uref noa nob))))))) := by
    unfold u_T1b_T1b_T1b_T1b
    refine Adds.loop_range fun i hi => ?_
    refine Adds.loop_range fun j hj => ?_
    refine Adds.loop_range fun k hk => ?_
    refine Adds.loop_range fun l hl => ?_
    refine Adds.loop_range fun a ha => ?_
    refine Adds.loop_range fun b hb => ?_
    refine Adds.loop_range fun c hc => ?_
    refine Adds.loop_range fun d hd => ?_
    intro c
    rcases (BSt.ref (K := K) nob nvb).step hi ha with ⟨e1, z1⟩ | ⟨s1, S1, e1, st1⟩
    · simp only [e1, Except.bind]
      refine skip_tab ?_ c
      simp only [Module.End.mul_apply, Module.End.one_apply] at z1
      unfold uref
      simp only [z1, map_zero, smul_zero]
    · simp only [e1, Except.bind]
      rcases st1.step hj hb with ⟨e2, z2⟩ | ⟨s2, S2, e2, st2⟩
      · simp only [e2, Except.bind]
        refine skip_tab ?_ c
        simp only [Module.End.mul_apply, Module.End.one_apply] at z2
        unfold uref
        simp only [z2, map_zero, smul_zero]
      · simp only [e2, Except.bind]
        rcases st2.step hk hc with ⟨e3, z3⟩ | ⟨s3, S3, e3, st3⟩
        · simp only [e3, Except.bind]
          refine skip_tab ?_ c
          simp only [Module.End.mul_apply, Module.End.one_apply] at z3
          unfold uref
          simp only [z3, map_zero, smul_zero]
        · simp only [e3, Except.bind]
          rcases st3.step hl hd with ⟨e4, z4⟩ | ⟨s4, S4, e4, st4⟩
          · simp only [e4, Except.bind]
            refine skip_tab ?_ c
            simp only [Module.End.mul_apply, Module.End.one_apply] at z4
            unfold uref
            simp only [z4, map_zero, smul_zero]
          · simp only [e4, Except.bind]
            exact leafUL hB hL (ASt.ref (K := K) noa nva) st4 (by omega) _ rfl (by push_cast; ring) c
  refine key.congr ?_
  simp only [oT1b, LinearMap.sum_apply, LinearMap.smul_apply, Module.End.mul_apply, map_sum, map_smul, Finset.smul_sum, smul_smul, E_dn_up]
  refine Eq.trans (Finset.sum_congr rfl fun _ _ => Finset.sum_comm) ?_
  refine Eq.trans (Finset.sum_congr rfl fun _ _ => Finset.sum_congr rfl fun _ _ => Finset.sum_congr rfl fun _ _ => Finset.sum_comm) ?_
  refine Eq.trans (Finset.sum_congr rfl fun _ _ => Finset.sum_congr rfl fun _ _ => Finset.sum_comm) ?_
  refine Eq.trans (Finset.sum_congr rfl fun _ _ => Finset.sum_congr rfl fun _ _ => Finset.sum_congr rfl fun _ _ => Finset.sum_congr rfl fun _ _ => Finset.sum_congr rfl fun _ _ => Finset.sum_comm) ?_
  refine Eq.trans (Finset.sum_congr rfl fun _ _ => Finset.sum_congr rfl fun _ _ => Finset.sum_congr rfl fun _ _ => Finset.sum_congr rfl fun _ _ => Finset.sum_comm) ?_
  refine Eq.trans (Finset.sum_congr rfl fun _ _ => Finset.sum_congr rfl fun _ _ => Finset.sum_congr rfl fun _ _ => Finset.sum_comm) ?_
  refine Finset.sum_congr rfl fun _ _ => Finset.sum_congr rfl fun _ _ => Finset.sum_congr rfl fun _ _ => Finset.sum_congr rfl fun _ _ => Finset.sum_congr rfl fun _ _ => Finset.sum_congr rfl fun _ _ => Finset.sum_congr rfl fun _ _ => Finset.sum_congr rfl fun _ _ => ?_
  first | rfl | (congr 1; ring)

end CI
