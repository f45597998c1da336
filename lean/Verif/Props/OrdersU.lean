import Verif.Props.Orders
import Verif.Props.IterateU
/-!
# C93 for the unrestricted and the restricted routines
-/
set_option linter.unusedSectionVars false
set_option synthInstance.maxHeartbeats 400000
set_option synthInstance.maxSize 2000
set_option maxHeartbeats 1000000
namespace CC
open Finset Filter Topology Metric Verif.Tensor

section
variable {K : Type} [Field K] [CharZero K] {O V Oa Va Ob Vb : Type} [Fintype O] [Fintype V] [Fintype Oa] [Fintype Va] [Fintype Ob] [Fintype Vb]
  [DecidableEq O] [DecidableEq V] [DecidableEq Oa] [DecidableEq Va] [DecidableEq Ob] [DecidableEq Vb]
theorem weak_uenergy (eoa : Oa → K) (eva : Va → K) (eob : Ob → K) (evb : Vb → K) (fa : OneE Oa Va K) (fb : OneE Ob Vb K) (Ia : TwoE Oa Va K)
    (Ib : TwoE Ob Vb K) (Iab : TwoEFull Oa Va Ob Vb K) (c : K) (t1 : (Va → Oa → K) × (Vb → Ob → K))
    (t2 : (Va → Va → Oa → Oa → K) × (Va → Vb → Oa → Ob → K) × (Vb → Vb → Ob → Ob → K)) :
    ucc_energy t1 t2 ((diagF eoa eva).addMul c fa).ov ((diagF eob evb).addMul c fb).ov (Ia.mul c).oovv (Ib.mul c).oovv (Iab.mul c).oovv
      = c * ucc_energy t1 t2 fa.ov fb.ov Ia.oovv Ib.oovv Iab.oovv := by
  obtain ⟨t1a, t1b⟩ := t1
  obtain ⟨taa, tab, tbb⟩ := t2
  simp only [diagF, OneE.addMul, TwoE.mul, TwoEFull.mul]
  tensor

theorem weak_renergy (eo : O → K) (ev : V → K) (f : OneE O V K) (I : TwoEFull O V O V K) (c : K) (t1 : V → O → K) (t2 : V → V → O → O → K) :
    rcc_energy t1 t2 ((diagF eo ev).addMul c f).ov (I.mul c).oovv = c * rcc_energy t1 t2 f.ov I.oovv := by
  simp only [diagF, OneE.addMul, TwoEFull.mul]
  tensor
end

section
variable {𝕜 : Type} [RCLike 𝕜] {E : Type} [NormedAddCommGroup E] [NormedSpace 𝕜 E] [FiniteDimensional 𝕜 E]

/-- A map that is proportional to a small parameter: `k` steps from zero give the fixed point up to order `k + 1`, and a smooth function that is
proportional to the parameter up to order `k + 2`. -/
theorem weak_orders {s : Set E} (zero : (0 : E) ∈ s) {G : E → E} (hG : ContDiff 𝕜 1 G) {U : 𝕜 → E → E} (hU : ∀ c, ∀ T ∈ s, U c T = -(c • G T))
    (maps : ∀ c, Set.MapsTo (U c) s s) {e : E → 𝕜} (he : ContDiff 𝕜 1 e) :
    ∃ M : ℝ, 0 < M ∧ ∀ c : 𝕜, M * ‖c‖ ≤ 1 → ∀ T ∈ s, ‖T‖ ≤ 1 → U c T = T → ∀ k : ℕ,
      ‖(U c)^[k] 0 - T‖ ≤ (M * ‖c‖) ^ (k + 1) ∧ ‖c * e ((U c)^[k] 0) - c * e T‖ ≤ (M * ‖c‖) ^ (k + 2) := by
  obtain ⟨M, hM, b1, b2⟩ := ball_lip hG 1
  obtain ⟨N, hN, -, l⟩ := ball_lip he 1
  refine ⟨max M N, lt_of_lt_of_le hM (le_max_left _ _), fun c hc T hT hn fix k => ?_⟩
  have nc := norm_nonneg c
  have m1 : M * ‖c‖ ≤ max M N * ‖c‖ := mul_le_mul_of_nonneg_right (le_max_left _ _) nc
  have m2 : N * ‖c‖ ≤ max M N * ‖c‖ := mul_le_mul_of_nonneg_right (le_max_right _ _) nc
  set q := max M N * ‖c‖ with hq
  have q0 : 0 ≤ q := by positivity
  have small : ∀ S ∈ s, ‖S‖ ≤ 1 → ‖U c S‖ ≤ q := fun S hS h => by
    rw [hU c S hS, norm_neg, norm_smul, mul_comm]
    exact (mul_le_mul_of_nonneg_right (b1 S (by simpa using h)) nc).trans m1
  have key : ∀ k : ℕ, (U c)^[k] 0 ∈ s ∧ ‖(U c)^[k] 0‖ ≤ 1 ∧ ‖(U c)^[k] 0 - T‖ ≤ q ^ (k + 1) := by
    intro k
    induction k with
    | zero =>
      refine ⟨zero, by simp, ?_⟩
      have := small T hT hn
      rw [fix] at this
      simpa using this
    | succ k ih =>
      rw [Function.iterate_succ_apply']
      refine ⟨maps c ih.1, (small _ ih.1 ih.2.1).trans hc, ?_⟩
      rw [pow_succ' _ (k + 1)]
      nth_rewrite 1 [← fix]
      rw [hU c _ ih.1, hU c T hT, neg_sub_neg, ← smul_sub, norm_smul, norm_sub_rev]
      have := b2 T (by simpa using hn) _ (by simpa using ih.2.1)
      calc _ ≤ ‖c‖ * (M * ‖(U c)^[k] 0 - T‖) := mul_le_mul_of_nonneg_left this nc
        _ = (M * ‖c‖) * ‖(U c)^[k] 0 - T‖ := by ring
        _ ≤ _ := mul_le_mul m1 ih.2.2 (norm_nonneg _) q0
  obtain ⟨-, h1, h2⟩ := key k
  refine ⟨h2, ?_⟩
  rw [← mul_sub, norm_mul, pow_succ' _ (k + 1)]
  have := l T (by simpa using hn) _ (by simpa using h1)
  calc _ ≤ ‖c‖ * (N * ‖(U c)^[k] 0 - T‖) := mul_le_mul_of_nonneg_left this nc
    _ = (N * ‖c‖) * ‖(U c)^[k] 0 - T‖ := by ring
    _ ≤ _ := mul_le_mul m2 h2 (norm_nonneg _) q0
end

section
variable {𝕜 : Type} [RCLike 𝕜] {O V Oa Va Ob Vb : Type} [Fintype O] [Fintype V] [Fintype Oa] [Fintype Va] [Fintype Ob] [Fintype Vb]
  [DecidableEq O] [DecidableEq V] [DecidableEq Oa] [DecidableEq Va] [DecidableEq Ob] [DecidableEq Vb]

/-- C93, unrestricted: `k` updates from zero give the amplitudes up to terms of order `k + 1` and the energy of `ucc_energy` up to order `k + 2`. -/
theorem C93_unrestricted (eoa : Oa → 𝕜) (eva : Va → 𝕜) (eob : Ob → 𝕜) (evb : Vb → 𝕜) (g : UGap eoa eva eob evb)
    (fa : OneE Oa Va 𝕜) (fb : OneE Ob Vb 𝕜) (Ia : TwoE Oa Va 𝕜) (Ib : TwoE Ob Vb 𝕜) (Iab : TwoEFull Oa Va Ob Vb 𝕜)
    (hIa : AntiI Ia) (hIb : AntiI Ib) :
    ∃ M : ℝ, 0 < M ∧ ∀ c : 𝕜, M * ‖c‖ ≤ 1 → ∀ T : UAmp 𝕜 Oa Va Ob Vb, Anti T.2.1 → Anti T.2.2.2 → ‖T‖ ≤ 1 →
      uccsd_stanton ((diagF eoa eva).addMul c fa) ((diagF eob evb).addMul c fb) (Ia.mul c) (Ib.mul c) (Iab.mul c) T.1 T.2 = 0 →
      ∀ (k : ℕ) (T' : UAmp 𝕜 Oa Va Ob Vb),
        T' = (uupdate ((diagF eoa eva).addMul c fa) ((diagF eob evb).addMul c fb) (Ia.mul c) (Ib.mul c) (Iab.mul c) eoa eva eob evb)^[k] 0 →
        ‖T' - T‖ ≤ (M * ‖c‖) ^ (k + 1) ∧
        ‖ucc_energy T'.1 T'.2 ((diagF eoa eva).addMul c fa).ov ((diagF eob evb).addMul c fb).ov (Ia.mul c).oovv (Ib.mul c).oovv (Iab.mul c).oovv
          - ucc_energy T.1 T.2 ((diagF eoa eva).addMul c fa).ov ((diagF eob evb).addMul c fb).ov (Ia.mul c).oovv (Ib.mul c).oovv (Iab.mul c).oovv‖
          ≤ (M * ‖c‖) ^ (k + 2) := by
  have he : ContDiff 𝕜 1 (fun T : UAmp 𝕜 Oa Va Ob Vb => ucc_energy T.1 T.2 fa.ov fb.ov Ia.oovv Ib.oovv Iab.oovv) := by
    unfold ucc_energy
    fun_prop
  obtain ⟨M, hM, H⟩ := weak_orders (𝕜 := 𝕜) (s := {T : UAmp 𝕜 Oa Va Ob Vb | UAnti T}) uzero_anti
    ((divU eoa eva eob evb).contDiff.comp (uRes_smooth fa fb Ia Ib Iab))
    (U := fun c => uupdate ((diagF eoa eva).addMul c fa) ((diagF eob evb).addMul c fb) (Ia.mul c) (Ib.mul c) (Iab.mul c) eoa eva eob evb)
    (fun c T hT => uupdate_weak fa fb Ia Ib Iab hIa hIb g c hT)
    (fun c T hT => usub_anti hT (divU_anti _ _ _ _ (ures_anti _ _ _ _ _ (TwoE.mul_anti hIa c) (TwoE.mul_anti hIb c) hT))) he
  refine ⟨M, hM, fun c hc T ha hb hn sol k T' hT' => ?_⟩
  obtain ⟨h1, h2⟩ := H c hc T ⟨ha, hb⟩ hn ((uupdate_fixed _ _ _ _ _ g T).2 sol) k
  subst hT'
  refine ⟨h1, ?_⟩
  rw [weak_uenergy, weak_uenergy]
  exact h2

/-- C93, restricted: `k` updates from zero give the amplitudes up to terms of order `k + 1` and the energy of `rcc_energy` up to order `k + 2`. -/
theorem C93_restricted (eo : O → 𝕜) (ev : V → 𝕜) (f : OneE O V 𝕜) (I : TwoEFull O V O V 𝕜) (hI : PairI I)
    (g1 : ∀ a i, ev a - eo i ≠ 0) (g2 : ∀ a b i j, ev a + ev b - eo i - eo j ≠ 0) :
    ∃ M : ℝ, 0 < M ∧ ∀ c : 𝕜, M * ‖c‖ ≤ 1 → ∀ T : Amp 𝕜 O V, PairSym T.2 → ‖T‖ ≤ 1 →
      rccsd_stanton ((diagF eo ev).addMul c f) (I.mul c) T.1 T.2 = 0 →
      ∀ (k : ℕ) (T' : Amp 𝕜 O V), T' = (rupdate ((diagF eo ev).addMul c f) (I.mul c) eo ev)^[k] 0 →
        ‖T' - T‖ ≤ (M * ‖c‖) ^ (k + 1) ∧
        ‖rcc_energy T'.1 T'.2 ((diagF eo ev).addMul c f).ov (I.mul c).oovv - rcc_energy T.1 T.2 ((diagF eo ev).addMul c f).ov (I.mul c).oovv‖
          ≤ (M * ‖c‖) ^ (k + 2) := by
  have he : ContDiff 𝕜 1 (fun T : Amp 𝕜 O V => rcc_energy T.1 T.2 f.ov I.oovv) := by
    unfold rcc_energy
    fun_prop
  obtain ⟨M, hM, H⟩ := weak_orders (𝕜 := 𝕜) (s := {T : Amp 𝕜 O V | PairSym T.2}) (fun _ _ _ _ => rfl)
    ((divD eo ev).contDiff.comp (rRes_smooth f I)) (U := fun c => rupdate ((diagF eo ev).addMul c f) (I.mul c) eo ev)
    (fun c T hT => rupdate_weak f I hI g1 g2 c hT)
    (fun c T hT => sub_pair hT (divD_pair _ _ (C43_rccsd_pair _ _ T.1 T.2 (mul_pair hI c) hT))) he
  refine ⟨M, hM, fun c hc T ha hn sol k T' hT' => ?_⟩
  obtain ⟨h1, h2⟩ := H c hc T ha hn ((rupdate_fixed _ _ g1 g2 T).2 sol) k
  subst hT'
  refine ⟨h1, ?_⟩
  rw [weak_renergy, weak_renergy]
  exact h2
end

/-- Non-trivial case: one electron of each spin in two interacting levels; the solution exists by C73. -/
example : ∃ M c₀ : ℝ, 0 < M ∧ 0 < c₀ ∧ ∀ c : ℝ, ‖c‖ ≤ c₀ → ∃ T : Amp ℝ U1 U1,
    rccsd_stanton ((diagF (fun _ => 0) (fun _ => 1)).addMul c FU) ((IUab 1 1).mul c) T.1 T.2 = 0 ∧
    ∀ (k : ℕ) (T' : Amp ℝ U1 U1), T' = (rupdate ((diagF (fun _ => 0) (fun _ => 1)).addMul c FU) ((IUab 1 1).mul c) (fun _ => 0) (fun _ => 1))^[k] 0 →
      ‖rcc_energy T'.1 T'.2 ((diagF (fun _ => 0) (fun _ => 1)).addMul c FU).ov ((IUab 1 1).mul c).oovv
        - rcc_energy T.1 T.2 ((diagF (fun _ => 0) (fun _ => 1)).addMul c FU).ov ((IUab 1 1).mul c).oovv‖ ≤ (M * ‖c‖) ^ (k + 2) := by
  obtain ⟨c₀, h0, ex⟩ := C73_rccsd_converges (𝕜 := ℝ) (fun _ : U1 => 0) (fun _ : U1 => 1) FU (IUab 1 1) (IUab_pair 1 1) (fun _ _ => by norm_num)
    (fun _ _ _ _ => by norm_num) 1 one_pos
  obtain ⟨M, hM, b⟩ := C93_restricted (𝕜 := ℝ) (fun _ : U1 => 0) (fun _ : U1 => 1) FU (IUab 1 1) (IUab_pair 1 1) (fun _ _ => by norm_num)
    (fun _ _ _ _ => by norm_num)
  refine ⟨M, min c₀ (1 / M), hM, lt_min h0 (by positivity), fun c hc => ?_⟩
  obtain ⟨T, hT, nT, sol, -, -⟩ := ex c (hc.trans (min_le_left _ _))
  have hq : M * ‖c‖ ≤ 1 := by
    have := mul_le_mul_of_nonneg_left (hc.trans (min_le_right _ _)) hM.le
    rwa [mul_one_div_cancel hM.ne'] at this
  exact ⟨T, sol, fun k T' hT' => (b c hq T hT nT sol k T' hT').2⟩

example : ∃ M c₀ : ℝ, 0 < M ∧ 0 < c₀ ∧ ∀ c : ℝ, ‖c‖ ≤ c₀ → ∃ T : UAmp ℝ U1 U1 U1 U1,
    uccsd_stanton ((diagF (fun _ => 0) (fun _ => 1)).addMul c FU) ((diagF (fun _ => 0) (fun _ => 1)).addMul c FU) (IU.mul c) (IU.mul c) ((IUab 1 1).mul c) T.1 T.2 = 0 ∧
    ∀ (k : ℕ), ‖(uupdate ((diagF (fun _ => 0) (fun _ => 1)).addMul c FU) ((diagF (fun _ => 0) (fun _ => 1)).addMul c FU) (IU.mul c) (IU.mul c) ((IUab 1 1).mul c)
      (fun _ => 0) (fun _ => 1) (fun _ => 0) (fun _ => 1))^[k] 0 - T‖ ≤ (M * ‖c‖) ^ (k + 1) := by
  have g : UGap (𝕜 := ℝ) (fun _ : U1 => 0) (fun _ : U1 => 1) (fun _ : U1 => 0) (fun _ : U1 => 1) :=
    ⟨fun _ _ => by norm_num, fun _ _ => by norm_num, fun _ _ _ _ => by norm_num, fun _ _ _ _ => by norm_num, fun _ _ _ _ => by norm_num⟩
  obtain ⟨c₀, h0, ex⟩ := C73_uccsd_converges (𝕜 := ℝ) (fun _ : U1 => 0) (fun _ : U1 => 1) (fun _ : U1 => 0) (fun _ : U1 => 1) g
    FU FU IU IU (IUab 1 1) IU_anti IU_anti 1 one_pos
  obtain ⟨M, hM, b⟩ := C93_unrestricted (𝕜 := ℝ) (fun _ : U1 => 0) (fun _ : U1 => 1) (fun _ : U1 => 0) (fun _ : U1 => 1) g
    FU FU IU IU (IUab 1 1) IU_anti IU_anti
  refine ⟨M, min c₀ (1 / M), hM, lt_min h0 (by positivity), fun c hc => ?_⟩
  obtain ⟨T, ha, hb, nT, sol, -, -⟩ := ex c (hc.trans (min_le_left _ _))
  have hq : M * ‖c‖ ≤ 1 := by
    have := mul_le_mul_of_nonneg_left (hc.trans (min_le_right _ _)) hM.le
    rwa [mul_one_div_cancel hM.ne'] at this
  exact ⟨T, sol, fun k => (b c hq T ha hb nT sol k _ rfl).1⟩
end CC
