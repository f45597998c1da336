import Verif.Props.LimitEx
/-!
# C51, C73: what a converged unrestricted or restricted calculation has found

As in `LimitEx`, for the updates with `uccsd_stanton` and `rccsd_stanton`.
-/
set_option linter.unusedSectionVars false
set_option synthInstance.maxHeartbeats 400000
set_option synthInstance.maxSize 2000
namespace CC
open Finset Filter Topology Verif.Tensor

/-- The limit of iterates that stay in a closed set is a fixed point, if the map is continuous on that set. -/
theorem limit_fixed {E : Type} [TopologicalSpace E] [T2Space E] {s : Set E} (cl : IsClosed s) {U g : E → E} (hg : Continuous g) (e : ∀ x ∈ s, U x = g x)
    (st : ∀ x ∈ s, U x ∈ s) {x y : E} (hx : x ∈ s) (h : Tendsto (fun m => U^[m] x) atTop (𝓝 y)) : y ∈ s ∧ U y = y := by
  have it : ∀ m, U^[m] x ∈ s := fun m => by
    induction m with
    | zero => exact hx
    | succ m ih => rw [Function.iterate_succ_apply']; exact st _ ih
  have hy : y ∈ s := cl.mem_of_tendsto h (Eventually.of_forall it)
  refine ⟨hy, ?_⟩
  have c : Tendsto (fun m => g (U^[m] x)) atTop (𝓝 (g y)) := (hg.tendsto y).comp h
  simp only [← fun m => e _ (it m), ← Function.iterate_succ_apply' U] at c
  rw [e y hy]
  exact tendsto_nhds_unique c (h.comp (tendsto_add_atTop_nat 1))

section
variable {𝕜 : Type} [RCLike 𝕜] {Oa Va Ob Vb : Type} [DecidableEq Oa] [DecidableEq Va] [DecidableEq Ob] [DecidableEq Vb] [Fintype Oa] [Fintype Va] [Fintype Ob]
  [Fintype Vb]

/-- C73: if the unrestricted updates converge and no denominator vanishes, the limit is antisymmetric and solves the equations. -/
theorem C73_u_limit_solves (Fa : OneE Oa Va 𝕜) (Fb : OneE Ob Vb 𝕜) (Ia : TwoE Oa Va 𝕜) (Ib : TwoE Ob Vb 𝕜) (Iab : TwoEFull Oa Va Ob Vb 𝕜) (hIa : AntiI Ia)
    (hIb : AntiI Ib) {eoa : Oa → 𝕜} {eva : Va → 𝕜} {eob : Ob → 𝕜} {evb : Vb → 𝕜} (g : UGap eoa eva eob evb) {T S : UAmp 𝕜 Oa Va Ob Vb} (hT : UAnti T)
    (h : Tendsto (fun m => (uupdate Fa Fb Ia Ib Iab eoa eva eob evb)^[m] T) atTop (𝓝 S)) : UAnti S ∧ uccsd_stanton Fa Fb Ia Ib Iab S.1 S.2 = 0 := by
  obtain ⟨hS, f⟩ := limit_fixed (s := {T : UAmp 𝕜 Oa Va Ob Vb | UAnti T}) closed_uanti
    (g := fun T => T - divU eoa eva eob evb (uRes Fa Fb Ia Ib Iab T))
    (continuous_id.sub ((divU eoa eva eob evb).continuous.comp (uRes_smooth Fa Fb Ia Ib Iab).continuous))
    (fun T hT => by rw [uRes_eq Fa Fb Ia Ib Iab hIa hIb hT])
    (fun T hT => usub_anti hT (divU_anti _ _ _ _ (ures_anti _ _ _ _ _ hIa hIb hT))) hT h
  exact ⟨hS, (uupdate_fixed _ _ _ _ _ g S).1 f⟩

variable {O V : Type} [DecidableEq O] [DecidableEq V] [Fintype O] [Fintype V]

/-- C73: if the restricted updates converge and no denominator vanishes, the limit keeps the exchange symmetry and solves the equations. -/
theorem C73_r_limit_solves (F : OneE O V 𝕜) (I : TwoEFull O V O V 𝕜) (hI : PairI I) {eo : O → 𝕜} {ev : V → 𝕜} (g1 : ∀ a i, ev a - eo i ≠ 0)
    (g2 : ∀ a b i j, ev a + ev b - eo i - eo j ≠ 0) {T S : Amp 𝕜 O V} (hT : PairSym T.2) (h : Tendsto (fun m => (rupdate F I eo ev)^[m] T) atTop (𝓝 S)) :
    PairSym S.2 ∧ rccsd_stanton F I S.1 S.2 = 0 := by
  obtain ⟨hS, f⟩ := limit_fixed (s := {T : Amp 𝕜 O V | PairSym T.2}) (closed_pair continuous_snd) (g := fun T => T - divD eo ev (rRes F I T))
    (continuous_id.sub ((divD eo ev).continuous.comp (rRes_smooth F I).continuous)) (fun T hT => by rw [rupdate_eq, rRes_eq F I hI hT])
    (fun T hT => sub_pair hT (divD_pair _ _ (C43_rccsd_pair _ _ T.1 T.2 hI hT))) hT h
  exact ⟨hS, (rupdate_fixed _ _ g1 g2 S).1 f⟩

/-- The hypotheses are met by every weak perturbation of uncoupled orbitals. -/
example (eo : O → 𝕜) (ev : V → 𝕜) (f : OneE O V 𝕜) (I : TwoEFull O V O V 𝕜) (hI : PairI I) (g1 : ∀ a i, ev a - eo i ≠ 0)
    (g2 : ∀ a b i j, ev a + ev b - eo i - eo j ≠ 0) : ∃ c₀ : ℝ, 0 < c₀ ∧ ∀ c : 𝕜, ‖c‖ ≤ c₀ →
      ∃ S, Tendsto (fun m => (rupdate ((diagF eo ev).addMul c f) (I.mul c) eo ev)^[m] 0) atTop (𝓝 S) := by
  obtain ⟨c₀, h0, H⟩ := C73_rccsd_converges eo ev f I hI g1 g2 1 one_pos
  refine ⟨c₀, h0, fun c hc => ?_⟩
  obtain ⟨T, -, -, -, -, it⟩ := H c hc
  refine ⟨T, tendsto_iff_norm_sub_tendsto_zero.2 (squeeze_zero (fun _ => norm_nonneg _) (fun m => it 0 (fun _ _ _ _ => rfl) (by simp) m) ?_)⟩
  simpa using (tendsto_pow_atTop_nhds_zero_of_lt_one (r := (1 / 2 : ℝ)) (by norm_num) (by norm_num)).mul_const ‖0 - T‖
end
end CC

namespace Sq
open Finset CC Filter Topology
variable {𝕜 : Type} [RCLike 𝕜] {Oa Va Ob Vb ι : Type} [DecidableEq Oa] [DecidableEq Va] [DecidableEq Ob] [DecidableEq Vb] [LinearOrder ι] [Fintype Oa] [Fintype Va]
  [Fintype Ob] [Fintype Vb] (σ : (Oa ⊕ Ob) ⊕ (Va ⊕ Vb) ≃ ι)

/-- C51: for at most two electrons of any spins, an unrestricted calculation that converges finds an eigenvector of the Hamiltonian whose Fock matrix and
interaction have its spin blocks, and the reference energy plus `ucc_energy` of its updates tends to the eigenvalue. -/
theorem C51_u_limit (h : (Oa ⊕ Ob) ⊕ (Va ⊕ Vb) → (Oa ⊕ Ob) ⊕ (Va ⊕ Vb) → 𝕜)
    (v : (Oa ⊕ Ob) ⊕ (Va ⊕ Vb) → (Oa ⊕ Ob) ⊕ (Va ⊕ Vb) → (Oa ⊕ Ob) ⊕ (Va ⊕ Vb) → (Oa ⊕ Ob) ⊕ (Va ⊕ Vb) → 𝕜) (hv : AntiV v)
    (Fa : OneE Oa Va 𝕜) (Fb : OneE Ob Vb 𝕜) (Ia : TwoE Oa Va 𝕜) (Ib : TwoE Ob Vb 𝕜) (Iab : TwoEFull Oa Va Ob Vb 𝕜) (hIa : AntiI Ia) (hIb : AntiI Ib)
    (hF : fock h v = F_to_spin Fa Fb) (hB : blocks v = int_to_spin2 Ia Ib Iab) (h2 : Fintype.card Oa + Fintype.card Ob ≤ 2)
    {eoa : Oa → 𝕜} {eva : Va → 𝕜} {eob : Ob → 𝕜} {evb : Vb → 𝕜} (g : UGap eoa eva eob evb) {T S : UAmp 𝕜 Oa Va Ob Vb} (hT : UAnti T)
    (hS : Tendsto (fun m => (uupdate Fa Fb Ia Ib Iab eoa eva eob evb)^[m] T) atTop (𝓝 S)) :
    ∃ E : 𝕜, ∃ ψ : Finset ι → 𝕜, ψ ≠ 0 ∧ ham (fockCAR σ 𝕜) h v ψ = E • ψ
      ∧ Tendsto (fun m => refEnergy h v + ucc_energy ((uupdate Fa Fb Ia Ib Iab eoa eva eob evb)^[m] T).1 ((uupdate Fa Fb Ia Ib Iab eoa eva eob evb)^[m] T).2
          Fa.ov Fb.ov Ia.oovv Ib.oovv Iab.oovv) atTop (𝓝 E) := by
  obtain ⟨hA, hr⟩ := C73_u_limit_solves Fa Fb Ia Ib Iab hIa hIb g hT hS
  have s : ccsd_simple (fock h v) (blocks v) (asSpin S).1 (asSpin S).2 = (fun _ _ => 0, fun _ _ _ _ => 0) := by
    rw [← asSpin_zero hr, hF, hB]
    exact C13_uccsd Fa Fb Ia Ib Iab S.1.1 S.1.2 S.2.1 S.2.2.1 S.2.2.2 hIa hIb hA.1 hA.2
  have en : ∀ T : UAmp 𝕜 Oa Va Ob Vb, ucc_energy T.1 T.2 Fa.ov Fb.ov Ia.oovv Ib.oovv Iab.oovv
      = cc_energy (asSpin T).1 (asSpin T).2 (fock h v).ov (blocks v).oovv := fun T => by
    rw [hF, hB]
    exact (C12_ucc_energy Fa Fb Ia Ib Iab T.1.1 T.1.2 T.2.1 T.2.2.1 T.2.2.2).symm
  refine ⟨_, nexp 𝕜 (cluster (fockCAR σ 𝕜) (asSpin S).1 (asSpin S).2) (Fock.det (occSet σ)), fun h0 => ?_,
    C51_two_electrons σ h v hv (asSpin_anti hA) (by rwa [Fintype.card_sum]) (fun a i => by rw [s]) (fun a b i j => by rw [s]), ?_⟩
  · have := C51_intermediate_norm (K := 𝕜) σ (t := (asSpin S).1) (t2 := (asSpin S).2)
    rw [h0] at this
    exact zero_ne_one this
  · simp only [en]
    have c : Continuous fun T : Amp 𝕜 (Oa ⊕ Ob) (Va ⊕ Vb) => cc_energy T.1 T.2 (fock h v).ov (blocks v).oovv := by
      unfold cc_energy cc_energy_d cc_energy_s1 cc_energy_s2; fun_prop
    exact ((c.tendsto _).comp ((asSpin.continuous.tendsto S).comp hS)).const_add _

/-- Non-vacuity: two electrons of opposite spins in two orbitals, coupled by a weak field, from zero amplitudes. -/
example : ∃ c : ℝ, 0 < c ∧ ∃ E : ℝ, ∃ ψ : Finset (Fin 4) → ℝ, ψ ≠ 0 ∧ ham (fockCAR ((Equiv.sumCongr finSumFinEquiv finSumFinEquiv).trans finSumFinEquiv) ℝ)
    (one (F_to_spin (Oa := Fin 1) (Va := Fin 1) (Ob := Fin 1) (Vb := Fin 1) ⟨fun _ _ => 0, fun _ _ => c, fun _ _ => c, fun _ _ => 3⟩
      ⟨fun _ _ => 0, fun _ _ => c, fun _ _ => c, fun _ _ => 3⟩)) (fun _ _ _ _ => 0) ψ = E • ψ := by
  have g : UGap (𝕜 := ℝ) (fun _ : Fin 1 => 0) (fun _ : Fin 1 => 3) (fun _ : Fin 1 => 0) (fun _ : Fin 1 => 3) := by constructor <;> intros <;> norm_num
  have z : AntiI (Heap.noI (Fin 1) (Fin 1) ℝ) := by constructor <;> intro a b c d <;> simp [Heap.noI]
  obtain ⟨c₀, h0, H⟩ := C73_uccsd_converges (𝕜 := ℝ) _ _ _ _ g ⟨fun _ _ => 0, fun _ _ => 1, fun _ _ => 1, fun _ _ => 0⟩
    ⟨fun _ _ => 0, fun _ _ => 1, fun _ _ => 1, fun _ _ => 0⟩ (Heap.noI (Fin 1) (Fin 1) ℝ) (Heap.noI (Fin 1) (Fin 1) ℝ) (Heap.noJ (Fin 1) (Fin 1) (Fin 1) (Fin 1) ℝ)
    z z 1 one_pos
  refine ⟨c₀, h0, ?_⟩
  obtain ⟨T, -, -, -, -, -, it⟩ := H c₀ (by rw [Real.norm_of_nonneg h0.le])
  have t := tendsto_iff_norm_sub_tendsto_zero.2 (squeeze_zero (fun _ => norm_nonneg _) (fun m => it 0 uzero_anti.1 uzero_anti.2 (by simp) m)
    (by simpa using (tendsto_pow_atTop_nhds_zero_of_lt_one (r := (1 / 2 : ℝ)) (by norm_num) (by norm_num)).mul_const ‖0 - T‖))
  obtain ⟨E, ψ, n, e, -⟩ := C51_u_limit ((Equiv.sumCongr finSumFinEquiv finSumFinEquiv).trans finSumFinEquiv)
    (one (F_to_spin (Oa := Fin 1) (Va := Fin 1) (Ob := Fin 1) (Vb := Fin 1) ⟨fun _ _ => 0, fun _ _ => c₀, fun _ _ => c₀, fun _ _ => 3⟩
      ⟨fun _ _ => 0, fun _ _ => c₀, fun _ _ => c₀, fun _ _ => 3⟩)) (fun _ _ _ _ => 0)
    (by constructor <;> intros <;> simp) _ _ _ _ _ (TwoE.mul_anti z _) (TwoE.mul_anti z _) (by
      unfold fock F_to_spin OneE.addMul diagF
      congr 1 <;> funext p q <;> rcases p with p | p <;> rcases q with q | q <;> simp [one, blk2, Subsingleton.elim p q]) (by
      unfold blocks int_to_spin2
      congr 1 <;> funext p q r s <;> rcases p with p | p <;> rcases q with q | q <;> rcases r with r | r <;> rcases s with s | s <;>
        simp [int_to_spin_block, Heap.noI, Heap.noJ, TwoE.mul, TwoEFull.mul]) (by simp) g uzero_anti t
  exact ⟨E, ψ, n, e⟩
end Sq
