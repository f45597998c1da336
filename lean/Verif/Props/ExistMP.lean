import Verif.Props.Exist
/-!
# C58, weak coupling: solutions exist whenever the orbital energies have a gap

Integrals `diag(e) + c f` and `c I`.  If no denominator `e_a - e_i`, `e_a + e_b - e_i - e_j` vanishes, the uncoupled point `c = 0` is
non-singular, so for all small `c` the equations coded in `ccsd_simple` and `ccsd_lambda_simple` have solutions, the density matrices give the
derivative of the energy, and to leading order the energy is `c^2` times what `mp2_energy` returns for the first-order amplitudes.
-/
set_option linter.unusedSectionVars false
set_option synthInstance.maxHeartbeats 400000
set_option synthInstance.maxSize 2000
set_option maxHeartbeats 4000000
namespace CC
open Finset Filter Topology

section
variable {K : Type} [Field K] {O V : Type} [Fintype O] [Fintype V]

/-- Diagonal one-electron integrals: orbital energies. -/
def diagF [DecidableEq O] [DecidableEq V] (eo : O → K) (ev : V → K) : OneE O V K where
  oo i j := if i = j then eo i else 0
  ov _ _ := 0
  vo _ _ := 0
  vv a b := if a = b then ev a else 0

/-- `F + c f`, block by block -/
def OneE.addMul (F : OneE O V K) (c : K) (f : OneE O V K) : OneE O V K where
  oo i j := F.oo i j + c * f.oo i j
  ov i a := F.ov i a + c * f.ov i a
  vo a i := F.vo a i + c * f.vo a i
  vv a b := F.vv a b + c * f.vv a b

/-- `c I`, block by block -/
def TwoE.mul (c : K) (I : TwoE O V K) : TwoE O V K where
  vvvv p q r s := c * I.vvvv p q r s
  vvvo p q r s := c * I.vvvo p q r s
  vovv p q r s := c * I.vovv p q r s
  vvoo p q r s := c * I.vvoo p q r s
  vovo p q r s := c * I.vovo p q r s
  oovv p q r s := c * I.oovv p q r s
  vooo p q r s := c * I.vooo p q r s
  ooov p q r s := c * I.ooov p q r s
  oooo p q r s := c * I.oooo p q r s

theorem TwoE.mul_anti {I : TwoE O V K} (h : AntiI I) (c : K) : AntiI (I.mul c) := by
  obtain ⟨h1, h2, h3, h4, h5, h6, h7, h8, h9, h10, h11, h12⟩ := h
  constructor <;> (intro p q r s; simp only [TwoE.mul]; first | rw [h1 p q r s] | rw [h2 p q r s] | rw [h3 p q r s] | rw [h4 p q r s] | rw [h5 p q r s] | rw [h6 p q r s] | rw [h7 p q r s] | rw [h8 p q r s] | rw [h9 p q r s] | rw [h10 p q r s] | rw [h11 p q r s] | rw [h12 p q r s]) <;> ring

variable [CharZero K]

theorem simple_split1 (F f : OneE O V K) (I : TwoE O V K) (c : K) (T1 : V → O → K) (T2 : V → V → O → O → K) (a : V) (i : O) :
    (ccsd_simple (F.addMul c f) (I.mul c) T1 T2).1 a i = (ccsd_simple F (I.mul 0) T1 T2).1 a i + c * (ccsd_simple f I T1 T2).1 a i := by
  tensor

theorem simple_split2 (F f : OneE O V K) (I : TwoE O V K) (c : K) (T1 : V → O → K) (T2 : V → V → O → O → K) (a b : V) (i j : O) :
    (ccsd_simple (F.addMul c f) (I.mul c) T1 T2).2 a b i j = (ccsd_simple F (I.mul 0) T1 T2).2 a b i j + c * (ccsd_simple f I T1 T2).2 a b i j := by
  tensor

variable [DecidableEq O] [DecidableEq V]

theorem diag1 (eo : O → K) (ev : V → K) (I : TwoE O V K) (hI : AntiI I) (T1 : V → O → K) (T2 : V → V → O → O → K) (hT : Anti T2) (a : V) (i : O) :
    (ccsd_simple (diagF eo ev) (I.mul 0) T1 T2).1 a i = (ev a - eo i) * T1 a i := by
  rw [C01_simple_singles_textbook _ _ (TwoE.mul_anti hI 0) _ _ hT]
  simp [Spec.singles, diagF, TwoE.mul, Spec.ovvo, Spec.ovvv, Spec.oovo, ite_mul]
  ring

theorem diag2 (eo : O → K) (ev : V → K) (I : TwoE O V K) (hI : AntiI I) (T1 : V → O → K) (T2 : V → V → O → O → K) (hT : Anti T2) (a b : V) (i j : O) :
    (ccsd_simple (diagF eo ev) (I.mul 0) T1 T2).2 a b i j = (ev a + ev b - eo i - eo j) * T2 a b i j := by
  rw [C01_simple_doubles_textbook _ _ (TwoE.mul_anti hI 0) _ _ hT]
  simp [Spec.doubles, diagF, TwoE.mul, Spec.ovvo, Spec.ovvv, Spec.oovo, Spec.ovoo, Spec.ovov, Spec.Pij, Spec.Pab, ite_mul]
  linear_combination (-ev a) * hT.a12 b a i j + eo i * hT.a34 a b j i

theorem simple_zero1 (f : OneE O V K) (I : TwoE O V K) (a : V) (i : O) :
    (ccsd_simple f I (fun _ _ => 0) (fun _ _ _ _ => 0)).1 a i = f.vo a i := by
  tensor
theorem simple_zero2 (f : OneE O V K) (I : TwoE O V K) (a b : V) (i j : O) :
    (ccsd_simple f I (fun _ _ => 0) (fun _ _ _ _ => 0)).2 a b i j = I.vvoo a b i j := by
  tensor
theorem weak_energy (eo : O → K) (ev : V → K) (f : OneE O V K) (I : TwoE O V K) (c : K) (t1 : V → O → K) (t2 : V → V → O → O → K) :
    cc_energy t1 t2 ((diagF eo ev).addMul c f).ov (I.mul c).oovv = c * cc_energy t1 t2 f.ov I.oovv := by
  simp only [diagF, OneE.addMul, TwoE.mul]
  tensor

theorem weak_split (f : OneE O V K) (I : TwoE O V K) (c d : K) (u1 : V → O → K) (u2 : V → V → O → O → K) :
    c * (mp2_energy (fun a i => u1 a i * d) (fun a b i j => u2 a b i j * d) f.ov I.oovv
      + (1/2) * ∑ i, ∑ j, ∑ a, ∑ b, (u1 a i * d) * u1 b j * I.oovv i j a b) = (c * d) * cc_energy u1 u2 f.ov I.oovv := by
  tensor
end

section
variable {𝕜 : Type} [RCLike 𝕜] {O V : Type} [Fintype O] [Fintype V] [DecidableEq O] [DecidableEq V]

theorem addMul_zero (F f : OneE O V 𝕜) : F.addMul 0 f = F := by
  simp [OneE.addMul]

theorem addMul_deriv (F f : OneE O V 𝕜) (x : 𝕜) : OneE.HasDeriv (fun ε => F.addMul ε f) f x := by
  constructor <;> intro p q <;> simp only [OneE.addMul] <;> refine HasDerivAt.const_add _ ?_ <;> simpa using (hasDerivAt_id x).mul_const _

theorem mul_deriv (I : TwoE O V 𝕜) (x : 𝕜) : TwoE.HasDeriv (fun ε => I.mul ε) I x := by
  constructor <;> intro p q r s <;> simp only [TwoE.mul] <;> simpa using ((hasDerivAt_id x).mul_const _)

/-- C58: the uncoupled point is non-singular when no denominator vanishes. -/
theorem C58_gap_nonsingular (eo : O → 𝕜) (ev : V → 𝕜) (I : TwoE O V 𝕜) (hI : AntiI I)
    (g1 : ∀ a i, ev a - eo i ≠ 0) (g2 : ∀ a b i j, ev a + ev b - eo i - eo j ≠ 0) :
    Nonsingular (diagF eo ev) (I.mul 0) (fun _ _ => 0) (fun _ _ _ _ => 0) := by
  intro X1 X2 hX h1 h2
  have a : ∀ s : 𝕜, Anti (fun a b i j => (0:𝕜) + s * X2 a b i j) := fun s =>
    ⟨fun a b i j => by rw [hX.a12 a b]; ring, fun a b i j => by rw [hX.a34 a b i j]; ring⟩
  refine ⟨fun b i => ?_, fun b c i j => ?_⟩
  · have h := h1 b i
    have e : (fun s : 𝕜 => (ccsd_simple (diagF eo ev) (I.mul 0) (fun a i => 0 + s * X1 a i) (fun a b i j => 0 + s * X2 a b i j)).1 b i)
        = fun s => s * ((ev b - eo i) * X1 b i) := by
      funext s; rw [diag1 eo ev I hI _ _ (a s)]; ring
    rw [e] at h
    have h' := h.unique ((hasDerivAt_id (0 : 𝕜)).mul_const ((ev b - eo i) * X1 b i))
    rw [one_mul] at h'
    exact (mul_eq_zero.1 h'.symm).resolve_left (g1 b i)
  · have h := h2 b c i j
    have e : (fun s : 𝕜 => (ccsd_simple (diagF eo ev) (I.mul 0) (fun a i => 0 + s * X1 a i) (fun a b i j => 0 + s * X2 a b i j)).2 b c i j)
        = fun s => s * ((ev b + ev c - eo i - eo j) * X2 b c i j) := by
      funext s; rw [diag2 eo ev I hI _ _ (a s)]; ring
    rw [e] at h
    have h' := h.unique ((hasDerivAt_id (0 : 𝕜)).mul_const ((ev b + ev c - eo i - eo j) * X2 b c i j))
    rw [one_mul] at h'
    exact (mul_eq_zero.1 h'.symm).resolve_left (g2 b c i j)

/-- the residual depends continuously on the amplitudes -/
theorem simple_cont (F : OneE O V 𝕜) (I : TwoE O V 𝕜) (hI : AntiI I) {t1 : 𝕜 → V → O → 𝕜} {t2 : 𝕜 → V → V → O → O → 𝕜} {x : 𝕜}
    (c1 : ∀ a i, ContinuousAt (fun ε => t1 ε a i) x) (c2 : ∀ a b i j, ContinuousAt (fun ε => t2 ε a b i j) x) (a2 : ∀ ε, Anti (t2 ε)) :
    ContinuousAt (fun ε => (ccsd_simple F I (t1 ε) (t2 ε) : Amp 𝕜 O V)) x := by
  have e : (fun ε => (ccsd_simple F I (t1 ε) (t2 ε) : Amp 𝕜 O V)) = fun ε => resPt ((flat1 F, flat2 I), (t1 ε, t2 ε)) := by
    funext ε; exact (resPt_flat F I hI (t1 ε, t2 ε) (a2 ε)).symm
  rw [e]
  have c : ContinuousAt (fun ε => (((flat1 F, flat2 I), (t1 ε, t2 ε)) : Pt 𝕜 O V)) x := by
    refine continuousAt_const.prodMk (ContinuousAt.prodMk ?_ ?_)
    · exact continuousAt_pi.2 fun a => continuousAt_pi.2 fun i => c1 a i
    · exact continuousAt_pi.2 fun a => continuousAt_pi.2 fun b => continuousAt_pi.2 fun i => continuousAt_pi.2 fun j => c2 a b i j
  exact ContinuousAt.comp (f := fun ε => (((flat1 F, flat2 I), (t1 ε, t2 ε)) : Pt 𝕜 O V)) res_smooth.continuous.continuousAt c

/-- C58, weak coupling: with a gap the CCSD and Lambda equations have solutions for all small couplings, the amplitudes start with the first-order
amplitudes, the energy with the energy of `mp2_energy`, and the density matrices give its derivative at each of these couplings. -/
theorem C58_weak_coupling (eo : O → 𝕜) (ev : V → 𝕜) (f : OneE O V 𝕜) (I : TwoE O V 𝕜) (hI : AntiI I)
    (g1 : ∀ a i, ev a - eo i ≠ 0) (g2 : ∀ a b i j, ev a + ev b - eo i - eo j ≠ 0) :
    ∃ (t1 : 𝕜 → V → O → 𝕜) (t2 : 𝕜 → V → V → O → O → 𝕜), (∀ c, Anti (t2 c)) ∧
      (∀ᶠ c in 𝓝 0, ccsd_simple ((diagF eo ev).addMul c f) (I.mul c) (t1 c) (t2 c) = (fun _ _ => 0, fun _ _ _ _ => 0) ∧
        ∃ (L1 : O → V → 𝕜) (L2 : O → O → V → V → 𝕜), Anti L2 ∧
          ccsd_lambda_simple ((diagF eo ev).addMul c f) (I.mul c) L1 L2 (t1 c) (t2 c) = (fun _ _ => 0, fun _ _ _ _ => 0) ∧
          HasDerivAt (fun x => cc_energy (t1 x) (t2 x) ((diagF eo ev).addMul x f).ov (I.mul x).oovv) (traceRdm f I L1 L2 (t1 c) (t2 c)) c) ∧
      (∀ a i, Tendsto (fun c => t1 c a i / c) (𝓝[≠] 0) (𝓝 (-f.vo a i / (ev a - eo i)))) ∧
      (∀ a b i j, Tendsto (fun c => t2 c a b i j / c) (𝓝[≠] 0) (𝓝 (-I.vvoo a b i j / (ev a + ev b - eo i - eo j)))) ∧
      Tendsto (fun c => cc_energy (t1 c) (t2 c) ((diagF eo ev).addMul c f).ov (I.mul c).oovv / c ^ 2) (𝓝[≠] 0)
        (𝓝 (mp2_energy (fun a i => -f.vo a i / (ev a - eo i)) (fun a b i j => -I.vvoo a b i j / (ev a + ev b - eo i - eo j)) f.ov I.oovv)) := by
  have h0 : ccsd_simple ((diagF eo ev).addMul 0 f) (I.mul 0) (fun _ _ => 0) (fun _ _ _ _ => 0) = (fun _ _ => 0, fun _ _ _ _ => (0 : 𝕜)) := by
    rw [addMul_zero]
    refine Prod.ext ?_ ?_
    · funext a i; rw [diag1 eo ev I hI _ _ zero_anti', mul_zero]
    · funext a b i j; rw [diag2 eo ev I hI _ _ zero_anti', mul_zero]
  have ns : Nonsingular ((diagF eo ev).addMul 0 f) (I.mul 0) (fun _ _ => 0) (fun _ _ _ _ => 0) := by
    rw [addMul_zero]; exact C58_gap_nonsingular eo ev I hI g1 g2
  obtain ⟨t1, t2, e1, e2, a2, -, hA⟩ := C58_continuation (x := 0) (fun ε => addMul_deriv (diagF eo ev) f ε) (fun ε => mul_deriv I ε)
    (fun ε => TwoE.mul_anti hI ε) (fun _ _ => 0) (fun _ _ _ _ => 0) zero_anti' h0 ns
  have hR := hA.mono fun _ h => h.1
  have d1 := hA.self_of_nhds.2.1
  have d2 := hA.self_of_nhds.2.2.1
  have cR := simple_cont f I hI (fun a i => (d1 a i).continuousAt) (fun a b i j => (d2 a b i j).continuousAt) a2
  have hR' : ∀ᶠ c in 𝓝[≠] (0 : 𝕜), ccsd_simple ((diagF eo ev).addMul c f) (I.mul c) (t1 c) (t2 c) = (fun _ _ => 0, fun _ _ _ _ => 0) :=
    hR.filter_mono nhdsWithin_le_nhds
  have ne : ∀ᶠ c in 𝓝[≠] (0 : 𝕜), c ≠ 0 := eventually_mem_nhdsWithin
  have l1 : ∀ a i, Tendsto (fun c => t1 c a i / c) (𝓝[≠] 0) (𝓝 (-f.vo a i / (ev a - eo i))) := by
    intro a i
    have c := continuousAt_pi.1 (continuousAt_pi.1 cR.fst a) i
    have t : Tendsto (fun c => -(ccsd_simple f I (t1 c) (t2 c)).1 a i / (ev a - eo i)) (𝓝[≠] 0) (𝓝 (-f.vo a i / (ev a - eo i))) := by
      refine (Tendsto.div_const (Tendsto.neg ?_) _)
      have := c.tendsto.mono_left (nhdsWithin_le_nhds (s := {0}ᶜ))
      rw [e1, e2, simple_zero1] at this
      exact this
    refine t.congr' ?_
    filter_upwards [hR', ne] with c h hc
    have q := congrFun (congrFun (congrArg Prod.fst h) a) i
    rw [simple_split1, diag1 eo ev I hI _ _ (a2 c)] at q
    rw [div_eq_div_iff (g1 a i) hc]
    linear_combination -q
  have l2 : ∀ a b i j, Tendsto (fun c => t2 c a b i j / c) (𝓝[≠] 0) (𝓝 (-I.vvoo a b i j / (ev a + ev b - eo i - eo j))) := by
    intro a b i j
    have c := continuousAt_pi.1 (continuousAt_pi.1 (continuousAt_pi.1 (continuousAt_pi.1 cR.snd a) b) i) j
    have t : Tendsto (fun c => -(ccsd_simple f I (t1 c) (t2 c)).2 a b i j / (ev a + ev b - eo i - eo j)) (𝓝[≠] 0) (𝓝 (-I.vvoo a b i j / (ev a + ev b - eo i - eo j))) := by
      refine (Tendsto.div_const (Tendsto.neg ?_) _)
      have := c.tendsto.mono_left (nhdsWithin_le_nhds (s := {0}ᶜ))
      rw [e1, e2, simple_zero2] at this
      exact this
    refine t.congr' ?_
    filter_upwards [hR', ne] with c h hc
    have q := congrFun (congrFun (congrFun (congrFun (congrArg Prod.snd h) a) b) i) j
    rw [simple_split2, diag2 eo ev I hI _ _ (a2 c)] at q
    rw [div_eq_div_iff (g2 a b i j) hc]
    linear_combination -q
  refine ⟨t1, t2, a2, hA.mono fun _ h => ⟨h.1, h.2.2.2.2⟩, l1, l2, ?_⟩
  have z1 : ∀ a i, Tendsto (fun c => t1 c a i) (𝓝[≠] 0) (𝓝 0) := fun a i => by
    have := (d1 a i).continuousAt.tendsto.mono_left (nhdsWithin_le_nhds (s := {0}ᶜ))
    rw [e1] at this
    exact this
  have t : Tendsto (fun c => mp2_energy (fun a i => t1 c a i / c) (fun a b i j => t2 c a b i j / c) f.ov I.oovv
      + (1/2) * ∑ i, ∑ j, ∑ a, ∑ b, (t1 c a i / c) * t1 c b j * I.oovv i j a b) (𝓝[≠] 0)
      (𝓝 (mp2_energy (fun a i => -f.vo a i / (ev a - eo i)) (fun a b i j => -I.vvoo a b i j / (ev a + ev b - eo i - eo j)) f.ov I.oovv
        + (1/2) * ∑ i, ∑ j, ∑ a, ∑ b, (-f.vo a i / (ev a - eo i)) * 0 * I.oovv i j a b)) := by
    refine Tendsto.add ?_ (Tendsto.const_mul _ (tendsto_finsetSum _ fun i _ => tendsto_finsetSum _ fun j _ => tendsto_finsetSum _ fun a _ => tendsto_finsetSum _ fun b _ =>
      ((l1 a i).mul (z1 b j)).mul_const _))
    unfold mp2_energy cc_energy_d cc_energy_s1
    refine Tendsto.add (Tendsto.const_mul _ ?_) ?_
    · exact tendsto_finsetSum _ fun a _ => tendsto_finsetSum _ fun b _ => tendsto_finsetSum _ fun i _ => tendsto_finsetSum _ fun j _ => (l2 a b i j).mul_const _
    · exact tendsto_finsetSum _ fun a _ => tendsto_finsetSum _ fun i _ => (l1 a i).mul_const _
  simp only [mul_zero, zero_mul, sum_const_zero, add_zero] at t
  refine t.congr' ?_
  filter_upwards [ne] with c hc
  rw [weak_energy, pow_two, mul_div_mul_left _ _ hc, eq_div_iff hc, mul_comm]
  simp only [div_eq_mul_inv (b := c)]
  rw [weak_split, mul_inv_cancel₀ hc, one_mul]
end

/-- Non-trivial case: two electrons in two levels, gap one, coupling constants -2 and 1; the second-order energy is 1. -/
example : ∃ (t1 : ℝ → Fin 2 → Fin 2 → ℝ) (t2 : ℝ → Fin 2 → Fin 2 → Fin 2 → Fin 2 → ℝ),
    (∀ᶠ c in 𝓝 0, ccsd_simple ((diagF (fun _ => 0) (fun _ => 1)).addMul c hfF) ((hfI (-2) 1).mul c) (t1 c) (t2 c) = (fun _ _ => 0, fun _ _ _ _ => 0)) ∧
    Tendsto (fun c => cc_energy (t1 c) (t2 c) ((diagF (fun _ => 0) (fun _ => 1)).addMul c hfF).ov ((hfI (-2) 1).mul c).oovv / c ^ 2) (𝓝[≠] 0) (𝓝 1) := by
  obtain ⟨t1, t2, -, h, -, -, l⟩ := C58_weak_coupling (𝕜 := ℝ) (fun _ : Fin 2 => 0) (fun _ : Fin 2 => 1) hfF (hfI (-2) 1) (hfI_anti _ _)
    (fun _ _ => by norm_num) (fun _ _ _ _ => by norm_num)
  refine ⟨t1, t2, h.mono fun _ h => h.1, ?_⟩
  have e : mp2_energy (fun a i => -hfF.vo a i / ((1 : ℝ) - 0)) (fun a b i j => -(hfI (-2) 1).vvoo a b i j / ((1 : ℝ) + 1 - 0 - 0)) hfF.ov (hfI (-2) 1).oovv = 1 := by
    simp [mp2_energy, cc_energy_d, cc_energy_s1, hfF, hfI, hfEps, Fin.sum_univ_two]
    norm_num
  rw [e] at l
  exact l
end CC
