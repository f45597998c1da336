import Verif.Props.Thermo
import Mathlib.Analysis.SpecialFunctions.BinaryEntropy
import Mathlib.Analysis.SpecialFunctions.Pow.Asymptotics
/-!
# C108: which laws of thermodynamics the cut-offs of `ft_utils` keep
-/
noncomputable section
namespace Ft
open Real Filter Topology

/-! ### identities that hold on all branches -/

/-- C108: `grand_potential0` is energy minus temperature times entropy, the entropy taken from `dgrand_potential0` and the occupation from `fermi_function`: exactly, on every branch. -/
theorem C108_free_energy (beta epsilon mu : ℝ) (hb : beta ≠ 0) :
    grand_potential0 beta epsilon mu = (epsilon - mu) * fermi_function beta epsilon mu - beta * dgrand_potential0 beta epsilon mu := by
  have c := C28_complement beta epsilon mu
  have hv : vfermi_function beta epsilon mu = 1 - fermi_function beta epsilon mu := by linarith
  simp only [grand_potential0, dgrand_potential0, hv]
  split_ifs <;> field_simp <;> ring

/-- C108: the same for the vectors: the sum of `GP0` is the energy less `mu` times the number of electrons less the entropy over `beta`. -/
theorem C108_free_energy_total (beta mu : ℝ) (hb : beta ≠ 0) (epsilon : Vec) :
    ∑ i ∈ Finset.range epsilon.len, (GP0 beta epsilon mu).val i =
      ∑ i ∈ Finset.range epsilon.len, epsilon.val i * (ff beta epsilon mu).val i - mu * ∑ i ∈ Finset.range epsilon.len, (ff beta epsilon mu).val i
        - beta * ∑ i ∈ Finset.range epsilon.len, (dGP0 beta epsilon mu).val i := by
  rw [Finset.mul_sum, Finset.mul_sum, ← Finset.sum_sub_distrib, ← Finset.sum_sub_distrib]
  refine Finset.sum_congr rfl fun i hi => ?_
  have hi := Finset.mem_range.1 hi
  have v := C30_vectors beta mu epsilon epsilon
  rw [v.2.2.1 i hi, v.2.2.2.1 i hi, (C28_vectors beta mu epsilon).2.2.1 i hi, C108_free_energy beta _ mu hb]
  ring

/-- C108: levels at the same distance above and below the chemical potential have the same entropy, and their grand potentials differ by that distance. -/
theorem C108_particle_hole (beta mu d : ℝ) (hb : beta ≠ 0) :
    dgrand_potential0 beta (mu + d) mu = dgrand_potential0 beta (mu - d) mu ∧
    grand_potential0 beta (mu - d) mu = grand_potential0 beta (mu + d) mu - d := by
  have p := C28_particle_hole beta mu d
  have key : dgrand_potential0 beta (mu + d) mu = dgrand_potential0 beta (mu - d) mu := by
    have s1 : mu + d - mu = d := by ring
    have s2 : mu - d - mu = -d := by ring
    have c1 := C28_complement beta (mu + d) mu
    have c2 := C28_complement beta (mu - d) mu
    by_cases h : |beta * d| ≤ 20
    · have e1 := C75_entropy beta (mu + d) mu hb (by rw [s1]; exact h)
      have e2 := C75_entropy beta (mu - d) mu hb (by rw [s2, mul_neg, abs_neg]; exact h)
      have : fermi_function beta (mu - d) mu = 1 - fermi_function beta (mu + d) mu := by linarith
      have : entropy (fermi_function beta (mu - d) mu) = entropy (fermi_function beta (mu + d) mu) := by
        rw [this, entropy, entropy]; ring_nf
      exact mul_left_cancel₀ (pow_ne_zero 2 hb) (by rw [e1, e2, this])
    · have a : vfermi_function beta (mu - d) mu = fermi_function beta (mu + d) mu := by linarith
      have b : vfermi_function beta (mu + d) mu = fermi_function beta (mu - d) mu := by linarith
      rw [not_le, lt_abs] at h
      simp only [dgrand_potential0, s1, s2, a, b, mul_neg, neg_neg]
      rcases h with h | h
      · rw [if_neg (by norm_num; linarith), if_pos (by norm_num; linarith), if_pos (by norm_num; linarith)]
      · rw [if_pos (by norm_num; linarith), if_neg (by norm_num; linarith), if_pos (by norm_num; linarith)]
  refine ⟨key, ?_⟩
  have c := C28_complement beta (mu - d) mu
  rw [C108_free_energy _ _ _ hb, C108_free_energy _ _ _ hb, ← key]
  have : fermi_function beta (mu - d) mu = 1 - fermi_function beta (mu + d) mu := by linarith
  rw [this]; ring

/-! ### the entropy -/

theorem entropy_bin (t : ℝ) : entropy t = binEntropy t := by
  rw [entropy, binEntropy_eq_negMulLog_add_negMulLog_one_sub, negMulLog, negMulLog]; ring

theorem entropy_high {beta epsilon mu : ℝ} (hb : beta ≠ 0) (h : 20 < beta * (epsilon - mu)) :
    beta ^ 2 * dgrand_potential0 beta epsilon mu = beta * (epsilon - mu) * fermi_function beta epsilon mu + exp (-(beta * (epsilon - mu))) := by
  rw [dgrand_potential0, if_neg (by norm_num; linarith), if_pos (by norm_num; linarith)]
  field_simp

theorem fermi_le_exp {beta epsilon mu : ℝ} (h : 0 ≤ beta * (epsilon - mu)) : fermi_function beta epsilon mu ≤ exp (-(beta * (epsilon - mu))) := by
  by_cases h3 : 30 < beta * (epsilon - mu)
  · rw [fermi_function, if_neg (by norm_num; linarith), if_pos (by norm_num; linarith)]
  · rw [fermi_eq_fd (by rw [abs_of_nonneg h]; linarith)]
    exact (fd_bounds _).1

theorem small_entropy {x : ℝ} (h : 20 < x) : (x + 1) * exp (-x) < 1 / 2 := by
  have e := quadratic_le_exp_of_nonneg (show 0 ≤ x by linarith)
  rw [exp_neg, ← div_eq_mul_inv, div_lt_iff₀ (exp_pos x)]
  nlinarith

theorem entropy_high_range {beta epsilon mu : ℝ} (hb : beta ≠ 0) (h : 20 < beta * (epsilon - mu)) :
    0 < beta ^ 2 * dgrand_potential0 beta epsilon mu ∧ beta ^ 2 * dgrand_potential0 beta epsilon mu < log 2 := by
  rw [entropy_high hb h]
  have f := C28_range beta epsilon mu
  have e := exp_pos (-(beta * (epsilon - mu)))
  have x : 0 < beta * (epsilon - mu) := by linarith
  refine ⟨add_pos (mul_pos x f.1) e, ?_⟩
  have := mul_le_mul_of_nonneg_left (fermi_le_exp x.le) x.le
  have := small_entropy h
  have := one_sub_inv_le_log_of_pos (show (0 : ℝ) < 2 by norm_num)
  linarith

theorem fold {beta epsilon mu : ℝ} (hb : beta ≠ 0) : dgrand_potential0 beta epsilon mu = dgrand_potential0 beta (mu - (epsilon - mu)) mu := by
  rw [← (C108_particle_hole beta mu (epsilon - mu) hb).1, add_sub_cancel]

/-- C108: the entropy `beta² dgrand_potential0` is positive and at most `log 2` per level, and `log 2` for half-filled levels only. -/
theorem C108_entropy_range (beta epsilon mu : ℝ) (hb : beta ≠ 0) :
    0 < beta ^ 2 * dgrand_potential0 beta epsilon mu ∧ beta ^ 2 * dgrand_potential0 beta epsilon mu ≤ log 2 ∧
    (beta ^ 2 * dgrand_potential0 beta epsilon mu = log 2 ↔ epsilon = mu) := by
  by_cases h : |beta * (epsilon - mu)| ≤ 20
  · rw [C75_entropy beta epsilon mu hb h, entropy_bin]
    have f := C28_range beta epsilon mu
    refine ⟨binEntropy_pos f.1 f.2.1, binEntropy_le_log_two, ?_⟩
    rw [binEntropy_eq_log_two, fermi_eq_fd (by linarith), fd, inv_inj]
    constructor
    · intro e
      have : exp (beta * (epsilon - mu)) = 1 := by linarith
      rw [exp_eq_one_iff, mul_eq_zero, or_iff_right hb] at this
      linarith
    · rintro rfl
      rw [sub_self, mul_zero, exp_zero]; norm_num
  have ne : epsilon ≠ mu := by
    rintro rfl
    rw [sub_self, mul_zero, abs_zero] at h; norm_num at h
  have key : 0 < beta ^ 2 * dgrand_potential0 beta epsilon mu ∧ beta ^ 2 * dgrand_potential0 beta epsilon mu < log 2 := by
    rw [not_le, lt_abs] at h
    rcases h with h | h
    · exact entropy_high_range hb h
    · rw [fold hb]
      exact entropy_high_range hb (by linarith)
  exact ⟨key.1, key.2.le, iff_of_false key.2.ne ne⟩

/-- C108: lowering the temperature can raise the entropy: it jumps up where `beta (epsilon - mu)` passes 20. -/
theorem C108_entropy_jump : ∃ b₁ b₂ : ℝ, 0 < b₁ ∧ b₁ < b₂ ∧ b₁ ^ 2 * dgrand_potential0 b₁ 1 0 < b₂ ^ 2 * dgrand_potential0 b₂ 1 0 := by
  have e0 : (20 : ℝ) ^ 2 * dgrand_potential0 20 1 0 = 20 * fd 20 + log (1 + exp (-20)) := by
    rw [C75_entropy 20 1 0 (by norm_num) (by norm_num), fermi_eq_fd (by norm_num), entropy_fd]; norm_num
  have l : log (1 + exp (-20)) < exp (-20) := by
    have := log_lt_sub_one_of_pos (show 0 < 1 + exp (-20) by positivity) (by have := exp_pos (-20); linarith)
    linarith
  have c : ContinuousAt (fun b : ℝ => b * fd b + exp (-b)) 20 := by
    unfold fd
    exact (continuousAt_id.mul (ContinuousAt.inv₀ (by fun_prop) (by positivity))).add (by fun_prop)
  have ev : ∀ᶠ b in 𝓝[>] (20 : ℝ), 20 * fd 20 + log (1 + exp (-20)) < b * fd b + exp (-b) :=
    (c.eventually_const_lt (by linarith)).filter_mono nhdsWithin_le_nhds
  have ev2 : ∀ᶠ b in 𝓝[>] (20 : ℝ), b < 30 := (eventually_lt_nhds (by norm_num)).filter_mono nhdsWithin_le_nhds
  obtain ⟨b, ⟨h1, h2⟩, h3⟩ := ((ev.and ev2).and self_mem_nhdsWithin).exists
  have h3 : 20 < b := h3
  refine ⟨20, b, by norm_num, h3, ?_⟩
  rw [e0, entropy_high (by linarith) (by linarith), fermi_eq_fd (by rw [abs_of_pos] <;> linarith)]
  simpa using h1

/-! ### the variational principle -/

/-- C108: the cut-offs only lower the grand potential. -/
theorem C108_below (beta epsilon mu : ℝ) (hb : 0 < beta) : grand_potential0 beta epsilon mu ≤ omega beta (epsilon - mu) := by
  by_cases h : |beta * (epsilon - mu)| ≤ 20
  · exact (C30_grand_potential beta epsilon mu hb.ne' h).le
  rw [not_le, lt_abs] at h
  rw [omega]
  rcases h with h | h
  · rw [grand_potential0, if_neg (by norm_num; linarith), if_pos (by norm_num; linarith)]
    have := (log_bounds _ (exp_pos (-(beta * (epsilon - mu))))).2
    rw [div_eq_mul_inv, neg_mul, neg_mul, neg_le_neg_iff, one_div, mul_comm]
    exact mul_le_mul_of_nonneg_right this (inv_pos.2 hb).le
  · rw [grand_potential0, if_pos (by norm_num; linarith)]
    have l := (log_bounds _ (exp_pos (beta * (epsilon - mu)))).2
    rw [log_split] at l
    have : -exp (beta * (epsilon - mu)) / beta + (epsilon - mu) = (-exp (beta * (epsilon - mu)) + beta * (epsilon - mu)) / beta := by field_simp
    rw [this, show -(1 / beta) * log (1 + exp (-(beta * (epsilon - mu)))) = (-log (1 + exp (-(beta * (epsilon - mu))))) / beta by ring]
    exact div_le_div_of_nonneg_right (by linarith) hb.le

/-- C108: no occupation numbers have a free energy below the sum of `GP0`, without any allowance for the cut-offs. -/
theorem C108_gibbs (beta mu : ℝ) (hb : 0 < beta) (epsilon : Vec) (t : ℕ → ℝ) (ht : ∀ i < epsilon.len, 0 ≤ t i ∧ t i ≤ 1) :
    ∑ i ∈ Finset.range epsilon.len, (GP0 beta epsilon mu).val i ≤ ∑ i ∈ Finset.range epsilon.len, ((epsilon.val i - mu) * t i - entropy (t i) / beta) := by
  refine Finset.sum_le_sum fun i hi => ?_
  have hi := Finset.mem_range.1 hi
  rw [(C30_vectors beta mu epsilon epsilon).2.2.1 i hi]
  exact (C108_below beta _ mu hb).trans (omega_le hb (ht i hi).1 (ht i hi).2)

/-! ### the temperatures zero and infinity -/

theorem high_limit {d : ℝ} (hd : 0 < d) (mu : ℝ) : Tendsto (fun beta => beta ^ 2 * dgrand_potential0 beta (mu + d) mu) atTop (𝓝 0) := by
  have x : Tendsto (fun beta : ℝ => beta * d) atTop atTop := tendsto_id.atTop_mul_const hd
  have t1 : Tendsto (fun y : ℝ => y * exp (-y)) atTop (𝓝 0) := by simpa using tendsto_pow_mul_exp_neg_atTop_nhds_zero 1
  have t2 : Tendsto (fun y : ℝ => exp (-y)) atTop (𝓝 0) := tendsto_exp_neg_atTop_nhds_zero
  have t : Tendsto (fun beta : ℝ => beta * d * exp (-(beta * d)) + exp (-(beta * d))) atTop (𝓝 0) := by
    have := (t1.add t2).comp x
    simpa [Function.comp_def] using this
  refine squeeze_zero' ?_ ?_ t
  · filter_upwards [eventually_gt_atTop 0] with b hb
    exact (C108_entropy_range b _ mu hb.ne').1.le
  · filter_upwards [eventually_gt_atTop 0, x.eventually_gt_atTop 20] with b hb h
    have s : mu + d - mu = d := by ring
    rw [entropy_high hb.ne' (by rw [s]; exact h), s]
    have f := fermi_le_exp (beta := b) (epsilon := mu + d) (mu := mu) (by rw [s]; linarith)
    rw [s] at f
    have := mul_le_mul_of_nonneg_left f (show 0 ≤ b * d by linarith)
    linarith

/-- C108: at zero temperature the entropy of a level is zero, or `log 2` if it lies at the chemical potential. -/
theorem C108_third_law (epsilon mu : ℝ) :
    Tendsto (fun beta => beta ^ 2 * dgrand_potential0 beta epsilon mu) atTop (𝓝 (if epsilon = mu then log 2 else 0)) := by
  rcases lt_trichotomy epsilon mu with h | h | h
  · rw [if_neg h.ne]
    have := high_limit (d := mu - epsilon) (by linarith) mu
    refine this.congr' ?_
    filter_upwards [eventually_gt_atTop 0] with b hb
    rw [(C108_particle_hole b mu _ hb.ne').1, sub_sub_cancel]
  · rw [if_pos h]
    refine tendsto_const_nhds.congr' ?_
    filter_upwards [eventually_gt_atTop 0] with b hb
    exact ((C108_entropy_range b epsilon mu hb.ne').2.2.2 h).symm
  · rw [if_neg h.ne']
    have := high_limit (d := epsilon - mu) (by linarith) mu
    rwa [add_sub_cancel] at this

/-- C108: the entropy of the whole system at zero temperature is `log 2` times the number of levels at the chemical potential. -/
theorem C108_third_law_total (epsilon : Vec) (mu : ℝ) :
    Tendsto (fun beta => beta ^ 2 * ∑ i ∈ Finset.range epsilon.len, (dGP0 beta epsilon mu).val i) atTop
      (𝓝 (((Finset.range epsilon.len).filter fun i => epsilon.val i = mu).card * log 2)) := by
  have t := tendsto_finsetSum (Finset.range epsilon.len) fun i _ => C108_third_law (epsilon.val i) mu
  rw [← Finset.sum_filter, Finset.sum_const, nsmul_eq_mul] at t
  refine t.congr fun b => ?_
  rw [Finset.mul_sum]
  exact Finset.sum_congr rfl fun i hi => by rw [(C30_vectors b mu epsilon epsilon).2.2.2.1 i (Finset.mem_range.1 hi)]

/-- C108: at infinite temperature the entropy is `log 2` per level. -/
theorem C108_hot (epsilon : Vec) (mu : ℝ) :
    Tendsto (fun beta => beta ^ 2 * ∑ i ∈ Finset.range epsilon.len, (dGP0 beta epsilon mu).val i) (𝓝[>] 0) (𝓝 (epsilon.len * log 2)) := by
  have one : ∀ e : ℝ, Tendsto (fun beta => beta ^ 2 * dgrand_potential0 beta e mu) (𝓝[>] 0) (𝓝 (log 2)) := fun e => by
    have c : ContinuousAt (fun beta : ℝ => |beta * (e - mu)|) 0 := by fun_prop
    have ev : ∀ᶠ b in 𝓝[>] (0 : ℝ), |b * (e - mu)| < 20 := (c.eventually_lt_const (by simp)).filter_mono nhdsWithin_le_nhds
    have cf : ContinuousAt (fun beta : ℝ => binEntropy (fd (beta * (e - mu)))) 0 := by
      refine binEntropy_continuous.continuousAt.comp ?_
      unfold fd
      exact ContinuousAt.inv₀ (by fun_prop) (by positivity)
    have t := cf.tendsto.mono_left (nhdsWithin_le_nhds (s := Set.Ioi 0))
    rw [show fd (0 * (e - mu)) = 2⁻¹ by rw [zero_mul, fd, exp_zero]; norm_num, binEntropy_two_inv] at t
    refine t.congr' ((ev.and self_mem_nhdsWithin).mono fun b hb => ?_)
    have hb' : b ≠ 0 := ne_of_gt hb.2
    beta_reduce
    rw [C75_entropy b e mu hb' hb.1.le, entropy_bin, fermi_eq_fd (by linarith [hb.1])]
  have t := tendsto_finsetSum (Finset.range epsilon.len) fun i _ => one (epsilon.val i)
  rw [Finset.sum_const, Finset.card_range, nsmul_eq_mul] at t
  refine t.congr fun b => ?_
  rw [Finset.mul_sum]
  exact Finset.sum_congr rfl fun i hi => by rw [(C30_vectors b mu epsilon epsilon).2.2.2.1 i (Finset.mem_range.1 hi)]

/-! ### where the derivatives are derivatives -/

theorem fd_lt_exp (x : ℝ) : fd x < exp (-x) := by
  rw [fd, exp_neg]
  exact inv_strictAnti₀ (exp_pos x) (by linarith)

theorem log_lt_self {y : ℝ} (hy : 0 < y) : log (1 + y) < y := by
  have := log_lt_sub_one_of_pos (show 0 < 1 + y by linarith) (by linarith)
  linarith

theorem high_deriv {beta epsilon mu : ℝ} (hb : 0 < beta) (h : 20 < beta * (epsilon - mu)) :
    HasDerivAt (fun b => grand_potential0 b epsilon mu) ((epsilon - mu) * exp (-(beta * (epsilon - mu))) / beta + exp (-(beta * (epsilon - mu))) / (beta * beta)) beta := by
  have hc : ContinuousAt (fun b : ℝ => b * (epsilon - mu)) beta := by fun_prop
  have ev : (fun b => grand_potential0 b epsilon mu) =ᶠ[𝓝 beta] fun b => -exp (-(b * (epsilon - mu))) / b := by
    filter_upwards [hc.eventually_const_lt h] with b h
    rw [grand_potential0, if_neg (by norm_num; linarith), if_pos (by norm_num; linarith)]
  have h1 : HasDerivAt (fun b : ℝ => -exp (-(b * (epsilon - mu)))) (-(exp (-(beta * (epsilon - mu))) * (-(1 * (epsilon - mu))))) beta :=
    (((hasDerivAt_id beta).mul_const (epsilon - mu)).neg).exp.neg
  refine ((h1.div (hasDerivAt_id beta) hb.ne').congr_of_eventuallyEq ev).congr_deriv ?_
  have := hb.ne'
  simp only [id]
  field_simp
  ring

theorem low_deriv {beta epsilon mu : ℝ} (hb : 0 < beta) (h : beta * (epsilon - mu) < -20) :
    HasDerivAt (fun b => grand_potential0 b epsilon mu) (-(epsilon - mu) * exp (beta * (epsilon - mu)) / beta + exp (beta * (epsilon - mu)) / (beta * beta)) beta := by
  have hc : ContinuousAt (fun b : ℝ => b * (epsilon - mu)) beta := by fun_prop
  have ev : (fun b => grand_potential0 b epsilon mu) =ᶠ[𝓝 beta] fun b => -exp (b * (epsilon - mu)) / b + (epsilon - mu) := by
    filter_upwards [hc.eventually_lt_const h] with b h
    rw [grand_potential0, if_pos (by norm_num; linarith)]
  have h1 : HasDerivAt (fun b : ℝ => -exp (b * (epsilon - mu))) (-(exp (beta * (epsilon - mu)) * (1 * (epsilon - mu)))) beta :=
    ((hasDerivAt_id beta).mul_const (epsilon - mu)).exp.neg
  refine (((h1.div (hasDerivAt_id beta) hb.ne').add_const (epsilon - mu)).congr_of_eventuallyEq ev).congr_deriv ?_
  have := hb.ne'
  simp only [id]
  field_simp
  ring

/-- the grand potential jumps where a level passes the cut-off -/
theorem edge {beta epsilon mu : ℝ} (hb : 0 < beta) (h : |beta * (epsilon - mu)| = 20) : ¬ContinuousAt (fun b => grand_potential0 b epsilon mu) beta := by
  intro c
  have v := C30_grand_potential beta epsilon mu hb.ne' h.le
  rcases (abs_eq (by norm_num)).1 h with h | h
  · have pos : 0 < epsilon - mu := by
      by_contra n
      have := mul_nonpos_of_nonneg_of_nonpos hb.le (not_lt.1 n)
      linarith
    have c' : ContinuousAt (fun b : ℝ => -exp (-(b * (epsilon - mu))) / b) beta := by
      exact ContinuousAt.div (by fun_prop) continuousAt_id hb.ne'
    have ev : (fun b => grand_potential0 b epsilon mu) =ᶠ[𝓝[>] beta] fun b => -exp (-(b * (epsilon - mu))) / b := by
      filter_upwards [self_mem_nhdsWithin] with b hb'
      have := mul_lt_mul_of_pos_right (show beta < b from hb') pos
      rw [grand_potential0, if_neg (by norm_num; linarith), if_pos (by norm_num; linarith)]
    have e := tendsto_nhds_unique (c.tendsto.mono_left (nhdsWithin_le_nhds (s := Set.Ioi beta)))
      ((c'.tendsto.mono_left nhdsWithin_le_nhds).congr' ev.symm)
    have l := log_lt_self (exp_pos (-(beta * (epsilon - mu))))
    rw [v, omega, neg_mul, neg_div, neg_inj, one_div, mul_comm, ← div_eq_mul_inv, div_left_inj' hb.ne'] at e
    exact l.ne e
  · have neg : epsilon - mu < 0 := by
      by_contra n
      have := mul_nonneg hb.le (not_lt.1 n)
      linarith
    have c' : ContinuousAt (fun b : ℝ => -exp (b * (epsilon - mu)) / b + (epsilon - mu)) beta := by
      exact (ContinuousAt.div (by fun_prop) continuousAt_id hb.ne').add_const _
    have ev : (fun b => grand_potential0 b epsilon mu) =ᶠ[𝓝[>] beta] fun b => -exp (b * (epsilon - mu)) / b + (epsilon - mu) := by
      filter_upwards [self_mem_nhdsWithin] with b hb'
      have := mul_lt_mul_of_neg_right (show beta < b from hb') neg
      rw [grand_potential0, if_pos (by norm_num; linarith)]
    have e := tendsto_nhds_unique (c.tendsto.mono_left (nhdsWithin_le_nhds (s := Set.Ioi beta)))
      ((c'.tendsto.mono_left nhdsWithin_le_nhds).congr' ev.symm)
    have l := log_lt_self (exp_pos (beta * (epsilon - mu)))
    rw [log_split] at l
    have hx : epsilon - mu = beta * (epsilon - mu) / beta := by field_simp
    rw [v, omega] at e
    have e2 : -log (1 + exp (-(beta * (epsilon - mu)))) / beta = (-exp (beta * (epsilon - mu)) + beta * (epsilon - mu)) / beta := by
      rw [add_div, ← hx, ← e]; ring
    rw [div_left_inj' hb.ne'] at e2
    linarith

/-- C108: `dgrand_potential0` is the derivative of `grand_potential0` for levels within the first cut-off and beyond the second, and nowhere else:
between them it combines the derivative of one formula with the occupation of the other, and at the first the grand potential jumps. -/
theorem C108_derivative_iff (beta epsilon mu : ℝ) (hb : 0 < beta) :
    HasDerivAt (fun b => grand_potential0 b epsilon mu) (dgrand_potential0 beta epsilon mu) beta ↔
      |beta * (epsilon - mu)| < 20 ∨ 30 < |beta * (epsilon - mu)| := by
  rcases lt_trichotomy |beta * (epsilon - mu)| 20 with h | h | h
  · exact iff_of_true (C30_derivative beta epsilon mu hb.ne' h) (.inl h)
  · exact iff_of_false (fun d => edge hb h d.continuousAt) (by rw [h]; norm_num)
  rw [or_iff_right h.not_gt]
  rw [lt_abs] at h
  rcases h with h | h
  · have d := high_deriv hb h
    have ne : epsilon - mu ≠ 0 := by rintro e; rw [e] at h; norm_num at h
    rw [abs_of_pos (by linarith)]
    have : HasDerivAt (fun b => grand_potential0 b epsilon mu) (dgrand_potential0 beta epsilon mu) beta ↔
        fermi_function beta epsilon mu = exp (-(beta * (epsilon - mu))) := by
      rw [dgrand_potential0, if_neg (by norm_num; linarith), if_pos (by norm_num; linarith)]
      refine ⟨fun d' => ?_, fun e => by rw [e]; exact d⟩
      have := d'.unique d
      rw [add_left_inj, div_left_inj' hb.ne'] at this
      exact mul_left_cancel₀ ne this
    rw [this]
    constructor
    · intro e
      by_contra n
      rw [fermi_eq_fd (by rw [abs_of_pos] <;> linarith)] at e
      exact (fd_lt_exp _).ne e
    · intro h3
      rw [fermi_function, if_neg (by norm_num; linarith), if_pos (by norm_num; linarith)]
  · have d := low_deriv hb (show beta * (epsilon - mu) < -20 by linarith)
    have ne : -(epsilon - mu) ≠ 0 := by
      intro e
      have : epsilon - mu = 0 := by linarith
      rw [this] at h; norm_num at h
    rw [abs_of_neg (by linarith)]
    have : HasDerivAt (fun b => grand_potential0 b epsilon mu) (dgrand_potential0 beta epsilon mu) beta ↔
        vfermi_function beta epsilon mu = exp (beta * (epsilon - mu)) := by
      rw [dgrand_potential0, if_pos (by norm_num; linarith)]
      refine ⟨fun d' => ?_, fun e => by rw [e]; exact d⟩
      have := d'.unique d
      rw [add_left_inj, div_left_inj' hb.ne'] at this
      exact mul_left_cancel₀ ne this
    rw [this]
    constructor
    · intro e
      by_contra n
      have a := fd_add (beta * (epsilon - mu))
      have l := fd_lt_exp (-(beta * (epsilon - mu)))
      rw [neg_neg] at l
      rw [vfermi_eq_fd (by rw [abs_of_neg] <;> linarith)] at e
      linarith
    · intro h3
      rw [vfermi_function, if_neg (by norm_num; linarith), if_pos (by norm_num; linarith)]

/-- a level beyond the cut-off, with its entropy -/
example : (0 : ℝ) < 2 ∧ 20 < (2 : ℝ) * (15 - 1) ∧ 0 < (2 : ℝ) ^ 2 * dgrand_potential0 2 15 1 :=
  ⟨by norm_num, by norm_num, (C108_entropy_range 2 15 1 (by norm_num)).1⟩

/-- a derivative that is one, and one that is not -/
example : HasDerivAt (fun b => grand_potential0 b 20 1) (dgrand_potential0 2 20 1) 2 ∧ ¬HasDerivAt (fun b => grand_potential0 b 13 1) (dgrand_potential0 2 13 1) 2 :=
  ⟨(C108_derivative_iff 2 20 1 (by norm_num)).2 (by norm_num), fun h => by have := (C108_derivative_iff 2 13 1 (by norm_num)).1 h; norm_num at this⟩

end Ft
end
