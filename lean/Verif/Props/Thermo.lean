import Verif.Props.Ft
import Verif.Spec.SlaterCondon
import Mathlib.Topology.Order.IntermediateValue
import Mathlib.Analysis.SpecialFunctions.Log.NegMulLog
/-!
# C75: thermodynamics of independent electrons
-/
noncomputable section
namespace Ft
open Real

/-! ### the many-electron system -/

/-- The Hamiltonian of independent electrons in the levels `e 0, …, e (n - 1)`, as an operator on the Fock space. -/
def freeHam (n : ℕ) (e : ℕ → ℝ) : Module.End ℝ (Finset ℕ → ℝ) :=
  Fock.ham (Finset.range n) (fun p q => if p = q then e p else 0) 0

/-- It is diagonal in the determinants; its eigenvalues are the sums of the energies of the occupied levels. -/
theorem freeHam_elt {n : ℕ} (e : ℕ → ℝ) {S T : Finset ℕ} (hS : S ⊆ Finset.range n) :
    Fock.elt (freeHam n e) S T = if S = T then ∑ i ∈ S, e i else 0 := by
  by_cases h : S = T
  · subst h
    rw [if_pos rfl, freeHam, Fock.slater_diag _ _ _ hS]
    simp
  · rw [if_neg h, freeHam, Fock.elt_ham]
    simp only [Pi.zero_apply, zero_mul, Finset.sum_const_zero, mul_zero, add_zero]
    refine Finset.sum_eq_zero fun p _ => Finset.sum_eq_zero fun q _ => ?_
    by_cases hpq : p = q
    · subst hpq
      rw [if_neg (c := p ∈ S ∧ p ∈ T ∧ S.erase p = T.erase p), mul_zero]
      rintro ⟨h1, h2, h3⟩
      exact h (by rw [← Finset.insert_erase h1, h3, Finset.insert_erase h2])
    · rw [if_neg hpq, zero_mul]

/-- Boltzmann weight of a determinant: `exp(-β(⟨S|H|S⟩ - μ N_S))` -/
def weight (n : ℕ) (beta : ℝ) (e : ℕ → ℝ) (mu : ℝ) (S : Finset ℕ) : ℝ := exp (-(beta * (Fock.elt (freeHam n e) S S - mu * S.card)))

/-- grand partition function: the trace of `exp(-β(H - μN))` over the determinants of `n` levels -/
def partition (n : ℕ) (beta : ℝ) (e : ℕ → ℝ) (mu : ℝ) : ℝ := ∑ S ∈ (Finset.range n).powerset, weight n beta e mu S

/-- thermal average of the occupation of level `i` -/
def occupation (n : ℕ) (beta : ℝ) (e : ℕ → ℝ) (mu : ℝ) (i : ℕ) : ℝ :=
  (∑ S ∈ (Finset.range n).powerset, (if i ∈ S then 1 else 0) * weight n beta e mu S) / partition n beta e mu

theorem weight_prod {n : ℕ} (beta : ℝ) (e : ℕ → ℝ) (mu : ℝ) {S : Finset ℕ} (hS : S ⊆ Finset.range n) :
    weight n beta e mu S = ∏ i ∈ S, exp (-(beta * (e i - mu))) := by
  rw [weight, freeHam_elt e hS, if_pos rfl, ← exp_sum]
  congr 1
  simp only [Finset.sum_neg_distrib, ← Finset.mul_sum, Finset.sum_sub_distrib, Finset.sum_const, nsmul_eq_mul]
  ring

theorem partition_prod (n : ℕ) (beta : ℝ) (e : ℕ → ℝ) (mu : ℝ) :
    partition n beta e mu = ∏ i ∈ Finset.range n, (1 + exp (-(beta * (e i - mu)))) := by
  rw [partition, Finset.prod_one_add]
  exact Finset.sum_congr rfl fun S hS => weight_prod beta e mu (Finset.mem_powerset.mp hS)

theorem partition_pos (n : ℕ) (beta : ℝ) (e : ℕ → ℝ) (mu : ℝ) : 0 < partition n beta e mu := by
  rw [partition_prod]
  exact Finset.prod_pos fun i _ => by have := exp_pos (-(beta * (e i - mu))); linarith

theorem log_partition (n : ℕ) (beta : ℝ) (e : ℕ → ℝ) (mu : ℝ) :
    -(1 / beta) * log (partition n beta e mu) = ∑ i ∈ Finset.range n, omega beta (e i - mu) := by
  rw [partition_prod, log_prod, Finset.mul_sum]
  · rfl
  · intro i _
    have := exp_pos (-(beta * (e i - mu))); positivity

/-- C75: the sum of the array returned by `GP0` is `-log(Z)/β` of the many-electron system, exactly when all levels are within the cut-offs. -/
theorem C75_grand_potential (beta mu : ℝ) (hb : beta ≠ 0) (epsilon : Vec) (h : ∀ i < epsilon.len, |beta * (epsilon.val i - mu)| ≤ 20) :
    ∑ i ∈ Finset.range epsilon.len, (GP0 beta epsilon mu).val i = -(1 / beta) * log (partition epsilon.len beta epsilon.val mu) := by
  rw [log_partition]
  refine Finset.sum_congr rfl fun i hi => ?_
  have hi := Finset.mem_range.mp hi
  rw [(C30_vectors beta mu epsilon epsilon).2.2.1 i hi, C30_grand_potential beta _ mu hb (h i hi)]

/-- C75: in general the error of each level is at most `exp(-40)/β`. -/
theorem C75_grand_potential_error (beta mu : ℝ) (hb : 0 < beta) (epsilon : Vec) :
    |∑ i ∈ Finset.range epsilon.len, (GP0 beta epsilon mu).val i - -(1 / beta) * log (partition epsilon.len beta epsilon.val mu)|
      ≤ epsilon.len * (exp (-40) / beta) := by
  rw [log_partition, ← Finset.sum_sub_distrib]
  refine (Finset.abs_sum_le_sum_abs _ _).trans ?_
  refine (Finset.sum_le_card_nsmul _ _ (exp (-40) / beta) fun i hi => ?_).trans (by simp)
  have hi := Finset.mem_range.mp hi
  rw [(C30_vectors beta mu epsilon epsilon).2.2.1 i hi]
  by_cases h : |beta * (epsilon.val i - mu)| ≤ 20
  · rw [C30_grand_potential beta _ mu hb.ne' h, sub_self, abs_zero]; positivity
  · refine (C30_grand_potential_error beta _ mu hb).trans ?_
    have : exp (-2 * |beta * (epsilon.val i - mu)|) ≤ exp (-40) := exp_le_exp.mpr (by linarith)
    gcongr

/-- The thermal average is the Fermi–Dirac distribution. -/
theorem occupation_fd {n : ℕ} (beta : ℝ) (e : ℕ → ℝ) (mu : ℝ) {i : ℕ} (hi : i < n) :
    occupation n beta e mu i = fd (beta * (e i - mu)) := by
  have hi' := Finset.mem_range.mpr hi
  have hp := partition_pos n beta e mu
  rw [occupation, div_eq_iff hp.ne']
  have h1 : ∑ S ∈ (Finset.range n).powerset, (if i ∈ S then 1 else 0) * weight n beta e mu S
      = exp (-(beta * (e i - mu))) * ∏ j ∈ (Finset.range n).erase i, (1 + exp (-(beta * (e j - mu)))) := by
    rw [Finset.prod_one_add, Finset.mul_sum]
    conv_lhs => rw [← Finset.insert_erase hi', Finset.sum_powerset_insert (Finset.notMem_erase i _)]
    rw [Finset.sum_eq_zero, zero_add]
    · refine Finset.sum_congr rfl fun S hS => ?_
      have hS' := Finset.mem_powerset.mp hS
      have hiS : i ∉ S := fun h => Finset.notMem_erase i _ (hS' h)
      rw [if_pos (Finset.mem_insert_self _ _), one_mul,
        weight_prod beta e mu (Finset.insert_subset hi' (hS'.trans (Finset.erase_subset _ _))), Finset.prod_insert hiS]
    · intro S hS
      have hS' := Finset.mem_powerset.mp hS
      rw [if_neg (fun h => Finset.notMem_erase i _ (hS' h)), zero_mul]
  rw [h1, partition_prod, ← Finset.mul_prod_erase _ _ hi', ← mul_assoc]
  congr 1
  have := exp_pos (beta * (e i - mu))
  rw [fd, exp_neg]; field_simp

/-- C75: the entries of `ff` are the thermal averages of the occupations, up to `exp(-60)`, and exactly within the cut-offs. -/
theorem C75_occupation (beta mu : ℝ) (epsilon : Vec) {i : ℕ} (hi : i < epsilon.len) :
    |(ff beta epsilon mu).val i - occupation epsilon.len beta epsilon.val mu i| ≤ exp (-60) ∧
      (|beta * (epsilon.val i - mu)| ≤ 30 → (ff beta epsilon mu).val i = occupation epsilon.len beta epsilon.val mu i) := by
  rw [(C28_vectors beta mu epsilon).2.2.1 i hi, occupation_fd beta epsilon.val mu hi]
  exact ⟨C28_accuracy _ _ _, fun h => fermi_eq_fd h⟩

/-! ### entropy and the Gibbs variational principle -/

/-- entropy of a level with occupation `t` -/
def entropy (t : ℝ) : ℝ := -(t * log t) - (1 - t) * log (1 - t)

theorem log_fd' (x : ℝ) : log (fd x) = -x - log (1 + exp (-x)) := by rw [log_fd, log_split]; ring
theorem log_one_sub_fd (x : ℝ) : log (1 - fd x) = -log (1 + exp (-x)) := by
  have := fd_add x
  rw [show 1 - fd x = fd (-x) by linarith, log_fd]

theorem entropy_fd (x : ℝ) : entropy (fd x) = x * fd x + log (1 + exp (-x)) := by
  rw [entropy, log_fd', log_one_sub_fd]; ring

/-- C75: `β²` times the derivative returned by `dgrand_potential0` is the entropy of the occupation returned by `fermi_function`. -/
theorem C75_entropy (beta epsilon mu : ℝ) (hb : beta ≠ 0) (h : |beta * (epsilon - mu)| ≤ 20) :
    beta ^ 2 * dgrand_potential0 beta epsilon mu = entropy (fermi_function beta epsilon mu) := by
  obtain ⟨h1, h2⟩ := abs_le.mp h
  have h30 : |beta * (epsilon - mu)| ≤ 30 := by linarith
  rw [dgrand_potential0, if_neg (by norm_num; linarith), if_neg (by norm_num; linarith), fermi_eq_fd h30, vfermi_eq_fd h30, entropy_fd, log_fd']
  field_simp
  ring

/-- C75: Ω = E - μN - TS level by level. -/
theorem C75_free_energy (beta epsilon mu : ℝ) (hb : beta ≠ 0) (h : |beta * (epsilon - mu)| ≤ 20) :
    grand_potential0 beta epsilon mu = (epsilon - mu) * fermi_function beta epsilon mu - entropy (fermi_function beta epsilon mu) / beta := by
  have h30 : |beta * (epsilon - mu)| ≤ 30 := by linarith
  rw [C30_grand_potential beta epsilon mu hb h, fermi_eq_fd h30, entropy_fd, omega]
  field_simp
  ring

theorem kl {t f : ℝ} (ht : 0 ≤ t) (hf : 0 < f) : t * log f - t * log t ≤ f - t := by
  rcases ht.eq_or_lt with rfl | ht
  · simp; exact hf.le
  · have := log_le_sub_one_of_pos (div_pos hf ht)
    rw [log_div hf.ne' ht.ne'] at this
    have h2 := mul_le_mul_of_nonneg_left this ht.le
    have h3 : t * (f / t - 1) = f - t := by field_simp
    linarith

theorem omega_le {beta e t : ℝ} (hb : 0 < beta) (h0 : 0 ≤ t) (h1 : t ≤ 1) : omega beta e ≤ e * t - entropy t / beta := by
  have k1 := kl h0 (fd_pos (beta * e))
  have k2 := kl (sub_nonneg.mpr h1) (show 0 < 1 - fd (beta * e) by have := fd_lt_one (beta * e); linarith)
  rw [log_fd'] at k1
  rw [log_one_sub_fd] at k2
  have : e * t - entropy t / beta - omega beta e = (beta * e * t - entropy t + log (1 + exp (-(beta * e)))) / beta := by
    rw [omega]; field_simp; ring
  have h3 : 0 ≤ (beta * e * t - entropy t + log (1 + exp (-(beta * e)))) / beta := by
    apply div_nonneg _ hb.le
    rw [entropy]; linarith
  linarith

/-- C75: no occupation numbers between 0 and 1 give a lower free energy than the sum of `GP0` (up to the accuracy of the cut-offs). -/
theorem C75_gibbs (beta mu : ℝ) (hb : 0 < beta) (epsilon : Vec) (t : ℕ → ℝ) (ht : ∀ i < epsilon.len, 0 ≤ t i ∧ t i ≤ 1) :
    ∑ i ∈ Finset.range epsilon.len, (GP0 beta epsilon mu).val i ≤
      ∑ i ∈ Finset.range epsilon.len, ((epsilon.val i - mu) * t i - entropy (t i) / beta) + epsilon.len * (exp (-40) / beta) := by
  have h1 := C75_grand_potential_error beta mu hb epsilon
  rw [log_partition] at h1
  have h2 := (abs_le.mp h1).2
  have h3 : ∑ i ∈ Finset.range epsilon.len, omega beta (epsilon.val i - mu)
      ≤ ∑ i ∈ Finset.range epsilon.len, ((epsilon.val i - mu) * t i - entropy (t i) / beta) :=
    Finset.sum_le_sum fun i hi => omega_le hb (ht i (Finset.mem_range.mp hi)).1 (ht i (Finset.mem_range.mp hi)).2
  linarith

/-! ### zero temperature -/

/-- C75: the distance to the step function is at most `exp(-β|ε - μ|)`, on all branches. -/
theorem C75_step (beta epsilon mu : ℝ) (hb : 0 < beta) :
    (mu < epsilon → fermi_function beta epsilon mu ≤ exp (-(beta * |epsilon - mu|))) ∧
    (epsilon < mu → 1 - fermi_function beta epsilon mu ≤ exp (-(beta * |epsilon - mu|))) := by
  constructor
  · intro h
    have hx : 0 < beta * (epsilon - mu) := mul_pos hb (by linarith)
    rw [abs_of_pos (by linarith)]
    by_cases h30 : |beta * (epsilon - mu)| ≤ 30
    · rw [fermi_eq_fd h30]; exact (fd_bounds _).1
    · rw [abs_of_pos hx, not_le] at h30
      rw [fermi_function, if_neg (by norm_num; linarith), if_pos (by norm_num; linarith)]
  · intro h
    have hx : beta * (epsilon - mu) < 0 := mul_neg_of_pos_of_neg hb (by linarith)
    rw [abs_of_neg (by linarith), mul_neg, neg_neg]
    by_cases h30 : |beta * (epsilon - mu)| ≤ 30
    · rw [fermi_eq_fd h30]; linarith [(fd_bounds (beta * (epsilon - mu))).2.2.1]
    · rw [abs_of_neg hx, not_le] at h30
      rw [fermi_function, if_pos (by norm_num; linarith)]; norm_num

/-- C75: the grand potential differs from that of the ground state by at most `exp(-β|ε - μ|)/β`. -/
theorem C75_ground (beta epsilon mu : ℝ) (hb : 0 < beta) :
    |grand_potential0 beta epsilon mu - min (epsilon - mu) 0| ≤ exp (-(beta * |epsilon - mu|)) / beta := by
  have key : ∀ x : ℝ, 0 ≤ x → |log (1 + exp (-x))| ≤ exp (-x) := fun x _ => by
    have := exp_pos (-x)
    rw [abs_of_nonneg (log_nonneg (by linarith))]
    exact (log_bounds _ this).2
  rcases le_total 0 (epsilon - mu) with h | h
  · have hx : 0 ≤ beta * (epsilon - mu) := mul_nonneg hb.le h
    rw [min_eq_right h, sub_zero, abs_of_nonneg h]
    by_cases h20 : |beta * (epsilon - mu)| ≤ 20
    · rw [C30_grand_potential beta epsilon mu hb.ne' h20, omega, abs_mul, abs_neg, abs_of_pos (by positivity), one_div, inv_mul_eq_div]
      exact div_le_div_of_nonneg_right (key _ hx) hb.le
    · rw [abs_of_nonneg hx, not_le] at h20
      rw [grand_potential0, if_neg (by norm_num; linarith), if_pos (by norm_num; linarith), abs_div, abs_neg, abs_of_pos hb,
        abs_of_pos (exp_pos _)]
  · have hx : beta * (epsilon - mu) ≤ 0 := mul_nonpos_of_nonneg_of_nonpos hb.le h
    rw [min_eq_left h, abs_of_nonpos h, mul_neg, neg_neg]
    by_cases h20 : |beta * (epsilon - mu)| ≤ 20
    · have e : omega beta (epsilon - mu) - (epsilon - mu) = -(1 / beta) * log (1 + exp (-(-(beta * (epsilon - mu))))) := by
        have := log_split (beta * (epsilon - mu))
        rw [omega, neg_neg, this]; field_simp; ring
      rw [C30_grand_potential beta epsilon mu hb.ne' h20, e, abs_mul, abs_neg, abs_of_pos (by positivity), one_div, inv_mul_eq_div]
      refine (div_le_div_of_nonneg_right (key (-(beta * (epsilon - mu))) (by linarith)) hb.le).trans (by rw [neg_neg])
    · rw [abs_of_nonpos hx, not_le] at h20
      rw [grand_potential0, if_pos (by norm_num; linarith), add_sub_cancel_right, abs_div, abs_neg, abs_of_pos hb, abs_of_pos (exp_pos _)]

open Filter Topology in
/-- C75: limits of zero temperature. -/
theorem C75_zero_temperature (epsilon mu : ℝ) :
    Tendsto (fun beta => fermi_function beta epsilon mu) atTop (𝓝 (if epsilon < mu then 1 else if mu < epsilon then 0 else 1 / 2)) ∧
    Tendsto (fun beta => grand_potential0 beta epsilon mu) atTop (𝓝 (min (epsilon - mu) 0)) := by
  have hlim : ∀ d : ℝ, 0 < d → Tendsto (fun beta : ℝ => exp (-(beta * d))) atTop (𝓝 0) := fun d hd =>
    tendsto_exp_neg_atTop_nhds_zero.comp (tendsto_id.atTop_mul_const hd)
  constructor
  · split_ifs with h1 h2
    · refine tendsto_of_tendsto_of_tendsto_of_le_of_le' (g := fun beta => 1 - exp (-(beta * |epsilon - mu|))) (h := fun _ => 1) ?_
        tendsto_const_nhds ?_ (Eventually.of_forall fun beta => (C28_range beta epsilon mu).2.1.le)
      · simpa using (hlim |epsilon - mu| (abs_pos.mpr (by linarith))).const_sub 1
      · filter_upwards [eventually_gt_atTop 0] with beta hb
        linarith [(C75_step beta epsilon mu hb).2 h1]
    · refine tendsto_of_tendsto_of_tendsto_of_le_of_le' (g := fun _ => 0) (h := fun beta => exp (-(beta * |epsilon - mu|))) tendsto_const_nhds
        (hlim _ (abs_pos.mpr (by linarith))) (Eventually.of_forall fun beta => (C28_range beta epsilon mu).1.le) ?_
      filter_upwards [eventually_gt_atTop 0] with beta hb
      exact (C75_step beta epsilon mu hb).1 h2
    · obtain rfl : epsilon = mu := le_antisymm (not_lt.mp h2) (not_lt.mp h1)
      simp only [C28_half]; exact tendsto_const_nhds
  · rw [tendsto_iff_norm_sub_tendsto_zero]
    refine squeeze_zero' (g := fun beta : ℝ => 1 / beta) (Eventually.of_forall fun _ => norm_nonneg _) ?_ ?_
    · filter_upwards [eventually_gt_atTop 0] with beta hb
      refine (C75_ground beta epsilon mu hb).trans ?_
      refine div_le_div_of_nonneg_right (exp_le_one_iff.mpr ?_) hb.le
      have := mul_nonneg hb.le (abs_nonneg (epsilon - mu)); linarith
    · simpa using tendsto_inv_atTop_zero

/-! ### the chemical potential -/

/-- number of electrons without cut-offs -/
def number (n : ℕ) (beta : ℝ) (e : ℕ → ℝ) (mu : ℝ) : ℝ := ∑ i ∈ Finset.range n, fd (beta * (e i - mu))

theorem fd_continuous : Continuous fd := by
  unfold fd
  exact Continuous.inv₀ (by fun_prop) fun x => by have := exp_pos x; positivity

theorem number_close (beta mu : ℝ) (epsilon : Vec) :
    |∑ i ∈ Finset.range epsilon.len, (ff beta epsilon mu).val i - number epsilon.len beta epsilon.val mu| ≤ epsilon.len * exp (-60) := by
  rw [number, ← Finset.sum_sub_distrib]
  refine (Finset.abs_sum_le_sum_abs _ _).trans ((Finset.sum_le_card_nsmul _ _ (exp (-60)) fun i hi => ?_).trans (by simp))
  rw [(C28_vectors beta mu epsilon).2.2.1 i (Finset.mem_range.mp hi)]
  exact C28_accuracy _ _ _

open Filter Topology in
/-- C75: for every number of electrons between 0 and the number of levels there is a chemical potential at which the occupation numbers add up
to it, within the accuracy of the cut-offs. -/
theorem C75_chemical_potential (beta : ℝ) (hb : 0 < beta) (epsilon : Vec) (N : ℝ) (h0 : 0 < N) (h1 : N < epsilon.len) :
    ∃ mu, |∑ i ∈ Finset.range epsilon.len, (ff beta epsilon mu).val i - N| ≤ epsilon.len * exp (-60) := by
  have hc : Continuous (number epsilon.len beta epsilon.val) := by
    unfold number
    exact continuous_finsetSum _ fun i _ => fd_continuous.comp (by fun_prop)
  have hfb : Tendsto fd atTop (𝓝 0) := by
    unfold fd
    exact (tendsto_atTop_add_const_right _ _ tendsto_exp_atTop).inv_tendsto_atTop
  have hft : Tendsto fd atBot (𝓝 1) := by
    have : Tendsto (fun x => (exp x + 1)⁻¹) atBot (𝓝 (0 + 1)⁻¹) := (tendsto_exp_atBot.add_const 1).inv₀ (by norm_num)
    rw [zero_add, inv_one] at this; exact this
  have hlo : Tendsto (number epsilon.len beta epsilon.val) atBot (𝓝 0) := by
    have : Tendsto (fun mu => ∑ i ∈ Finset.range epsilon.len, fd (beta * (epsilon.val i - mu))) atBot (𝓝 (∑ i ∈ Finset.range epsilon.len, 0)) :=
      tendsto_finsetSum _ fun i _ => hfb.comp
        ((tendsto_atTop_add_const_left _ _ tendsto_neg_atBot_atTop).const_mul_atTop hb)
    rw [Finset.sum_const_zero] at this; exact this
  have hhi : Tendsto (number epsilon.len beta epsilon.val) atTop (𝓝 epsilon.len) := by
    have : Tendsto (fun mu => ∑ i ∈ Finset.range epsilon.len, fd (beta * (epsilon.val i - mu))) atTop (𝓝 (∑ i ∈ Finset.range epsilon.len, 1)) :=
      tendsto_finsetSum _ fun i _ => hft.comp
        ((tendsto_atBot_add_const_left _ _ tendsto_neg_atTop_atBot).const_mul_atBot hb)
    rw [Finset.sum_const, Finset.card_range, nsmul_eq_mul, mul_one] at this; exact this
  obtain ⟨m1, hm1⟩ := (hlo.eventually_lt_const h0).exists
  obtain ⟨m2, hm2⟩ := (hhi.eventually_const_lt h1).exists
  obtain ⟨mu, hmu⟩ := mem_range_of_exists_le_of_exists_ge hc ⟨m1, hm1.le⟩ ⟨m2, hm2.le⟩
  exact ⟨mu, hmu ▸ number_close beta mu epsilon⟩

theorem fd_strict {x y : ℝ} (h : x < y) : fd y < fd x := by
  unfold fd
  exact inv_strictAnti₀ (by have := exp_pos x; linarith) (by have := exp_lt_exp.mpr h; linarith)

/-- C75: while all levels stay within the cut-offs the number of electrons increases strictly with the chemical potential. -/
theorem C75_number_strict {beta mu1 mu2 : ℝ} (hb : 0 < beta) {epsilon : Vec} (hne : 0 < epsilon.len)
    (h1 : ∀ i < epsilon.len, |beta * (epsilon.val i - mu1)| ≤ 30) (h2 : ∀ i < epsilon.len, |beta * (epsilon.val i - mu2)| ≤ 30) (h : mu1 < mu2) :
    ∑ i ∈ Finset.range epsilon.len, (ff beta epsilon mu1).val i < ∑ i ∈ Finset.range epsilon.len, (ff beta epsilon mu2).val i := by
  refine Finset.sum_lt_sum_of_nonempty (Finset.nonempty_range_iff.mpr hne.ne') fun i hi => ?_
  have hi := Finset.mem_range.mp hi
  rw [(C28_vectors beta mu1 epsilon).2.2.1 i hi, (C28_vectors beta mu2 epsilon).2.2.1 i hi, fermi_eq_fd (h1 i hi), fermi_eq_fd (h2 i hi)]
  exact fd_strict (mul_lt_mul_of_pos_left (by linarith) hb)

/-- C75: in general it increases up to the accuracy of the cut-offs. -/
theorem C75_number_mono {beta mu1 mu2 : ℝ} (hb : 0 < beta) (epsilon : Vec) (h : mu1 ≤ mu2) :
    ∑ i ∈ Finset.range epsilon.len, (ff beta epsilon mu1).val i
      ≤ ∑ i ∈ Finset.range epsilon.len, (ff beta epsilon mu2).val i + 2 * (epsilon.len * exp (-60)) := by
  have a := (abs_le.mp (number_close beta mu1 epsilon)).2
  have b := (abs_le.mp (number_close beta mu2 epsilon)).1
  have c : number epsilon.len beta epsilon.val mu1 ≤ number epsilon.len beta epsilon.val mu2 :=
    Finset.sum_le_sum fun i _ => fd_anti (mul_le_mul_of_nonneg_left (by linarith) hb.le)
  linarith

/-- two levels at temperature one: the hypotheses hold -/
example : ∑ i ∈ Finset.range 2, (GP0 1 ⟨2, fun i => i⟩ (1 / 2)).val i = -(1 / 1) * log (partition 2 1 (fun i => i) (1 / 2)) := by
  refine C75_grand_potential 1 (1 / 2) one_ne_zero ⟨2, fun i => i⟩ fun i hi => ?_
  have : i = 0 ∨ i = 1 := by change i < 2 at hi; omega
  rcases this with rfl | rfl <;> norm_num [abs_le]

end Ft
end
