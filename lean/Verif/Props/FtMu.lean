import Verif.Props.Ft
import Mathlib.Topology.Order.IntermediateValue
import Mathlib.Analysis.SpecialFunctions.Exp
/-!
# C107: the chemical potential of a given number of electrons, and limits of temperature
-/
noncomputable section
namespace Ft
open Real Filter Topology

/-- The number of electrons: the sum of what `ff` returns. -/
def electrons (beta : ℝ) (epsilon : Vec) (mu : ℝ) : ℝ := ∑ i ∈ Finset.range epsilon.len, (ff beta epsilon mu).val i

theorem electrons_eq (beta : ℝ) (epsilon : Vec) (mu : ℝ) : electrons beta epsilon mu = ∑ i ∈ Finset.range epsilon.len, fermi_function beta (epsilon.val i) mu :=
  Finset.sum_congr rfl fun i hi => (C28_vectors beta mu epsilon).2.2.1 i (Finset.mem_range.1 hi)

/-- The function jumps down, if at all, on passing `s` from the left to the right. -/
def Falls (f : ℝ → ℝ) (s : ℝ) : Prop :=
  (∃ h : ℝ → ℝ, ContinuousAt h s ∧ (∀ᶠ m in 𝓝[>] s, f m = h m) ∧ h s ≤ f s) ∧ ∃ h : ℝ → ℝ, ContinuousAt h s ∧ (∀ᶠ m in 𝓝[<] s, f m = h m) ∧ f s ≤ h s

theorem Falls.add {f g : ℝ → ℝ} {s : ℝ} (hf : Falls f s) (hg : Falls g s) : Falls (fun m => f m + g m) s := by
  obtain ⟨⟨h1, c1, e1, l1⟩, h2, c2, e2, l2⟩ := hf
  obtain ⟨⟨k1, d1, f1, m1⟩, k2, d2, f2, m2⟩ := hg
  exact ⟨⟨_, c1.add d1, (e1.and f1).mono fun m h => congrArg₂ (· + ·) h.1 h.2, add_le_add l1 m1⟩,
    _, c2.add d2, (e2.and f2).mono fun m h => congrArg₂ (· + ·) h.1 h.2, add_le_add l2 m2⟩

theorem Falls.sum {f : ℕ → ℝ → ℝ} {s : ℝ} (h : ∀ i, Falls (f i) s) (t : Finset ℕ) : Falls (fun m => ∑ i ∈ t, f i m) s := by
  classical
  induction t using Finset.induction_on with
  | empty =>
    simp only [Finset.sum_empty]
    exact ⟨⟨fun _ => 0, continuousAt_const, .of_forall fun _ => rfl, le_rfl⟩, fun _ => 0, continuousAt_const, .of_forall fun _ => rfl, le_rfl⟩
  | insert a t ha ih =>
    simp only [Finset.sum_insert ha]
    exact (h a).add ih

/-- A function that only ever jumps down takes all values between a smaller and a larger one. -/
theorem Falls.takes {f : ℝ → ℝ} (hf : ∀ s, Falls f s) {a b N : ℝ} (hab : a ≤ b) (ha : f a ≤ N) (hb : N ≤ f b) : ∃ s, f s = N := by
  let S := {m | a ≤ m ∧ m ≤ b ∧ f m ≤ N}
  have ne : S.Nonempty := ⟨a, le_rfl, hab, ha⟩
  have bd : BddAbove S := ⟨b, fun m hm => hm.2.1⟩
  obtain ⟨⟨h1, c1, e1, l1⟩, h2, c2, e2, l2⟩ := hf (sSup S)
  have sb : sSup S ≤ b := csSup_le ne fun m hm => hm.2.1
  have sa : a ≤ sSup S := le_csSup bd ⟨le_rfl, hab, ha⟩
  refine ⟨sSup S, le_antisymm ?_ ?_⟩
  · by_contra hc
    rw [not_le] at hc
    have ev : ∀ᶠ m in 𝓝[<] sSup S, N < f m := by
      filter_upwards [e2, (c2.eventually_const_lt (hc.trans_le l2)).filter_mono nhdsWithin_le_nhds] with m h h'
      rwa [h]
    rw [eventually_nhdsWithin_iff, Metric.eventually_nhds_iff] at ev
    obtain ⟨r, hr, hh⟩ := ev
    obtain ⟨m, hm, hlt⟩ := exists_lt_of_lt_csSup ne (show sSup S - r < sSup S by linarith)
    have hle := le_csSup bd hm
    rcases hle.lt_or_eq with h | h
    · exact absurd hm.2.2 (not_le.2 (hh (by rw [Real.dist_eq, abs_lt]; constructor <;> linarith) h))
    · rw [h] at hm; exact absurd hm.2.2 (not_le.2 hc)
  · rcases sb.lt_or_eq with h | h
    · by_contra hc
      rw [not_le] at hc
      have ev : ∀ᶠ m in 𝓝[>] sSup S, f m < N ∧ m < b := by
        filter_upwards [e1, (c1.eventually_lt_const (l1.trans_lt hc)).filter_mono nhdsWithin_le_nhds, (eventually_lt_nhds h).filter_mono nhdsWithin_le_nhds] with m h h' h''
        exact ⟨by rwa [h], h''⟩
      obtain ⟨m, ⟨h1, h2⟩, h3⟩ := (ev.and self_mem_nhdsWithin).exists
      exact absurd (le_csSup bd ⟨sa.trans (le_of_lt h3), h2.le, h1.le⟩) (not_le.2 h3)
    · rw [h]; exact hb

theorem fermi_falls {beta : ℝ} (hb : 0 < beta) (epsilon s : ℝ) : Falls (fun m => fermi_function beta epsilon m) s := by
  have low : ∀ m, beta * (epsilon - m) < -30 → fermi_function beta epsilon m = 1 - exp (beta * (epsilon - m)) := fun m h => by
    rw [fermi_function, if_pos (by norm_num; linarith)]; norm_num
  have high : ∀ m, 30 < beta * (epsilon - m) → fermi_function beta epsilon m = exp (-(beta * (epsilon - m))) := fun m h => by
    rw [fermi_function, if_neg (by norm_num; linarith), if_pos (by norm_num; linarith)]
  have mid : ∀ m, -30 ≤ beta * (epsilon - m) → beta * (epsilon - m) ≤ 30 → fermi_function beta epsilon m = fd (beta * (epsilon - m)) := fun m h h' =>
    fermi_eq_fd (abs_le.2 ⟨by linarith, by linarith⟩)
  have cx : Continuous fun m => beta * (epsilon - m) := by fun_prop
  have cl : Continuous fun m => 1 - exp (beta * (epsilon - m)) := by fun_prop
  have ch : Continuous fun m => exp (-(beta * (epsilon - m))) := by fun_prop
  have cm : Continuous fun m => fd (beta * (epsilon - m)) := by
    unfold fd
    exact Continuous.inv₀ (by fun_prop) fun m => by positivity
  obtain ⟨b1, b2, b3, b4⟩ := fd_bounds (beta * (epsilon - s))
  have right : ∀ᶠ m in 𝓝[>] s, beta * (epsilon - m) < beta * (epsilon - s) := by
    filter_upwards [self_mem_nhdsWithin] with m hm
    have : s < m := hm
    nlinarith
  have left : ∀ᶠ m in 𝓝[<] s, beta * (epsilon - s) < beta * (epsilon - m) := by
    filter_upwards [self_mem_nhdsWithin] with m hm
    have : m < s := hm
    nlinarith
  have below : ∀ c, beta * (epsilon - s) < c → ∀ᶠ m in 𝓝 s, beta * (epsilon - m) < c := fun c h => cx.continuousAt.eventually_lt_const h
  have above : ∀ c, c < beta * (epsilon - s) → ∀ᶠ m in 𝓝 s, c < beta * (epsilon - m) := fun c h => cx.continuousAt.eventually_const_lt h
  refine ⟨?_, ?_⟩
  · rcases le_or_gt (beta * (epsilon - s)) (-30) with h | h
    · refine ⟨_, cl.continuousAt, right.mono fun m hm => low m (by linarith), ?_⟩
      rcases h.lt_or_eq with h | h
      · exact (low s h).ge
      · exact b3.trans (mid s (by linarith) (by linarith)).ge
    · rcases le_or_gt (beta * (epsilon - s)) 30 with h' | h'
      · exact ⟨_, cm.continuousAt, ((above _ h).filter_mono nhdsWithin_le_nhds |>.and right).mono fun m hm => mid m hm.1.le (by linarith [hm.2]), (mid s h.le h').ge⟩
      · exact ⟨_, ch.continuousAt, ((above _ h').filter_mono nhdsWithin_le_nhds).mono fun m hm => high m hm, (high s h').ge⟩
  · rcases lt_or_ge (beta * (epsilon - s)) (-30) with h | h
    · exact ⟨_, cl.continuousAt, ((below _ h).filter_mono nhdsWithin_le_nhds).mono fun m hm => low m hm, (low s h).le⟩
    · rcases lt_or_ge (beta * (epsilon - s)) 30 with h' | h'
      · exact ⟨_, cm.continuousAt, ((below _ h').filter_mono nhdsWithin_le_nhds |>.and left).mono fun m hm => mid m (by linarith [hm.2]) hm.1.le, (mid s h h'.le).le⟩
      · refine ⟨_, ch.continuousAt, left.mono fun m hm => high m (by linarith), ?_⟩
        rcases h'.lt_or_eq with h' | h'
        · exact (high s h').le
        · exact (mid s h h'.ge).le.trans b1

/-- Far below and far above all levels. -/
theorem fermi_far (beta epsilon : ℝ) (hb : 0 < beta) : Tendsto (fun m => fermi_function beta epsilon m) atBot (𝓝 0) ∧ Tendsto (fun m => fermi_function beta epsilon m) atTop (𝓝 1) := by
  have x1 : Tendsto (fun m => beta * (epsilon - m)) atBot atTop := Tendsto.const_mul_atTop hb (tendsto_atTop_add_const_left _ epsilon tendsto_neg_atBot_atTop)
  have x2 : Tendsto (fun m => beta * (epsilon - m)) atTop atBot := Tendsto.const_mul_atBot hb (tendsto_atBot_add_const_left _ epsilon tendsto_neg_atTop_atBot)
  constructor
  · refine Tendsto.congr' ?_ (tendsto_exp_neg_atTop_nhds_zero.comp x1)
    filter_upwards [x1.eventually_gt_atTop 30] with m hm
    rw [fermi_function, if_neg (by norm_num; linarith), if_pos (by norm_num; linarith)]; rfl
  · have := (tendsto_exp_atBot.comp x2).const_sub 1
    rw [sub_zero] at this
    refine Tendsto.congr' ?_ this
    filter_upwards [x2.eventually_lt_atBot (-30)] with m hm
    rw [fermi_function, if_pos (by norm_num; linarith)]; norm_num

/-- C107: without electrons far below all levels, with all levels full far above. -/
theorem C107_far (beta : ℝ) (hb : 0 < beta) (epsilon : Vec) :
    Tendsto (electrons beta epsilon) atBot (𝓝 0) ∧ Tendsto (electrons beta epsilon) atTop (𝓝 epsilon.len) := by
  have e : electrons beta epsilon = fun m => ∑ i ∈ Finset.range epsilon.len, fermi_function beta (epsilon.val i) m := funext fun m => electrons_eq beta epsilon m
  rw [e]
  constructor
  · have := tendsto_finsetSum (Finset.range epsilon.len) fun i _ => (fermi_far beta (epsilon.val i) hb).1
    simpa using this
  · have := tendsto_finsetSum (Finset.range epsilon.len) fun i _ => (fermi_far beta (epsilon.val i) hb).2
    simpa using this

/-- C107: for every temperature, all energies and every number `N` of electrons between zero and the number of levels, whole or not, there is a chemical potential at
which the occupations that `ff` returns add up to exactly `N`, although they are not continuous in the chemical potential. -/
theorem C107_exists (beta : ℝ) (hb : 0 < beta) (epsilon : Vec) (N : ℝ) (h0 : 0 < N) (h1 : N < epsilon.len) : ∃ mu, electrons beta epsilon mu = N := by
  obtain ⟨t0, t1⟩ := C107_far beta hb epsilon
  obtain ⟨b, hb1, hb2⟩ := ((t1.eventually_const_lt h1).and (eventually_ge_atTop 0)).exists
  obtain ⟨a, ha1, ha2⟩ := ((t0.eventually_lt_const h0).and (eventually_le_atBot 0)).exists
  refine Falls.takes (fun s => ?_) (ha2.trans hb2) ha1.le hb1.le
  have e : electrons beta epsilon = fun m => ∑ i ∈ Finset.range epsilon.len, fermi_function beta (epsilon.val i) m := funext fun m => electrons_eq beta epsilon m
  rw [e]
  exact Falls.sum (fun i => fermi_falls hb (epsilon.val i) s) _

/-- Where brackets of a value contract, the value is taken. -/
theorem Falls.limit {f : ℝ → ℝ} {s N : ℝ} (hf : Falls f s) {a b : ℕ → ℝ} (ta : Tendsto a atTop (𝓝 s)) (tb : Tendsto b atTop (𝓝 s)) (ha : ∀ k, a k ≤ s) (hb : ∀ k, s ≤ b k)
    (fa : ∀ k, f (a k) ≤ N) (fb : ∀ k, N ≤ f (b k)) : f s = N := by
  obtain ⟨⟨h1, c1, e1, l1⟩, h2, c2, e2, l2⟩ := hf
  refine le_antisymm ?_ ?_
  · by_cases h : ∃ k, a k = s
    · obtain ⟨k, hk⟩ := h; rw [← hk]; exact fa k
    · have t : Tendsto a atTop (𝓝[<] s) := tendsto_nhdsWithin_iff.2 ⟨ta, .of_forall fun k => lt_of_le_of_ne (ha k) fun e => h ⟨k, e⟩⟩
      exact l2.trans (le_of_tendsto (c2.tendsto.comp ta) ((t.eventually e2).mono fun k hk => hk.symm.le.trans (fa k)))
  · by_cases h : ∃ k, b k = s
    · obtain ⟨k, hk⟩ := h; rw [← hk]; exact fb k
    · have t : Tendsto b atTop (𝓝[>] s) := tendsto_nhdsWithin_iff.2 ⟨tb, .of_forall fun k => lt_of_le_of_ne (hb k) fun e => h ⟨k, e.symm⟩⟩
      exact (ge_of_tendsto (c1.tendsto.comp tb) ((t.eventually e1).mono fun k hk => (fb k).trans hk.le)).trans l1

theorem electrons_falls {beta : ℝ} (hb : 0 < beta) (epsilon : Vec) (s : ℝ) : Falls (electrons beta epsilon) s := by
  rw [show electrons beta epsilon = fun m => ∑ i ∈ Finset.range epsilon.len, fermi_function beta (epsilon.val i) m from funext fun m => electrons_eq beta epsilon m]
  exact Falls.sum (fun i => fermi_falls hb (epsilon.val i) s) _

/-- C107: bisection and every other method that contracts a bracket finds such a chemical potential: if there are too few electrons at `a k`, too many at `b k`, and the intervals are
nested and shrink to a point, then `ff` gives exactly `N` electrons at that point, in spite of the jumps. -/
theorem C107_bracket (beta : ℝ) (hb : 0 < beta) (epsilon : Vec) (N : ℝ) (a b : ℕ → ℝ) (ma : Monotone a) (mb : Antitone b) (hab : ∀ k, a k ≤ b k) (h0 : Tendsto (fun k => b k - a k) atTop (𝓝 0))
    (fa : ∀ k, electrons beta epsilon (a k) ≤ N) (fb : ∀ k, N ≤ electrons beta epsilon (b k)) :
    ∃ mu, Tendsto a atTop (𝓝 mu) ∧ Tendsto b atTop (𝓝 mu) ∧ electrons beta epsilon mu = N := by
  have bd : BddAbove (Set.range a) := ⟨b 0, by rintro _ ⟨k, rfl⟩; exact (hab k).trans (mb (Nat.zero_le k))⟩
  have ta := tendsto_atTop_ciSup ma bd
  have tb : Tendsto b atTop (𝓝 (⨆ k, a k)) := by
    have := ta.add h0
    rw [add_zero] at this
    exact this.congr fun k => by ring
  exact ⟨_, ta, tb, (electrons_falls hb epsilon _).limit ta tb (fun k => ma.ge_of_tendsto ta k) (fun k => mb.le_of_tendsto tb k) fa fb⟩

/-- C107: bisection, step by step. -/
theorem C107_bisection (beta : ℝ) (hb : 0 < beta) (epsilon : Vec) (N : ℝ) (p : ℕ → ℝ × ℝ) (h0 : (p 0).1 ≤ (p 0).2) (f0 : electrons beta epsilon (p 0).1 ≤ N)
    (g0 : N ≤ electrons beta epsilon (p 0).2)
    (step : ∀ k, p (k + 1) = if electrons beta epsilon (((p k).1 + (p k).2) / 2) < N then (((p k).1 + (p k).2) / 2, (p k).2) else ((p k).1, ((p k).1 + (p k).2) / 2)) :
    ∃ mu, Tendsto (fun k => (p k).1) atTop (𝓝 mu) ∧ Tendsto (fun k => (p k).2) atTop (𝓝 mu) ∧ electrons beta epsilon mu = N := by
  have inv : ∀ k, (p k).1 ≤ (p k).2 ∧ electrons beta epsilon (p k).1 ≤ N ∧ N ≤ electrons beta epsilon (p k).2 ∧ (p k).2 - (p k).1 = ((p 0).2 - (p 0).1) * (1 / 2) ^ k := by
    intro k
    induction k with
    | zero => exact ⟨h0, f0, g0, by simp⟩
    | succ k ih =>
      obtain ⟨i1, i2, i3, i4⟩ := ih
      rw [step k, pow_succ, ← mul_assoc, ← i4]
      split_ifs with h
      · exact ⟨by dsimp only; linarith, h.le, i3, by dsimp only; ring⟩
      · exact ⟨by dsimp only; linarith, i2, not_lt.1 h, by dsimp only; ring⟩
  refine C107_bracket beta hb epsilon N _ _ (monotone_nat_of_le_succ fun k => ?_) (antitone_nat_of_succ_le fun k => ?_) (fun k => (inv k).1) ?_ (fun k => (inv k).2.1) (fun k => (inv k).2.2.1)
  · have := (inv k).1
    rw [step k]; split_ifs <;> dsimp only <;> linarith
  · have := (inv k).1
    rw [step k]; split_ifs <;> dsimp only <;> linarith
  · have := (tendsto_pow_atTop_nhds_zero_of_lt_one (by norm_num : (0 : ℝ) ≤ 1 / 2) (by norm_num)).const_mul ((p 0).2 - (p 0).1)
    rw [mul_zero] at this
    exact this.congr fun k => (inv k).2.2.2.symm

/-- three levels and one and a half electrons -/
example : ∃ mu, electrons 2 ⟨3, fun i => i⟩ mu = 3 / 2 := C107_exists 2 (by norm_num) _ _ (by norm_num) (by norm_num)

/-- one level at zero and half an electron: brackets from -1 to 1 -/
example : electrons 1 ⟨1, fun _ => 0⟩ (-1) ≤ 1 / 2 ∧ 1 / 2 ≤ electrons 1 ⟨1, fun _ => 0⟩ 1 := by
  rw [electrons_eq, electrons_eq]
  simp only [Finset.sum_range_one]
  have h : fd 0 = 1 / 2 := by rw [fd, exp_zero]; norm_num
  rw [fermi_eq_fd (by norm_num), fermi_eq_fd (by norm_num), ← h]
  exact ⟨fd_anti (by norm_num), fd_anti (by norm_num)⟩

/-- C107: the chemical potential need not be unique: one level is occupied equally at two of them, for every temperature. -/
theorem C107_not_unique (beta : ℝ) (hb : 0 < beta) : ∃ m₁ m₂, m₁ < m₂ ∧ electrons beta ⟨1, fun _ => 0⟩ m₁ = electrons beta ⟨1, fun _ => 0⟩ m₂ := by
  have hp := exp_pos (-30)
  have hl : 0 < log (1 + exp (-30)) := log_pos (by linarith)
  refine ⟨30 / beta, (30 + log (1 + exp (-30))) / beta, div_lt_div_of_pos_right (by linarith) hb, ?_⟩
  have e1 : beta * (0 - 30 / beta) = -30 := by field_simp; ring
  have e2 : beta * (0 - (30 + log (1 + exp (-30))) / beta) = -30 - log (1 + exp (-30)) := by field_simp; ring
  rw [electrons_eq, electrons_eq]
  simp only [Finset.sum_range_one]
  rw [fermi_eq_fd (by rw [e1]; norm_num), e1]
  simp only [fermi_function, e2]
  rw [if_pos (by norm_num; linarith), exp_sub, exp_log (by linarith), fd]
  norm_num
  field_simp
  ring

/-- C107: with the Fermi-Dirac distribution without cut-offs the chemical potential is unique, -/
theorem C107_exact (beta : ℝ) (hb : 0 < beta) (epsilon : Vec) (N : ℝ) (h0 : 0 < N) (h1 : N < epsilon.len) :
    ∃! mu, ∑ i ∈ Finset.range epsilon.len, fd (beta * (epsilon.val i - mu)) = N := by
  have hn : 0 < epsilon.len := by
    rcases Nat.eq_zero_or_pos epsilon.len with h | h
    · rw [h] at h1; norm_num at h1; linarith
    · exact h
  have mono : StrictMono fun mu => ∑ i ∈ Finset.range epsilon.len, fd (beta * (epsilon.val i - mu)) := fun a b hab => by
    refine Finset.sum_lt_sum_of_nonempty ⟨0, Finset.mem_range.2 hn⟩ fun i _ => ?_
    unfold fd
    exact inv_strictAnti₀ (by positivity) (by have := exp_lt_exp.2 (show beta * (epsilon.val i - b) < beta * (epsilon.val i - a) by nlinarith); linarith)
  have cont : Continuous fun mu => ∑ i ∈ Finset.range epsilon.len, fd (beta * (epsilon.val i - mu)) := by
    unfold fd
    exact continuous_finsetSum _ fun i _ => Continuous.inv₀ (by fun_prop) fun m => by positivity
  have t0 : Tendsto (fun mu => ∑ i ∈ Finset.range epsilon.len, fd (beta * (epsilon.val i - mu))) atBot (𝓝 0) := by
    have := tendsto_finsetSum (Finset.range epsilon.len) fun i _ => (show Tendsto (fun m => fd (beta * (epsilon.val i - m))) atBot (𝓝 0) from by
      have x1 : Tendsto (fun m => beta * (epsilon.val i - m)) atBot atTop := Tendsto.const_mul_atTop hb (tendsto_atTop_add_const_left _ _ tendsto_neg_atBot_atTop)
      exact tendsto_inv_atTop_zero.comp (tendsto_atTop_add_const_right _ 1 (tendsto_exp_atTop.comp x1)))
    simpa using this
  have t1 : Tendsto (fun mu => ∑ i ∈ Finset.range epsilon.len, fd (beta * (epsilon.val i - mu))) atTop (𝓝 epsilon.len) := by
    have := tendsto_finsetSum (Finset.range epsilon.len) fun i _ => (show Tendsto (fun m => fd (beta * (epsilon.val i - m))) atTop (𝓝 1) from by
      have x2 : Tendsto (fun m => beta * (epsilon.val i - m)) atTop atBot := Tendsto.const_mul_atBot hb (tendsto_atBot_add_const_left _ _ tendsto_neg_atTop_atBot)
      have := ((tendsto_exp_atBot.comp x2).add_const 1).inv₀ (by norm_num)
      simpa [fd, Function.comp_def] using this)
    simpa using this
  obtain ⟨b, hb1⟩ := (t1.eventually_const_lt h1).exists
  obtain ⟨a, ha1⟩ := (t0.eventually_lt_const h0).exists
  obtain ⟨m, hm⟩ := mem_range_of_exists_le_of_exists_ge cont ⟨a, ha1.le⟩ ⟨b, hb1.le⟩
  exact ⟨m, hm, fun m' hm' => mono.injective (hm'.trans hm.symm)⟩

/-- C107: and at every chemical potential found with `ff` its number of electrons is right to `exp(-60)` for each level. -/
theorem C107_accuracy (beta : ℝ) (epsilon : Vec) (N mu : ℝ) (h : electrons beta epsilon mu = N) :
    |∑ i ∈ Finset.range epsilon.len, fd (beta * (epsilon.val i - mu)) - N| ≤ epsilon.len * exp (-60) := by
  rw [← h, electrons_eq, ← Finset.sum_sub_distrib]
  refine (Finset.abs_sum_le_sum_abs _ _).trans ?_
  have := Finset.sum_le_sum (s := Finset.range epsilon.len) fun i _ => C28_accuracy beta (epsilon.val i) mu
  simp only [Finset.sum_const, Finset.card_range, nsmul_eq_mul] at this
  simpa only [abs_sub_comm] using this

/-! ### limits of temperature -/

theorem up {d : ℝ} (hd : 0 < d) : Tendsto (fun beta : ℝ => beta * d) atTop atTop := tendsto_id.atTop_mul_const hd
theorem down {d : ℝ} (hd : d < 0) : Tendsto (fun beta : ℝ => beta * d) atTop atBot := tendsto_id.atTop_mul_const_of_neg hd

/-- C107: as the temperature goes to zero levels below the chemical potential become full, those above empty, and those at the chemical potential half full. -/
theorem C107_zero_temperature (epsilon mu : ℝ) :
    Tendsto (fun beta => fermi_function beta epsilon mu) atTop (𝓝 (if epsilon < mu then 1 else if epsilon = mu then 1 / 2 else 0)) ∧
    Tendsto (fun beta => vfermi_function beta epsilon mu) atTop (𝓝 (if epsilon < mu then 0 else if epsilon = mu then 1 / 2 else 1)) ∧
    Tendsto (fun beta => grand_potential0 beta epsilon mu) atTop (𝓝 (min (epsilon - mu) 0)) ∧
    Tendsto (fun beta => dgrand_potential0 beta epsilon mu) atTop (𝓝 0) := by
  have inv0 : Tendsto (fun beta : ℝ => beta⁻¹) atTop (𝓝 0) := tendsto_inv_atTop_zero
  have inv2 : Tendsto (fun beta : ℝ => (beta * beta)⁻¹) atTop (𝓝 0) := by
    have := inv0.mul inv0
    simpa [mul_inv] using this
  rcases lt_trichotomy epsilon mu with h | h | h
  · have hd : epsilon - mu < 0 := by linarith
    have x := down hd
    have ex : Tendsto (fun beta => exp (beta * (epsilon - mu))) atTop (𝓝 0) := tendsto_exp_atBot.comp x
    have ev := x.eventually_lt_atBot (-30)
    rw [if_pos h, if_pos h, min_eq_left hd.le]
    refine ⟨?_, ?_, ?_, ?_⟩
    · have := ex.const_sub 1
      rw [sub_zero] at this
      refine this.congr' (ev.mono fun b hb => ?_)
      beta_reduce
      rw [fermi_function, if_pos (by norm_num; linarith)]; norm_num
    · refine ex.congr' (ev.mono fun b hb => ?_)
      beta_reduce
      rw [vfermi_function, if_neg (by norm_num; linarith), if_pos (by norm_num; linarith)]
    · have := ((ex.neg.mul inv0).add_const (epsilon - mu))
      rw [neg_zero, zero_mul, zero_add] at this
      refine this.congr' (ev.mono fun b hb => ?_)
      beta_reduce
      rw [grand_potential0, if_pos (by norm_num; linarith), div_eq_mul_inv]
    · have := ((ex.const_mul (-(epsilon - mu))).mul inv0).add (ex.mul inv2)
      simp only [mul_zero, add_zero] at this
      refine this.congr' (ev.mono fun b hb => ?_)
      beta_reduce
      rw [dgrand_potential0, if_pos (by norm_num; linarith), vfermi_function, if_neg (by norm_num; linarith), if_pos (by norm_num; linarith), div_eq_mul_inv, div_eq_mul_inv]
  · subst h
    have f : ∀ b, fermi_function b epsilon epsilon = 1 / 2 := fun b => C28_half b epsilon
    have v : ∀ b, vfermi_function b epsilon epsilon = 1 / 2 := fun b => by
      have := C28_complement b epsilon epsilon
      rw [f] at this; linarith
    rw [if_neg (lt_irrefl _), if_neg (lt_irrefl _), if_pos rfl, if_pos rfl, sub_self, min_self]
    refine ⟨by simp only [f]; exact tendsto_const_nhds, by simp only [v]; exact tendsto_const_nhds, ?_, ?_⟩
    · have := inv0.const_mul (log (1 / 2))
      rw [mul_zero] at this
      refine this.congr fun b => ?_
      rw [grand_potential0, if_neg (by norm_num), if_neg (by norm_num), f]; ring
    · have := inv2.const_mul (-log (1 / 2))
      rw [mul_zero] at this
      refine this.congr fun b => ?_
      rw [dgrand_potential0, if_neg (by norm_num), if_neg (by norm_num), f]; ring
  · have hd : 0 < epsilon - mu := by linarith
    have x := up hd
    have ex : Tendsto (fun beta => exp (-(beta * (epsilon - mu)))) atTop (𝓝 0) := tendsto_exp_neg_atTop_nhds_zero.comp x
    have ev := x.eventually_gt_atTop 30
    rw [if_neg h.not_gt, if_neg h.ne', if_neg h.not_gt, if_neg h.ne', min_eq_right hd.le]
    refine ⟨?_, ?_, ?_, ?_⟩
    · refine ex.congr' (ev.mono fun b hb => ?_)
      beta_reduce
      rw [fermi_function, if_neg (by norm_num; linarith), if_pos (by norm_num; linarith)]
    · have := ex.const_sub 1
      rw [sub_zero] at this
      refine this.congr' (ev.mono fun b hb => ?_)
      beta_reduce
      rw [vfermi_function, if_pos (by norm_num; linarith)]; norm_num
    · have := ex.neg.mul inv0
      rw [neg_zero, zero_mul] at this
      refine this.congr' (ev.mono fun b hb => ?_)
      beta_reduce
      rw [grand_potential0, if_neg (by norm_num; linarith), if_pos (by norm_num; linarith), div_eq_mul_inv]
    · have := ((ex.const_mul (epsilon - mu)).mul inv0).add (ex.mul inv2)
      simp only [mul_zero, add_zero] at this
      refine this.congr' (ev.mono fun b hb => ?_)
      beta_reduce
      rw [dgrand_potential0, if_neg (by norm_num; linarith), if_pos (by norm_num; linarith), fermi_function, if_neg (by norm_num; linarith), if_pos (by norm_num; linarith),
        div_eq_mul_inv, div_eq_mul_inv]

/-- C107: as the temperature goes to infinity every level becomes half full, and the grand potential is that of the entropy of `log 2` for each level. -/
theorem C107_infinite_temperature (epsilon mu : ℝ) :
    Tendsto (fun beta => fermi_function beta epsilon mu) (𝓝[>] 0) (𝓝 (1 / 2)) ∧ Tendsto (fun beta => vfermi_function beta epsilon mu) (𝓝[>] 0) (𝓝 (1 / 2)) ∧
    Tendsto (fun beta => beta * grand_potential0 beta epsilon mu) (𝓝[>] 0) (𝓝 (-log 2)) := by
  have c : ContinuousAt (fun beta : ℝ => |beta * (epsilon - mu)|) 0 := by fun_prop
  have ev : ∀ᶠ b in 𝓝[>] (0 : ℝ), |b * (epsilon - mu)| < 20 := (c.eventually_lt_const (by simp)).filter_mono nhdsWithin_le_nhds
  have cf : ContinuousAt (fun beta : ℝ => fd (beta * (epsilon - mu))) 0 := by
    unfold fd
    exact ContinuousAt.inv₀ (by fun_prop) (by positivity)
  have f : Tendsto (fun beta => fermi_function beta epsilon mu) (𝓝[>] 0) (𝓝 (1 / 2)) := by
    have t := cf.tendsto.mono_left (nhdsWithin_le_nhds (s := Set.Ioi 0))
    rw [show fd (0 * (epsilon - mu)) = 1 / 2 by rw [zero_mul, fd, exp_zero]; norm_num] at t
    exact t.congr' (ev.mono fun b hb => (fermi_eq_fd (by linarith)).symm)
  refine ⟨f, ?_, ?_⟩
  · have := f.const_sub 1
    rw [show (1 : ℝ) - 1 / 2 = 1 / 2 by norm_num] at this
    refine this.congr fun b => ?_
    have := C28_complement b epsilon mu
    linarith
  · have cl : ContinuousAt (fun beta : ℝ => -log (1 + exp (-(beta * (epsilon - mu))))) 0 :=
      (ContinuousAt.log (by fun_prop) (by positivity)).neg
    have t := cl.tendsto.mono_left (nhdsWithin_le_nhds (s := Set.Ioi 0))
    rw [show (1 : ℝ) + exp (-(0 * (epsilon - mu))) = 2 by rw [zero_mul, neg_zero, exp_zero]; norm_num] at t
    refine t.congr' ((ev.and self_mem_nhdsWithin).mono fun b hb => ?_)
    have hb' : b ≠ 0 := ne_of_gt hb.2
    beta_reduce
    rw [C30_grand_potential b epsilon mu hb' hb.1.le, omega]
    field_simp

end Ft
end
