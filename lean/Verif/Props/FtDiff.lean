import Verif.Model.FtTests
import Verif.Props.Ft
import Mathlib.Analysis.Calculus.MeanValue
import Mathlib.Analysis.SpecialFunctions.Sqrt
import Mathlib.Analysis.SpecialFunctions.BinaryEntropy
import Mathlib.Analysis.Complex.ExponentialBounds
import Mathlib.Tactic.Positivity
/-!
# C83: the finite-difference tests of `ft_utils`
-/
noncomputable section
namespace Ft.Tests
open Real Ft Set

/-! ## Central differences -/

theorem step {u u' B B' : ℝ → ℝ} {d : ℝ} (hu : ∀ t, 0 ≤ t → t ≤ d → HasDerivAt u (u' t) t)
    (hB : ∀ t, 0 ≤ t → t ≤ d → HasDerivAt B (B' t) t) (h0 : u 0 = 0) (b0 : B 0 = 0)
    (hb : ∀ t, 0 ≤ t → t ≤ d → |u' t| ≤ B' t) {t : ℝ} (ht : 0 ≤ t) (htd : t ≤ d) : |u t| ≤ B t := by
  refine image_norm_le_of_norm_deriv_right_le_deriv_boundary' (a := 0) (b := d) (f := u) (f' := u') (B := B) (B' := B')
    (fun x hx => (hu x hx.1 hx.2).continuousAt.continuousWithinAt) (fun x hx => (hu x hx.1 hx.2.le).hasDerivWithinAt)
    (by rw [h0, b0, norm_zero]) (fun x hx => (hB x hx.1 hx.2).continuousAt.continuousWithinAt)
    (fun x hx => (hB x hx.1 hx.2.le).hasDerivWithinAt) (fun x hx => hb x hx.1 hx.2.le) ⟨ht, htd⟩

/-- The central difference of a function with a bounded third derivative. -/
theorem central {f f1 f2 f3 : ℝ → ℝ} {b d M : ℝ} (hd : 0 < d) (h1 : ∀ t, |t - b| ≤ d → HasDerivAt f (f1 t) t)
    (h2 : ∀ t, |t - b| ≤ d → HasDerivAt f1 (f2 t) t) (h3 : ∀ t, |t - b| ≤ d → HasDerivAt f2 (f3 t) t)
    (hM : ∀ t, |t - b| ≤ d → |f3 t| ≤ M) : |(f (b + d) - f (b - d)) / (2 * d) - f1 b| ≤ M * d ^ 2 / 6 := by
  have ip : ∀ t, 0 ≤ t → t ≤ d → |b + t - b| ≤ d := fun t h0 h1 => by rw [add_sub_cancel_left, abs_of_nonneg h0]; exact h1
  have im : ∀ t, 0 ≤ t → t ≤ d → |b - t - b| ≤ d := fun t h0 h1 => by
    rw [sub_sub_cancel_left, abs_neg, abs_of_nonneg h0]; exact h1
  have plus : ∀ {g : ℝ → ℝ} {g' t : ℝ}, HasDerivAt g g' (b + t) → HasDerivAt (fun s => g (b + s)) g' t := fun h => by
    simpa using h.comp_const_add b _
  have minus : ∀ {g : ℝ → ℝ} {g' t : ℝ}, HasDerivAt g g' (b - t) → HasDerivAt (fun s => g (b - s)) (-g') t := fun h => by
    simpa using h.comp_const_sub b _
  have l2 : ∀ t, 0 ≤ t → t ≤ d → |f2 (b + t) - f2 (b - t)| ≤ 2 * M * t := fun t h0 hd' =>
    step (u := fun t => f2 (b + t) - f2 (b - t)) (u' := fun t => f3 (b + t) - -f3 (b - t)) (B := fun t => 2 * M * t)
      (B' := fun _ => 2 * M * 1) (d := d)
      (fun t h0 hd => (plus (h3 _ (ip t h0 hd))).sub (minus (h3 _ (im t h0 hd))))
      (fun t _ _ => (hasDerivAt_id t).const_mul _) (by simp) (by simp)
      (fun t h0 hd => by
        rw [sub_neg_eq_add]
        exact (abs_add_le _ _).trans (by have := hM _ (ip t h0 hd); have := hM _ (im t h0 hd); linarith)) h0 hd'
  have l1 : ∀ t, 0 ≤ t → t ≤ d → |f1 (b + t) + f1 (b - t) - 2 * f1 b| ≤ M * t ^ 2 := fun t h0 hd' =>
    step (u := fun t => f1 (b + t) + f1 (b - t) - 2 * f1 b) (u' := fun t => f2 (b + t) + -f2 (b - t)) (B := fun t => M * t ^ 2)
      (B' := fun t => M * (2 * t)) (d := d)
      (fun t h0 hd => ((plus (h2 _ (ip t h0 hd))).add (minus (h2 _ (im t h0 hd)))).sub_const _)
      (fun t _ _ => by simpa using (hasDerivAt_pow 2 t).const_mul M) (by simp only [add_zero, sub_zero]; ring) (by simp)
      (fun t h0 hd => by rw [← sub_eq_add_neg]; exact (l2 t h0 hd).trans (by linarith)) h0 hd'
  have l0 : |f (b + d) - f (b - d) - 2 * f1 b * d| ≤ M / 3 * d ^ 3 :=
    step (u := fun t => f (b + t) - f (b - t) - 2 * f1 b * t) (u' := fun t => f1 (b + t) - -f1 (b - t) - 2 * f1 b * 1)
      (B := fun t => M / 3 * t ^ 3) (B' := fun t => M / 3 * (3 * t ^ 2)) (d := d)
      (fun t h0 hd => ((plus (h1 _ (ip t h0 hd))).sub (minus (h1 _ (im t h0 hd)))).sub ((hasDerivAt_id t).const_mul _))
      (fun t _ _ => by simpa using (hasDerivAt_pow 3 t).const_mul (M / 3)) (by simp) (by simp)
      (fun t h0 hd => by rw [sub_neg_eq_add, mul_one]; exact (l1 t h0 hd).trans (by linarith)) hd.le le_rfl
  have e : (f (b + d) - f (b - d)) / (2 * d) - f1 b = (f (b + d) - f (b - d) - 2 * f1 b * d) / (2 * d) := by
    field_simp
  rw [e, abs_div, abs_of_pos (show 0 < 2 * d by linarith), div_le_iff₀ (by linarith)]
  refine l0.trans (le_of_eq ?_)
  ring

/-! ## The grand potential of a level -/

theorem fd_deriv (b e : ℝ) : HasDerivAt (fun b => fd (b * e)) (-e * (fd (b * e) * (1 - fd (b * e)))) b := by
  have h := exp_pos (b * e)
  have h1 : HasDerivAt (fun b : ℝ => exp (b * e) + 1) (exp (b * e) * (1 * e)) b :=
    (((hasDerivAt_id b).mul_const e).exp).add_const 1
  refine (h1.inv (by linarith)).congr_deriv ?_
  rw [fd]; field_simp; ring

theorem lg_deriv (b e : ℝ) : HasDerivAt (fun b => log (1 + exp (-(b * e)))) (-e * fd (b * e)) b := by
  have hp := exp_pos (-(b * e))
  have h1 : HasDerivAt (fun b : ℝ => exp (-(b * e))) (exp (-(b * e)) * (-(1 * e))) b :=
    (((hasDerivAt_id b).mul_const e).neg).exp
  refine ((h1.const_add 1).log (by linarith)).congr_deriv ?_
  have e1 : fd (b * e) = exp (-(b * e)) / (1 + exp (-(b * e))) := by
    rw [fd, exp_neg]; have := exp_pos (b * e); field_simp
  rw [e1]; ring

/-- `x f(x) + log(1 + e^{-x})`, the entropy of a level, is between 0 and `log 2`. -/
theorem entropy_range (x : ℝ) : 0 ≤ log (1 + exp (-x)) + x * fd x ∧ log (1 + exp (-x)) + x * fd x ≤ log 2 := by
  have e : log (1 + exp (-x)) + x * fd x = binEntropy (fd x) := by
    have h1 : log (1 - fd x) = -log (1 + exp (-x)) := by
      have : 1 - fd x = fd (-x) := by have := fd_add x; linarith
      rw [this, log_fd]
    rw [binEntropy, log_inv, log_inv, h1, log_fd, log_split]; ring
  rw [e]
  exact ⟨binEntropy_nonneg (fd_pos x).le (fd_lt_one x).le, binEntropy_le_log_two⟩

def om1 (e b : ℝ) : ℝ := log (1 + exp (-(b * e))) / b ^ 2 + e * fd (b * e) / b
def om2 (e b : ℝ) : ℝ :=
  -2 * log (1 + exp (-(b * e))) / b ^ 3 - 2 * (e * fd (b * e)) / b ^ 2 - e ^ 2 * (fd (b * e) * (1 - fd (b * e))) / b
def om3 (e b : ℝ) : ℝ :=
  6 * (log (1 + exp (-(b * e))) + b * e * fd (b * e)) / b ^ 4 + 3 * (e ^ 2 * (fd (b * e) * (1 - fd (b * e)))) / b ^ 2
    + e ^ 3 * (fd (b * e) * (1 - fd (b * e)) * (1 - 2 * fd (b * e))) / b

theorem om1_deriv (e : ℝ) {b : ℝ} (hb : b ≠ 0) : HasDerivAt (om1 e) (om2 e b) b := by
  have h := ((lg_deriv b e).div (hasDerivAt_pow 2 b) (pow_ne_zero 2 hb)).add
    (((fd_deriv b e).const_mul e).div (hasDerivAt_id b) hb)
  refine h.congr_deriv ?_
  simp only [om2, id]; field_simp; ring

theorem om2_deriv (e : ℝ) {b : ℝ} (hb : b ≠ 0) : HasDerivAt (om2 e) (om3 e b) b := by
  have h := ((((lg_deriv b e).const_mul (-2)).div (hasDerivAt_pow 3 b) (pow_ne_zero 3 hb)).sub
    ((((fd_deriv b e).const_mul e).const_mul 2).div (hasDerivAt_pow 2 b) (pow_ne_zero 2 hb))).sub
    ((((fd_deriv b e).mul ((fd_deriv b e).const_sub 1)).const_mul (e ^ 2)).div (hasDerivAt_id b) hb)
  refine h.congr_deriv ?_
  simp only [om3, id, Pi.mul_apply]; field_simp; ring

/-- The bound on the third derivative. -/
def third (b e : ℝ) : ℝ := 6 * log 2 / b ^ 4 + 3 * e ^ 2 / (4 * b ^ 2) + |e| ^ 3 / (10 * b)

theorem cubic (f : ℝ) (h0 : 0 ≤ f) (h1 : f ≤ 1) : |f * (1 - f) * (1 - 2 * f)| ≤ 1 / 10 := by
  have key : ∀ u : ℝ, 0 ≤ u → u ≤ 1 → u - u ^ 3 ≤ 2 / 5 := fun u h h' => by
    have := mul_nonneg (sq_nonneg (u - 4 / 7)) (show 0 ≤ u + 8 / 7 by linarith)
    nlinarith
  rw [abs_le]
  rcases le_total 0 (1 - 2 * f) with h | h
  · have k := key (1 - 2 * f) h (by linarith)
    have p : 0 ≤ f * (1 - f) * (1 - 2 * f) := mul_nonneg (mul_nonneg h0 (by linarith)) h
    constructor <;> nlinarith
  · have k := key (2 * f - 1) (by linarith) (by linarith)
    have p : 0 ≤ f * (1 - f) * (2 * f - 1) := mul_nonneg (mul_nonneg h0 (by linarith)) (by linarith)
    constructor <;> nlinarith

theorem third_le {b t : ℝ} (e : ℝ) (hb : 0 < b) (ht : b ≤ t) : |om3 e t| ≤ third b e := by
  have ht0 : 0 < t := hb.trans_le ht
  have hs := entropy_range (t * e)
  have f0 := (fd_pos (t * e)).le
  have f1 := (fd_lt_one (t * e)).le
  have c := cubic _ f0 f1
  have l2 : 0 ≤ log 2 := log_nonneg (by norm_num)
  rw [om3, third]
  generalize fd (t * e) = f at *
  refine (abs_add_le _ _).trans (add_le_add ((abs_add_le _ _).trans (add_le_add ?_ ?_)) ?_)
  · rw [abs_div, abs_of_nonneg (show (0:ℝ) ≤ t ^ 4 by positivity), abs_of_nonneg (by linarith)]
    exact div_le_div₀ (by linarith) (by linarith) (by positivity) (pow_le_pow_left₀ hb.le ht 4)
  · have q : 0 ≤ f * (1 - f) := mul_nonneg f0 (by linarith)
    have q' : f * (1 - f) ≤ 1 / 4 := by nlinarith [sq_nonneg (f - 1 / 2)]
    rw [abs_of_nonneg (by positivity)]
    calc 3 * (e ^ 2 * (f * (1 - f))) / t ^ 2 ≤ 3 * (e ^ 2 * (1 / 4)) / b ^ 2 :=
          div_le_div₀ (by positivity) (by gcongr) (by positivity) (pow_le_pow_left₀ hb.le ht 2)
      _ = 3 * e ^ 2 / (4 * b ^ 2) := by field_simp
  · rw [abs_div, abs_mul, abs_of_pos ht0, abs_pow]
    calc |e| ^ 3 * |f * (1 - f) * (1 - 2 * f)| / t ≤ |e| ^ 3 * (1 / 10) / b :=
          div_le_div₀ (by positivity) (by gcongr) hb ht
      _ = |e| ^ 3 / (10 * b) := by field_simp

/-- Finite differences of the exact grand potential. -/
theorem omega_central {b d : ℝ} (e : ℝ) (hd : 0 < d) (hb : d < b) :
    |(omega (b + d) e - omega (b - d) e) / (2 * d) - om1 e b| ≤ third (b - d) e * d ^ 2 / 6 := by
  have pos : ∀ t, |t - b| ≤ d → b - d ≤ t := fun t h => by linarith [(abs_le.mp h).1]
  have p : 0 < b - d := by linarith
  exact central (f := fun b => omega b e) hd (fun t h => omega_deriv t e (by linarith [pos t h] : (0:ℝ) < t).ne')
    (fun t h => om1_deriv e (by linarith [pos t h] : (0:ℝ) < t).ne')
    (fun t h => om2_deriv e (by linarith [pos t h] : (0:ℝ) < t).ne')
    (fun t h => third_le e p (pos t h))

theorem dgp_eq {beta epsilon mu : ℝ} (hb : beta ≠ 0) (h : |beta * (epsilon - mu)| ≤ 20) :
    dgrand_potential0 beta epsilon mu = om1 (epsilon - mu) beta := by
  obtain ⟨h1, h2⟩ := abs_le.mp h
  have h30 : |beta * (epsilon - mu)| ≤ 30 := by linarith
  rw [dgrand_potential0, if_neg (by norm_num; linarith), if_neg (by norm_num; linarith), fermi_eq_fd h30, vfermi_eq_fd h30,
    log_fd, log_split, om1]
  field_simp; ring

theorem two_lit : (2.0 : ℝ) = 2 := by norm_num

/-- C83: inside the cut-off the finite difference of the tests is within `δ²/6` times a bound on the third derivative of
what `dgrand_potential0` returns, whatever the temperature, the energy, the chemical potential and the step. -/
theorem C83_difference (beta epsilon mu delta : ℝ) (hd : 0 < delta) (hb : delta < beta)
    (h : (beta + delta) * |epsilon - mu| ≤ 20) :
    |dgrand_potential0 beta epsilon mu - fd_grand_potential beta epsilon mu delta| ≤
      (6 * log 2 / (beta - delta) ^ 4 + 3 * (epsilon - mu) ^ 2 / (4 * (beta - delta) ^ 2)
        + |epsilon - mu| ^ 3 / (10 * (beta - delta))) * delta ^ 2 / 6 := by
  have a := abs_nonneg (epsilon - mu)
  rw [fd_grand_potential, C30_grand_potential _ _ _ (by linarith)
      (by rw [abs_mul, abs_of_pos (by linarith)]; exact h),
    C30_grand_potential _ _ _ (by linarith)
      (by rw [abs_mul, abs_of_pos (by linarith)]; nlinarith),
    dgp_eq (by linarith) (by rw [abs_mul, abs_of_pos (by linarith)]; nlinarith), two_lit, abs_sub_comm]
  exact omega_central _ hd hb

/-! ## Beyond the cut-off -/

/-- C83: particle-hole symmetry.  Reflecting the energy about the chemical potential changes the grand potential by
`epsilon - mu` and leaves the derivative with respect to the inverse temperature alone. -/
theorem C83_particle_hole (beta epsilon mu : ℝ) (hb : beta ≠ 0) :
    grand_potential0 beta (2 * mu - epsilon) mu = grand_potential0 beta epsilon mu - (epsilon - mu) ∧
    dgrand_potential0 beta (2 * mu - epsilon) mu = dgrand_potential0 beta epsilon mu := by
  have hx : 2 * mu - epsilon - mu = -(epsilon - mu) := by ring
  have hv : vfermi_function beta (2 * mu - epsilon) mu = fermi_function beta epsilon mu := by
    simp only [vfermi_function, fermi_function, hx, mul_neg, neg_neg]
    generalize beta * (epsilon - mu) = x
    have e := exp_pos x
    by_cases h1 : x < -30.0
    · rw [if_pos (by linarith), if_pos h1]
    · rw [if_neg (by linarith), if_neg h1]
      by_cases h2 : x > 30.0
      · rw [if_pos (by linarith), if_pos h2]
      · rw [if_neg (by linarith), if_neg h2, exp_neg]; norm_num; field_simp; ring
  have hf : fermi_function beta (2 * mu - epsilon) mu = vfermi_function beta epsilon mu := by
    have := C28_complement beta epsilon mu
    have := C28_complement beta (2 * mu - epsilon) mu
    linarith
  by_cases h : |beta * (epsilon - mu)| ≤ 20
  · have h' : |beta * (2 * mu - epsilon - mu)| ≤ 20 := by rw [hx, mul_neg, abs_neg]; exact h
    have hF : fd (beta * -(epsilon - mu)) = 1 - fd (beta * (epsilon - mu)) := by
      rw [mul_neg]; have := fd_add (beta * (epsilon - mu)); linarith
    have hl : log (1 + exp (-(beta * -(epsilon - mu)))) =
        beta * (epsilon - mu) + log (1 + exp (-(beta * (epsilon - mu)))) := by
      rw [mul_neg, neg_neg, log_split]
    rw [C30_grand_potential _ _ _ hb h, C30_grand_potential _ _ _ hb h', dgp_eq hb h, dgp_eq hb h', hx, omega, omega, om1, om1,
      hF, hl]
    constructor <;> field_simp <;> ring
  · rw [not_le, lt_abs] at h
    simp only [grand_potential0, dgrand_potential0, hv, hf, hx, mul_neg, neg_neg]
    have n : ((20.0 : ℝ) = 20) := by norm_num
    rcases h with h | h
    · have c1 : -(beta * (epsilon - mu)) < -20.0 := by rw [n]; linarith
      have c2 : ¬ beta * (epsilon - mu) < -20.0 := by rw [n]; linarith
      have c3 : beta * (epsilon - mu) > 20.0 := by rw [n]; linarith
      simp only [c1, c2, c3, if_true, if_false, and_true]
      ring
    · have c1 : ¬ -(beta * (epsilon - mu)) < -20.0 := by rw [n]; linarith
      have c2 : -(beta * (epsilon - mu)) > 20.0 := by rw [n]; linarith
      have c3 : beta * (epsilon - mu) < -20.0 := by rw [n]; linarith
      simp only [c1, c2, c3, if_true, if_false, and_true]
      ring

def tail1 (e b : ℝ) : ℝ := e * exp (-(b * e)) / b + exp (-(b * e)) / b ^ 2
def tail2 (e b : ℝ) : ℝ := -(exp (-(b * e)) * (e ^ 2 / b + 2 * e / b ^ 2 + 2 / b ^ 3))
def tail3 (e b : ℝ) : ℝ := exp (-(b * e)) * (e ^ 3 / b + 3 * e ^ 2 / b ^ 2 + 6 * e / b ^ 3 + 6 / b ^ 4)

theorem exp_deriv (b e : ℝ) : HasDerivAt (fun b => exp (-(b * e))) (exp (-(b * e)) * (-(1 * e))) b :=
  (((hasDerivAt_id b).mul_const e).neg).exp

theorem tail0_deriv (e : ℝ) {b : ℝ} (hb : b ≠ 0) : HasDerivAt (fun b => -exp (-(b * e)) / b) (tail1 e b) b := by
  refine ((exp_deriv b e).neg.div (hasDerivAt_id b) hb).congr_deriv ?_
  simp only [tail1, id, Pi.neg_apply]; field_simp; ring

theorem tail1_deriv (e : ℝ) {b : ℝ} (hb : b ≠ 0) : HasDerivAt (tail1 e) (tail2 e b) b := by
  refine ((((exp_deriv b e).const_mul e).div (hasDerivAt_id b) hb).add
    ((exp_deriv b e).div (hasDerivAt_pow 2 b) (pow_ne_zero 2 hb))).congr_deriv ?_
  simp only [tail2, id]; field_simp; ring

theorem tail2_deriv (e : ℝ) {b : ℝ} (hb : b ≠ 0) : HasDerivAt (tail2 e) (tail3 e b) b := by
  have d : ∀ (c : ℝ) (n : ℕ), n ≠ 0 → HasDerivAt (fun b : ℝ => c / b ^ n) ((0 * b ^ n - c * (n * b ^ (n - 1))) / (b ^ n) ^ 2) b :=
    fun c n _ => (hasDerivAt_const b c).div (hasDerivAt_pow n b) (pow_ne_zero n hb)
  have h1 : HasDerivAt (fun b : ℝ => e ^ 2 / b) ((0 * b - e ^ 2 * 1) / b ^ 2) b :=
    (hasDerivAt_const b (e ^ 2)).div (hasDerivAt_id b) hb
  refine ((exp_deriv b e).mul ((h1.add (d (2 * e) 2 (by decide))).add (d 2 3 (by decide)))).neg.congr_deriv ?_
  simp only [tail3, Pi.add_apply]; push_cast; field_simp; ring

theorem tail3_le {b t e : ℝ} (he : 0 ≤ e) (hb : 0 < b) (ht : b ≤ t) : |tail3 e t| ≤ tail3 e b := by
  have ht0 : 0 < t := hb.trans_le ht
  rw [abs_of_nonneg (by rw [tail3]; positivity)]
  rw [tail3, tail3]
  gcongr

/-- C83: when both points of the difference are beyond the cut-off, the discrepancy is the one of an exponential plus what
replacing the occupation number by its exponential tail changes. -/
theorem C83_difference_tail (beta epsilon mu delta : ℝ) (hd : 0 < delta) (hb : delta < beta)
    (h : 20 < (beta - delta) * |epsilon - mu|) :
    |dgrand_potential0 beta epsilon mu - fd_grand_potential beta epsilon mu delta| ≤
      exp (-((beta - delta) * |epsilon - mu|)) * (|epsilon - mu| ^ 3 / (beta - delta)
        + 3 * |epsilon - mu| ^ 2 / (beta - delta) ^ 2 + 6 * |epsilon - mu| / (beta - delta) ^ 3 + 6 / (beta - delta) ^ 4)
        * delta ^ 2 / 6
      + |epsilon - mu| / beta * exp (-(beta * |epsilon - mu|)) ^ 2 := by
  -- positive energies first
  have main : ∀ e : ℝ, 20 < (beta - delta) * (e - mu) → 0 ≤ e - mu →
      |dgrand_potential0 beta e mu - fd_grand_potential beta e mu delta| ≤
        tail3 (e - mu) (beta - delta) * delta ^ 2 / 6 + (e - mu) / beta * exp (-(beta * (e - mu))) ^ 2 := by
    intro e h h0
    have g : ∀ b, beta - delta ≤ b → grand_potential0 b e mu = -exp (-(b * (e - mu))) / b := fun b hb' => by
      have : (beta - delta) * (e - mu) ≤ b * (e - mu) := mul_le_mul_of_nonneg_right hb' h0
      rw [grand_potential0, if_neg (by norm_num; linarith), if_pos (by norm_num; linarith)]
    have hx : 20 < beta * (e - mu) := by nlinarith
    have dg : dgrand_potential0 beta e mu = (e - mu) * fermi_function beta e mu / beta + exp (-(beta * (e - mu))) / (beta * beta) := by
      rw [dgrand_potential0, if_neg (by norm_num; linarith), if_pos (by norm_num; linarith)]
    have fm : |fermi_function beta e mu - exp (-(beta * (e - mu)))| ≤ exp (-(beta * (e - mu))) ^ 2 := by
      by_cases h30 : |beta * (e - mu)| ≤ 30
      · rw [fermi_eq_fd h30]
        obtain ⟨b1, b2, -, -⟩ := fd_bounds (beta * (e - mu))
        rw [abs_sub_comm, abs_of_nonneg (by linarith)]; exact b2
      · rw [abs_of_nonneg (by linarith), not_le] at h30
        rw [fermi_function, if_neg (by norm_num; linarith), if_pos (by norm_num; linarith), sub_self, abs_zero]; positivity
    have c := central (f := fun b => -exp (-(b * (e - mu))) / b) (b := beta) hd
      (fun t h => tail0_deriv (e - mu) (by linarith [(abs_le.mp h).1] : (0:ℝ) < t).ne')
      (fun t h => tail1_deriv (e - mu) (by linarith [(abs_le.mp h).1] : (0:ℝ) < t).ne')
      (fun t h => tail2_deriv (e - mu) (by linarith [(abs_le.mp h).1] : (0:ℝ) < t).ne')
      (fun t h => tail3_le h0 (by linarith : 0 < beta - delta) (by linarith [(abs_le.mp h).1]))
    have split : dgrand_potential0 beta e mu - fd_grand_potential beta e mu delta =
        -((-exp (-((beta + delta) * (e - mu))) / (beta + delta) - -exp (-((beta - delta) * (e - mu))) / (beta - delta)) / (2 * delta)
          - tail1 (e - mu) beta) + (e - mu) / beta * (fermi_function beta e mu - exp (-(beta * (e - mu)))) := by
      rw [fd_grand_potential, g _ (by linarith), g _ le_rfl, dg, tail1, two_lit]; ring
    rw [split]
    refine (abs_add_le _ _).trans (add_le_add (by rw [abs_neg]; exact c) ?_)
    rw [abs_mul, abs_of_nonneg (div_nonneg h0 (by linarith))]
    exact mul_le_mul_of_nonneg_left fm (div_nonneg h0 (by linarith))
  rcases le_total 0 (epsilon - mu) with h0 | h0
  · rw [abs_of_nonneg h0] at *
    exact main epsilon h h0
  · rw [abs_of_nonpos h0] at *
    have hx : 2 * mu - epsilon - mu = -(epsilon - mu) := by ring
    have m := main (2 * mu - epsilon) (by rw [hx]; exact h) (by rw [hx]; linarith)
    have p1 := (C83_particle_hole beta epsilon mu (by linarith)).2
    have p2 := (C83_particle_hole (beta + delta) epsilon mu (by linarith)).1
    have p3 := (C83_particle_hole (beta - delta) epsilon mu (by linarith)).1
    rw [p1, fd_grand_potential, p2, p3, hx] at m
    rw [fd_grand_potential]
    refine le_trans (le_of_eq ?_) m
    congr 3; ring

/-- C83: for every input, on whichever side of the cut-offs the three evaluations fall. -/
theorem C83_difference_any (beta epsilon mu delta : ℝ) (hd : 0 < delta) (hb : delta < beta) :
    |dgrand_potential0 beta epsilon mu - fd_grand_potential beta epsilon mu delta| ≤
      third (beta - delta) (epsilon - mu) * delta ^ 2 / 6
      + exp (-2 * ((beta - delta) * |epsilon - mu|)) *
        (1 / beta ^ 2 + |epsilon - mu| / beta + 1 / (delta * (beta - delta))) := by
  have a := abs_nonneg (epsilon - mu)
  have bp : 0 < beta - delta := by linarith
  have c := omega_central (epsilon - mu) hd hb
  obtain ⟨D, hD, eD⟩ := C30_derivative_error beta epsilon mu (by linarith)
  have hD' : D = om1 (epsilon - mu) beta := hD.unique (omega_deriv beta (epsilon - mu) (by linarith))
  have e1 := C30_grand_potential_error (beta + delta) epsilon mu (by linarith)
  have e2 := C30_grand_potential_error (beta - delta) epsilon mu bp
  rw [abs_mul, abs_of_pos (show 0 < beta + delta by linarith)] at e1
  rw [abs_mul, abs_of_pos bp] at e2
  rw [abs_mul, abs_of_pos (show 0 < beta by linarith)] at eD
  have ex : ∀ b, beta - delta ≤ b → exp (-2 * (b * |epsilon - mu|)) ≤ exp (-2 * ((beta - delta) * |epsilon - mu|)) :=
    fun b hb => exp_le_exp.mpr (by nlinarith)
  have E := exp_pos (-2 * ((beta - delta) * |epsilon - mu|))
  have e1' := e1.trans (div_le_div₀ E.le (ex (beta + delta) (by linarith)) bp (by linarith))
  have eD' := eD.trans (mul_le_mul_of_nonneg_right (ex beta (by linarith))
    (add_nonneg (by positivity) (div_nonneg a (by linarith))))
  rw [hD'] at eD'
  rw [fd_grand_potential, two_lit]
  generalize exp (-2 * ((beta - delta) * |epsilon - mu|)) = Q at *
  generalize grand_potential0 (beta + delta) epsilon mu = G1 at *
  generalize grand_potential0 (beta - delta) epsilon mu = G2 at *
  generalize omega (beta + delta) (epsilon - mu) = O1 at *
  generalize omega (beta - delta) (epsilon - mu) = O2 at *
  have s : dgrand_potential0 beta epsilon mu - (G1 - G2) / (2 * delta) =
      (dgrand_potential0 beta epsilon mu - om1 (epsilon - mu) beta) + -((O1 - O2) / (2 * delta) - om1 (epsilon - mu) beta)
        + ((G2 - O2) - (G1 - O1)) / (2 * delta) := by ring
  rw [s]
  have t : |((G2 - O2) - (G1 - O1)) / (2 * delta)| ≤ Q * (1 / (delta * (beta - delta))) := by
    rw [abs_div, abs_of_pos (show 0 < 2 * delta by linarith), div_le_iff₀ (by linarith)]
    refine (abs_sub _ _).trans ((add_le_add e2 e1').trans (le_of_eq ?_))
    field_simp; ring
  refine (abs_add_le _ _).trans ((add_le_add ((abs_add_le _ _).trans (add_le_add eD' ((abs_neg _).trans_le c))) t).trans
    (le_of_eq ?_))
  generalize 1 / (delta * (beta - delta)) = W
  rw [mul_add Q (_ + _) W]
  ring

/-- What a bound on the discrepancy says about the assertion of the tests. -/
theorem passes {out ref K tol : ℝ} (h : |out - ref| ≤ K) (hK : K < tol * (|out| - K)) (ht : 0 < tol) :
    ref ≠ 0 ∧ |out - ref| / |ref| < tol := by
  have k0 := (abs_nonneg _).trans h
  have hr : |out| - K ≤ |ref| := by
    have := abs_sub_abs_le_abs_sub out ref; linarith
  have o : 0 < |out| - K := by
    by_contra c
    have := mul_nonpos_of_nonneg_of_nonpos ht.le (not_lt.mp c)
    linarith
  refine ⟨abs_pos.mp (o.trans_le hr), (div_lt_iff₀ (o.trans_le hr)).mpr ?_⟩
  exact h.trans_lt (hK.trans_le (mul_le_mul_of_nonneg_left hr ht.le))

/-- C83: the assertion of the `test_dgrand_potential` tests holds for every input inside the cut-off for which the
tolerance exceeds the relative size of the bound. -/
theorem C83_test (beta e mu delta tol : ℝ) (hd : 0 < delta) (hb : delta < beta) (h : (beta + delta) * |e - mu| ≤ 20)
    (ht : 0 < tol) (hK : third (beta - delta) (e - mu) * delta ^ 2 / 6 <
      tol * (|dgrand_potential0 beta e mu| - third (beta - delta) (e - mu) * delta ^ 2 / 6)) :
    test_dgrand_potential beta e mu delta tol :=
  passes (C83_difference beta e mu delta hd hb h) hK ht

/-- C83: the same beyond the cut-off, where the exponential cancels: the bound is on the step alone. -/
theorem C83_test_tail (beta e mu delta tol : ℝ) (hd : 0 < delta) (hb : delta < beta) (h : 20 < (beta - delta) * |e - mu|)
    (ht : 0 < tol) (hK : tail3 |e - mu| (beta - delta) * delta ^ 2 / 6 + |e - mu| / beta * exp (-(beta * |e - mu|)) ^ 2 <
      tol * (|dgrand_potential0 beta e mu| -
        (tail3 |e - mu| (beta - delta) * delta ^ 2 / 6 + |e - mu| / beta * exp (-(beta * |e - mu|)) ^ 2))) :
    test_dgrand_potential beta e mu delta tol :=
  passes (C83_difference_tail beta e mu delta hd hb h) hK ht

/-- The value tested is the entropy over the square of the inverse temperature, hence positive. -/
theorem dgp_pos {beta epsilon mu : ℝ} (hb : 0 < beta) (h : |beta * (epsilon - mu)| ≤ 20) :
    dgrand_potential0 beta epsilon mu =
      (log (1 + exp (-(beta * (epsilon - mu)))) + beta * (epsilon - mu) * fd (beta * (epsilon - mu))) / beta ^ 2 := by
  rw [dgp_eq hb.ne' h, om1]; field_simp

/-! ## Square roots of occupation numbers -/

def root1 (e b : ℝ) : ℝ := -(1 / 2) * e * (1 - fd (b * e)) * √(fd (b * e))
def root2 (e b : ℝ) : ℝ := 1 / 4 * e ^ 2 * ((1 - fd (b * e)) * (1 - 3 * fd (b * e))) * √(fd (b * e))
def root3 (e b : ℝ) : ℝ :=
  1 / 8 * e ^ 3 * ((1 - fd (b * e)) * (-1 + 12 * fd (b * e) - 15 * fd (b * e) ^ 2)) * √(fd (b * e))

theorem root0_deriv (e b : ℝ) : HasDerivAt (fun b => √(fd (b * e))) (root1 e b) b := by
  refine ((fd_deriv b e).sqrt (fd_pos _).ne').congr_deriv ?_
  have p := fd_pos (b * e)
  have q := Real.sqrt_pos.mpr p
  have s := Real.sq_sqrt p.le
  rw [root1, div_eq_iff (by positivity)]
  generalize √(fd (b * e)) = r at *
  rw [← s]; ring

theorem root1_deriv (e b : ℝ) : HasDerivAt (root1 e) (root2 e b) b := by
  refine ((((fd_deriv b e).const_sub 1).const_mul (-(1 / 2) * e)).mul (root0_deriv e b)).congr_deriv ?_
  simp only [root1, root2]; ring

theorem root2_deriv (e b : ℝ) : HasDerivAt (root2 e) (root3 e b) b := by
  refine (((((fd_deriv b e).const_sub 1).mul (((fd_deriv b e).const_mul 3).const_sub 1)).const_mul (1 / 4 * e ^ 2)).mul
    (root0_deriv e b)).congr_deriv ?_
  simp only [root1, root3, Pi.mul_apply]; ring

theorem root3_le (e b : ℝ) : |root3 e b| ≤ |e| ^ 3 / 8 := by
  have f0 := (fd_pos (b * e)).le
  have f1 := (fd_lt_one (b * e)).le
  have r1 : √(fd (b * e)) ≤ 1 := Real.sqrt_le_one.mpr f1
  have r0 := Real.sqrt_nonneg (fd (b * e))
  rw [root3, abs_mul, abs_mul, abs_mul, abs_of_nonneg r0, abs_pow, abs_of_pos (show (0 : ℝ) < 1 / 8 by norm_num)]
  generalize fd (b * e) = f at *
  have c : |(1 - f) * (-1 + 12 * f - 15 * f ^ 2)| ≤ 1 := by
    rw [abs_le]
    have k1 := mul_nonneg (sq_nonneg (f - 1 / 3)) (show 0 ≤ 17 - 15 * f by linarith)
    have k2 := mul_nonneg f0 (show 0 ≤ 13 - 27 * f + 15 * f ^ 2 by nlinarith [sq_nonneg (f - 9 / 10)])
    constructor <;> nlinarith
  have a := pow_nonneg (abs_nonneg e) 3
  calc 1 / 8 * |e| ^ 3 * |(1 - f) * (-1 + 12 * f - 15 * f ^ 2)| * √f ≤ 1 / 8 * |e| ^ 3 * 1 * 1 := by gcongr
    _ = |e| ^ 3 / 8 := by ring

/-- C83: `test_dfermi` holds, in exact arithmetic, for every temperature (also negative), energy and chemical potential
inside the cut-off of the occupation numbers, as soon as the tolerance exceeds `δ² |ε - μ|³ / 48`. -/
theorem C83_test_dfermi (beta e mu delta tol : ℝ) (hd : 0 < delta) (h1 : |(beta + delta) * (e - mu)| ≤ 30)
    (h2 : |(beta - delta) * (e - mu)| ≤ 30) (ht : |e - mu| ^ 3 * delta ^ 2 / 48 < tol) :
    test_dfermi beta e mu delta tol := by
  have h0 : |beta * (e - mu)| ≤ 30 := by
    rw [abs_le] at *
    constructor <;> nlinarith
  have C : ∀ x : ℝ, |(√(fd ((beta + delta) * x)) - √(fd ((beta - delta) * x))) / (2 * delta) - root1 x beta| ≤
      |x| ^ 3 / 8 * delta ^ 2 / 6 := fun x =>
    central (f := fun b => √(fd (b * x))) hd (fun t _ => root0_deriv x t) (fun t _ => root1_deriv x t)
      (fun t _ => root2_deriv x t) (fun t _ => root3_le x t)
  have v : ∀ b : ℝ, 1 - fd (b * (e - mu)) = fd (b * -(e - mu)) := fun b => by
    rw [mul_neg]; have := fd_add (b * (e - mu)); linarith
  simp only [test_dfermi]
  rw [fermi_eq_fd h0, fermi_eq_fd h1, fermi_eq_fd h2, vfermi_eq_fd h0, vfermi_eq_fd h1, vfermi_eq_fd h2, v (beta + delta),
    v (beta - delta), two_lit]
  constructor
  · have c := C (e - mu)
    rw [abs_sub_comm, root1] at c
    refine lt_of_le_of_lt (le_trans (le_of_eq ?_) c) (by linarith)
    congr 2; norm_num
  · have c := C (-(e - mu))
    rw [abs_sub_comm, root1, ← v beta, abs_neg] at c
    refine lt_of_le_of_lt (le_trans (le_of_eq ?_) c) (by linarith)
    congr 2; norm_num; ring

/-! ## Arrays -/

/-- C83: `test_dGP0` holds for an array when every element passes the scalar test and the array is not empty. -/
theorem C83_test_dGP0 (beta : ℝ) (e : Vec) (mu delta tol : ℝ) (hn : 0 < e.len)
    (h : ∀ i < e.len, test_dgrand_potential beta (e.val i) mu delta tol) : test_dGP0 beta e mu delta tol := by
  obtain ⟨l1, -, v1, -, -⟩ := C30_vectors (beta + delta) mu e e
  obtain ⟨-, -, v2, -, -⟩ := C30_vectors (beta - delta) mu e e
  obtain ⟨-, l3, -, v3, -⟩ := C30_vectors beta mu e e
  simp only [test_dGP0, l1, l3, norm]
  have t0 : 0 < tol := by
    obtain ⟨_, b⟩ := h 0 hn
    exact (div_nonneg (abs_nonneg _) (abs_nonneg _)).trans_lt b
  have s1 : ∑ i ∈ Finset.range e.len, (((GP0 (beta + delta) e mu).val i - (GP0 (beta - delta) e mu).val i) / (2.0 * delta)) ^ 2 =
      ∑ i ∈ Finset.range e.len, fd_grand_potential beta (e.val i) mu delta ^ 2 :=
    Finset.sum_congr rfl fun i hi => by rw [v1 i (Finset.mem_range.mp hi), v2 i (Finset.mem_range.mp hi)]; rfl
  have s2 : ∑ i ∈ Finset.range e.len, ((dGP0 beta e mu).val i -
        ((GP0 (beta + delta) e mu).val i - (GP0 (beta - delta) e mu).val i) / (2.0 * delta)) ^ 2 =
      ∑ i ∈ Finset.range e.len, (dgrand_potential0 beta (e.val i) mu - fd_grand_potential beta (e.val i) mu delta) ^ 2 :=
    Finset.sum_congr rfl fun i hi => by
      rw [v1 i (Finset.mem_range.mp hi), v2 i (Finset.mem_range.mp hi), v3 i (Finset.mem_range.mp hi)]; rfl
  rw [s1, s2]
  have ne : (Finset.range e.len).Nonempty := ⟨0, Finset.mem_range.mpr hn⟩
  have p : 0 < ∑ i ∈ Finset.range e.len, fd_grand_potential beta (e.val i) mu delta ^ 2 :=
    Finset.sum_pos (fun i hi => by have := (h i (Finset.mem_range.mp hi)).1; positivity) ne
  have sp := Real.sqrt_pos.mpr p
  refine ⟨sp.ne', (div_lt_iff₀ sp).mpr ?_⟩
  rw [← Real.sqrt_sq t0.le, ← Real.sqrt_mul (sq_nonneg tol), Finset.mul_sum]
  refine Real.sqrt_lt_sqrt (Finset.sum_nonneg fun _ _ => sq_nonneg _) (Finset.sum_lt_sum_of_nonempty ne fun i hi => ?_)
  obtain ⟨a, b⟩ := h i (Finset.mem_range.mp hi)
  have b' := (div_lt_iff₀ (abs_pos.mpr a)).mp b
  rw [← mul_pow, ← sq_abs (_ - _), ← sq_abs (tol * _), abs_mul, abs_of_pos t0]
  exact pow_lt_pow_left₀ b' (abs_nonneg _) (by decide)

/-! ## The literals of the tests -/

theorem fd_one : (1 / 4 : ℝ) < fd 1 := by
  rw [fd, ← one_div]
  have := exp_one_lt_d9
  exact one_div_lt_one_div_of_lt (by have := exp_pos 1; linarith) (by linarith)

/-- the literals of the test inside the cut-off: `β = 3`, `|ε - μ| = 0.3` -/
theorem three {e mu : ℝ} (x : |e - mu| = 3 / 10) : test_dgrand_potential 3 e mu 1e-4 1e-8 := by
  have l2 := log_two_lt_d9
  have l0 : 0 < log 2 := log_pos (by norm_num)
  refine C83_test 3 e mu 1e-4 1e-8 (by norm_num) (by norm_num) (by rw [x]; norm_num) (by norm_num) ?_
  have K : third (3 - 1e-4) (e - mu) * 1e-4 ^ 2 / 6 ≤ 2e-10 := by
    rw [third, ← sq_abs (e - mu), x]
    norm_num at l2 ⊢
    linarith
  have main : ∀ e', e' - mu = 3 / 10 → 1 / 45 ≤ dgrand_potential0 3 e' mu := fun e' x => by
    rw [dgp_pos (by norm_num) (by rw [x]; norm_num [abs_of_pos]), x]
    have f := fd_one
    have m : fd 1 ≤ fd (3 * (3 / 10)) := fd_anti (by norm_num)
    have l : 0 ≤ log (1 + exp (-(3 * (3 / 10)))) := log_nonneg (by have := exp_pos (-(3 * (3 / 10 : ℝ))); linarith)
    norm_num at *
    linarith
  have D : 1 / 45 ≤ dgrand_potential0 3 e mu := by
    rcases abs_eq (by norm_num) |>.mp x with h | h
    · exact main e h
    · rw [← (C83_particle_hole 3 e mu (by norm_num)).2]; exact main _ (by linarith)
  rw [abs_of_pos (by linarith)]
  norm_num at *
  linarith

/-- tests/test_ft_utils.py:112-119 as it stands, and `test_dGP0` for an array of two energies -/
example : test_dgrand_potential 3 1 0.7 1e-4 1e-8 ∧ test_dGP0 3 ⟨2, fun i => if i = 0 then 1 else 0.4⟩ 0.7 1e-4 1e-8 :=
  ⟨three (by norm_num [abs_of_pos]), C83_test_dGP0 _ _ _ _ _ (by norm_num) fun i _ => three (by
    by_cases h : i = 0 <;> simp only [h, if_true, if_false] <;> norm_num [abs_of_pos, abs_of_neg])⟩

/-- the literals of the tests beyond the cut-off: `β = 3`, `|ε - μ| = 7` -/
theorem seven {e mu delta : ℝ} (he : |e - mu| = 7) (hd : 0 < delta) (hd' : delta ≤ 6e-4) (tol : ℝ) (ht : 15 * delta ^ 2 + 1e-7 ≤ tol) :
    test_dgrand_potential 3 e mu delta tol := by
  norm_num at hd'
  have E := exp_pos (-21)
  have hE : exp (-21) ≤ 1e-8 := by
    have h1 : exp (-21) = (exp 1)⁻¹ ^ 21 := by rw [← exp_neg, ← exp_nat_mul]; norm_num
    have h2 : (exp 1)⁻¹ ≤ (2.7 : ℝ)⁻¹ := inv_anti₀ (by norm_num) (by have := exp_one_gt_d9; norm_num at *; linarith)
    rw [h1]
    exact (pow_le_pow_left₀ (by positivity) h2 21).trans (by norm_num)
  have main : ∀ e' : ℝ, e' - mu = 7 → dgrand_potential0 3 e' mu = 7 / 3 * fd 21 + exp (-21) / 9 := fun e' h => by
    rw [dgrand_potential0, fermi_eq_fd (by rw [h]; norm_num [abs_of_pos]), h, if_neg (by norm_num), if_pos (by norm_num)]
    norm_num; ring
  have D : dgrand_potential0 3 e mu = 7 / 3 * fd 21 + exp (-21) / 9 := by
    rcases abs_eq (by norm_num) |>.mp he with h | h
    · exact main e h
    · rw [← (C83_particle_hole 3 e mu (by norm_num)).2]; exact main _ (by linarith)
  have f1 := (fd_bounds 21).2.1
  have f2 := fd_pos 21
  have X : exp (-((3 - delta) * 7)) ≤ 1.01 * exp (-21) := by
    have : exp (-((3 - delta) * 7)) = exp (-21) * exp (7 * delta) := by rw [← exp_add]; congr 1; ring
    have y : exp (7 * delta) ≤ 1.01 := by
      have := exp_bound' (x := 7 * delta) (by linarith) (by linarith) (n := 2) (by norm_num)
      simp [Finset.sum_range_succ, Nat.factorial] at this
      norm_num at *
      nlinarith
    rw [this, mul_comm]
    exact mul_le_mul_of_nonneg_right y E.le
  have T : tail3 7 (3 - delta) ≤ 150 * exp (-21) := by
    rw [tail3]
    have b : (2.9 : ℝ) ≤ 3 - delta := by norm_num; linarith
    have p : (7 : ℝ) ^ 3 / (3 - delta) + 3 * 7 ^ 2 / (3 - delta) ^ 2 + 6 * 7 / (3 - delta) ^ 3 + 6 / (3 - delta) ^ 4 ≤
        7 ^ 3 / 2.9 + 3 * 7 ^ 2 / 2.9 ^ 2 + 6 * 7 / 2.9 ^ 3 + 6 / 2.9 ^ 4 := by gcongr
    have z : 0 < 3 - delta := by linarith
    have q : 0 ≤ (7 : ℝ) ^ 3 / (3 - delta) + 3 * 7 ^ 2 / (3 - delta) ^ 2 + 6 * 7 / (3 - delta) ^ 3 + 6 / (3 - delta) ^ 4 := by
      positivity
    refine (mul_le_mul X p q (by positivity)).trans ?_
    norm_num
    linarith
  refine C83_test_tail 3 e mu delta tol hd (by linarith) (by rw [he]; linarith) (by nlinarith) ?_
  have n : (3 : ℝ) * 7 = 21 := by norm_num
  rw [he, n, D, abs_of_pos (by positivity)]
  generalize exp (-21) = Q at *
  have qq : Q ^ 2 ≤ 1e-8 * Q := by nlinarith
  have K : tail3 7 (3 - delta) * delta ^ 2 / 6 + 7 / 3 * Q ^ 2 ≤ (25 * delta ^ 2 + 3e-8) * Q := by
    have := mul_le_mul_of_nonneg_right T (sq_nonneg delta)
    norm_num at qq ⊢
    nlinarith
  have L : 2.4 * Q ≤ 7 / 3 * fd 21 + Q / 9 := by norm_num at qq ⊢; nlinarith
  have d2 : delta ^ 2 ≤ 1e-6 := by norm_num; nlinarith
  have t0 : 0 < tol := by nlinarith
  have c : (25 * delta ^ 2 + 3e-8) * Q ≤ 1e-4 * Q := by norm_num at d2 ⊢; nlinarith
  have m : tol * (2.3 * Q) ≤ tol * (7 / 3 * fd 21 + Q / 9 - (tail3 7 (3 - delta) * delta ^ 2 / 6 + 7 / 3 * Q ^ 2)) :=
    mul_le_mul_of_nonneg_left (by norm_num at *; linarith) t0.le
  refine (K.trans_lt ?_).trans_le m
  norm_num at *
  nlinarith

/-- tests/test_ft_utils.py:121-128 and 130-137 as they stand -/
example : test_dgrand_potential 3 1 (-6) 1e-4 1e-6 ∧ test_dgrand_potential 3 (-6) 1 6e-4 1e-3 :=
  ⟨seven (by norm_num [abs_of_pos]) (by norm_num) (by norm_num) _ (by norm_num),
    seven (by norm_num [abs_of_neg]) (by norm_num) (by norm_num) _ (by norm_num)⟩

/-- tests/test_ft_utils.py:75-94 as it stands -/
example : test_dfermi 2 1 0.7 1e-4 1e-8 :=
  C83_test_dfermi 2 1 0.7 1e-4 1e-8 (by norm_num) (by norm_num [abs_of_pos]) (by norm_num [abs_of_pos])
    (by norm_num [abs_of_pos])

end Ft.Tests
end
