import Verif.Model.FtRound
import Verif.Props.Ft
import Mathlib.Analysis.Calculus.MeanValue
import Mathlib.Algebra.Order.Round
import Mathlib.Analysis.Complex.ExponentialBounds
/-!
# C70: rounding in the finite-temperature helpers
-/
noncomputable section
namespace Ft
open Real

/-- Rounded arithmetic with unit roundoff `u` and underflow threshold `η`: rounding is monotone, keeps 0 and 1, and errs by at most `u |x| + η`;
the exponential has values that need no rounding, is nonnegative, at most one for arguments at most zero, and errs by at most `u e^x + η`;
the logarithm errs by at most `u |log y| + η`. -/
structure Arith.Faithful (A : Arith) (u η : ℝ) : Prop where
  u0 : 0 ≤ u
  η0 : 0 ≤ η
  mono : Monotone A.rd
  zero : A.rd 0 = 0
  one : A.rd 1 = 1
  err : ∀ x, |A.rd x - x| ≤ u * |x| + η
  exp_rd : ∀ x, A.rd (A.exp x) = A.exp x
  exp_nonneg : ∀ x, 0 ≤ A.exp x
  exp_le_one : ∀ x ≤ 0, A.exp x ≤ 1
  exp_err : ∀ x, |A.exp x - Real.exp x| ≤ u * Real.exp x + η
  log_err : ∀ y > 0, |A.log y - Real.log y| ≤ u * |Real.log y| + η

variable {A : Arith} {u η : ℝ}

theorem Arith.Faithful.err_pos (h : A.Faithful u η) {y : ℝ} (hy : 0 ≤ y) : |A.rd y - y| ≤ u * y + η := by
  have := h.err y
  rwa [abs_of_nonneg hy] at this

/-- The model without rounding is that of C28 to C30. -/
theorem real_eq (beta epsilon mu : ℝ) : Arith.real.fermi_function beta epsilon mu = fermi_function beta epsilon mu ∧
    Arith.real.vfermi_function beta epsilon mu = vfermi_function beta epsilon mu ∧
    Arith.real.grand_potential0 beta epsilon mu = grand_potential0 beta epsilon mu ∧
    Arith.real.dgrand_potential0 beta epsilon mu = dgrand_potential0 beta epsilon mu := ⟨rfl, rfl, rfl, rfl⟩

/-- C70: rounded occupation numbers lie between 0 and 1, without any tolerance. -/
theorem C70_range (h : A.Faithful u η) (beta epsilon mu : ℝ) :
    (0 ≤ A.fermi_function beta epsilon mu ∧ A.fermi_function beta epsilon mu ≤ 1) ∧
      0 ≤ A.vfermi_function beta epsilon mu ∧ A.vfermi_function beta epsilon mu ≤ 1 := by
  have c1 : (1.0 : ℝ) = 1 := by norm_num
  have c30 : (30.0 : ℝ) = 30 := by norm_num
  simp only [Arith.fermi_function, Arith.vfermi_function, c1, c30]
  generalize A.rd (beta * A.rd (epsilon - mu)) = x
  have rd_nonneg : ∀ y, 0 ≤ y → 0 ≤ A.rd y := fun y hy => h.zero ▸ h.mono hy
  have rd_le : ∀ y, y ≤ 1 → A.rd y ≤ 1 := fun y hy => h.one ▸ h.mono hy
  have e0 := h.exp_nonneg x
  have s1 : 1 ≤ A.rd (A.exp x + 1) := by
    have := h.mono (show (1 : ℝ) ≤ A.exp x + 1 by linarith)
    rwa [h.one] at this
  have s2 : A.exp x ≤ A.rd (A.exp x + 1) := by
    have := h.mono (show A.exp x ≤ A.exp x + 1 by linarith)
    rwa [h.exp_rd] at this
  constructor
  · split_ifs with h1 h2
    · have := h.exp_le_one x (by linarith)
      exact ⟨rd_nonneg _ (by linarith), rd_le _ (by linarith)⟩
    · exact ⟨h.exp_nonneg _, h.exp_le_one _ (by linarith)⟩
    · exact ⟨rd_nonneg _ (by positivity), rd_le _ ((div_le_one (by linarith)).2 s1)⟩
  · split_ifs with h1 h2
    · have := h.exp_le_one (-x) (by linarith)
      have := h.exp_nonneg (-x)
      exact ⟨rd_nonneg _ (by linarith), rd_le _ (by linarith)⟩
    · exact ⟨e0, h.exp_le_one _ (by linarith)⟩
    · exact ⟨rd_nonneg _ (by positivity), rd_le _ ((div_le_one (by linarith)).2 s2)⟩

/-- C70: the exponential is only taken of arguments up to 30, so it cannot overflow: arithmetics which agree there give the same results. -/
theorem C70_exp_arguments (A B : Arith) (hr : A.rd = B.rd) (hl : A.log = B.log) (he : ∀ x ≤ 30, A.exp x = B.exp x) (beta epsilon mu : ℝ) :
    A.fermi_function beta epsilon mu = B.fermi_function beta epsilon mu ∧ A.vfermi_function beta epsilon mu = B.vfermi_function beta epsilon mu ∧
      A.grand_potential0 beta epsilon mu = B.grand_potential0 beta epsilon mu ∧
      A.dgrand_potential0 beta epsilon mu = B.dgrand_potential0 beta epsilon mu := by
  have c20 : (20.0 : ℝ) = 20 := by norm_num
  have c30 : (30.0 : ℝ) = 30 := by norm_num
  have f : A.fermi_function beta epsilon mu = B.fermi_function beta epsilon mu := by
    simp only [Arith.fermi_function, hr, c30]
    generalize B.rd (beta * B.rd (epsilon - mu)) = x
    split_ifs with h1 h2
    · rw [he x (by linarith)]
    · rw [he (-x) (by linarith)]
    · rw [he x (by linarith)]
  have v : A.vfermi_function beta epsilon mu = B.vfermi_function beta epsilon mu := by
    simp only [Arith.vfermi_function, hr, c30]
    generalize B.rd (beta * B.rd (epsilon - mu)) = x
    split_ifs with h1 h2
    · rw [he (-x) (by linarith)]
    · rw [he x (by linarith)]
    · rw [he x (by linarith)]
  refine ⟨f, v, ?_, ?_⟩
  · simp only [Arith.grand_potential0, f, hl, hr, c20]
    generalize B.rd (beta * B.rd (epsilon - mu)) = x
    split_ifs with h1 h2
    · rw [he x (by linarith)]
    · rw [he (-x) (by linarith)]
    · rfl
  · simp only [Arith.dgrand_potential0, f, v, hl, hr, c20]
    generalize B.rd (beta * B.rd (epsilon - mu)) = x
    split_ifs with h1 h2
    · rw [he x (by linarith)]
    · rw [he (-x) (by linarith)]
    · rfl

/-! ### error bounds -/

theorem x_err (h : A.Faithful u η) (hu : u ≤ 1 / 100) (beta epsilon mu : ℝ) :
    |A.rd (beta * A.rd (epsilon - mu)) - beta * (epsilon - mu)| ≤ 3 * u * |beta * (epsilon - mu)| + η * (1 + 2 * |beta|) := by
  have u0 := h.u0
  have η0 := h.η0
  set d := epsilon - mu
  have h1 := h.err d
  have h2 := h.err (beta * A.rd d)
  have h3 : |beta * A.rd d - beta * d| ≤ u * |beta * d| + η * |beta| := by
    rw [← mul_sub, abs_mul, abs_mul]
    have := mul_le_mul_of_nonneg_left h1 (abs_nonneg beta)
    nlinarith
  have h4 : |beta * A.rd d| ≤ |beta * d| + (u * |beta * d| + η * |beta|) := by
    have := abs_sub_abs_le_abs_sub (beta * A.rd d) (beta * d)
    linarith
  have h5 : |A.rd (beta * A.rd d) - beta * d| ≤ |A.rd (beta * A.rd d) - beta * A.rd d| + |beta * A.rd d - beta * d| := abs_sub_le _ _ _
  have h6 : u * |beta * A.rd d| ≤ u * (|beta * d| + (u * |beta * d| + η * |beta|)) := mul_le_mul_of_nonneg_left h4 u0
  have p1 : u * (u * |beta * d|) ≤ 1 / 100 * (u * |beta * d|) := mul_le_mul_of_nonneg_right hu (by positivity)
  have p2 : u * (η * |beta|) ≤ 1 / 100 * (η * |beta|) := mul_le_mul_of_nonneg_right hu (by positivity)
  have p3 : 0 ≤ u * |beta * d| := by positivity
  have p4 : 0 ≤ η * |beta| := by positivity
  nlinarith

theorem exp_two (t : ℝ) (ht : 0 ≤ t) : t * exp (-t) ≤ 1 / 2 := by
  have h1 := add_one_le_exp (t / 2)
  have h2 : exp t = exp (t / 2) * exp (t / 2) := by rw [← exp_add]; congr 1; ring
  have h3 : 2 * t ≤ exp t := by rw [h2]; nlinarith [sq_nonneg (t / 2 - 1)]
  rw [exp_neg, ← div_eq_mul_inv, div_le_iff₀ (exp_pos t)]
  linarith

theorem fd_hasDerivAt (x : ℝ) : HasDerivAt fd (-(exp x * fd x ^ 2)) x := by
  have h : exp x + 1 ≠ 0 := by positivity
  have h1 : HasDerivAt fd (-exp x / (exp x + 1) ^ 2) x := ((hasDerivAt_exp x).add_const 1).inv h
  refine h1.congr_deriv ?_
  rw [fd]; field_simp

/-- `|f(y) - f(x)| ≤ κ + 2 ζ` for `y` off by `κ |x| + ζ`, when the derivative of `f` is at most `e^{-|x|}`. -/
theorem lip_weighted {f f' : ℝ → ℝ} (hf : ∀ x, HasDerivAt f (f' x) x) (hb : ∀ x, |f' x| ≤ exp (-|x|)) {x y κ ζ : ℝ} (hκ0 : 0 ≤ κ) (hκ : κ ≤ 1 / 2) (hζ : 0 ≤ ζ)
    (h : |y - x| ≤ κ * |x| + ζ) : |f y - f x| ≤ κ + 2 * ζ := by
  obtain ⟨ξ, hξ, e⟩ : ∃ ξ, |ξ - x| ≤ |y - x| ∧ f y - f x = f' ξ * (y - x) := by
    rcases lt_trichotomy x y with hl | rfl | hl
    · obtain ⟨c, hc, e⟩ := exists_hasDerivAt_eq_slope f f' hl (fun z _ => (hf z).continuousAt.continuousWithinAt) fun z _ => hf z
      refine ⟨c, ?_, ?_⟩
      · rw [abs_of_pos (by linarith [hc.1]), abs_of_pos (by linarith)]; linarith [hc.2]
      · rw [e]; field_simp [show y - x ≠ 0 by linarith]
    · exact ⟨x, by simp, by simp⟩
    · obtain ⟨c, hc, e⟩ := exists_hasDerivAt_eq_slope f f' hl (fun z _ => (hf z).continuousAt.continuousWithinAt) fun z _ => hf z
      refine ⟨c, ?_, ?_⟩
      · rw [abs_of_neg (by linarith [hc.2]), abs_of_neg (by linarith)]; linarith [hc.1]
      · rw [e]
        have : x - y ≠ 0 := by linarith
        field_simp
        ring
  rw [e, abs_mul]
  have b := hb ξ
  have k1 : |x| ≤ |ξ| + |y - x| := by
    have := abs_sub_abs_le_abs_sub x ξ
    rw [abs_sub_comm] at this
    linarith
  have k2 : |x| ≤ 2 * (|ξ| + ζ) := by nlinarith [abs_nonneg x]
  have k3 := exp_two |ξ| (abs_nonneg _)
  have k4 : exp (-|ξ|) ≤ 1 := exp_le_one_iff.2 (by simp)
  have k5 := exp_pos (-|ξ|)
  calc |f' ξ| * |y - x| ≤ exp (-|ξ|) * (κ * (2 * (|ξ| + ζ)) + ζ) := by
        refine mul_le_mul b (h.trans ?_) (abs_nonneg _) k5.le
        have := mul_le_mul_of_nonneg_left k2 hκ0
        linarith
    _ = 2 * κ * (|ξ| * exp (-|ξ|)) + (2 * κ * ζ + ζ) * exp (-|ξ|) := by ring
    _ ≤ 2 * κ * (1 / 2) + (2 * κ * ζ + ζ) * 1 := by
        refine add_le_add (mul_le_mul_of_nonneg_left k3 (by positivity)) (mul_le_mul_of_nonneg_left k4 (by positivity))
    _ ≤ κ + 2 * ζ := by nlinarith

theorem fd_slope (x : ℝ) : |-(exp x * fd x ^ 2)| ≤ exp (-|x|) := by
  have h := exp_pos x
  have h1 := fd_pos x
  have h2 := fd_lt_one x
  have h3 : exp x * fd x = fd (-x) := (fd_neg x).symm
  rw [abs_neg, abs_of_pos (by positivity), show exp x * fd x ^ 2 = (exp x * fd x) * fd x by ring, h3]
  have h4 := fd_pos (-x)
  have h5 := fd_lt_one (-x)
  rcases abs_cases x with ⟨e, -⟩ | ⟨e, -⟩ <;> rw [e]
  · have := (fd_bounds x).1
    nlinarith
  · have := (fd_bounds (-x)).1
    nlinarith

/-- the middle branch of `fermi_function` -/
theorem mid_f (h : A.Faithful u η) (hu : u ≤ 1 / 100) (hη : η ≤ 1 / 100) (x : ℝ) :
    |A.rd (1 / A.rd (A.exp x + 1)) - fd x| ≤ fd x * (6 * u + 4 * η) + η ∧ |A.rd (A.exp x + 1) - (exp x + 1)| ≤ (exp x + 1) * (3 * u + 3 * η) := by
  have u0 := h.u0
  have η0 := h.η0
  have E := exp_pos x
  set S := exp x + 1 with hS
  have hS1 : 1 ≤ S := by linarith
  have e1 := h.exp_err x
  have n := h.exp_nonneg x
  have s1 := h.err_pos (show 0 ≤ A.exp x + 1 by linarith)
  set s := A.rd (A.exp x + 1)
  have ê := abs_le.1 e1
  have ŝ := abs_le.1 s1
  have b1 : A.exp x + 1 ≤ S + u * S + η * S := by nlinarith
  have b2 : u * (A.exp x + 1) ≤ u * (S + u * S + η * S) := mul_le_mul_of_nonneg_left b1 u0
  have b3 : u * (u * S) ≤ 1 / 100 * (u * S) := mul_le_mul_of_nonneg_right hu (by positivity)
  have b4 : u * (η * S) ≤ 1 / 100 * (η * S) := mul_le_mul_of_nonneg_right hu (by positivity)
  have b5 : η ≤ η * S := by nlinarith
  have b6 : u * exp x ≤ u * S := mul_le_mul_of_nonneg_left (by linarith) u0
  have b7 : 0 ≤ u * S := by positivity
  have θ : |s - S| ≤ S * (3 * u + 3 * η) := by
    have := abs_sub_le s (A.exp x + 1) S
    have e' : |A.exp x + 1 - S| = |A.exp x - exp x| := by rw [hS]; congr 1; ring
    rw [e'] at this
    nlinarith
  have θ' := abs_le.1 θ
  have sp : S * (94 / 100) ≤ s := by nlinarith
  have sp0 : 0 < s := by nlinarith
  have fdS : fd x = 1 / S := by rw [fd, one_div]
  refine ⟨?_, θ⟩
  have i1 : 1 / s ≤ 1 / S * (100 / 94) := by
    rw [div_mul_div_comm, div_le_div_iff₀ sp0 (by positivity)]; nlinarith
  have d1 : |1 / s - 1 / S| ≤ 1 / S * (100 / 94 * (3 * u + 3 * η)) := by
    have : 1 / s - 1 / S = (S - s) * (1 / s) * (1 / S) := by field_simp
    rw [this, abs_mul, abs_mul, abs_of_pos (show 0 < 1 / s by positivity), abs_of_pos (show 0 < 1 / S by positivity), abs_sub_comm]
    calc |s - S| * (1 / s) * (1 / S) ≤ S * (3 * u + 3 * η) * (1 / S * (100 / 94)) * (1 / S) := by gcongr
      _ = _ := by field_simp
  have r1 := h.err (1 / s)
  rw [abs_of_pos (show 0 < 1 / s by positivity)] at r1
  have r2 : u * (1 / s) ≤ u * (1 / S * (100 / 94)) := mul_le_mul_of_nonneg_left i1 u0
  have tri := abs_sub_le (A.rd (1 / s)) (1 / s) (1 / S)
  have p : 0 < 1 / S := by positivity
  have p1 : 0 ≤ 1 / S * u := by positivity
  have p2 : 0 ≤ 1 / S * η := by positivity
  rw [fdS]
  nlinarith

theorem mid_v (h : A.Faithful u η) (hu : u ≤ 1 / 100) (hη : η ≤ 1 / 100) (x : ℝ) :
    |A.rd (A.exp x / A.rd (A.exp x + 1)) - fd (-x)| ≤ 5 * u + 5 * η := by
  have u0 := h.u0
  have η0 := h.η0
  have E := exp_pos x
  have θ := (mid_f h hu hη x).2
  set S := exp x + 1 with hS
  have hS1 : 1 ≤ S := by linarith
  have e1 := h.exp_err x
  have n := h.exp_nonneg x
  have s2 : A.exp x ≤ A.rd (A.exp x + 1) := by
    have := h.mono (show A.exp x ≤ A.exp x + 1 by linarith)
    rwa [h.exp_rd] at this
  set s := A.rd (A.exp x + 1)
  have θ' := abs_le.1 θ
  have sp0 : 0 < s := by nlinarith
  have v1 : A.exp x / s ≤ 1 := (div_le_one sp0).2 s2
  have v0 : 0 ≤ A.exp x / s := by positivity
  have vS : fd (-x) = exp x / S := by rw [fd_neg, fd, div_eq_mul_inv]
  have d1 : |A.exp x / s - A.exp x / S| ≤ 3 * u + 3 * η := by
    have : A.exp x / s - A.exp x / S = (A.exp x / s) * ((S - s) / S) := by field_simp
    rw [this, abs_mul, abs_of_nonneg v0, abs_div, abs_of_pos (by linarith : 0 < S), abs_sub_comm]
    have : |s - S| / S ≤ 3 * u + 3 * η := by rw [div_le_iff₀ (by linarith)]; linarith
    calc _ ≤ 1 * (3 * u + 3 * η) := by gcongr
      _ = _ := one_mul _
  have d2 : |A.exp x / S - exp x / S| ≤ u + η := by
    rw [← sub_div, abs_div, abs_of_pos (by linarith : 0 < S), div_le_iff₀ (by linarith)]
    nlinarith
  have r1 := h.err (A.exp x / s)
  rw [abs_of_nonneg v0] at r1
  have tri := abs_sub_le (A.rd (A.exp x / s)) (A.exp x / s) (exp x / S)
  have tri2 := abs_sub_le (A.exp x / s) (A.exp x / S) (exp x / S)
  rw [vS]
  nlinarith

theorem exp_sq_le {y : ℝ} (h : y ≤ -30) : exp y ^ 2 ≤ exp (-60) := by
  rw [← exp_nat_mul]; exact exp_le_exp.mpr (by push_cast; linarith)

/-- C70: rounded occupation numbers are accurate to a few units of roundoff, for all arguments. -/
theorem C70_fermi (h : A.Faithful u η) (hu : u ≤ 1 / 100) (hη : η ≤ 1 / 100) (beta epsilon mu : ℝ) :
    |A.fermi_function beta epsilon mu - fd (beta * (epsilon - mu))| ≤ 9 * u + (7 + 4 * |beta|) * η + exp (-60) := by
  have u0 := h.u0
  have η0 := h.η0
  have c1 : (1.0 : ℝ) = 1 := by norm_num
  have c30 : (30.0 : ℝ) = 30 := by norm_num
  have hx := x_err h hu beta epsilon mu
  have hl := lip_weighted fd_hasDerivAt fd_slope (κ := 3 * u) (ζ := η * (1 + 2 * |beta|)) (by positivity) (by linarith) (by positivity) hx
  simp only [Arith.fermi_function, c1, c30]
  set x := A.rd (beta * A.rd (epsilon - mu))
  have key : |(if x < -30 then A.rd (1 - A.exp x) else if x > 30 then A.exp (-x) else A.rd (1 / A.rd (A.exp x + 1))) - fd x| ≤ 6 * u + 5 * η + exp (-60) := by
    have ep := exp_pos (-60 : ℝ)
    split_ifs with h1 h2
    · obtain ⟨-, -, b3, b4⟩ := fd_bounds x
      have e := h.exp_err x
      have e1 : exp x ≤ 1 := exp_le_one_iff.2 (by linarith)
      have l1 := h.exp_le_one x (by linarith)
      have l0 := h.exp_nonneg x
      have r := h.err_pos (show 0 ≤ 1 - A.exp x by linarith)
      have q := exp_sq_le h1.le
      have e' := abs_le.1 e
      have r' := abs_le.1 r
      have := exp_pos x
      rw [abs_le]
      constructor <;> nlinarith
    · obtain ⟨b1, b2, -, -⟩ := fd_bounds x
      have e := abs_le.1 (h.exp_err (-x))
      have e1 : exp (-x) ≤ 1 := exp_le_one_iff.2 (by linarith)
      have q := exp_sq_le (show -x ≤ -30 by linarith)
      have := exp_pos (-x)
      rw [abs_le]
      constructor <;> nlinarith
    · have := (mid_f h hu hη x).1
      have l := fd_lt_one x
      have p := fd_pos x
      have : fd x * (6 * u + 4 * η) ≤ 1 * (6 * u + 4 * η) := mul_le_mul_of_nonneg_right l.le (by positivity)
      linarith
  have tri := abs_sub_le (if x < -30 then A.rd (1 - A.exp x) else if x > 30 then A.exp (-x) else A.rd (1 / A.rd (A.exp x + 1))) (fd x) (fd (beta * (epsilon - mu)))
  nlinarith

/-- C70: rounded occupation numbers of particles and holes add up to one within a few units of roundoff, for all arguments. -/
theorem C70_complement (h : A.Faithful u η) (hu : u ≤ 1 / 100) (hη : η ≤ 1 / 100) (beta epsilon mu : ℝ) :
    |A.fermi_function beta epsilon mu + A.vfermi_function beta epsilon mu - 1| ≤ 11 * u + 10 * η := by
  have u0 := h.u0
  have η0 := h.η0
  have c1 : (1.0 : ℝ) = 1 := by norm_num
  have c30 : (30.0 : ℝ) = 30 := by norm_num
  simp only [Arith.fermi_function, Arith.vfermi_function, c1, c30]
  generalize A.rd (beta * A.rd (epsilon - mu)) = x
  by_cases h1 : x < -30
  · rw [if_pos h1, if_neg (by linarith), if_pos h1]
    have l1 := h.exp_le_one x (by linarith)
    have l0 := h.exp_nonneg x
    have r := h.err_pos (show 0 ≤ 1 - A.exp x by linarith)
    have r' := abs_le.1 r
    rw [abs_le]
    constructor <;> nlinarith
  · rw [if_neg h1]
    by_cases h2 : x > 30
    · rw [if_pos h2, if_pos h2]
      have l1 := h.exp_le_one (-x) (by linarith)
      have l0 := h.exp_nonneg (-x)
      have r := h.err_pos (show 0 ≤ 1 - A.exp (-x) by linarith)
      have r' := abs_le.1 r
      rw [abs_le]
      constructor <;> nlinarith
    · rw [if_neg h2, if_neg h2, if_neg h1]
      have f := abs_le.1 (mid_f h hu hη x).1
      have v := abs_le.1 (mid_v h hu hη x)
      have l := fd_lt_one x
      have p := fd_pos x
      have s := fd_add x
      have : fd x * (6 * u + 4 * η) ≤ 1 * (6 * u + 4 * η) := mul_le_mul_of_nonneg_right l.le (by positivity)
      rw [abs_le]
      constructor <;> nlinarith

/-- C70: the same for holes. -/
theorem C70_vfermi (h : A.Faithful u η) (hu : u ≤ 1 / 100) (hη : η ≤ 1 / 100) (beta epsilon mu : ℝ) :
    |A.vfermi_function beta epsilon mu - (1 - fd (beta * (epsilon - mu)))| ≤ 20 * u + (17 + 4 * |beta|) * η + exp (-60) := by
  have f := abs_le.1 (C70_fermi h hu hη beta epsilon mu)
  have c := abs_le.1 (C70_complement h hu hη beta epsilon mu)
  rw [abs_le]
  constructor <;> linarith

/-! ### grand potential -/

/-- `log (1 + e^x)` -/
def lp (x : ℝ) : ℝ := log (1 + exp x)

theorem lp_le {x y : ℝ} (h : x ≤ y) : lp x ≤ lp y ∧ lp y ≤ lp x + (y - x) := by
  have h1 := exp_pos x
  have h2 := exp_pos y
  have h3 := exp_le_exp.2 h
  refine ⟨log_le_log (by linarith) (by linarith), ?_⟩
  have e : exp y = exp (y - x) * exp x := by rw [← exp_add]; congr 1; ring
  have h4 : 1 ≤ exp (y - x) := one_le_exp (by linarith)
  calc log (1 + exp y) ≤ log (exp (y - x) * (1 + exp x)) := log_le_log (by linarith) (by rw [e]; nlinarith)
    _ = _ := by rw [log_mul (exp_pos _).ne' (by linarith), log_exp, lp]; ring

theorem lp_lip (x y : ℝ) : |lp y - lp x| ≤ |y - x| := by
  rcases le_total x y with h | h
  · obtain ⟨a, b⟩ := lp_le h
    rw [abs_of_nonneg (by linarith), abs_of_nonneg (by linarith)]; linarith
  · obtain ⟨a, b⟩ := lp_le h
    rw [abs_of_nonpos (by linarith), abs_of_nonpos (by linarith)]; linarith

theorem lp_bound (x : ℝ) : 0 ≤ lp x ∧ lp x ≤ 1 + |x| := by
  have h1 := exp_pos x
  refine ⟨log_nonneg (by linarith), ?_⟩
  have h0 : lp 0 ≤ 1 := by
    have := log_le_sub_one_of_pos (show (0 : ℝ) < 1 + exp 0 by positivity)
    rw [lp]
    rw [exp_zero] at this ⊢
    linarith
  have := lp_lip 0 x
  rw [sub_zero] at this
  have := (abs_le.1 this).2
  linarith

theorem lp_small (x : ℝ) : |lp x - exp x| ≤ exp x ^ 2 := by
  obtain ⟨a, b⟩ := log_bounds (exp x) (exp_pos x)
  rw [lp, abs_le]
  have := sq_nonneg (exp x)
  constructor <;> linarith

theorem omega_lp (beta e : ℝ) : omega beta e = -(lp (-(beta * e)) / beta) := by
  rw [omega, lp]; ring

theorem log_close {a b ρ : ℝ} (ha : 0 < a) (hρ : ρ ≤ 1 / 2) (h : |b - a| ≤ ρ * a) : |log b - log a| ≤ 2 * ρ ∧ 0 < b := by
  have h' := abs_le.1 h
  have hb : 0 < b := by nlinarith
  refine ⟨?_, hb⟩
  have hρ0 : 0 ≤ ρ := by
    by_contra hn
    have := abs_nonneg (b - a)
    nlinarith
  rw [← log_div hb.ne' ha.ne', abs_le]
  have h1 := log_le_sub_one_of_pos (div_pos hb ha)
  have h2 := one_sub_inv_le_log_of_pos (div_pos hb ha)
  rw [inv_div] at h2
  have e1 : b / a ≤ 1 + ρ := by rw [div_le_iff₀ ha]; linarith
  have e2 : a / b ≤ 1 + 2 * ρ := by rw [div_le_iff₀ hb]; nlinarith
  constructor <;> linarith

theorem exp_sq_le' {y : ℝ} (h : y ≤ -20) : exp y ^ 2 ≤ exp (-40) := by
  rw [← exp_nat_mul]; exact exp_le_exp.mpr (by push_cast; linarith)

/-- the two last operations, `l / beta + emm` -/
theorem last_sum (h : A.Faithful u η) (hu : u ≤ 1 / 100) {beta epsilon mu l δ : ℝ} (hb : 0 < beta) (hl : |l + lp (beta * (epsilon - mu))| ≤ δ) (hl' : |l| ≤ 25) :
    |A.rd (A.rd (l / beta) + A.rd (epsilon - mu)) - omega beta (epsilon - mu)| ≤
      (11 / 10 * δ + 27 * u + 4 * u * |beta * (epsilon - mu)|) / beta + 4 * η := by
  have u0 := h.u0
  have η0 := h.η0
  set d := epsilon - mu
  have hd : |d| = |beta * d| / beta := by rw [abs_mul, abs_of_pos hb]; field_simp
  have e1 := h.err (l / beta)
  have e2 := h.err d
  have e3 := h.err (A.rd (l / beta) + A.rd d)
  have eo : omega beta d = d - lp (beta * d) / beta := by
    rw [omega_lp]
    have : lp (beta * d) = beta * d + lp (-(beta * d)) := log_split _
    rw [this]
    field_simp
    ring
  have ob : |omega beta d| ≤ (1 + |beta * d|) / beta := by
    rw [omega_lp, abs_neg, abs_div, abs_of_pos hb]
    obtain ⟨a, b⟩ := lp_bound (-(beta * d))
    rw [abs_neg] at b
    rw [abs_of_nonneg a]
    gcongr
  have g1 : |l / beta| ≤ 25 / beta := by rw [abs_div, abs_of_pos hb]; gcongr
  have g2 : |l / beta - -(lp (beta * d) / beta)| ≤ δ / beta := by
    have : l / beta - -(lp (beta * d) / beta) = (l + lp (beta * d)) / beta := by ring
    rw [this, abs_div, abs_of_pos hb]; gcongr
  set X := |beta * d|
  have X0 : 0 ≤ X := abs_nonneg _
  set q := A.rd (l / beta)
  set d' := A.rd d
  have i0 : 0 < 1 / beta := by positivity
  have s : |q + d' - omega beta d| ≤ (δ + 25 * u + u * X) / beta + 2 * η := by
    have t : q + d' - omega beta d = (q - l / beta) + (l / beta - -(lp (beta * d) / beta)) + (d' - d) := by rw [eo]; ring
    rw [t]
    have := abs_add_three (q - l / beta) (l / beta - -(lp (beta * d) / beta)) (d' - d)
    have m1 : u * |l / beta| ≤ u * (25 / beta) := mul_le_mul_of_nonneg_left g1 u0
    have m2 : u * |d| = u * X / beta := by rw [hd]; ring
    have : (δ + 25 * u + u * X) / beta = δ / beta + u * (25 / beta) + u * X / beta := by ring
    linarith
  have m3 : |q + d'| ≤ (1 + X) / beta + ((δ + 25 * u + u * X) / beta + 2 * η) := by
    have := abs_sub_abs_le_abs_sub (q + d') (omega beta d)
    linarith
  have tri := abs_sub_le (A.rd (q + d')) (q + d') (omega beta d)
  have δ0 : 0 ≤ δ := (abs_nonneg _).trans hl
  have m4 : u * |q + d'| ≤ u * ((1 + X) / beta) + 1 / 100 * ((δ + 25 * u + u * X) / beta + 2 * η) := by
    refine (mul_le_mul_of_nonneg_left m3 u0).trans ?_
    rw [mul_add]
    have : 0 ≤ (δ + 25 * u + u * X) / beta + 2 * η := by positivity
    have := mul_le_mul_of_nonneg_right hu this
    linarith
  have fin : u * ((1 + X) / beta) + 101 / 100 * ((δ + 25 * u + u * X) / beta) ≤ (11 / 10 * δ + 27 * u + 4 * u * X) / beta := by
    have : u * ((1 + X) / beta) + 101 / 100 * ((δ + 25 * u + u * X) / beta) = (u * (1 + X) + 101 / 100 * (δ + 25 * u + u * X)) / beta := by ring
    rw [this]
    have := mul_nonneg u0 X0
    exact div_le_div_of_nonneg_right (by linarith) hb.le
  linarith

/-- C70: the rounded grand potential of a level is accurate to the unit of roundoff times `1 + |beta (epsilon - mu)|`, over `beta`. -/
theorem C70_grand_potential (h : A.Faithful u η) (hu : u ≤ 1 / 100) (hη : exp 21 * η ≤ 1 / 100) (beta epsilon mu : ℝ) (hb : 0 < beta) :
    |A.grand_potential0 beta epsilon mu - omega beta (epsilon - mu)| ≤
      (70 * u * (1 + |beta * (epsilon - mu)|) + 20 * (exp 21 * η) + 2 * exp (-40)) / beta + 8 * η := by
  have u0 := h.u0
  have η0 := h.η0
  have c20 : (20.0 : ℝ) = 20 := by norm_num
  have c30 : (30.0 : ℝ) = 30 := by norm_num
  have c1 : (1.0 : ℝ) = 1 := by norm_num
  have e21 : 1 ≤ exp 21 := one_le_exp (by norm_num)
  have ηE : η ≤ exp 21 * η := by nlinarith
  have hη' : η ≤ 1 / 100 := ηE.trans hη
  have hx := x_err h hu beta epsilon mu
  rw [abs_of_pos hb] at hx
  have ep := exp_pos (-40 : ℝ)
  simp only [Arith.grand_potential0, Arith.fermi_function, c20, c30, c1]
  set x := A.rd (beta * A.rd (epsilon - mu))
  set X := |beta * (epsilon - mu)|
  have X0 : 0 ≤ X := abs_nonneg _
  have uX : 0 ≤ u * X := by positivity
  have fin : ∀ δ, δ ≤ 39 * u + 3 * u * X + 12 * (exp 21 * η) + 2 * (η * beta) + exp (-40) →
      (11 / 10 * δ + 27 * u + 4 * u * X) / beta + 4 * η ≤ (70 * u * (1 + X) + 20 * (exp 21 * η) + 2 * exp (-40)) / beta + 8 * η := by
    intro δ hδ
    have : (70 * u * (1 + X) + 20 * (exp 21 * η) + 2 * exp (-40)) / beta + 8 * η
        = (70 * u * (1 + X) + 20 * (exp 21 * η) + 2 * exp (-40) + 4 * (η * beta)) / beta + 4 * η := by field_simp; ring
    rw [this]
    have := mul_nonneg η0 hb.le
    have := mul_nonneg (exp_pos 21).le η0
    exact add_le_add_left (div_le_div_of_nonneg_right (by linarith) hb.le) _
  by_cases h1 : x < -20
  on_goal 2 => by_cases h2 : x > 20
  on_goal 1 => rw [if_pos h1]
  on_goal 2 => rw [if_neg h1, if_pos h2]
  on_goal 3 => rw [if_neg h1, if_neg h2]
  · have e := h.exp_err x
    have l1 := h.exp_le_one x (by linarith)
    have l0 := h.exp_nonneg x
    have e1 : exp x ≤ 1 := exp_le_one_iff.2 (by linarith)
    have q := (lp_small x).trans (exp_sq_le' h1.le)
    have hl : |-A.exp x + lp (beta * (epsilon - mu))| ≤ (u + η) + exp (-40) + (3 * u * X + η * (1 + 2 * beta)) := by
      have t : -A.exp x + lp (beta * (epsilon - mu)) = -(A.exp x - exp x) + (lp x - exp x) + -(lp x - lp (beta * (epsilon - mu))) := by ring
      rw [t]
      have a3 := abs_add_three (-(A.exp x - exp x)) (lp x - exp x) (-(lp x - lp (beta * (epsilon - mu))))
      rw [abs_neg, abs_neg] at a3
      have := lp_lip (beta * (epsilon - mu)) x
      have : u * exp x ≤ u * 1 := mul_le_mul_of_nonneg_left e1 u0
      linarith
    refine (last_sum h hu hb hl (by rw [abs_neg, abs_of_nonneg l0]; linarith)).trans (fin _ ?_)
    nlinarith
  · have e := h.exp_err (-x)
    have l1 := h.exp_le_one (-x) (by linarith)
    have l0 := h.exp_nonneg (-x)
    have e1 : exp (-x) ≤ 1 := exp_le_one_iff.2 (by linarith)
    have q := (lp_small (-x)).trans (exp_sq_le' (show -x ≤ -20 by linarith))
    have hl : |-A.exp (-x) + lp (-(beta * (epsilon - mu)))| ≤ (u + η) + exp (-40) + (3 * u * X + η * (1 + 2 * beta)) := by
      have t : -A.exp (-x) + lp (-(beta * (epsilon - mu))) = -(A.exp (-x) - exp (-x)) + (lp (-x) - exp (-x)) + -(lp (-x) - lp (-(beta * (epsilon - mu)))) := by ring
      rw [t]
      have a3 := abs_add_three (-(A.exp (-x) - exp (-x))) (lp (-x) - exp (-x)) (-(lp (-x) - lp (-(beta * (epsilon - mu)))))
      rw [abs_neg, abs_neg] at a3
      have l := lp_lip (-(beta * (epsilon - mu))) (-x)
      rw [show -x - -(beta * (epsilon - mu)) = -(x - beta * (epsilon - mu)) by ring, abs_neg] at l
      have : u * exp (-x) ≤ u * 1 := mul_le_mul_of_nonneg_left e1 u0
      linarith
    have r := h.err (-A.exp (-x) / beta)
    have r2 : |-A.exp (-x) / beta| ≤ 1 / beta := by
      rw [abs_div, abs_of_pos hb, abs_neg, abs_of_nonneg l0]; gcongr
    have r3 : |-A.exp (-x) / beta - omega beta (epsilon - mu)| ≤ ((u + η) + exp (-40) + (3 * u * X + η * (1 + 2 * beta))) / beta := by
      rw [omega_lp]
      have : -A.exp (-x) / beta - -(lp (-(beta * (epsilon - mu))) / beta) = (-A.exp (-x) + lp (-(beta * (epsilon - mu)))) / beta := by ring
      rw [this, abs_div, abs_of_pos hb]; gcongr
    have tri := abs_sub_le (A.rd (-A.exp (-x) / beta)) (-A.exp (-x) / beta) (omega beta (epsilon - mu))
    have r4 : u * |-A.exp (-x) / beta| ≤ u * (1 / beta) := mul_le_mul_of_nonneg_left r2 u0
    refine le_trans ?_ (fin ((u + η) + exp (-40) + (3 * u * X + η * (1 + 2 * beta))) (by nlinarith))
    have : (11 / 10 * (u + η + exp (-40) + (3 * u * X + η * (1 + 2 * beta))) + 27 * u + 4 * u * X) / beta =
      ((u + η) + exp (-40) + (3 * u * X + η * (1 + 2 * beta))) / beta + u * (1 / beta) +
        (1 / 10 * (u + η + exp (-40) + (3 * u * X + η * (1 + 2 * beta))) + 26 * u + 4 * u * X) / beta := by ring
    have p : 0 ≤ (1 / 10 * (u + η + exp (-40) + (3 * u * X + η * (1 + 2 * beta))) + 26 * u + 4 * u * X) / beta := by positivity
    linarith
  · rw [if_neg (by linarith), if_neg (by linarith)]
    have m := (mid_f h hu hη' x).1
    set f := A.rd (1 / A.rd (A.exp x + 1))
    have p := fd_pos x
    have big : 1 ≤ fd x * exp 21 := by
      rw [fd, inv_mul_eq_div, le_div_iff₀ (by positivity), one_mul]
      have a1 : exp x ≤ exp 20 := exp_le_exp.2 (by linarith)
      have a2 : exp 21 = exp 20 * exp 1 := by rw [← exp_add]; norm_num
      have a3 := add_one_le_exp (1 : ℝ)
      have a4 : 1 ≤ exp (20 : ℝ) := one_le_exp (by norm_num)
      rw [a2]; nlinarith
    have rel : |f - fd x| ≤ (6 * u + 4 * η + exp 21 * η) * fd x := by nlinarith
    obtain ⟨lc, fpos⟩ := log_close p (by nlinarith) rel
    have lf : log (fd x) = -lp x := log_fd x
    rw [lf] at lc
    have le := h.log_err f fpos
    obtain ⟨b0, b1⟩ := lp_bound x
    have xb : |x| ≤ 20 := abs_le.2 ⟨by linarith, by linarith⟩
    have lc' := abs_le.1 lc
    have la : |log f| ≤ 22 := by rw [abs_le]; constructor <;> nlinarith
    have le2 : |A.log f - log f| ≤ 22 * u + η := by nlinarith
    have hl : |A.log f + lp (beta * (epsilon - mu))| ≤ (22 * u + η) + 2 * (6 * u + 4 * η + exp 21 * η) + (3 * u * X + η * (1 + 2 * beta)) := by
      have t : A.log f + lp (beta * (epsilon - mu)) = (A.log f - log f) + (log f - -lp x) + -(lp x - lp (beta * (epsilon - mu))) := by ring
      rw [t]
      have a3 := abs_add_three (A.log f - log f) (log f - -lp x) (-(lp x - lp (beta * (epsilon - mu))))
      rw [abs_neg (lp x - _)] at a3
      have := lp_lip (beta * (epsilon - mu)) x
      linarith
    have le3 := abs_le.1 le2
    have la' := abs_le.1 la
    refine (last_sum h hu hb hl (abs_le.2 ⟨by linarith, by linarith⟩)).trans (fin _ ?_)
    nlinarith

/-- C70: vectors of occupation numbers and grand potentials are computed level by level. -/
theorem C70_vectors (A : Arith) (beta mu : ℝ) (epsilon : Vec) :
    ((A.ff beta epsilon mu).len = epsilon.len ∧ (A.ffv beta epsilon mu).len = epsilon.len ∧ (A.GP0 beta epsilon mu).len = epsilon.len) ∧
      ∀ i < epsilon.len, (A.ff beta epsilon mu).val i = A.fermi_function beta (epsilon.val i) mu ∧
        (A.ffv beta epsilon mu).val i = A.vfermi_function beta (epsilon.val i) mu ∧
        (A.GP0 beta epsilon mu).val i = A.grand_potential0 beta (epsilon.val i) mu := by
  have key := fun f : ℕ → ℝ => foldl_set f epsilon.len (zeros epsilon.len)
  refine ⟨⟨(key _).1, (key _).1, (key _).1⟩, fun i hi => ⟨((key _).2 i).trans (if_pos hi), ((key _).2 i).trans (if_pos hi), ((key _).2 i).trans (if_pos hi)⟩⟩

/-! ### a case: fixed-point arithmetic with steps of 1/N -/

/-- Rounding to multiples of `1/N`. -/
def fixed (N : ℕ) : Arith where
  rd x := round (x * N) / N
  exp x := round (exp x * N) / N
  log x := round (log x * N) / N

theorem round_mono' : Monotone (round : ℝ → ℤ) := fun a b h => by
  rw [round_eq, round_eq]; exact Int.floor_le_floor (by linarith)

theorem fixed_err (N : ℕ) (hN : 0 < N) (x : ℝ) : |(round (x * N) : ℝ) / N - x| ≤ 1 / N := by
  have h : (0 : ℝ) < N := by exact_mod_cast hN
  have := abs_sub_round (x * N)
  have e : (round (x * N) : ℝ) / N - x = (round (x * N) - x * N) / N := by field_simp
  rw [e, abs_div, abs_of_pos h, abs_sub_comm]
  gcongr
  linarith

theorem fixed_faithful (N : ℕ) (hN : 0 < N) : (fixed N).Faithful 0 (1 / N) where
  u0 := le_rfl
  η0 := by positivity
  mono a b h := by
    have hN' : (0 : ℝ) < N := by exact_mod_cast hN
    have : round (a * N) ≤ round (b * N) := round_mono' (by gcongr)
    simp only [fixed]
    gcongr
  zero := by simp [fixed]
  one := by
    have hN' : (N : ℝ) ≠ 0 := by exact_mod_cast hN.ne'
    simp [fixed, hN']
  err x := by simpa [fixed] using fixed_err N hN x
  exp_rd x := by
    have hN' : (N : ℝ) ≠ 0 := by exact_mod_cast hN.ne'
    simp [fixed, hN']
  exp_nonneg x := by
    have : (0 : ℤ) ≤ round (exp x * N) := by
      have := round_mono' (show (0 : ℝ) ≤ exp x * N by positivity)
      simpa using this
    simp only [fixed]
    positivity
  exp_le_one x hx := by
    have hN' : (0 : ℝ) < N := by exact_mod_cast hN
    have : round (exp x * N) ≤ (N : ℤ) := by
      have := round_mono' (show exp x * N ≤ (N : ℝ) by nlinarith [exp_le_one_iff.2 hx])
      simpa using this
    simp only [fixed]
    rw [div_le_one hN']
    exact_mod_cast this
  exp_err x := by simpa [fixed] using fixed_err N hN (exp x)
  log_err y _ := by simpa [fixed] using fixed_err N hN (log y)

/-- Twelve decimals. -/
example (epsilon mu : ℝ) : |(fixed (10 ^ 12)).fermi_function 3 epsilon mu - fd (3 * (epsilon - mu))| ≤ 2 / 10 ^ 11 := by
  refine (C70_fermi (fixed_faithful (10 ^ 12) (by norm_num)) (by norm_num) (by norm_num) 3 epsilon mu).trans ?_
  have : exp (-60 : ℝ) ≤ 1 / 10 ^ 12 := by
    rw [exp_neg, ← one_div]
    apply one_div_le_one_div_of_le (by norm_num)
    have h := add_one_le_exp (1 : ℝ)
    have h2 : exp (60 : ℝ) = exp 1 ^ 60 := by rw [← exp_nat_mul]; norm_num
    rw [h2]
    calc (10 : ℝ) ^ 12 ≤ 2 ^ 60 := by norm_num
      _ ≤ _ := by gcongr; linarith
  norm_num at this ⊢
  linarith

/-- Thirteen decimals, for the grand potential. -/
example (epsilon mu : ℝ) : |(fixed (10 ^ 13)).grand_potential0 2 epsilon mu - omega 2 (epsilon - mu)| ≤ 2 / 100 := by
  have h21 : exp (21 : ℝ) ≤ 3 ^ 21 := by
    have h2 : exp (21 : ℝ) = exp 1 ^ 21 := by rw [← exp_nat_mul]; norm_num
    rw [h2]
    gcongr
    exact exp_one_lt_three.le
  have c : ((10 ^ 13 : ℕ) : ℝ) = 10 ^ 13 := by norm_num
  refine (C70_grand_potential (fixed_faithful (10 ^ 13) (by norm_num)) (by norm_num) ?_ 2 epsilon mu (by norm_num)).trans ?_
  · rw [c]; norm_num at h21 ⊢; linarith
  have : exp (-40 : ℝ) ≤ 1 / 10 ^ 10 := by
    rw [exp_neg, ← one_div]
    apply one_div_le_one_div_of_le (by norm_num)
    have h := add_one_le_exp (1 : ℝ)
    have h2 : exp (40 : ℝ) = exp 1 ^ 40 := by rw [← exp_nat_mul]; norm_num
    rw [h2]
    calc (10 : ℝ) ^ 10 ≤ 2 ^ 40 := by norm_num
      _ ≤ _ := by gcongr; linarith
  rw [c]
  norm_num at this h21 ⊢
  linarith

end Ft
end
