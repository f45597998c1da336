import Verif.Props.FtRound
/-!
# C88: the derivative of the grand potential in rounded arithmetic
-/
noncomputable section
namespace Ft
open Real

variable {A : Arith} {u η : ℝ}

/-- The exact derivative of the grand potential of a level with respect to the inverse temperature (`omega_deriv`). -/
def domega (beta e : ℝ) : ℝ := log (1 + exp (-(beta * e))) / beta ^ 2 + e * fd (beta * e) / beta

/-- `rd (rd (±emm o) / beta)` -/
theorem prod_term (h : A.Faithful u η) (hu : u ≤ 1 / 100) {beta d s o o₀ ω : ℝ} (hb : 0 < beta) (hs : |s| = 1) (ho : |o - o₀| ≤ ω) (h0 : |o| ≤ 1) (h1 : |o₀| ≤ 1)
    (hω : ω ≤ 2) : |A.rd (A.rd (s * A.rd d * o) / beta) - s * d * o₀ / beta| ≤ (|d| * (6 * u + ω) + 3 * η) / beta + η := by
  have u0 := h.u0
  have η0 := h.η0
  have D0 := abs_nonneg d
  have e1 := h.err d
  set d' := A.rd d
  have ω0 : 0 ≤ ω := (abs_nonneg _).trans ho
  have a1 : |d'| ≤ |d| + (u * |d| + η) := by
    have := abs_sub_abs_le_abs_sub d' d
    linarith
  have uD : u * |d| ≤ 1 / 100 * |d| := mul_le_mul_of_nonneg_right hu D0
  have a2 : |s * d' * o| ≤ 101 / 100 * |d| + η := by
    rw [abs_mul, abs_mul, hs, one_mul]
    calc |d'| * |o| ≤ (|d| + (u * |d| + η)) * 1 := mul_le_mul a1 h0 (abs_nonneg _) ((abs_nonneg _).trans a1)
      _ ≤ _ := by linarith
  have a3 : |s * d' * o - s * d * o₀| ≤ u * |d| + η + |d| * ω := by
    have t : s * d' * o - s * d * o₀ = s * ((d' - d) * o + d * (o - o₀)) := by ring
    rw [t, abs_mul, hs, one_mul]
    refine (abs_add_le _ _).trans ?_
    rw [abs_mul, abs_mul]
    have b1 : |d' - d| * |o| ≤ (u * |d| + η) * 1 := mul_le_mul e1 h0 (abs_nonneg _) ((abs_nonneg _).trans e1)
    have b2 : |d| * |o - o₀| ≤ |d| * ω := mul_le_mul_of_nonneg_left ho D0
    linarith
  have e2 := h.err (s * d' * o)
  set P := A.rd (s * d' * o)
  have m1 : u * |s * d' * o| ≤ u * (101 / 100 * |d| + η) := mul_le_mul_of_nonneg_left a2 u0
  have uη : u * η ≤ 1 / 100 * η := mul_le_mul_of_nonneg_right hu η0
  have uD0 : 0 ≤ u * |d| := by positivity
  have Dω : 0 ≤ |d| * ω := by positivity
  have a4 : |P - s * d * o₀| ≤ |d| * ω + 21 / 10 * (u * |d|) + 21 / 10 * η := by
    have := abs_sub_le P (s * d' * o) (s * d * o₀)
    nlinarith
  have a5 : |s * d * o₀| ≤ |d| := by
    rw [abs_mul, abs_mul, hs, one_mul]
    have := mul_le_mul_of_nonneg_left h1 D0
    linarith
  have a6 : |P| ≤ 31 / 10 * |d| + 21 / 10 * η := by
    have := abs_sub_abs_le_abs_sub P (s * d * o₀)
    have : |d| * ω ≤ |d| * 2 := mul_le_mul_of_nonneg_left hω D0
    nlinarith
  have e3 := h.err (P / beta)
  have a7 : |P / beta| ≤ (31 / 10 * |d| + 21 / 10 * η) / beta := by rw [abs_div, abs_of_pos hb]; gcongr
  have a8 : |P / beta - s * d * o₀ / beta| ≤ (|d| * ω + 21 / 10 * (u * |d|) + 21 / 10 * η) / beta := by
    rw [← sub_div, abs_div, abs_of_pos hb]; gcongr
  have m2 : u * |P / beta| ≤ u * ((31 / 10 * |d| + 21 / 10 * η) / beta) := mul_le_mul_of_nonneg_left a7 u0
  have tri := abs_sub_le (A.rd (P / beta)) (P / beta) (s * d * o₀ / beta)
  have fin : u * ((31 / 10 * |d| + 21 / 10 * η) / beta) + (|d| * ω + 21 / 10 * (u * |d|) + 21 / 10 * η) / beta ≤ (|d| * (6 * u + ω) + 3 * η) / beta := by
    rw [← mul_div_assoc, ← add_div]
    refine div_le_div_of_nonneg_right ?_ hb.le
    nlinarith
  linarith

/-- `rd (rd (L / rd (beta beta)) + Q)` -/
theorem sum_term (h : A.Faithful u η) (hu : u ≤ 1 / 100) {beta L l δ Q q κ T : ℝ} (hb : 0 < beta) (hη : η ≤ beta ^ 2 / 100) (hL : |L - l| ≤ δ) (hL' : |L| ≤ 25)
    (hQ : |Q - q| ≤ κ) (hT : |l / beta ^ 2 + q| ≤ T) :
    |A.rd (A.rd (L / A.rd (beta * beta)) + Q) - (l / beta ^ 2 + q)| ≤
      101 / 100 * ((δ + 52 * u + 26 * (η / beta ^ 2)) / beta ^ 2 + η + κ) + u * T + η := by
  have u0 := h.u0
  have η0 := h.η0
  have b2 : 0 < beta ^ 2 := by positivity
  have e1 := h.err_pos (show 0 ≤ beta * beta by positivity)
  rw [← pow_two] at e1 ⊢
  set B := A.rd (beta ^ 2)
  have e1' := abs_le.1 e1
  have B1 : beta ^ 2 * (98 / 100) ≤ B := by nlinarith
  have B0 : 0 < B := by nlinarith
  have δ0 : 0 ≤ δ := (abs_nonneg _).trans hL
  have κ0 : 0 ≤ κ := (abs_nonneg _).trans hQ
  have i1 : 1 / B ≤ 100 / 98 / beta ^ 2 := by
    rw [div_div, div_le_div_iff₀ B0 (by positivity)]; nlinarith
  have d1 : |L / B - l / beta ^ 2| ≤ (δ + 51 / 2 * u + 26 * (η / beta ^ 2)) / beta ^ 2 + 1 / 2 * u / beta ^ 2 := by
    have t : L / B - l / beta ^ 2 = (L - l) / beta ^ 2 + L * ((beta ^ 2 - B) * (1 / B) / beta ^ 2) := by field_simp; ring
    rw [t]
    refine (abs_add_le _ _).trans ?_
    rw [abs_div, abs_mul, abs_div, abs_mul, abs_of_pos b2, abs_of_pos (show 0 < 1 / B by positivity), abs_sub_comm (beta ^ 2) B]
    have c1 : |B - beta ^ 2| * (1 / B) ≤ (u * beta ^ 2 + η) * (100 / 98 / beta ^ 2) := mul_le_mul e1 i1 (by positivity) (by positivity)
    have c2 : (u * beta ^ 2 + η) * (100 / 98 / beta ^ 2) = 100 / 98 * (u + η / beta ^ 2) := by field_simp
    have c3 : |L| * (|B - beta ^ 2| * (1 / B) / beta ^ 2) ≤ 25 * (100 / 98 * (u + η / beta ^ 2) / beta ^ 2) := by
      rw [c2] at c1
      exact mul_le_mul hL' (div_le_div_of_nonneg_right c1 b2.le) (by positivity) (by norm_num)
    have c4 : |L - l| / beta ^ 2 ≤ δ / beta ^ 2 := div_le_div_of_nonneg_right hL b2.le
    have c5 : 0 ≤ η / beta ^ 2 := by positivity
    have c6 : δ / beta ^ 2 + 25 * (100 / 98 * (u + η / beta ^ 2) / beta ^ 2) ≤ (δ + 51 / 2 * u + 26 * (η / beta ^ 2)) / beta ^ 2 + 1 / 2 * u / beta ^ 2 := by
      have : δ / beta ^ 2 + 25 * (100 / 98 * (u + η / beta ^ 2) / beta ^ 2) = (δ + 25 * (100 / 98 * (u + η / beta ^ 2))) / beta ^ 2 := by ring
      rw [this, ← add_div]
      exact div_le_div_of_nonneg_right (by linarith) b2.le
    linarith
  have e2 := h.err (L / B)
  have d2 : |L / B| ≤ 26 / beta ^ 2 := by
    rw [abs_div, abs_of_pos B0, div_eq_mul_one_div]
    calc |L| * (1 / B) ≤ 25 * (100 / 98 / beta ^ 2) := mul_le_mul hL' i1 (by positivity) (by norm_num)
      _ = 2500 / 98 / beta ^ 2 := by ring
      _ ≤ _ := div_le_div_of_nonneg_right (by norm_num) b2.le
  have m1 : u * |L / B| ≤ u * (26 / beta ^ 2) := mul_le_mul_of_nonneg_left d2 u0
  have d3 : |A.rd (L / B) - l / beta ^ 2| ≤ (δ + 52 * u + 26 * (η / beta ^ 2)) / beta ^ 2 + η := by
    have := abs_sub_le (A.rd (L / B)) (L / B) (l / beta ^ 2)
    have e : (δ + 52 * u + 26 * (η / beta ^ 2)) / beta ^ 2 = (δ + 51 / 2 * u + 26 * (η / beta ^ 2)) / beta ^ 2 + 1 / 2 * u / beta ^ 2 + u * (26 / beta ^ 2) := by ring
    linarith
  set E := (δ + 52 * u + 26 * (η / beta ^ 2)) / beta ^ 2 + η + κ
  have d4 : |A.rd (L / B) + Q - (l / beta ^ 2 + q)| ≤ E := by
    have : A.rd (L / B) + Q - (l / beta ^ 2 + q) = (A.rd (L / B) - l / beta ^ 2) + (Q - q) := by ring
    rw [this]
    exact (abs_add_le _ _).trans (add_le_add d3 hQ)
  have E0 : 0 ≤ E := (abs_nonneg _).trans d4
  have e3 := h.err (A.rd (L / B) + Q)
  have d5 : |A.rd (L / B) + Q| ≤ T + E := by
    have := abs_sub_abs_le_abs_sub (A.rd (L / B) + Q) (l / beta ^ 2 + q)
    linarith
  have m2 : u * |A.rd (L / B) + Q| ≤ u * (T + E) := mul_le_mul_of_nonneg_left d5 u0
  have m3 : u * E ≤ 1 / 100 * E := mul_le_mul_of_nonneg_right hu E0
  have tri := abs_sub_le (A.rd (A.rd (L / B) + Q)) (A.rd (L / B) + Q) (l / beta ^ 2 + q)
  linarith

/-- the bounds of the terms together -/
theorem fin_term {u η beta d δ ω : ℝ} (u0 : 0 ≤ u) (η0 : 0 ≤ η) (hb : 0 < beta) (hδ : δ ≤ 34 * u + 3 * (u * |beta * d|) + 12 * (exp 21 * η) + 2 * (η * beta) + exp (-40))
    (hω : ω ≤ 20 * u + (17 + 4 * beta) * η + exp (-60)) :
    101 / 100 * ((δ + 52 * u + 26 * (η / beta ^ 2)) / beta ^ 2 + η + ((|d| * (6 * u + ω) + 3 * η) / beta + η)) + u * ((1 + |beta * d|) / beta ^ 2) + η ≤
      ((90 * u + 2 * exp (-40) + 40 * (exp 21 * η) * (1 + beta)) * (1 + |beta * d|) + 27 * (η / beta ^ 2)) / beta ^ 2 + 4 * η := by
  have b2 : 0 < beta ^ 2 := by positivity
  have e21 : 1 ≤ exp 21 := one_le_exp (by norm_num)
  have ηE : η ≤ exp 21 * η := by nlinarith
  set M := exp 21 * η
  set X := |beta * d| with hX
  have X0 : 0 ≤ X := abs_nonneg _
  have hd : |d| = X / beta := by rw [hX, abs_mul, abs_of_pos hb]; field_simp
  have e60 : exp (-60 : ℝ) ≤ exp (-40) := exp_le_exp.2 (by norm_num)
  have p40 := exp_pos (-40 : ℝ)
  set F := exp (-40 : ℝ)
  have t : (|d| * (6 * u + ω) + 3 * η) / beta = (X * (6 * u + ω) + 3 * (η * beta)) / beta ^ 2 := by rw [hd]; field_simp
  rw [t]
  have k1 : X * (6 * u + ω) ≤ X * (26 * u + (17 + 4 * beta) * M + F) := by
    refine mul_le_mul_of_nonneg_left ?_ X0
    have : (17 + 4 * beta) * η ≤ (17 + 4 * beta) * M := mul_le_mul_of_nonneg_left ηE (by positivity)
    linarith
  have M0 : 0 ≤ M := by positivity
  have k2 : η * beta ≤ M * beta := mul_le_mul_of_nonneg_right ηE hb.le
  have key : 101 / 100 * (δ + 52 * u + 26 * (η / beta ^ 2) + (X * (6 * u + ω) + 3 * (η * beta))) + u * (1 + X) ≤
      (90 * u + 2 * F + 40 * M * (1 + beta)) * (1 + X) + 27 * (η / beta ^ 2) := by
    have q1 : 0 ≤ u * X := by positivity
    have q2 : 0 ≤ M * beta := by positivity
    have q3 : 0 ≤ M * X := by positivity
    have q4 : 0 ≤ M * beta * X := by positivity
    have q5 : 0 ≤ F * X := by positivity
    have q6 : 0 ≤ η / beta ^ 2 := by positivity
    nlinarith
  have := div_le_div_of_nonneg_right key b2.le
  have e : 101 / 100 * ((δ + 52 * u + 26 * (η / beta ^ 2)) / beta ^ 2 + η + ((X * (6 * u + ω) + 3 * (η * beta)) / beta ^ 2 + η)) + u * ((1 + X) / beta ^ 2) + η
      = (101 / 100 * (δ + 52 * u + 26 * (η / beta ^ 2) + (X * (6 * u + ω) + 3 * (η * beta))) + u * (1 + X)) / beta ^ 2 + 302 / 100 * η := by ring
  linarith

/-- the logarithm of the middle branch of `fermi_function` -/
theorem mid_log (h : A.Faithful u η) (hu : u ≤ 1 / 100) (hη : exp 21 * η ≤ 1 / 100) {x f : ℝ} (h1 : -20 ≤ x) (h2 : x ≤ 20)
    (m : |f - fd x| ≤ fd x * (6 * u + 4 * η) + η) : |-A.log f - lp x| ≤ 34 * u + 11 * (exp 21 * η) ∧ |A.log f| ≤ 25 := by
  have u0 := h.u0
  have η0 := h.η0
  have e21 : 1 ≤ exp 21 := one_le_exp (by norm_num)
  have p := fd_pos x
  have big : 1 ≤ fd x * exp 21 := by
    rw [fd, inv_mul_eq_div, le_div_iff₀ (by positivity), one_mul]
    have a1 : exp x ≤ exp 20 := exp_le_exp.2 h2
    have a2 : exp 21 = exp 20 * exp 1 := by rw [← exp_add]; norm_num
    have a3 := add_one_le_exp (1 : ℝ)
    have a4 : 1 ≤ exp (20 : ℝ) := one_le_exp (by norm_num)
    rw [a2]; nlinarith
  have ηE : η ≤ exp 21 * η := le_mul_of_one_le_left η0 e21
  have ηf : η ≤ fd x * exp 21 * η := le_mul_of_one_le_left η0 big
  have rel : |f - fd x| ≤ (6 * u + 4 * η + exp 21 * η) * fd x := by
    have : (6 * u + 4 * η + exp 21 * η) * fd x = fd x * (6 * u + 4 * η) + fd x * exp 21 * η := by ring
    linarith
  obtain ⟨lc, fpos⟩ := log_close p (by linarith) rel
  have lf : log (fd x) = -lp x := log_fd x
  rw [lf] at lc
  have le := h.log_err f fpos
  obtain ⟨b0, b1⟩ := lp_bound x
  have xb : |x| ≤ 20 := abs_le.2 ⟨h1, h2⟩
  have lc' := abs_le.1 lc
  have la : |log f| ≤ 22 := by rw [abs_le]; constructor <;> linarith
  have le2 : |A.log f - log f| ≤ 22 * u + η := by
    have := mul_le_mul_of_nonneg_left la u0
    linarith
  have le3 := abs_le.1 le2
  have la' := abs_le.1 la
  constructor
  · have t : -A.log f - lp x = -(A.log f - log f) + -(log f - -lp x) := by ring
    rw [t]
    have a3 := abs_add_le (-(A.log f - log f)) (-(log f - -lp x))
    rw [abs_neg (A.log f - _), abs_neg (log f - _)] at a3
    linarith
  · rw [abs_le]; constructor <;> linarith

theorem domega_lp (beta d : ℝ) (hb : 0 < beta) : domega beta d = lp (-(beta * d)) / beta ^ 2 + 1 * d * fd (beta * d) / beta ∧
    domega beta d = lp (beta * d) / beta ^ 2 + -1 * d * (1 - fd (beta * d)) / beta ∧ |domega beta d| ≤ (1 + |beta * d|) / beta ^ 2 := by
  have h1 : domega beta d = lp (-(beta * d)) / beta ^ 2 + 1 * d * fd (beta * d) / beta := by rw [domega, lp, one_mul]
  have h2 : domega beta d = lp (beta * d) / beta ^ 2 + -1 * d * (1 - fd (beta * d)) / beta := by
    have : lp (beta * d) = beta * d + lp (-(beta * d)) := log_split _
    rw [h1, this]; field_simp; ring
  refine ⟨h1, h2, ?_⟩
  have b2 : 0 < beta ^ 2 := by positivity
  -- the derivative times `beta ^ 2` lies between the two forms
  have e1 : domega beta d = (lp (-(beta * d)) + beta * d * fd (beta * d)) / beta ^ 2 := by rw [h1]; field_simp
  have e2 : lp (-(beta * d)) + beta * d * fd (beta * d) = lp (beta * d) - beta * d * (1 - fd (beta * d)) := by
    have : lp (beta * d) = beta * d + lp (-(beta * d)) := log_split _
    rw [this]; ring
  rw [e1, abs_div, abs_of_pos b2]
  refine div_le_div_of_nonneg_right ?_ b2.le
  set x := beta * d
  have f0 := fd_pos x
  have f1 := fd_lt_one x
  obtain ⟨n0, -⟩ := lp_bound (-x)
  obtain ⟨m0, -⟩ := lp_bound x
  have l0 : lp 0 ≤ 1 := by have := (lp_bound 0).2; rw [abs_zero] at this; linarith
  rcases le_total 0 x with h0 | h0
  · have a := (lp_le (show -x ≤ 0 by linarith)).1
    have : x * fd x ≤ x * 1 := mul_le_mul_of_nonneg_left f1.le h0
    have : 0 ≤ x * fd x := by positivity
    rw [abs_of_nonneg (by linarith), abs_of_nonneg h0]
    linarith
  · have a := (lp_le h0).1
    rw [e2, abs_of_nonpos h0]
    have : -x * (1 - fd x) ≤ -x * 1 := mul_le_mul_of_nonneg_left (by linarith) (by linarith)
    have : 0 ≤ -x * (1 - fd x) := mul_nonneg (by linarith) (by linarith)
    rw [abs_of_nonneg (by linarith)]
    linarith

/-- C88: the rounded derivative of the grand potential of a level is accurate to the unit of roundoff times `1 + |beta (epsilon - mu)|`, over `beta ^ 2`, for all levels
and temperatures. -/
theorem C88_dgrand_potential (h : A.Faithful u η) (hu : u ≤ 1 / 100) (beta epsilon mu : ℝ) (hb : 0 < beta) (hη : exp 21 * η * (1 + beta) ≤ 1 / 100) (hη2 : η ≤ beta ^ 2 / 100) :
    |A.dgrand_potential0 beta epsilon mu - domega beta (epsilon - mu)| ≤
      ((90 * u + 2 * exp (-40) + 40 * (exp 21 * η) * (1 + beta)) * (1 + |beta * (epsilon - mu)|) + 27 * (η / beta ^ 2)) / beta ^ 2 + 4 * η := by
  have u0 := h.u0
  have η0 := h.η0
  have c20 : (20.0 : ℝ) = 20 := by norm_num
  have e21 : 1 ≤ exp 21 := one_le_exp (by norm_num)
  have ηE : η ≤ exp 21 * η := le_mul_of_one_le_left η0 e21
  have Eη0 : 0 ≤ exp 21 * η := by positivity
  have hη1 : exp 21 * η ≤ 1 / 100 := (le_mul_of_one_le_right Eη0 (by linarith)).trans hη
  have hη' : η ≤ 1 / 100 := ηE.trans hη1
  have ηb : η * (1 + beta) ≤ 1 / 100 := (mul_le_mul_of_nonneg_right ηE (by linarith)).trans hη
  have hx := x_err h hu beta epsilon mu
  rw [abs_of_pos hb] at hx
  have hf := C70_fermi h hu hη' beta epsilon mu
  have hv := C70_vfermi h hu hη' beta epsilon mu
  rw [abs_of_pos hb] at hf hv
  obtain ⟨⟨f0, f1⟩, v0, v1⟩ := C70_range h beta epsilon mu
  obtain ⟨o1, o2, oT⟩ := domega_lp beta (epsilon - mu) hb
  have ep := exp_pos (-40 : ℝ)
  have e60 : exp (-60 : ℝ) ≤ 1 := exp_le_one_iff.2 (by norm_num)
  set x₀ := beta * (epsilon - mu)
  have g0 := fd_pos x₀
  have g1 := fd_lt_one x₀
  have ω2 : 20 * u + (17 + 4 * beta) * η + exp (-60) ≤ 2 := by linarith
  have hf' : |A.fermi_function beta epsilon mu - fd x₀| ≤ 20 * u + (17 + 4 * beta) * η + exp (-60) := by
    have : (7 + 4 * beta) * η ≤ (17 + 4 * beta) * η := mul_le_mul_of_nonneg_right (by linarith) η0
    linarith
  have X0 : 0 ≤ |x₀| := abs_nonneg _
  have uX : 0 ≤ u * |x₀| := by positivity
  have ηb0 : 0 ≤ η * beta := by positivity
  have F := fun δ hδ => fin_term (d := epsilon - mu) (δ := δ) u0 η0 hb hδ (le_refl (20 * u + (17 + 4 * beta) * η + exp (-60)))
  have Pv := prod_term h hu (d := epsilon - mu) (s := -1) hb (by norm_num) hv (abs_le.2 ⟨by linarith, v1⟩) (abs_le.2 ⟨by linarith, by linarith⟩) ω2
  have Pv' := prod_term h hu (d := epsilon - mu) (s := 1) hb (by norm_num) hv (abs_le.2 ⟨by linarith, v1⟩) (abs_le.2 ⟨by linarith, by linarith⟩) ω2
  have Pf := prod_term h hu (d := epsilon - mu) (s := 1) hb (by norm_num) hf' (abs_le.2 ⟨by linarith, f1⟩) (abs_le.2 ⟨by linarith, by linarith⟩) ω2
  simp only [Arith.dgrand_potential0, c20]
  set x := A.rd (beta * A.rd (epsilon - mu)) with hxd
  by_cases h1 : x < -20
  on_goal 2 => by_cases h2 : x > 20
  on_goal 1 => rw [if_pos h1]
  on_goal 2 => rw [if_neg h1, if_pos h2]
  on_goal 3 => rw [if_neg h1, if_neg h2]
  · have e := h.exp_err x
    have l1 := h.exp_le_one x (by linarith)
    have l0 := h.exp_nonneg x
    have e1 : exp x ≤ 1 := exp_le_one_iff.2 (by linarith)
    have q := (lp_small x).trans (exp_sq_le' h1.le)
    have hl : |A.exp x - lp x₀| ≤ (u + η) + exp (-40) + (3 * u * |x₀| + η * (1 + 2 * beta)) := by
      have t : A.exp x - lp x₀ = (A.exp x - exp x) + -(lp x - exp x) + (lp x - lp x₀) := by ring
      rw [t]
      have a3 := abs_add_three (A.exp x - exp x) (-(lp x - exp x)) (lp x - lp x₀)
      rw [abs_neg] at a3
      have := lp_lip x₀ x
      have : u * exp x ≤ u * 1 := mul_le_mul_of_nonneg_left e1 u0
      linarith
    have S := sum_term h hu (T := (1 + |x₀|) / beta ^ 2) hb hη2 hl (by rw [abs_of_nonneg l0]; linarith) Pv (by rw [← o2]; exact oT)
    rw [← o2] at S
    rw [show -A.rd (epsilon - mu) * A.vfermi_function beta epsilon mu = -1 * A.rd (epsilon - mu) * A.vfermi_function beta epsilon mu by ring,
      add_comm (A.rd (A.rd (-1 * _ * _) / beta))]
    exact S.trans (F _ (by linarith))
  · have e := h.exp_err (-x)
    have l1 := h.exp_le_one (-x) (by linarith)
    have l0 := h.exp_nonneg (-x)
    have e1 : exp (-x) ≤ 1 := exp_le_one_iff.2 (by linarith)
    have q := (lp_small (-x)).trans (exp_sq_le' (show -x ≤ -20 by linarith))
    have hl : |A.exp (-x) - lp (-x₀)| ≤ (u + η) + exp (-40) + (3 * u * |x₀| + η * (1 + 2 * beta)) := by
      have t : A.exp (-x) - lp (-x₀) = (A.exp (-x) - exp (-x)) + -(lp (-x) - exp (-x)) + (lp (-x) - lp (-x₀)) := by ring
      rw [t]
      have a3 := abs_add_three (A.exp (-x) - exp (-x)) (-(lp (-x) - exp (-x))) (lp (-x) - lp (-x₀))
      rw [abs_neg (lp (-x) - _)] at a3
      have l := lp_lip (-x₀) (-x)
      rw [show -x - -x₀ = -(x - x₀) by ring, abs_neg] at l
      have : u * exp (-x) ≤ u * 1 := mul_le_mul_of_nonneg_left e1 u0
      linarith
    have S := sum_term h hu (T := (1 + |x₀|) / beta ^ 2) hb hη2 hl (by rw [abs_of_nonneg l0]; linarith) Pf (by rw [← o1]; exact oT)
    rw [← o1] at S
    rw [show A.rd (epsilon - mu) * A.fermi_function beta epsilon mu = 1 * A.rd (epsilon - mu) * A.fermi_function beta epsilon mu by ring,
      add_comm (A.rd (A.rd (1 * _ * _) / beta))]
    exact S.trans (F _ (by linarith))
  · have ef : A.fermi_function beta epsilon mu = A.rd (1 / A.rd (A.exp x + 1)) := by
      have c30 : (30.0 : ℝ) = 30 := by norm_num
      have c1 : (1.0 : ℝ) = 1 := by norm_num
      simp only [Arith.fermi_function, c30, c1, ← hxd]
      rw [if_neg (by linarith), if_neg (by linarith)]
    have m := (mid_f h hu hη' x).1
    rw [← ef] at m
    set f := A.fermi_function beta epsilon mu
    obtain ⟨lc, la⟩ := mid_log h hu hη1 (show -20 ≤ x by linarith) (show x ≤ 20 by linarith) m
    have hl : |-A.log f - lp x₀| ≤ (34 * u + 12 * (exp 21 * η)) + (3 * u * |x₀| + η * (1 + 2 * beta)) - η := by
      have := abs_sub_le (-A.log f) (lp x) (lp x₀)
      have := lp_lip x₀ x
      linarith
    have Q : |-A.rd (A.rd (1 * A.rd (epsilon - mu) * A.vfermi_function beta epsilon mu) / beta) - -1 * (epsilon - mu) * (1 - fd x₀) / beta| ≤
        (|epsilon - mu| * (6 * u + (20 * u + (17 + 4 * beta) * η + exp (-60))) + 3 * η) / beta + η := by
      rw [show -A.rd (A.rd (1 * A.rd (epsilon - mu) * A.vfermi_function beta epsilon mu) / beta) - -1 * (epsilon - mu) * (1 - fd x₀) / beta =
        -(A.rd (A.rd (1 * A.rd (epsilon - mu) * A.vfermi_function beta epsilon mu) / beta) - 1 * (epsilon - mu) * (1 - fd x₀) / beta) by ring, abs_neg]
      exact Pv'
    have S := sum_term h hu (T := (1 + |x₀|) / beta ^ 2) hb hη2 hl (by rw [abs_neg]; exact la) Q (by rw [← o2]; exact oT)
    rw [← o2] at S
    rw [sub_eq_add_neg (A.rd (-A.log f / _)),
      show A.rd (epsilon - mu) * A.vfermi_function beta epsilon mu = 1 * A.rd (epsilon - mu) * A.vfermi_function beta epsilon mu by ring]
    exact S.trans (F _ (by linarith))

/-- C88: the vectors of grand potentials of both spins and of derivatives are computed level by level. -/
theorem C88_vectors (A : Arith) (beta mu : ℝ) (ea eb : Vec) :
    ((A.uGP0 beta ea eb mu).1.len = ea.len ∧ (A.uGP0 beta ea eb mu).2.len = eb.len ∧ (A.dGP0 beta ea mu).len = ea.len) ∧
      (∀ i < ea.len, (A.uGP0 beta ea eb mu).1.val i = A.grand_potential0 beta (ea.val i) mu ∧
        (A.dGP0 beta ea mu).val i = A.dgrand_potential0 beta (ea.val i) mu) ∧
      ∀ i < eb.len, (A.uGP0 beta ea eb mu).2.val i = A.grand_potential0 beta (eb.val i) mu := by
  have ka := fun f : ℕ → ℝ => foldl_set f ea.len (zeros ea.len)
  have kb := fun f : ℕ → ℝ => foldl_set f eb.len (zeros eb.len)
  exact ⟨⟨(ka _).1, (kb _).1, (ka _).1⟩, fun i hi => ⟨((ka _).2 i).trans (if_pos hi), ((ka _).2 i).trans (if_pos hi)⟩,
    fun i hi => ((kb _).2 i).trans (if_pos hi)⟩

/-- three levels of one spin and one of the other -/
example (A : Arith) : (A.uGP0 2 ⟨3, fun i => i⟩ ⟨1, fun _ => 5⟩ 1).1.val 2 = A.grand_potential0 2 2 1 ∧
    (A.uGP0 2 ⟨3, fun i => i⟩ ⟨1, fun _ => 5⟩ 1).2.val 0 = A.grand_potential0 2 5 1 ∧ (A.dGP0 2 ⟨3, fun i => i⟩ 1).val 1 = A.dgrand_potential0 2 1 1 := by
  obtain ⟨-, h1, h2⟩ := C88_vectors A 2 1 ⟨3, fun i => i⟩ ⟨1, fun _ => 5⟩
  refine ⟨?_, h2 0 (by norm_num), ?_⟩
  · simpa using (h1 2 (by norm_num)).1
  · simpa using (h1 1 (by norm_num)).2

/-! ### cancellation -/

/-- Exact arithmetic but for a relative error `u` of the logarithm. -/
def loglike (u : ℝ) : Arith := ⟨id, exp, fun y => log y * (1 + u)⟩

theorem loglike_faithful {u : ℝ} (hu : 0 ≤ u) : (loglike u).Faithful u 0 where
  u0 := hu
  η0 := le_rfl
  mono := monotone_id
  zero := rfl
  one := rfl
  err x := by simp [loglike]; positivity
  exp_rd x := rfl
  exp_nonneg x := (exp_pos x).le
  exp_le_one x hx := exp_le_one_iff.2 hx
  exp_err x := by simp [loglike]; positivity
  log_err y _ := by
    have : log y * (1 + u) - log y = u * log y := by ring
    simp only [loglike, this, abs_mul, abs_of_nonneg hu, add_zero, le_refl]

theorem exp_twenty : (4 : ℝ) * 10 ^ 8 * (21 / 20) ≤ exp 20 := by
  have h2 : exp (20 : ℝ) = exp 1 ^ 20 := by rw [← exp_nat_mul]; norm_num
  have h := exp_one_gt_d9
  rw [h2]
  calc (4 : ℝ) * 10 ^ 8 * (21 / 20) ≤ 2.7182818283 ^ 20 := by norm_num
    _ ≤ _ := by gcongr

/-- C88: the bounds are absolute, and relative ones of that size do not hold.  At the upper end of the middle branch the logarithm cancels: with a unit of roundoff `u` the relative
error can be `4 10^8 u` (the code has `u = 10^-16`). -/
theorem C88_cancellation (u : ℝ) (hu : 0 ≤ u) : ∃ A : Arith, A.Faithful u 0 ∧ ∃ beta epsilon mu : ℝ, 0 < beta ∧
    0 < domega beta (epsilon - mu) ∧ 4 * 10 ^ 8 * u * domega beta (epsilon - mu) ≤ |A.dgrand_potential0 beta epsilon mu - domega beta (epsilon - mu)| ∧
    0 < -omega beta (epsilon - mu) ∧ 4 * 10 ^ 8 * u * -omega beta (epsilon - mu) ≤ |A.grand_potential0 beta epsilon mu - omega beta (epsilon - mu)| := by
  refine ⟨loglike u, loglike_faithful hu, 1, 20, 0, one_pos, ?_⟩
  have c20 : (20.0 : ℝ) = 20 := by norm_num
  have c30 : (30.0 : ℝ) = 30 := by norm_num
  have c1 : (1.0 : ℝ) = 1 := by norm_num
  have f : (loglike u).fermi_function 1 20 0 = fd 20 := by
    simp only [Arith.fermi_function, loglike, id, c30, c1]
    norm_num [fd]
  have v : (loglike u).vfermi_function 1 20 0 = 1 - fd 20 := by
    simp only [Arith.vfermi_function, loglike, id, c30, c1]
    norm_num [fd]
    have := exp_pos (20 : ℝ)
    field_simp
    ring
  have lf : log (fd 20) = -lp 20 := log_fd 20
  have ls : lp 20 = 20 + lp (-20) := log_split 20
  have d : (loglike u).dgrand_potential0 1 20 0 = lp 20 * (1 + u) - 20 * (1 - fd 20) := by
    simp only [Arith.dgrand_potential0, f, v, c20]
    norm_num [loglike, lf]
  have g : (loglike u).grand_potential0 1 20 0 = -lp 20 * (1 + u) + 20 := by
    simp only [Arith.grand_potential0, f, c20]
    norm_num [loglike, lf]
  have o : omega 1 (20 - 0) = -lp (-20) := by rw [omega_lp]; norm_num
  have dO : domega 1 (20 - 0) = lp (-20) + 20 * fd 20 := by rw [domega, lp]; norm_num
  obtain ⟨a1, a2⟩ := log_bounds (exp (-20)) (exp_pos _)
  have a2' : lp (-20) ≤ exp (-20) := a2
  have a0 : 0 < lp (-20) := log_pos (by linarith [exp_pos (-20 : ℝ)])
  have f1 := (fd_bounds 20).1
  have f0 := fd_pos 20
  have e := exp_twenty
  have ee : exp (-20 : ℝ) * exp 20 = 1 := by rw [← exp_add]; norm_num
  have en := exp_pos (-20 : ℝ)
  have k : (4 : ℝ) * 10 ^ 8 * (21 / 20) * exp (-20) ≤ 1 := by
    have := mul_le_mul_of_nonneg_left e en.le
    linarith
  rw [d, g, o, dO]
  have t1 : lp 20 * (1 + u) - 20 * (1 - fd 20) - (lp (-20) + 20 * fd 20) = u * lp 20 := by rw [ls]; ring
  have t2 : -lp 20 * (1 + u) + 20 - -lp (-20) = -(u * lp 20) := by rw [ls]; ring
  have l20 : 20 ≤ lp 20 := by rw [ls]; linarith
  rw [t1, t2, abs_neg, abs_of_nonneg (by positivity)]
  have m : u * 20 ≤ u * lp 20 := mul_le_mul_of_nonneg_left l20 hu
  have b1 : 4 * 10 ^ 8 * (lp (-20) + 20 * fd 20) ≤ 20 := by linarith
  have b2 : 4 * 10 ^ 8 * lp (-20) ≤ 20 := by linarith
  have b1' := mul_le_mul_of_nonneg_left b1 hu
  have b2' := mul_le_mul_of_nonneg_left b2 hu
  refine ⟨by linarith, by linarith, by linarith, by linarith⟩

/-- Fifteen decimals. -/
example (epsilon mu : ℝ) (hx : |2 * (epsilon - mu)| ≤ 9) : |(fixed (10 ^ 15)).dgrand_potential0 2 epsilon mu - domega 2 (epsilon - mu)| ≤ 1 / 100 := by
  have h21 : exp (21 : ℝ) ≤ 2.7182818286 ^ 21 := by
    have h2 : exp (21 : ℝ) = exp 1 ^ 21 := by rw [← exp_nat_mul]; norm_num
    rw [h2]
    gcongr
    exact exp_one_lt_d9.le
  have h21' : exp (21 : ℝ) ≤ 14 * 10 ^ 8 := h21.trans (by norm_num)
  have c : ((10 ^ 15 : ℕ) : ℝ) = 10 ^ 15 := by norm_num
  refine (C88_dgrand_potential (fixed_faithful (10 ^ 15) (by norm_num)) (by norm_num) 2 epsilon mu (by norm_num) ?_ ?_).trans ?_
  · rw [c]; norm_num at h21' ⊢; linarith
  · rw [c]; norm_num
  have : exp (-40 : ℝ) ≤ 1 / 10 ^ 10 := by
    rw [exp_neg, ← one_div]
    apply one_div_le_one_div_of_le (by norm_num)
    have h := add_one_le_exp (1 : ℝ)
    have h2 : exp (40 : ℝ) = exp 1 ^ 40 := by rw [← exp_nat_mul]; norm_num
    rw [h2]
    calc (10 : ℝ) ^ 10 ≤ 2 ^ 40 := by norm_num
      _ ≤ _ := by gcongr; linarith
  rw [c]
  have b0 := abs_nonneg (2 * (epsilon - mu))
  have b : (90 * 0 + 2 * exp (-40) + 40 * (exp 21 * (1 / 10 ^ 15)) * (1 + 2)) * (1 + |2 * (epsilon - mu)|) ≤ (2 / 10 ^ 10 + 40 * (14 / 10 ^ 7) * 3) * 10 := by
    refine mul_le_mul ?_ (by linarith) (by positivity) (by norm_num)
    norm_num at this h21' ⊢
    linarith
  norm_num at b ⊢
  linarith

end Ft
end
