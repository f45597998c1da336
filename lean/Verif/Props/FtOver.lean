import Verif.Model.FtOver
import Verif.Props.Binary
/-!
# C85: overflow, infinities and NaN in the finite-temperature helpers
-/
noncomputable section
namespace Ft
open Real X

/-- Floating-point arithmetic: faithful rounding, rounded numbers and the largest number are not changed by rounding. -/
structure Mach.Good (A : Mach) (u η : ℝ) : Prop extends A.Faithful u η where
  idem : ∀ x, A.rd (A.rd x) = A.rd x
  rd_big : A.rd A.big = A.big
  rd_nbig : A.rd (-A.big) = -A.big
  big_large : 10 ^ 20 ≤ A.big
  u_small : u ≤ 1 / 100
  η_small : exp 21 * η ≤ 1 / 100
  log_nonpos : ∀ y, 0 < y → y ≤ 1 → A.log y ≤ 0

namespace Mach
variable {A : Mach} {u η : ℝ}

theorem out_ne (x : ℝ) : A.out x ≠ nan := by unfold out; split_ifs <;> exact fun h => by cases h

theorem out_cases (x : ℝ) : A.out x = pinf ∨ A.out x = ninf ∨ A.out x = fin (A.rd x) := by
  unfold out
  split_ifs
  exacts [Or.inl rfl, Or.inr (Or.inl rfl), Or.inr (Or.inr rfl)]

section
variable (h : A.Good u η)
include h

theorem Good.η_le : η ≤ 1 / 100 := by
  have := h.η_small
  have h1 : (1 : ℝ) ≤ exp 21 := one_le_exp (by norm_num)
  nlinarith [h.η0]

theorem out_eq {x : ℝ} (hx : |x| ≤ A.big) : A.out x = fin (A.rd x) := by
  rw [abs_le] at hx
  have a := h.mono hx.1
  have b := h.mono hx.2
  rw [h.rd_big] at b
  rw [h.rd_nbig] at a
  rw [out, if_neg (not_lt.2 b), if_neg (not_lt.2 a)]

theorem rd_le {x B : ℝ} (hx : |x| ≤ B) : |A.rd x| ≤ 101 / 100 * B + 1 / 100 := by
  have e := h.err x
  have t := abs_add_le (A.rd x - x) x
  rw [sub_add_cancel] at t
  have := h.u_small
  have := h.η_le
  have : u * |x| ≤ 1 / 100 * B := mul_le_mul ‹_› hx (abs_nonneg _) (by norm_num)
  linarith

theorem exp_le {x : ℝ} (hx : x ≤ 30) : A.exp x ≤ 10 ^ 19 := by
  have e := (abs_le.1 (h.exp_err x)).2
  have h1 : Real.exp x ≤ Real.exp 30 := Real.exp_le_exp.2 hx
  have h2 : Real.exp 30 ≤ 10 ^ 18 := by
    have : Real.exp 30 = Real.exp 1 ^ 30 := by rw [← Real.exp_nat_mul]; norm_num
    rw [this]
    calc Real.exp 1 ^ 30 ≤ 3 ^ 30 := by
          have := Real.exp_one_lt_d9
          gcongr
          linarith
      _ ≤ _ := by norm_num
  have := h.u_small
  have := h.η_le
  have := h.u0
  have := Real.exp_pos x
  nlinarith

theorem exp'_eq {x : ℝ} (hx : x ≤ 30) : A.exp' (fin x) = fin (A.exp x) := by
  have := exp_le h hx
  have := h.big_large
  rw [exp', if_neg (by linarith)]

theorem out_one : ∀ y, 0 ≤ y → y ≤ 1 → A.out y = fin (A.rd y) := fun y h0 h1 =>
  out_eq h (by rw [abs_of_nonneg h0]; have := h.big_large; linarith)

/-- Occupation numbers as functions of `x = beta * (epsilon - mu)`, when that is a number. -/
theorem fermi_fin {beta epsilon mu : X} {x b e m : ℝ} (hx : A.mul beta (A.sub epsilon mu) = fin x) (he : A.rd (b * A.rd (e - m)) = x) :
    A.fermi beta epsilon mu = fin (A.toArith.fermi_function b e m) ∧ A.vfermi beta epsilon mu = fin (A.toArith.vfermi_function b e m) := by
  have c1 : (1.0 : ℝ) = 1 := by norm_num
  have c30 : (30.0 : ℝ) = 30 := by norm_num
  have e0 := h.exp_nonneg x
  have lg := h.big_large
  have sumfin : x ≤ 30 → A.add (fin (A.exp x)) (fin 1) = fin (A.rd (A.exp x + 1)) := by
    intro hx
    have := exp_le h hx
    exact out_eq h (by rw [abs_of_nonneg (by linarith)]; linarith)
  have s1 : 1 ≤ A.rd (A.exp x + 1) := by
    have := h.mono (show (1 : ℝ) ≤ A.exp x + 1 by linarith)
    rwa [h.one] at this
  have s2 : A.exp x ≤ A.rd (A.exp x + 1) := by
    have := h.mono (show A.exp x ≤ A.exp x + 1 by linarith)
    rwa [h.exp_rd] at this
  have s0 : (0 : ℝ) < A.rd (A.exp x + 1) := by linarith
  have q1 : A.out (1 / A.rd (A.exp x + 1)) = fin (A.rd (1 / A.rd (A.exp x + 1))) := out_one h _ (by positivity) (by rw [div_le_one s0]; exact s1)
  have q2 : A.out (A.exp x / A.rd (A.exp x + 1)) = fin (A.rd (A.exp x / A.rd (A.exp x + 1))) := out_one h _ (by positivity) (by rw [div_le_one s0]; exact s2)
  constructor
  · simp only [fermi, Arith.fermi_function, hx, he, c1, c30, X.Lt, X.Gt]
    split_ifs with h1 h2
    · rw [exp'_eq h (by linarith)]
      have := h.exp_le_one x (by linarith)
      show A.out (1 + -A.exp x) = _
      rw [← sub_eq_add_neg]
      exact out_one h _ (by linarith) (by linarith)
    · exact exp'_eq h (by linarith)
    · rw [exp'_eq h (by linarith), sumfin (by linarith)]
      show (if A.rd (A.exp x + 1) = 0 then _ else _) = _
      rw [if_neg s0.ne', q1]
  · simp only [vfermi, Arith.vfermi_function, hx, he, c1, c30, X.Lt, X.Gt]
    split_ifs with h1 h2
    · have h1' : -x ≤ 0 := by linarith
      show A.sub (fin 1) (A.exp' (fin (-x))) = _
      rw [exp'_eq h (by linarith)]
      have := h.exp_le_one (-x) h1'
      have := h.exp_nonneg (-x)
      show A.out (1 + -A.exp (-x)) = _
      rw [← sub_eq_add_neg]
      exact out_one h _ (by linarith) (by linarith)
    · exact exp'_eq h (by linarith)
    · rw [exp'_eq h (by linarith), sumfin (by linarith)]
      show (if A.rd (A.exp x + 1) = 0 then _ else _) = _
      rw [if_neg s0.ne', q2]

theorem fermi_pinf {beta epsilon mu : X} (hx : A.mul beta (A.sub epsilon mu) = pinf) : A.fermi beta epsilon mu = fin 0 ∧ A.vfermi beta epsilon mu = fin 1 := by
  have c1 : (1.0 : ℝ) = 1 := by norm_num
  constructor
  · simp only [fermi, hx, X.Lt, X.Gt, if_true, if_false]
    rfl
  · simp only [vfermi, hx, X.Gt, if_true, c1]
    show A.out (1 + -0) = _
    rw [neg_zero, add_zero, out_one h 1 (by norm_num) le_rfl, h.one]

theorem fermi_ninf {beta epsilon mu : X} (hx : A.mul beta (A.sub epsilon mu) = ninf) : A.fermi beta epsilon mu = fin 1 ∧ A.vfermi beta epsilon mu = fin 0 := by
  have c1 : (1.0 : ℝ) = 1 := by norm_num
  constructor
  · simp only [fermi, hx, X.Lt, if_true, c1]
    show A.out (1 + -0) = _
    rw [neg_zero, add_zero, out_one h 1 (by norm_num) le_rfl, h.one]
  · simp only [vfermi, hx, X.Lt, X.Gt, if_true, if_false]
    rfl

omit h in
theorem fermi_nan {beta epsilon mu : X} (hx : A.mul beta (A.sub epsilon mu) = nan) :
    A.fermi beta epsilon mu = nan ∧ A.vfermi beta epsilon mu = nan ∧ A.grand beta epsilon mu = nan ∧ A.dgrand beta epsilon mu = nan := by
  have hf : A.fermi beta epsilon mu = nan := by simp only [fermi, hx, X.Lt, X.Gt, if_false]; rfl
  have hv : A.vfermi beta epsilon mu = nan := by simp only [vfermi, hx, X.Lt, X.Gt, if_false]; rfl
  refine ⟨hf, hv, ?_, ?_⟩
  · simp only [grand, hx, X.Lt, X.Gt, if_false, hf]
    rfl
  · simp only [dgrand, hx, X.Lt, X.Gt, if_false, hf]
    rfl


/-- The logarithm of an occupation number that is not close to 0. -/
theorem log_fermi {b e m : ℝ} (h1 : -20 ≤ A.rd (b * A.rd (e - m))) (h2 : A.rd (b * A.rd (e - m)) ≤ 20) :
    0 < A.toArith.fermi_function b e m ∧ |A.log (A.toArith.fermi_function b e m)| ≤ 25 := by
  have c1 : (1.0 : ℝ) = 1 := by norm_num
  have c30 : (30.0 : ℝ) = 30 := by norm_num
  have hr := (C70_range h.toFaithful b e m).1.2
  simp only [Arith.fermi_function, c1, c30] at hr ⊢
  generalize A.rd (b * A.rd (e - m)) = x at *
  rw [if_neg (by linarith), if_neg (by linarith)] at hr ⊢
  have u0 := h.u0
  have u1 := h.u_small
  have η1 := h.η_le
  have e0 := h.exp_nonneg x
  have ee := (abs_le.1 (h.exp_err x)).2
  have hx : Real.exp x ≤ Real.exp 20 := Real.exp_le_exp.2 h2
  have p20 := Real.exp_pos 20
  have g20 : (100 : ℝ) ≤ Real.exp 20 := by
    have : Real.exp 20 = Real.exp 1 ^ 20 := by rw [← Real.exp_nat_mul]; norm_num
    rw [this]
    have := Real.add_one_le_exp (1 : ℝ)
    calc (100 : ℝ) ≤ 2 ^ 20 := by norm_num
      _ ≤ _ := by gcongr; linarith
  have k1 : A.exp x ≤ 101 / 100 * Real.exp 20 + 1 / 100 := by nlinarith [Real.exp_pos x]
  have s1 : 1 ≤ A.rd (A.exp x + 1) := by
    have := h.mono (show (1 : ℝ) ≤ A.exp x + 1 by linarith)
    rwa [h.one] at this
  have k2 := rd_le h (x := A.exp x + 1) (B := 101 / 100 * Real.exp 20 + 101 / 100) (by rw [abs_of_nonneg (by linarith)]; linarith)
  rw [abs_of_nonneg (by linarith)] at k2
  set s := A.rd (A.exp x + 1)
  have k3 : s ≤ 2 * Real.exp 20 := by linarith
  have k4 : 1 / (2 * Real.exp 20) ≤ 1 / s := one_div_le_one_div_of_le (by linarith) k3
  have k5 := h.err_pos (show 0 ≤ 1 / s by positivity)
  have k6 := (abs_le.1 k5).1
  have E : 1 / (2 * Real.exp 20) = Real.exp (-20) / 2 := by rw [Real.exp_neg]; field_simp
  rw [E] at k4
  have m21 : η ≤ 1 / 100 * Real.exp (-20) := by
    have := h.η_small
    have e21 : Real.exp 21 = Real.exp 20 * Real.exp 1 := by rw [← Real.exp_add]; norm_num
    have e1 : 1 ≤ Real.exp 1 := Real.one_le_exp (by norm_num)
    rw [Real.exp_neg]
    rw [← div_eq_mul_inv, le_div_iff₀ p20]
    nlinarith [h.η0, mul_nonneg h.η0 p20.le]
  have k7 : u * (1 / s) ≤ 1 / 100 * (1 / s) := mul_le_mul_of_nonneg_right u1 (by positivity)
  have k8 : Real.exp (-23) ≤ A.rd (1 / s) := by
    have : Real.exp (-23) = Real.exp (-20) * Real.exp (-3) := by rw [← Real.exp_add]; norm_num
    have e3 : Real.exp (-3) ≤ 1 / 8 := by
      rw [Real.exp_neg, inv_eq_one_div]
      apply one_div_le_one_div_of_le (by norm_num)
      have h3 : Real.exp 3 = Real.exp 1 ^ 3 := by rw [← Real.exp_nat_mul]; norm_num
      rw [h3]
      have := Real.add_one_le_exp (1 : ℝ)
      calc (8 : ℝ) = 2 ^ 3 := by norm_num
        _ ≤ _ := by gcongr; linarith
    rw [this]
    have q := Real.exp_pos (-20)
    nlinarith
  have pos : 0 < A.rd (1 / s) := (Real.exp_pos _).trans_le k8
  refine ⟨pos, ?_⟩
  have l1 : -23 ≤ Real.log (A.rd (1 / s)) := by rw [Real.le_log_iff_exp_le pos]; exact k8
  have l2 : Real.log (A.rd (1 / s)) ≤ 0 := Real.log_nonpos pos.le hr
  have l3 := h.log_err _ pos
  have l4 : |Real.log (A.rd (1 / s))| ≤ 23 := abs_le.2 ⟨l1, by linarith⟩
  have l5 := abs_add_le (A.log (A.rd (1 / s)) - Real.log (A.rd (1 / s))) (Real.log (A.rd (1 / s)))
  rw [sub_add_cancel] at l5
  have l6 : u * |Real.log (A.rd (1 / s))| ≤ 1 / 100 * 23 := mul_le_mul u1 l4 (abs_nonneg _) (by norm_num)
  linarith

omit h in
theorem sub_fin (a b : ℝ) : A.sub (fin a) (fin b) = A.out (a - b) := by
  show A.out (a + -b) = _
  rw [← sub_eq_add_neg]

/-- C85: for energies and chemical potentials up to `M` and inverse temperatures between `1/M` and `M` nothing overflows, and the routines are those of the
model without overflow, to which C70 applies.  In double precision `M = 10^150` will do. -/
theorem C85_no_overflow {M : ℝ} (hM : 1 ≤ M) (hb : 200 * M ^ 2 ≤ A.big) (hη : 4 * M ^ 2 * η ≤ 1) {beta epsilon mu : ℝ} (h1 : |epsilon| ≤ M) (h2 : |mu| ≤ M)
    (h3 : 1 / M ≤ |beta|) (h4 : |beta| ≤ M) :
    A.fermi (fin beta) (fin epsilon) (fin mu) = fin (A.toArith.fermi_function beta epsilon mu) ∧
      A.vfermi (fin beta) (fin epsilon) (fin mu) = fin (A.toArith.vfermi_function beta epsilon mu) ∧
      A.grand (fin beta) (fin epsilon) (fin mu) = fin (A.toArith.grand_potential0 beta epsilon mu) ∧
      A.dgrand (fin beta) (fin epsilon) (fin mu) = fin (A.toArith.dgrand_potential0 beta epsilon mu) := by
  have M0 : 0 < M := by linarith
  have M2 : M ≤ M ^ 2 := by nlinarith
  have M1 : 1 ≤ M ^ 2 := by linarith
  have b0 : 0 < |beta| := (by positivity : 0 < 1 / M).trans_le h3
  have bne : beta ≠ 0 := abs_pos.1 b0
  have hd : |epsilon - mu| ≤ 2 * M := (abs_sub _ _).trans (by linarith)
  have E1 : A.sub (fin epsilon) (fin mu) = fin (A.rd (epsilon - mu)) := by rw [sub_fin]; exact out_eq h (by linarith)
  have B1 := rd_le h hd
  have B1 : |A.rd (epsilon - mu)| ≤ 3 * M := by linarith
  have E2 : A.mul (fin beta) (A.sub (fin epsilon) (fin mu)) = fin (A.rd (beta * A.rd (epsilon - mu))) := by
    rw [E1]
    refine out_eq h ?_
    rw [abs_mul]
    have := mul_le_mul h4 B1 (abs_nonneg _) M0.le
    nlinarith
  obtain ⟨Ef, Ev⟩ := fermi_fin h E2 rfl
  have c20 : (20.0 : ℝ) = 20 := by norm_num
  have over (y K : ℝ) (hy : |y| ≤ K) : |y / beta| ≤ K * M := by
    rw [abs_div, div_le_iff₀ b0]
    have K0 : 0 ≤ K := (abs_nonneg y).trans hy
    have : 1 ≤ M * |beta| := by rw [div_le_iff₀ M0] at h3; linarith
    nlinarith [mul_le_mul_of_nonneg_left this K0]
  have hdiv (y : ℝ) : A.div (fin y) (fin beta) = A.out (y / beta) := if_neg bne
  refine ⟨Ef, Ev, ?_, ?_⟩
  · have E3 := E2
    rw [E1] at E3
    simp only [grand, Arith.grand_potential0, E1, E3, Ef, c20, X.Lt, X.Gt]
    split_ifs with g1 g2
    · have e0 := h.exp_nonneg (A.rd (beta * A.rd (epsilon - mu)))
      have e1 := h.exp_le_one _ (show A.rd (beta * A.rd (epsilon - mu)) ≤ 0 by linarith)
      rw [exp'_eq h (by linarith)]
      show A.add (A.div (fin (-_)) _) _ = _
      have o := over (-A.exp (A.rd (beta * A.rd (epsilon - mu)))) 1 (by rw [abs_neg, abs_of_nonneg e0]; exact e1)
      rw [hdiv, out_eq h (by linarith)]
      have r := rd_le h o
      exact out_eq h ((abs_add_le _ _).trans (by linarith))
    · have e0 := h.exp_nonneg (-A.rd (beta * A.rd (epsilon - mu)))
      have e1 := h.exp_le_one _ (show -A.rd (beta * A.rd (epsilon - mu)) ≤ 0 by linarith)
      show A.div (A.exp' (fin (-_))).neg _ = _
      rw [exp'_eq h (by linarith)]
      show A.div (fin (-_)) _ = _
      have o := over (-A.exp (-A.rd (beta * A.rd (epsilon - mu)))) 1 (by rw [abs_neg, abs_of_nonneg e0]; exact e1)
      rw [hdiv, out_eq h (by linarith)]
    · obtain ⟨f0, fl⟩ := log_fermi h (b := beta) (e := epsilon) (m := mu) (by linarith) (by linarith)
      rw [log', if_pos f0, hdiv]
      have o := over _ 25 fl
      rw [out_eq h (by linarith)]
      have r := rd_le h o
      exact out_eq h ((abs_add_le _ _).trans (by linarith))
  · have hbb : |beta * beta| ≤ M ^ 2 := by rw [abs_mul]; nlinarith
    have hbb' : 1 / M ^ 2 ≤ beta * beta := by
      rw [← abs_mul_abs_self beta, show 1 / M ^ 2 = 1 / M * (1 / M) by field_simp]
      exact mul_le_mul h3 h3 (by positivity) b0.le
    have Ebb : A.mul (fin beta) (fin beta) = fin (A.rd (beta * beta)) := out_eq h (by linarith)
    have Bbb : 1 / (2 * M ^ 2) ≤ A.rd (beta * beta) := by
      have e := (abs_le.1 (h.err_pos (show 0 ≤ beta * beta by nlinarith [mul_self_nonneg beta]))).1
      have u1 := h.u_small
      have e2 : u * (beta * beta) ≤ 1 / 100 * (beta * beta) := mul_le_mul_of_nonneg_right u1 (mul_self_nonneg _)
      have e3 : η ≤ 1 / 4 * (1 / M ^ 2) := by
        rw [mul_one_div, le_div_iff₀ (by positivity)]
        linarith
      have e4 : 1 / (2 * M ^ 2) = 1 / 2 * (1 / M ^ 2) := by field_simp
      rw [e4]
      have : 0 < 1 / M ^ 2 := by positivity
      linarith
    have Nbb : 0 < A.rd (beta * beta) := (by positivity : 0 < 1 / (2 * M ^ 2)).trans_le Bbb
    have over2 (y K : ℝ) (hy : |y| ≤ K) : |y / A.rd (beta * beta)| ≤ K * (2 * M ^ 2) := by
      rw [abs_div, abs_of_pos Nbb, div_le_iff₀ Nbb]
      have K0 : 0 ≤ K := (abs_nonneg y).trans hy
      have : 1 ≤ 2 * M ^ 2 * A.rd (beta * beta) := by rw [div_le_iff₀ (by positivity)] at Bbb; linarith
      nlinarith [mul_le_mul_of_nonneg_left this K0]
    have hdiv2 (y : ℝ) : A.div (fin y) (fin (A.rd (beta * beta))) = A.out (y / A.rd (beta * beta)) := if_neg Nbb.ne'
    have rf := C70_range h.toFaithful beta epsilon mu
    -- a product of the energy with an occupation number
    have prod (y f : ℝ) (hy : |y| ≤ 3 * M) (f0 : 0 ≤ f) (f1 : f ≤ 1) : A.mul (fin y) (fin f) = fin (A.rd (y * f)) ∧ |A.rd (y * f) / beta| ≤ 4 * M ^ 2 := by
      have : |y * f| ≤ 3 * M := by
        rw [abs_mul, abs_of_nonneg f0]
        exact (mul_le_mul hy f1 f0 (by linarith)).trans (by linarith)
      exact ⟨out_eq h (by linarith), (over _ (4 * M) (by have := rd_le h this; linarith)).trans (le_of_eq (by ring))⟩
    have E3 := E2
    rw [E1] at E3
    simp only [dgrand, Arith.dgrand_potential0, E1, E3, Ef, Ev, c20, Ebb, X.Lt, X.Gt]
    split_ifs with g1 g2
    · have e0 := h.exp_nonneg (A.rd (beta * A.rd (epsilon - mu)))
      have e1 := h.exp_le_one _ (show A.rd (beta * A.rd (epsilon - mu)) ≤ 0 by linarith)
      obtain ⟨p1, p2⟩ := prod (-A.rd (epsilon - mu)) _ (by rwa [abs_neg]) rf.2.1 rf.2.2
      rw [exp'_eq h (by linarith)]
      show A.add (A.div (A.mul (fin (-_)) _) _) _ = _
      have o := over2 (A.exp (A.rd (beta * A.rd (epsilon - mu)))) 1 (by rw [abs_of_nonneg e0]; exact e1)
      rw [p1, hdiv, hdiv2, out_eq h (by linarith), out_eq h (by linarith)]
      have r1 := rd_le h p2
      have r2 := rd_le h o
      exact out_eq h ((abs_add_le _ _).trans (by linarith))
    · have e0 := h.exp_nonneg (-A.rd (beta * A.rd (epsilon - mu)))
      have e1 := h.exp_le_one _ (show -A.rd (beta * A.rd (epsilon - mu)) ≤ 0 by linarith)
      obtain ⟨p1, p2⟩ := prod (A.rd (epsilon - mu)) _ B1 rf.1.1 rf.1.2
      show A.add (A.div (A.mul (fin _) _) _) (A.div (A.exp' (fin (-_))) _) = _
      rw [exp'_eq h (by linarith)]
      have o := over2 (A.exp (-A.rd (beta * A.rd (epsilon - mu)))) 1 (by rw [abs_of_nonneg e0]; exact e1)
      rw [p1, hdiv, hdiv2, out_eq h (by linarith), out_eq h (by linarith)]
      have r1 := rd_le h p2
      have r2 := rd_le h o
      exact out_eq h ((abs_add_le _ _).trans (by linarith))
    · obtain ⟨f0, fl⟩ := log_fermi h (b := beta) (e := epsilon) (m := mu) (by linarith) (by linarith)
      obtain ⟨p1, p2⟩ := prod (A.rd (epsilon - mu)) _ B1 rf.2.1 rf.2.2
      rw [log', if_pos f0]
      show A.sub (A.div (fin (-_)) _) (A.div (A.mul (fin _) _) _) = _
      have o := over2 (-A.log (A.toArith.fermi_function beta epsilon mu)) 25 (by rwa [abs_neg])
      rw [p1, hdiv, hdiv2, out_eq h (by linarith), out_eq h (by linarith), sub_fin]
      have r1 := rd_le h p2
      have r2 := rd_le h o
      exact out_eq h ((abs_sub _ _).trans (by linarith))

/-! ### no NaN -/

omit h in
theorem mul_fin (a b : ℝ) : A.mul (fin a) (fin b) = A.out (a * b) := rfl

omit h in
theorem out_rd {y : ℝ} (hy : |A.rd y| ≤ A.big) : A.out y = fin (A.rd y) := by
  rw [abs_le] at hy
  rw [out, if_neg (not_lt.2 hy.2), if_neg (not_lt.2 hy.1)]

theorem big_pos : 0 < A.big := by have := h.big_large; linarith

/-- The three ways a result can come out, with the reason. -/
theorem out_split (y : ℝ) : (A.out y = pinf ∧ 0 < y ∧ A.big < A.rd y) ∨ (A.out y = ninf ∧ y < 0 ∧ A.rd y < -A.big) ∨ (A.out y = fin (A.rd y) ∧ |A.rd y| ≤ A.big) := by
  have b := big_pos h
  by_cases h1 : A.big < A.rd y
  · refine Or.inl ⟨by rw [out, if_pos h1], ?_, h1⟩
    by_contra hc
    have := h.mono (not_lt.1 hc)
    rw [h.zero] at this
    linarith
  · by_cases h2 : A.rd y < -A.big
    · refine Or.inr (Or.inl ⟨by rw [out, if_neg h1, if_pos h2], ?_, h2⟩)
      by_contra hc
      have := h.mono (not_lt.1 hc)
      rw [h.zero] at this
      linarith
    · exact Or.inr (Or.inr ⟨by rw [out, if_neg h1, if_neg h2], abs_le.2 ⟨not_lt.1 h2, not_lt.1 h1⟩⟩)

/-- C85: whatever the (finite) arguments, occupation numbers are numbers between 0 and 1, except when `beta` is zero and `epsilon - mu` overflows. -/
theorem C85_occupations (beta epsilon mu : ℝ) :
    (∃ f v, A.fermi (fin beta) (fin epsilon) (fin mu) = fin f ∧ A.vfermi (fin beta) (fin epsilon) (fin mu) = fin v ∧ 0 ≤ f ∧ f ≤ 1 ∧ 0 ≤ v ∧ v ≤ 1) ∨
      (beta = 0 ∧ A.big < |A.rd (epsilon - mu)| ∧ A.fermi (fin beta) (fin epsilon) (fin mu) = nan ∧ A.vfermi (fin beta) (fin epsilon) (fin mu) = nan) := by
  have one : ∀ f v, A.fermi (fin beta) (fin epsilon) (fin mu) = fin f ∧ A.vfermi (fin beta) (fin epsilon) (fin mu) = fin v → 0 ≤ f ∧ f ≤ 1 → 0 ≤ v ∧ v ≤ 1 →
      ∃ f v, A.fermi (fin beta) (fin epsilon) (fin mu) = fin f ∧ A.vfermi (fin beta) (fin epsilon) (fin mu) = fin v ∧ 0 ≤ f ∧ f ≤ 1 ∧ 0 ≤ v ∧ v ≤ 1 :=
    fun f v h1 h2 h3 => ⟨f, v, h1.1, h1.2, h2.1, h2.2, h3.1, h3.2⟩
  have up : A.mul (fin beta) (A.sub (fin epsilon) (fin mu)) = pinf → ∃ f v, A.fermi (fin beta) (fin epsilon) (fin mu) = fin f ∧ A.vfermi (fin beta) (fin epsilon) (fin mu) = fin v ∧ 0 ≤ f ∧ f ≤ 1 ∧ 0 ≤ v ∧ v ≤ 1 :=
    fun hx => one _ _ (fermi_pinf h hx) (by norm_num) (by norm_num)
  have dn : A.mul (fin beta) (A.sub (fin epsilon) (fin mu)) = ninf → ∃ f v, A.fermi (fin beta) (fin epsilon) (fin mu) = fin f ∧ A.vfermi (fin beta) (fin epsilon) (fin mu) = fin v ∧ 0 ≤ f ∧ f ≤ 1 ∧ 0 ≤ v ∧ v ≤ 1 :=
    fun hx => one _ _ (fermi_ninf h hx) (by norm_num) (by norm_num)
  have infty : ∀ s, A.mul (fin beta) (A.sub (fin epsilon) (fin mu)) = X.inf s → (s = 0 → beta = 0) → A.big < |A.rd (epsilon - mu)| →
      (∃ f v, A.fermi (fin beta) (fin epsilon) (fin mu) = fin f ∧ A.vfermi (fin beta) (fin epsilon) (fin mu) = fin v ∧ 0 ≤ f ∧ f ≤ 1 ∧ 0 ≤ v ∧ v ≤ 1) ∨
      (beta = 0 ∧ A.big < |A.rd (epsilon - mu)| ∧ A.fermi (fin beta) (fin epsilon) (fin mu) = nan ∧ A.vfermi (fin beta) (fin epsilon) (fin mu) = nan) := by
    intro s hs hs0 hbig
    rcases lt_trichotomy s 0 with h1 | h1 | h1
    · exact Or.inl (dn (by rw [hs, X.inf, if_neg (not_lt.2 h1.le), if_pos h1]))
    · have := fermi_nan (by rw [hs, X.inf, if_neg (by rw [h1]; exact lt_irrefl _), if_neg (by rw [h1]; exact lt_irrefl _)] :
        A.mul (fin beta) (A.sub (fin epsilon) (fin mu)) = nan)
      exact Or.inr ⟨hs0 h1, hbig, this.1, this.2.1⟩
    · exact Or.inl (up (by rw [hs, X.inf, if_pos h1]))
  rcases out_split h (epsilon - mu) with ⟨h1, -, h2⟩ | ⟨h1, -, h2⟩ | ⟨h1, -⟩
  · exact infty beta (by rw [sub_fin, h1]; rfl) id (h2.trans_le (le_abs_self _))
  · exact infty (-beta) (by rw [sub_fin, h1]; rfl) neg_eq_zero.1 (by have := neg_le_abs (A.rd (epsilon - mu)); linarith)
  · left
    rcases out_split h (beta * A.rd (epsilon - mu)) with ⟨g1, -⟩ | ⟨g1, -⟩ | ⟨g1, -⟩
    · exact up (by rw [sub_fin, h1, mul_fin, g1])
    · exact dn (by rw [sub_fin, h1, mul_fin, g1])
    · have r := C70_range h.toFaithful beta epsilon mu
      exact one _ _ (fermi_fin h (by rw [sub_fin, h1, mul_fin, g1]) rfl) r.1 r.2

omit h in
theorem add_fin_ne {z : X} (hz : z ≠ nan) (e : ℝ) : A.add z (fin e) ≠ nan := by
  cases z with
  | fin x => exact out_ne _
  | nan => exact absurd rfl hz
  | _ => exact nofun

omit h in
theorem div_ne {y b : ℝ} (hb : b ≠ 0) : A.div (fin y) (fin b) = A.out (y / b) := if_neg hb

/-- At `beta = 0` the occupation numbers are about one half. -/
theorem fermi_zero (epsilon mu : ℝ) : 45 / 100 ≤ A.toArith.fermi_function 0 epsilon mu ∧ A.toArith.fermi_function 0 epsilon mu ≤ 55 / 100 ∧
    A.log (A.toArith.fermi_function 0 epsilon mu) < 0 := by
  have c1 : (1.0 : ℝ) = 1 := by norm_num
  have c30 : (30.0 : ℝ) = 30 := by norm_num
  simp only [Arith.fermi_function, c1, c30, zero_mul, h.zero]
  rw [if_neg (by norm_num), if_neg (by norm_num)]
  have u0 := h.u0
  have u1 := h.u_small
  have η0 := h.η0
  have η1 := h.η_le
  have e1 := abs_le.1 (h.exp_err 0)
  rw [Real.exp_zero, mul_one] at e1
  have e2 := h.exp_le_one 0 le_rfl
  have k := abs_le.1 (h.err_pos (show 0 ≤ A.exp 0 + 1 by linarith))
  have k1 : u * (A.exp 0 + 1) ≤ 1 / 100 * 2 := mul_le_mul u1 (by linarith) (by linarith) (by norm_num)
  set s := A.rd (A.exp 0 + 1)
  have s1 : 195 / 100 ≤ s := by linarith
  have s2 : s ≤ 205 / 100 := by linarith
  have q1 : 48 / 100 ≤ 1 / s := by rw [le_div_iff₀ (by linarith)]; linarith
  have q2 : 1 / s ≤ 52 / 100 := by rw [div_le_iff₀ (by linarith)]; linarith
  have m := abs_le.1 (h.err_pos (show 0 ≤ 1 / s by linarith))
  have m1 : u * (1 / s) ≤ 1 / 100 * (52 / 100) := mul_le_mul u1 q2 (by linarith) (by norm_num)
  have r1 : 45 / 100 ≤ A.rd (1 / s) := by linarith
  have r2 : A.rd (1 / s) ≤ 55 / 100 := by linarith
  refine ⟨r1, r2, ?_⟩
  have l := abs_le.1 (h.log_err _ (show 0 < A.rd (1 / s) by linarith))
  have l1 := Real.log_le_sub_one_of_pos (show 0 < A.rd (1 / s) by linarith)
  have l2 : Real.log (A.rd (1 / s)) ≤ -45 / 100 := by linarith
  rw [abs_of_nonpos (by linarith)] at l
  have l3 : u * -Real.log (A.rd (1 / s)) ≤ 1 / 100 * -Real.log (A.rd (1 / s)) := mul_le_mul_of_nonneg_right u1 (by linarith)
  linarith

theorem vfermi_zero (epsilon mu : ℝ) : 45 / 100 ≤ A.toArith.vfermi_function 0 epsilon mu ∧ A.toArith.vfermi_function 0 epsilon mu ≤ 55 / 100 := by
  have c1 : (1.0 : ℝ) = 1 := by norm_num
  have c30 : (30.0 : ℝ) = 30 := by norm_num
  simp only [Arith.vfermi_function, c1, c30, zero_mul, h.zero]
  rw [if_neg (by norm_num), if_neg (by norm_num)]
  have u0 := h.u0
  have u1 := h.u_small
  have η0 := h.η0
  have η1 := h.η_le
  have e1 := abs_le.1 (h.exp_err 0)
  rw [Real.exp_zero, mul_one] at e1
  have e2 := h.exp_le_one 0 le_rfl
  have k := abs_le.1 (h.err_pos (show 0 ≤ A.exp 0 + 1 by linarith))
  have k1 : u * (A.exp 0 + 1) ≤ 1 / 100 * 2 := mul_le_mul u1 (by linarith) (by linarith) (by norm_num)
  set s := A.rd (A.exp 0 + 1)
  have s1 : 195 / 100 ≤ s := by linarith
  have s2 : s ≤ 205 / 100 := by linarith
  have q1 : 47 / 100 ≤ A.exp 0 / s := by rw [le_div_iff₀ (by linarith)]; linarith
  have q2 : A.exp 0 / s ≤ 52 / 100 := by rw [div_le_iff₀ (by linarith)]; linarith
  have m := abs_le.1 (h.err_pos (show 0 ≤ A.exp 0 / s by linarith))
  have m1 : u * (A.exp 0 / s) ≤ 1 / 100 * (52 / 100) := mul_le_mul u1 q2 (by linarith) (by norm_num)
  constructor <;> linarith

/-- C85: the grand potential of finite arguments is NaN only where the occupation numbers are; at positive temperature it is never `+inf`. -/
theorem C85_grand (beta epsilon mu : ℝ) :
    (A.grand (fin beta) (fin epsilon) (fin mu) = nan ↔ beta = 0 ∧ A.big < |A.rd (epsilon - mu)|) ∧
      (0 < beta → A.grand (fin beta) (fin epsilon) (fin mu) ≠ pinf) := by
  have c20 : (20.0 : ℝ) = 20 := by norm_num
  have b := big_pos h
  have z0 : A.out 0 = fin 0 := by rw [out_one h 0 le_rfl zero_le_one, h.zero]
  -- when `x` is infinite
  have up : ∀ e, A.sub (fin epsilon) (fin mu) = e → A.mul (fin beta) e = pinf → beta ≠ 0 → A.grand (fin beta) (fin epsilon) (fin mu) = fin 0 := by
    intro e he hx hb
    simp only [grand, he, hx, X.Lt, X.Gt, if_true, if_false]
    show A.div (fin (-0)) (fin beta) = _
    rw [div_ne hb, neg_zero, zero_div, z0]
  have dn : ∀ e, A.sub (fin epsilon) (fin mu) = e → A.mul (fin beta) e = ninf → beta ≠ 0 → A.grand (fin beta) (fin epsilon) (fin mu) = A.add (fin 0) e := by
    intro e he hx hb
    simp only [grand, he, hx, X.Lt, if_true]
    show A.add (A.div (fin (-0)) (fin beta)) e = _
    rw [div_ne hb, neg_zero, zero_div, z0]
  rcases out_split h (epsilon - mu) with ⟨h1, h0, h2⟩ | ⟨h1, h0, h2⟩ | ⟨h1, h2⟩
  · have hs : A.sub (fin epsilon) (fin mu) = pinf := by rw [sub_fin, h1]
    have hb : A.big < |A.rd (epsilon - mu)| := h2.trans_le (le_abs_self _)
    rcases lt_trichotomy beta 0 with hb0 | hb0 | hb0
    · have := dn _ hs (by show X.inf beta = _; rw [X.inf, if_neg (not_lt.2 hb0.le), if_pos hb0]) hb0.ne
      rw [this]
      exact ⟨⟨nofun, fun h => absurd h.1 hb0.ne⟩, fun h => absurd h (not_lt.2 hb0.le)⟩
    · have hx : A.mul (fin beta) (A.sub (fin epsilon) (fin mu)) = nan := by
        rw [hs, hb0]; show X.inf 0 = _; rw [X.inf, if_neg (lt_irrefl _), if_neg (lt_irrefl _)]
      rw [(fermi_nan hx).2.2.1]
      exact ⟨⟨fun _ => ⟨hb0, hb⟩, fun _ => rfl⟩, nofun⟩
    · have := up _ hs (by show X.inf beta = _; rw [X.inf, if_pos hb0]) hb0.ne'
      rw [this]
      exact ⟨⟨nofun, fun h => absurd h.1 hb0.ne'⟩, nofun⟩
  · have hs : A.sub (fin epsilon) (fin mu) = ninf := by rw [sub_fin, h1]
    have hb : A.big < |A.rd (epsilon - mu)| := by have := neg_le_abs (A.rd (epsilon - mu)); linarith
    rcases lt_trichotomy beta 0 with hb0 | hb0 | hb0
    · have := up _ hs (by show X.inf (-beta) = _; rw [X.inf, if_pos (neg_pos.2 hb0)]) hb0.ne
      rw [this]
      exact ⟨⟨nofun, fun h => absurd h.1 hb0.ne⟩, fun h => absurd h (not_lt.2 hb0.le)⟩
    · have hx : A.mul (fin beta) (A.sub (fin epsilon) (fin mu)) = nan := by
        rw [hs, hb0]; show X.inf (-0) = _; rw [neg_zero, X.inf, if_neg (lt_irrefl _), if_neg (lt_irrefl _)]
      rw [(fermi_nan hx).2.2.1]
      exact ⟨⟨fun _ => ⟨hb0, hb⟩, fun _ => rfl⟩, nofun⟩
    · have := dn _ hs (by show X.inf (-beta) = _; rw [X.inf, if_neg (by linarith), if_pos (neg_lt_zero.2 hb0)]) hb0.ne'
      rw [this]
      exact ⟨⟨nofun, fun h => absurd h.1 hb0.ne'⟩, nofun⟩
  · have hs : A.sub (fin epsilon) (fin mu) = fin (A.rd (epsilon - mu)) := by rw [sub_fin, h1]
    have nb : ¬ (beta = 0 ∧ A.big < |A.rd (epsilon - mu)|) := fun h => absurd h.2 (not_lt.2 h2)
    -- the sum with the energy: `+inf` only if one of the two is too large
    have fin_add (z : X) (hz : z ≠ nan) (hp : z ≠ pinf) (hz0 : ∀ y, z = fin y → y ≤ 0) : A.add z (fin (A.rd (epsilon - mu))) ≠ pinf := by
      cases z with
      | fin x =>
        show A.out (x + A.rd (epsilon - mu)) ≠ pinf
        have := h.mono (show x + A.rd (epsilon - mu) ≤ A.rd (epsilon - mu) by linarith [hz0 x rfl])
        rw [h.idem] at this
        rw [out, if_neg (by have := (abs_le.1 h2).2; linarith)]
        split_ifs <;> exact nofun
      | pinf => exact absurd rfl hp
      | ninf => exact nofun
      | nan => exact absurd rfl hz
    have neg_out (y : ℝ) (hy : y ≤ 0) : A.out y ≠ pinf ∧ ∀ z, A.out y = fin z → z ≤ 0 := by
      have r := h.mono hy
      rw [h.zero] at r
      constructor
      · rw [out, if_neg (by linarith)]
        split_ifs <;> exact nofun
      · intro z hz
        rw [out, if_neg (by linarith)] at hz
        split_ifs at hz
        · cases hz
          exact r
    suffices H : A.grand (fin beta) (fin epsilon) (fin mu) ≠ nan ∧ (0 < beta → A.grand (fin beta) (fin epsilon) (fin mu) ≠ pinf) from
      ⟨⟨fun h => absurd h H.1, fun h => absurd h nb⟩, H.2⟩
    rcases out_split h (beta * A.rd (epsilon - mu)) with ⟨g1, g2, -⟩ | ⟨g1, g2, -⟩ | ⟨g1, -⟩
    · rw [up _ hs g1 (fun e => by rw [e, zero_mul] at g2; exact lt_irrefl _ g2)]
      exact ⟨nofun, nofun⟩
    · rw [dn _ hs g1 (fun e => by rw [e, zero_mul] at g2; exact lt_irrefl _ g2)]
      exact ⟨out_ne _, fun _ => fin_add (fin 0) (nofun) (nofun) (fun y h => by cases h; exact le_rfl)⟩
    · have hx : A.mul (fin beta) (fin (A.rd (epsilon - mu))) = fin (A.rd (beta * A.rd (epsilon - mu))) := by rw [mul_fin, g1]
      have hf := (fermi_fin h (by rw [hs, hx]) rfl).1
      simp only [grand, hs, hx, hf, c20, X.Lt, X.Gt]
      have bne (hne : A.rd (beta * A.rd (epsilon - mu)) ≠ 0) : beta ≠ 0 := fun e => hne (by rw [e, zero_mul, h.zero])
      split_ifs with k1 k2
      · have e0 := h.exp_nonneg (A.rd (beta * A.rd (epsilon - mu)))
        rw [exp'_eq h (by linarith)]
        have hb := bne (by intro e; rw [e] at k1; norm_num at k1)
        show A.add (A.div (fin (-_)) _) _ ≠ nan ∧ (_ → A.add (A.div (fin (-_)) _) _ ≠ pinf)
        rw [div_ne hb]
        refine ⟨add_fin_ne (out_ne _) _, fun hb0 => ?_⟩
        have := neg_out (-A.exp (A.rd (beta * A.rd (epsilon - mu))) / beta) (by rw [neg_div]; have : 0 ≤ A.exp (A.rd (beta * A.rd (epsilon - mu))) / beta := by positivity
                                                                                linarith)
        exact fin_add _ (out_ne _) this.1 this.2
      · have e0 := h.exp_nonneg (-A.rd (beta * A.rd (epsilon - mu)))
        have hb := bne (by intro e; rw [e] at k2; norm_num at k2)
        show A.div (A.exp' (fin (-_))).neg _ ≠ nan ∧ (_ → A.div (A.exp' (fin (-_))).neg _ ≠ pinf)
        rw [exp'_eq h (by linarith)]
        show A.div (fin (-_)) _ ≠ nan ∧ (_ → A.div (fin (-_)) _ ≠ pinf)
        rw [div_ne hb]
        refine ⟨out_ne _, fun hb0 => ?_⟩
        exact (neg_out (-A.exp (-A.rd (beta * A.rd (epsilon - mu))) / beta) (by rw [neg_div]; have : 0 ≤ A.exp (-A.rd (beta * A.rd (epsilon - mu))) / beta := by positivity
                                                                                linarith)).1
      · obtain ⟨f0, -⟩ := log_fermi h (b := beta) (e := epsilon) (m := mu) (by linarith) (by linarith)
        rw [log', if_pos f0]
        by_cases hb : beta = 0
        · subst hb
          have l := (fermi_zero h epsilon mu).2.2
          have : A.div (fin (A.log (A.toArith.fermi_function 0 epsilon mu))) (fin 0) = ninf := by
            show (if (0 : ℝ) = 0 then X.inf _ else _) = _
            rw [if_pos rfl, X.inf, if_neg (by linarith), if_pos l]
          rw [this]
          exact ⟨nofun, fun h => absurd h (lt_irrefl _)⟩
        · rw [div_ne hb]
          refine ⟨add_fin_ne (out_ne _) _, fun hb0 => ?_⟩
          have f1 := (C70_range h.toFaithful beta epsilon mu).1.2
          have := neg_out (A.log (A.toArith.fermi_function beta epsilon mu) / beta) (div_nonpos_of_nonpos_of_nonneg (h.log_nonpos _ f0 f1) hb0.le)
          exact fin_add _ (out_ne _) this.1 this.2

/-! ### infinite `beta`, zero `beta`, and the derivative -/

/-- C85: with `beta = inf` the functions take their zero-temperature values, except at the chemical potential, where all four are NaN. -/
theorem C85_zero_temperature (epsilon mu : ℝ) (hfin : |A.rd (epsilon - mu)| ≤ A.big) (hne : epsilon ≠ mu → A.rd (epsilon - mu) ≠ 0) :
    (epsilon < mu → A.fermi pinf (fin epsilon) (fin mu) = fin 1 ∧ A.vfermi pinf (fin epsilon) (fin mu) = fin 0 ∧
      A.grand pinf (fin epsilon) (fin mu) = fin (A.rd (epsilon - mu)) ∧ A.dgrand pinf (fin epsilon) (fin mu) = fin 0) ∧
    (mu < epsilon → A.fermi pinf (fin epsilon) (fin mu) = fin 0 ∧ A.vfermi pinf (fin epsilon) (fin mu) = fin 1 ∧
      A.grand pinf (fin epsilon) (fin mu) = fin 0 ∧ A.dgrand pinf (fin epsilon) (fin mu) = fin 0) ∧
    (epsilon = mu → A.fermi pinf (fin epsilon) (fin mu) = nan ∧ A.vfermi pinf (fin epsilon) (fin mu) = nan ∧
      A.grand pinf (fin epsilon) (fin mu) = nan ∧ A.dgrand pinf (fin epsilon) (fin mu) = nan) := by
  have c0 : (0 : ℝ) < 0 ↔ False := iff_of_false (lt_irrefl _) id
  have hs : A.sub (fin epsilon) (fin mu) = fin (A.rd (epsilon - mu)) := by rw [sub_fin, out_rd hfin]
  have z0 : A.out 0 = fin 0 := by rw [out_one h 0 le_rfl zero_le_one, h.zero]
  refine ⟨fun hlt => ?_, fun hlt => ?_, fun heq => ?_⟩
  · have r : A.rd (epsilon - mu) < 0 := lt_of_le_of_ne (by have := h.mono (show epsilon - mu ≤ 0 by linarith); rwa [h.zero] at this) (hne hlt.ne)
    have hx : A.mul pinf (fin (A.rd (epsilon - mu))) = ninf := by
      show X.inf _ = _
      rw [X.inf, if_neg (not_lt.2 r.le), if_pos r]
    have f := fermi_ninf h (beta := pinf) (epsilon := fin epsilon) (mu := fin mu) (by rw [hs, hx])
    refine ⟨f.1, f.2, ?_, ?_⟩
    · simp only [grand, hs, hx, X.Lt, if_true]
      show A.out (0 + A.rd (epsilon - mu)) = _
      rw [zero_add, out_rd (by rw [h.idem]; exact hfin), h.idem]
    · simp only [dgrand, hs, hx, f.2, X.Lt, if_true]
      show A.add (A.div (A.out (-A.rd (epsilon - mu) * 0)) pinf) (fin 0) = _
      rw [mul_zero, z0]
      show A.out (0 + 0) = _
      rw [add_zero, z0]
  · have r : 0 < A.rd (epsilon - mu) := lt_of_le_of_ne (by have := h.mono (show 0 ≤ epsilon - mu by linarith); rwa [h.zero] at this) (hne hlt.ne').symm
    have hx : A.mul pinf (fin (A.rd (epsilon - mu))) = pinf := by
      show X.inf _ = _
      rw [X.inf, if_pos r]
    have f := fermi_pinf h (beta := pinf) (epsilon := fin epsilon) (mu := fin mu) (by rw [hs, hx])
    refine ⟨f.1, f.2, ?_, ?_⟩
    · simp only [grand, hs, hx, X.Lt, X.Gt, if_true, if_false]
      rfl
    · simp only [dgrand, hs, hx, f.1, X.Lt, X.Gt, if_true, if_false]
      show A.add (A.div (A.out (A.rd (epsilon - mu) * 0)) pinf) (fin 0) = _
      rw [mul_zero, z0]
      show A.out (0 + 0) = _
      rw [add_zero, z0]
  · subst heq
    refine fermi_nan ?_
    rw [hs, sub_self, h.zero]
    show X.inf 0 = _
    rw [X.inf, if_neg (lt_irrefl _), if_neg (lt_irrefl _)]

/-- C85: at `beta = 0` (with `epsilon - mu` finite) occupation numbers are near one half and the grand potential is `-inf`; its derivative is NaN for levels
at or above the chemical potential and `+inf` below it. -/
theorem C85_infinite_temperature (epsilon mu : ℝ) (hfin : |A.rd (epsilon - mu)| ≤ A.big) :
    ∃ f v, A.fermi (fin 0) (fin epsilon) (fin mu) = fin f ∧ A.vfermi (fin 0) (fin epsilon) (fin mu) = fin v ∧
      (45 / 100 ≤ f ∧ f ≤ 55 / 100 ∧ 45 / 100 ≤ v ∧ v ≤ 55 / 100) ∧
      A.grand (fin 0) (fin epsilon) (fin mu) = ninf ∧ (mu ≤ epsilon → A.dgrand (fin 0) (fin epsilon) (fin mu) = nan) ∧
      (A.rd (A.rd (epsilon - mu) * v) < 0 → A.dgrand (fin 0) (fin epsilon) (fin mu) = pinf) := by
  have c20 : (20.0 : ℝ) = 20 := by norm_num
  have hs : A.sub (fin epsilon) (fin mu) = fin (A.rd (epsilon - mu)) := by rw [sub_fin, out_rd hfin]
  have z0 : A.out 0 = fin 0 := by rw [out_one h 0 le_rfl zero_le_one, h.zero]
  have hx : A.mul (fin 0) (fin (A.rd (epsilon - mu))) = fin 0 := by rw [mul_fin, zero_mul, z0]
  have f := fermi_fin h (beta := fin 0) (epsilon := fin epsilon) (mu := fin mu) (b := 0) (e := epsilon) (m := mu) (by rw [hs, hx]) (by rw [zero_mul, h.zero])
  have l := fermi_zero h epsilon mu
  have v := vfermi_zero h epsilon mu
  have r := C70_range h.toFaithful 0 epsilon mu
  have i0 : ∀ y, y < 0 → X.inf y = ninf := fun y hy => by rw [X.inf, if_neg (not_lt.2 hy.le), if_pos hy]
  have i1 : ∀ y, 0 < y → X.inf y = pinf := fun y hy => by rw [X.inf, if_pos hy]
  have i2 : X.inf 0 = nan := by rw [X.inf, if_neg (lt_irrefl _), if_neg (lt_irrefl _)]
  have d0 : ∀ y, A.div (fin y) (fin 0) = X.inf y := fun y => if_pos rfl
  have n1 : ¬ (0 : ℝ) < -20 := by norm_num
  have n2 : ¬ (0 : ℝ) > 20 := by norm_num
  have fp : 0 < A.toArith.fermi_function 0 epsilon mu := by linarith
  have bound : |A.rd (A.rd (epsilon - mu) * A.toArith.vfermi_function 0 epsilon mu)| ≤ A.big := by
    have k : |A.rd (epsilon - mu) * A.toArith.vfermi_function 0 epsilon mu| ≤ A.big := by
      rw [abs_mul, abs_of_nonneg r.2.1]
      exact (mul_le_mul hfin r.2.2 r.2.1 (big_pos h).le).trans_eq (mul_one _)
    rw [abs_le] at k ⊢
    have k1 := h.mono k.1
    have k2 := h.mono k.2
    rw [h.rd_big] at k2
    rw [h.rd_nbig] at k1
    exact ⟨k1, k2⟩
  have D : A.dgrand (fin 0) (fin epsilon) (fin mu) = A.sub pinf (X.inf (A.rd (A.rd (epsilon - mu) * A.toArith.vfermi_function 0 epsilon mu))) := by
    simp only [dgrand, hs, hx, f.1, f.2, c20, X.Lt, X.Gt, n1, n2, if_false]
    rw [log', if_pos fp, mul_fin, mul_fin, zero_mul, z0, out_rd bound, d0]
    show A.sub (A.div (fin (-_)) (fin 0)) _ = _
    rw [d0, i1 _ (neg_pos.2 l.2.2)]
  refine ⟨_, _, f.1, f.2, ⟨l.1, l.2.1, v⟩, ?_, fun hm => ?_, fun hm => ?_⟩
  · simp only [grand, hs, hx, f.1, c20, X.Lt, X.Gt, n1, n2, if_false]
    rw [log', if_pos fp, d0, i0 _ l.2.2]
    rfl
  · rw [D]
    have k := h.mono (show 0 ≤ A.rd (epsilon - mu) * A.toArith.vfermi_function 0 epsilon mu from
      mul_nonneg (by have := h.mono (show 0 ≤ epsilon - mu by linarith); rwa [h.zero] at this) r.2.1)
    rw [h.zero] at k
    rcases k.lt_or_eq with k | k
    · rw [i1 _ k]; rfl
    · rw [← k, i2]; rfl
  · rw [D, i0 _ hm]
    rfl

omit h in
/-- C85: when `epsilon - mu` overflows, the derivative of the grand potential is NaN at every temperature. -/
theorem C85_derivative_overflow (h : A.Good u η) (beta : X) (epsilon mu : ℝ) (hbig : A.big < |A.rd (epsilon - mu)|) : A.dgrand beta (fin epsilon) (fin mu) = nan := by
  have key : ∀ e, A.sub (fin epsilon) (fin mu) = e → (e = pinf ∨ e = ninf) → A.dgrand beta (fin epsilon) (fin mu) = nan := by
    intro e hs he
    have i2 : X.inf 0 = nan := by rw [X.inf, if_neg (lt_irrefl _), if_neg (lt_irrefl _)]
    have up : A.mul beta e = pinf → A.dgrand beta (fin epsilon) (fin mu) = nan := by
      intro hx
      have f := (fermi_pinf h (beta := beta) (epsilon := fin epsilon) (mu := fin mu) (by rw [hs, hx])).1
      simp only [dgrand, hs, hx, f, X.Lt, X.Gt, if_true, if_false]
      have : A.mul e (fin 0) = nan := by rcases he with rfl | rfl <;> [exact i2; exact (congrArg X.inf neg_zero).trans i2]
      rw [this]
      cases beta <;> rfl
    have dn : A.mul beta e = ninf → A.dgrand beta (fin epsilon) (fin mu) = nan := by
      intro hx
      have f := (fermi_ninf h (beta := beta) (epsilon := fin epsilon) (mu := fin mu) (by rw [hs, hx])).2
      simp only [dgrand, hs, hx, f, X.Lt, X.Gt, if_true]
      have : A.mul e.neg (fin 0) = nan := by rcases he with rfl | rfl <;> [exact (congrArg X.inf neg_zero).trans i2; exact i2]
      rw [this]
      cases beta <;> rfl
    have na : A.mul beta e = nan → A.dgrand beta (fin epsilon) (fin mu) = nan := fun hx => (fermi_nan (by rw [hs, hx])).2.2.2
    have cs : ∀ s, X.inf s = pinf ∨ X.inf s = ninf ∨ X.inf s = nan := by
      intro s
      unfold X.inf
      split_ifs
      exacts [Or.inl rfl, Or.inr (Or.inl rfl), Or.inr (Or.inr rfl)]
    have all : A.mul beta e = pinf ∨ A.mul beta e = ninf ∨ A.mul beta e = nan := by
      rcases he with rfl | rfl <;> cases beta
      exacts [cs _, Or.inl rfl, Or.inr (Or.inl rfl), Or.inr (Or.inr rfl), cs _, Or.inr (Or.inl rfl), Or.inl rfl, Or.inr (Or.inr rfl)]
    rcases all with h1 | h1 | h1
    exacts [up h1, dn h1, na h1]
  rcases out_split h (epsilon - mu) with ⟨h1, -⟩ | ⟨h1, -⟩ | ⟨-, h2⟩
  · exact key _ (by rw [sub_fin]; exact h1) (Or.inl rfl)
  · exact key _ (by rw [sub_fin]; exact h1) (Or.inr rfl)
  · exact absurd hbig (not_lt.2 h2)

/-- C85: when `beta*beta` underflows to zero and the Boltzmann factor does as well, the derivative is NaN, while the grand potential is a number or an infinity. -/
theorem C85_derivative_underflow (beta epsilon mu : ℝ) (h0 : A.rd (beta * beta) = 0) (h1 : |A.rd (epsilon - mu)| ≤ A.big)
    (h2 : |A.rd (beta * A.rd (epsilon - mu))| ≤ A.big) (h3 : 20 < |A.rd (beta * A.rd (epsilon - mu))|) (h4 : A.exp (-|A.rd (beta * A.rd (epsilon - mu))|) = 0) :
    A.dgrand (fin beta) (fin epsilon) (fin mu) = nan ∧ A.grand (fin beta) (fin epsilon) (fin mu) ≠ nan := by
  refine ⟨?_, fun hn => absurd ((C85_grand h beta epsilon mu).1.1 hn).2 (not_lt.2 h1)⟩
  have c20 : (20.0 : ℝ) = 20 := by norm_num
  have hs : A.sub (fin epsilon) (fin mu) = fin (A.rd (epsilon - mu)) := by rw [sub_fin, out_rd h1]
  have hx : A.mul (fin beta) (fin (A.rd (epsilon - mu))) = fin (A.rd (beta * A.rd (epsilon - mu))) := by rw [mul_fin, out_rd h2]
  have bb : A.mul (fin beta) (fin beta) = fin 0 := by rw [mul_fin, out_rd (by rw [h0, abs_zero]; exact (big_pos h).le), h0]
  have i2 : A.div (fin 0) (fin 0) = nan := by
    show (if (0 : ℝ) = 0 then X.inf 0 else _) = _
    rw [if_pos rfl, X.inf, if_neg (lt_irrefl _), if_neg (lt_irrefl _)]
  have an : ∀ z, A.add z nan = nan := fun z => by cases z <;> rfl
  simp only [dgrand, hs, hx, bb, c20, X.Lt, X.Gt]
  rcases lt_or_ge (A.rd (beta * A.rd (epsilon - mu))) 0 with k | k
  · rw [abs_of_neg k] at h3 h4
    rw [neg_neg] at h4
    rw [if_pos (by linarith), exp'_eq h (by linarith), h4, i2, an]
  · rw [abs_of_nonneg k] at h3 h4
    rw [if_neg (by linarith), if_pos h3]
    show A.add _ (A.div (A.exp' (fin (-_))) _) = _
    rw [exp'_eq h (by linarith), h4, i2, an]

end
end Mach

/-! ### double precision -/
open Binary

/-- Double precision with its largest number, `(2^53 - 1) * 2^971`. -/
def doubles : Mach := { double with big := (2 ^ 53 - 1) * 2 ^ 971 }

theorem big_ge : (2 : ℝ) ^ 1023 ≤ doubles.big := by
  show (2 : ℝ) ^ 1023 ≤ (2 ^ 53 - 1) * 2 ^ 971
  rw [show 1023 = 52 + 971 by norm_num, pow_add]
  exact mul_le_mul_of_nonneg_right (by norm_num) (by positivity)

theorem big_mem : doubles.big ∈ F 53 (-1074) := ⟨2 ^ 53 - 1, 971, by norm_num, by norm_num, by
  show (2 ^ 53 - 1) * (2 : ℝ) ^ 971 = _
  rw [show (971 : ℤ) = (971 : ℕ) by norm_num, zpow_natCast]
  norm_num⟩

/-- C85: double precision is such an arithmetic. -/
theorem C85_double : doubles.Good ((1 / 2) ^ 53) (2 ^ ((-1074 : ℤ) - 1)) where
  toFaithful := C84_ft 53 (-1074) (by norm_num) (by norm_num)
  idem x := rd_id 53 (-1074) (rd_mem 53 (-1074) (by norm_num) x)
  rd_big := rd_id 53 (-1074) big_mem
  rd_nbig := (rd_neg 53 (-1074) _).trans (congrArg _ (rd_id 53 (-1074) big_mem))
  big_large := by
    refine le_trans ?_ big_ge
    calc (10 : ℝ) ^ 20 ≤ 2 ^ 100 := by norm_num
      _ ≤ _ := pow_le_pow_right₀ (by norm_num) (by norm_num)
  u_small := by norm_num
  η_small := by
    have e : Real.exp 21 = Real.exp 1 ^ 21 := by rw [← Real.exp_nat_mul]; norm_num
    have : Real.exp 21 ≤ 3 ^ 21 := by
      rw [e]
      have := Real.exp_one_lt_d9
      gcongr
      linarith
    refine (mul_le_mul this tiny (two_pos _).le (by positivity)).trans (by norm_num)
  log_nonpos y h0 h1 := by
    have := rd_mono 53 (-1074) (by norm_num) (Real.log_nonpos h0.le h1)
    rwa [rd_zero] at this

/-- C85 in double precision: energies, chemical potentials and inverse temperatures up to `10^150`. -/
theorem C85_double_range {beta epsilon mu : ℝ} (h1 : |epsilon| ≤ 10 ^ 150) (h2 : |mu| ≤ 10 ^ 150) (h3 : 1 / 10 ^ 150 ≤ |beta|) (h4 : |beta| ≤ 10 ^ 150) :
    doubles.fermi (fin beta) (fin epsilon) (fin mu) = fin (double.fermi_function beta epsilon mu) ∧
      doubles.vfermi (fin beta) (fin epsilon) (fin mu) = fin (double.vfermi_function beta epsilon mu) ∧
      doubles.grand (fin beta) (fin epsilon) (fin mu) = fin (double.grand_potential0 beta epsilon mu) ∧
      doubles.dgrand (fin beta) (fin epsilon) (fin mu) = fin (double.dgrand_potential0 beta epsilon mu) := by
  have e : ((10 : ℝ) ^ 150) ^ 2 ≤ 2 ^ 1000 := by
    rw [← pow_mul, show 150 * 2 = 3 * 100 by norm_num, show 1000 = 10 * 100 by norm_num, pow_mul, pow_mul 2 10]
    gcongr
    norm_num
  refine Mach.C85_no_overflow C85_double (M := 10 ^ 150) (one_le_pow₀ (by norm_num)) ?_ ?_ h1 h2 h3 h4
  · refine le_trans ?_ big_ge
    calc 200 * ((10 : ℝ) ^ 150) ^ 2 ≤ 2 ^ 23 * 2 ^ 1000 := mul_le_mul (by norm_num) e (by positivity) (by positivity)
      _ = 2 ^ 1023 := (pow_add 2 23 1000).symm
  · rw [show (-1074 : ℤ) - 1 = -(1075 : ℕ) by norm_num, zpow_neg, zpow_natCast, ← div_eq_mul_inv, div_le_one (by positivity)]
    calc 4 * ((10 : ℝ) ^ 150) ^ 2 ≤ 2 ^ 75 * 2 ^ 1000 := mul_le_mul (by norm_num) e (by positivity) (by positivity)
      _ = 2 ^ 1075 := (pow_add 2 75 1000).symm

/-- Differences of floating-point numbers do not underflow, as `C85_zero_temperature` assumes. -/
theorem sub_ne {a b : ℝ} (ha : a ∈ F 53 (-1074)) (hb : b ∈ F 53 (-1074)) (h : a ≠ b) : doubles.rd (a - b) ≠ 0 := by
  intro h0
  have hb' : -b ∈ F 53 (-1074) := by
    obtain ⟨m, e, hm, he, rfl⟩ := hb
    exact ⟨-m, e, by rwa [abs_neg], he, by push_cast; ring⟩
  have k := rd_add_err 53 (-1074) ha hb'
  rw [← sub_eq_add_neg, show rd 53 (-1074) (a - b) = 0 from h0, zero_sub, abs_neg] at k
  have : 0 < |a - b| := abs_pos.2 (sub_ne_zero.2 h)
  have : ((1 : ℝ) / 2) ^ 53 * |a - b| ≤ 1 / 2 * |a - b| := mul_le_mul_of_nonneg_right (by norm_num) (abs_nonneg _)
  linarith

theorem two_mem {k : ℤ} (hk : -1074 ≤ k) : (2 : ℝ) ^ k ∈ F 53 (-1074) := ⟨1, k, by norm_num, hk, by push_cast; ring⟩

theorem rd_tiny {x : ℝ} (h0 : 0 ≤ x) (hx : x < 2 ^ (-1075 : ℤ)) : doubles.rd x = 0 := by
  show rd 53 (-1074) x = 0
  have h2 := two_pos (place 53 (-1074) x)
  have hp : (2 : ℝ) ^ (-1074 : ℤ) ≤ 2 ^ place 53 (-1074) x := zpow_le_zpow_right₀ (by norm_num) (le_max_right _ _)
  have hq : x / 2 ^ place 53 (-1074) x < 1 / 2 := by
    rw [div_lt_iff₀ h2]
    have : (2 : ℝ) ^ (-1075 : ℤ) = 1 / 2 * 2 ^ (-1074 : ℤ) := by rw [show (-1075 : ℤ) = -1 + -1074 by norm_num, zpow_add₀ (by norm_num)]; norm_num
    linarith
  have hf : ⌊x / 2 ^ place 53 (-1074) x⌋ = 0 := Int.floor_eq_zero_iff.2 ⟨by positivity, by linarith⟩
  have : re (x / 2 ^ place 53 (-1074) x) = 0 := by
    rcases re_cases (x / 2 ^ place 53 (-1074) x) with ⟨h1, -⟩ | ⟨-, h1⟩
    · rw [h1, hf]
    · rw [hf, Int.cast_zero] at h1; linarith
  rw [rd, this, Int.cast_zero, zero_mul]

/-- C85: overflow of `epsilon - mu` in double precision.  The energies are the largest numbers of either sign, `beta = 1`. -/
theorem C85_double_overflow : doubles.dgrand (fin 1) (fin doubles.big) (fin (-doubles.big)) = nan ∧ doubles.grand (fin 1) (fin doubles.big) (fin (-doubles.big)) ≠ nan ∧
    (∃ f v, doubles.fermi (fin 1) (fin doubles.big) (fin (-doubles.big)) = fin f ∧ doubles.vfermi (fin 1) (fin doubles.big) (fin (-doubles.big)) = fin v) := by
  have G := C85_double
  have b0 := Mach.big_pos G
  have h1 : doubles.big < |doubles.rd (doubles.big - -doubles.big)| := by
    have e := (abs_le.1 (rd_err' 53 (-1074) (doubles.big - -doubles.big))).1
    have t := tiny
    have b1 := G.big_large
    rw [sub_neg_eq_add, abs_of_pos (by linarith)] at e
    have k : ((1 : ℝ) / 2) ^ 53 * (doubles.big + doubles.big) ≤ 1 / 10 * (doubles.big + doubles.big) := mul_le_mul_of_nonneg_right (by norm_num) (by linarith)
    have k2 : (1 : ℝ) / 10 ^ 100 ≤ 1 := by norm_num
    refine lt_of_lt_of_le ?_ (le_abs_self _)
    rw [sub_neg_eq_add]
    change -((1 / 2) ^ 53 * (doubles.big + doubles.big) + 2 ^ ((-1074 : ℤ) - 1)) ≤ doubles.rd (doubles.big + doubles.big) - (doubles.big + doubles.big) at e
    linarith
  refine ⟨Mach.C85_derivative_overflow G (fin 1) _ _ h1, fun h => one_ne_zero ((Mach.C85_grand G 1 _ _).1.1 h).1, ?_⟩
  rcases Mach.C85_occupations G 1 doubles.big (-doubles.big) with ⟨f, v, h1, h2, -⟩ | ⟨h, -⟩
  · exact ⟨f, v, h1, h2⟩
  · exact absurd h one_ne_zero

/-- C85: the square of a small `beta` underflows in double precision, `beta = 2^-600`, `epsilon = 2^611`, `mu = 0`. -/
theorem C85_double_underflow : doubles.dgrand (fin (2 ^ (-600 : ℤ))) (fin (2 ^ (611 : ℤ))) (fin 0) = nan ∧
    doubles.grand (fin (2 ^ (-600 : ℤ))) (fin (2 ^ (611 : ℤ))) (fin 0) ≠ nan := by
  have G := C85_double
  have r1 : doubles.rd (2 ^ (611 : ℤ) - 0) = 2 ^ (611 : ℤ) := by rw [sub_zero]; exact rd_id 53 (-1074) (two_mem (by norm_num))
  have p : (2 : ℝ) ^ (-600 : ℤ) * 2 ^ (611 : ℤ) = 2 ^ (11 : ℤ) := by rw [← zpow_add₀ (by norm_num)]; norm_num
  have r2 : doubles.rd (2 ^ (-600 : ℤ) * doubles.rd (2 ^ (611 : ℤ) - 0)) = 2 ^ (11 : ℤ) := by rw [r1, p]; exact rd_id 53 (-1074) (two_mem (by norm_num))
  have lim : ∀ k : ℤ, k ≤ 1023 → |(2 : ℝ) ^ k| ≤ doubles.big := by
    intro k hk
    rw [abs_of_pos (two_pos k)]
    refine le_trans ?_ big_ge
    rw [← zpow_natCast]
    exact zpow_le_zpow_right₀ (by norm_num) hk
  refine Mach.C85_derivative_underflow G _ _ _ ?_ ?_ ?_ ?_ ?_
  · refine rd_tiny (by positivity) ?_
    rw [← zpow_add₀ (by norm_num)]
    exact zpow_lt_zpow_right₀ (by norm_num) (by norm_num)
  · rw [r1]; exact lim _ (by norm_num)
  · rw [r2]; exact lim _ (by norm_num)
  · rw [r2]; norm_num
  · rw [r2]
    refine rd_tiny (Real.exp_pos _).le ?_
    rw [abs_of_pos (two_pos _), show (2 : ℝ) ^ (11 : ℤ) = (2048 : ℕ) * 1 by norm_num, Real.exp_neg, Real.exp_nat_mul, show (-1075 : ℤ) = -(1075 : ℕ) by norm_num, zpow_neg, zpow_natCast]
    refine inv_strictAnti₀ (by positivity) ?_
    have := Real.add_one_le_exp (1 : ℝ)
    calc (2 : ℝ) ^ 1075 < 2 ^ 2048 := pow_lt_pow_right₀ (by norm_num) (by norm_num)
      _ ≤ _ := by gcongr; linarith

/-- Zero temperature in double precision: the levels 1 and 2 with the chemical potential at 1.5. -/
example : doubles.fermi pinf (fin 1) (fin (3 / 2)) = fin 1 ∧ doubles.fermi pinf (fin 2) (fin (3 / 2)) = fin 0 ∧ doubles.fermi pinf (fin 2) (fin 2) = nan := by
  have G := C85_double
  have m1 : (1 : ℝ) ∈ F 53 (-1074) := ⟨1, 0, by norm_num, by norm_num, by norm_num⟩
  have m2 : (2 : ℝ) ∈ F 53 (-1074) := ⟨1, 1, by norm_num, by norm_num, by norm_num⟩
  have m3 : (3 / 2 : ℝ) ∈ F 53 (-1074) := ⟨3, -1, by norm_num, by norm_num, by norm_num⟩
  have lim (x : ℝ) (hx : |x| ≤ 1) : |doubles.rd x| ≤ doubles.big := by
    have := Mach.rd_le G hx
    have := G.big_large
    linarith
  refine ⟨(((Mach.C85_zero_temperature G 1 (3 / 2) (lim _ (by norm_num [abs_le])) (sub_ne m1 m3)).1) (by norm_num)).1,
    (((Mach.C85_zero_temperature G 2 (3 / 2) (lim _ (by norm_num [abs_le])) (sub_ne m2 m3)).2.1) (by norm_num)).1,
    (((Mach.C85_zero_temperature G 2 2 (lim _ (by norm_num)) (sub_ne m2 m2)).2.2) rfl).1⟩

/-- Infinite temperature in double precision, for a level at the chemical potential. -/
example : doubles.grand (fin 0) (fin 1) (fin 1) = ninf ∧ doubles.dgrand (fin 0) (fin 1) (fin 1) = nan := by
  have G := C85_double
  obtain ⟨f, v, -, -, -, h1, h2, -⟩ := Mach.C85_infinite_temperature G 1 1 (by rw [sub_self, G.zero, abs_zero]; exact (Mach.big_pos G).le)
  exact ⟨h1, h2 le_rfl⟩

/-- A value that is not NaN as an extended real number. -/
def ext : X → EReal
  | fin x => (x : EReal)
  | pinf => ⊤
  | ninf => ⊥
  | nan => 0

/-- C85: infinite operands.  Quotients of an infinity and a number other than zero, and of a number and an infinity, are those of the extended real numbers; the
exponential is infinite just above the largest number; the logarithm is minus infinity at zero and undefined below. -/
theorem C85_special (A : Mach) :
    (∀ a b, a = pinf ∨ a = ninf → b ≠ 0 → A.div a (fin b) ≠ nan ∧ ext (A.div a (fin b)) = ext a / ext (fin b)) ∧
    (∀ a b, b = pinf ∨ b = ninf → A.div (fin a) b ≠ nan ∧ ext (A.div (fin a) b) = ext (fin a) / ext b) ∧
    A.div pinf (fin 0) = pinf ∧ A.div ninf (fin 0) = ninf ∧
    (∀ x, A.exp' (fin x) = fin (A.exp x) ↔ A.exp x ≤ A.big) ∧ (∀ x, A.exp' (fin x) = pinf ↔ A.big < A.exp x) ∧
    A.log' (fin 0) = ninf ∧ (∀ y < 0, A.log' (fin y) = nan) ∧ (∀ y > 0, A.log' (fin y) = fin (A.log y)) := by
  refine ⟨?_, ?_, ?_, ?_, ?_, ?_, ?_, ?_, ?_⟩
  · rintro a b (rfl | rfl) hb
    · rcases lt_or_gt_of_ne hb with h | h
      · rw [Mach.div, if_pos h]
        exact ⟨nofun, (EReal.top_div_of_neg_ne_bot (EReal.coe_neg'.2 h) (EReal.coe_ne_bot b)).symm⟩
      · rw [Mach.div, if_neg h.le.not_gt]
        exact ⟨nofun, (EReal.top_div_of_pos_ne_top (EReal.coe_pos.2 h) (EReal.coe_ne_top b)).symm⟩
    · rcases lt_or_gt_of_ne hb with h | h
      · rw [Mach.div, if_pos h]
        exact ⟨nofun, (EReal.bot_div_of_neg_ne_bot (EReal.coe_neg'.2 h) (EReal.coe_ne_bot b)).symm⟩
      · rw [Mach.div, if_neg h.le.not_gt]
        exact ⟨nofun, (EReal.bot_div_of_pos_ne_top (EReal.coe_pos.2 h) (EReal.coe_ne_top b)).symm⟩
  · rintro a b (rfl | rfl)
    · exact ⟨nofun, (EReal.div_top).symm⟩
    · exact ⟨nofun, (EReal.div_bot).symm⟩
  · rw [Mach.div, if_neg (lt_irrefl _)]
  · rw [Mach.div, if_neg (lt_irrefl _)]
  · intro x
    rw [Mach.exp']
    split_ifs with h
    · exact ⟨nofun, fun h' => absurd h (not_lt.2 h')⟩
    · exact ⟨fun _ => not_lt.1 h, fun _ => rfl⟩
  · intro x
    rw [Mach.exp']
    split_ifs with h
    · exact ⟨fun _ => h, fun _ => rfl⟩
    · exact ⟨nofun, fun h' => absurd h' h⟩
  · rw [Mach.log', if_neg (lt_irrefl _), if_pos rfl]
  · intro y h
    rw [Mach.log', if_neg h.le.not_gt, if_neg h.ne]
  · intro y h
    rw [Mach.log', if_pos h]

/-- Dividing the logarithm of zero by `beta = -2`. -/
example : doubles.div (doubles.log' (fin 0)) (fin (-2)) = pinf := by
  rw [(C85_special doubles).2.2.2.2.2.2.1, Mach.div, if_pos (by norm_num)]

end Ft
end
