import Verif.Spec.Binary
import Verif.Props.FtRound
import Verif.Props.Machine
import Verif.Props.CIRound
import Verif.Props.RoundCC
/-!
# C84: IEEE arithmetic satisfies the assumptions of the rounded models

C60, C70, C71 and C81 assume properties of the rounded arithmetic.  Here they are proved for binary floating-point arithmetic of any precision with
gradual underflow, rounding to nearest and ties to even; double precision is `p = 53`, `emin = -1074`.  What is not in it is overflow (C85).
-/
noncomputable section
open Binary

namespace Binary
variable (p : ℕ) (emin : ℤ)

theorem rd_err' (x : ℝ) : |rd p emin x - x| ≤ (1 / 2) ^ p * |x| + 2 ^ (emin - 1) :=
  (rd_err p emin x).trans (max_le_add_of_nonneg (by positivity) (two_pos _).le)

/-- The smallest number with `p` significant bits is `2^(emin + p - 1)`. -/
theorem rd_err_normal (x : ℝ) : |rd p emin x - x| ≤ (1 / 2) ^ p * (|x| + 2 ^ (emin + p - 1)) := by
  refine (rd_err' p emin x).trans (le_of_eq ?_)
  have : (2 : ℝ) ^ (emin + p - 1) = 2 ^ (emin - 1) * 2 ^ p := by
    rw [← zpow_natCast, ← zpow_add₀ (by norm_num)]
    congr 1
    ring
  rw [this, mul_add, one_div, inv_pow]
  field_simp

/-- C84: rounding to nearest is what the definition says: the result is a floating-point number and no floating-point number is nearer. -/
theorem C84_nearest (hp : 0 < p) (x : ℝ) : rd p emin x ∈ F p emin ∧ ∀ y ∈ F p emin, |rd p emin x - x| ≤ |y - x| := by
  refine ⟨rd_mem p emin hp x, fun y hy => ?_⟩
  have hy' := rd_id p emin hy
  -- otherwise the point reflected or the middle would be rounded in the wrong order
  by_contra hc
  push Not at hc
  have h2 := two_pos (place p emin x)
  set E := place p emin x with hE
  have e : rd p emin x - x = (re (x / 2 ^ E) - x / 2 ^ E) * 2 ^ E := by rw [rd, ← hE, sub_mul, div_mul_cancel₀ _ h2.ne']
  obtain ⟨m, k, hm, hk, rfl⟩ := hy
  -- a floating-point number nearer to `x` than half a unit is a multiple of the unit
  rcases le_or_gt E k with hEk | hEk
  · obtain ⟨j, hj⟩ : ∃ j : ℕ, k = E + j := ⟨(k - E).toNat, by omega⟩
    have e2 : (m : ℝ) * 2 ^ k - x = (((m * 2 ^ j : ℤ) : ℝ) - x / 2 ^ E) * 2 ^ E := by
      rw [sub_mul, div_mul_cancel₀ _ h2.ne', hj, zpow_add₀ (by norm_num), zpow_natCast]
      push_cast
      ring
    rw [e, e2, abs_mul, abs_mul, abs_of_pos h2] at hc
    have hc := lt_of_mul_lt_mul_right hc h2.le
    generalize x / 2 ^ E = z at hc
    generalize m * 2 ^ j = n at hc
    have h1 := re_err z
    have hn : |((n - re z : ℤ) : ℝ)| < 1 := by
      have t : ((n - re z : ℤ) : ℝ) = (n - z) - (re z - z) := by push_cast; ring
      rw [t]
      exact (abs_sub _ _).trans_lt (by linarith)
    have hn : |n - re z| < 1 := by exact_mod_cast hn
    have hn : n = re z := by rw [Int.abs_lt_one_iff] at hn; omega
    rw [hn] at hc
    exact lt_irrefl _ hc
  · -- `y` has a smaller last place, so it is at most the power of two below `x`
    rcases place_le_or p emin x with e' | ⟨_, e'⟩ | e'
    · omega
    · have hyl : |(m : ℝ) * 2 ^ k| ≤ 2 ^ (E + p - 1) := by
        rw [abs_mul, abs_of_pos (two_pos k)]
        have a1 : |(m : ℝ)| ≤ 2 ^ p := by exact_mod_cast hm.le
        have a2 : (2 : ℝ) ^ k ≤ 2 ^ (E - 1) := zpow_le_zpow_right₀ (by norm_num) (by omega)
        refine (mul_le_mul a1 a2 (two_pos k).le (by positivity)).trans (le_of_eq ?_)
        rw [← zpow_natCast, ← zpow_add₀ (by norm_num)]
        congr 1
        ring
      have hm2 : ∀ s : ℤ, |s| ≤ 1 → |rd p emin x - x| ≤ |(s : ℝ) * 2 ^ (E + p - 1) - x| := by
        intro s _
        obtain ⟨q, hq⟩ : ∃ q, p = q + 1 := ⟨p - 1, by omega⟩
        have e3 : (s : ℝ) * 2 ^ (E + p - 1) - x = (((s * 2 ^ q : ℤ) : ℝ) - x / 2 ^ E) * 2 ^ E := by
          have : E + (p : ℤ) - 1 = E + q := by rw [hq]; push_cast; ring
          rw [sub_mul, div_mul_cancel₀ _ h2.ne', this, zpow_add₀ (by norm_num), zpow_natCast]
          push_cast
          ring
        rw [e, e3, abs_mul, abs_mul, abs_of_pos h2]
        refine mul_le_mul_of_nonneg_right ?_ h2.le
        generalize x / 2 ^ E = z
        generalize s * 2 ^ q = n
        have h1 := re_err z
        by_contra hc'
        push Not at hc'
        have hn : |((n - re z : ℤ) : ℝ)| < 1 := by
          have t : ((n - re z : ℤ) : ℝ) = (n - z) - (re z - z) := by push_cast; ring
          rw [t]
          exact (abs_sub _ _).trans_lt (by linarith)
        have hn : |n - re z| < 1 := by exact_mod_cast hn
        have hn : n = re z := by rw [Int.abs_lt_one_iff] at hn; omega
        rw [hn] at hc'
        exact lt_irrefl _ hc'
      rcases le_total 0 x with hx | hx
      · have h3 := hm2 1 (by norm_num)
        rw [abs_of_nonneg hx] at e'
        have a1 := (abs_le.1 hyl).2
        rw [Int.cast_one, one_mul, abs_of_nonpos (show (2 : ℝ) ^ (E + p - 1) - x ≤ 0 by linarith)] at h3
        rw [abs_of_nonpos (show (m : ℝ) * 2 ^ k - x ≤ 0 by linarith)] at hc
        linarith
      · have h3 := hm2 (-1) (by norm_num)
        rw [abs_of_nonpos hx] at e'
        have a1 := (abs_le.1 hyl).1
        rw [Int.cast_neg, Int.cast_one, neg_one_mul, abs_of_nonneg (show 0 ≤ -(2 : ℝ) ^ (E + p - 1) - x by linarith)] at h3
        rw [abs_of_nonneg (show 0 ≤ (m : ℝ) * 2 ^ k - x by linarith)] at hc
        linarith
    · subst e'
      rw [rd_zero, sub_self, abs_zero] at hc
      exact absurd hc (not_lt.2 (abs_nonneg _))

theorem log_of {x : ℝ} {k : ℤ} (h1 : (2 : ℝ) ^ k ≤ x) (h2 : x < 2 ^ (k + 1)) : Int.log 2 |x| = k := by
  have hx : 0 < x := (two_pos k).trans_le h1
  rw [abs_of_pos hx]
  have a1 : ((2 : ℕ) : ℝ) ^ Int.log 2 x ≤ x := Int.zpow_log_le_self (by norm_num) hx
  have a2 : x < ((2 : ℕ) : ℝ) ^ (Int.log 2 x + 1) := Int.lt_zpow_succ_log_self (by norm_num) x
  push_cast at a1 a2
  have b1 := (zpow_lt_zpow_iff_right₀ (by norm_num : (1 : ℝ) < 2)).1 (a1.trans_lt h2)
  have b2 := (zpow_lt_zpow_iff_right₀ (by norm_num : (1 : ℝ) < 2)).1 (h1.trans_lt a2)
  omega

/-- Numbers with two significant bits: 5 lies halfway between 4 and 6 and is rounded to 4, 7 lies between 6 and 8 and is rounded to 8. -/
example : rd 2 0 5 = 4 ∧ rd 2 0 7 = 8 := by
  have h5 : place 2 0 5 = 1 := by rw [place, log_of (k := 2) (by norm_num) (by norm_num)]; norm_num
  have h7 : place 2 0 7 = 1 := by rw [place, log_of (k := 2) (by norm_num) (by norm_num)]; norm_num
  have r5 : re (5 / 2) = 2 := by
    have f : ⌊(5 / 2 : ℝ)⌋ = 2 := by norm_num [Int.floor_eq_iff]
    unfold re
    rw [f]
    norm_num
  have r7 : re (7 / 2) = 4 := by
    have f : ⌊(7 / 2 : ℝ)⌋ = 3 := by norm_num [Int.floor_eq_iff]
    unfold re
    rw [f, if_neg (by norm_num), if_neg (by norm_num), if_neg (by decide)]
    norm_num
  rw [rd, rd, h5, h7, zpow_one, r5, r7]
  norm_num

/-- Double precision does not have `2^53 + 1`. -/
example : rd 53 (-1074) (2 ^ 53 + 1) = 2 ^ 53 := by
  have h : place 53 (-1074) (2 ^ 53 + 1) = 1 := by
    rw [place, log_of (k := 53) (by norm_cast) (by norm_cast)]
    norm_num
  have f : ⌊((2 ^ 53 + 1) / 2 : ℝ)⌋ = 2 ^ 52 := by norm_num [Int.floor_eq_iff]
  have r : re ((2 ^ 53 + 1) / 2) = 2 ^ 52 := by
    unfold re
    rw [f, if_neg (by norm_num), if_neg (by norm_num), if_pos (by decide)]
  rw [rd, h, zpow_one, r]
  norm_num
end Binary

/-! ### C70 -/
namespace Ft

/-- Binary arithmetic with correctly rounded `exp` and `log`. -/
def binary (p : ℕ) (emin : ℤ) : Arith := ⟨rd p emin, fun x => rd p emin (Real.exp x), fun y => rd p emin (Real.log y)⟩

/-- C84: binary arithmetic satisfies the assumptions of C70. -/
theorem C84_ft (p : ℕ) (emin : ℤ) (hp : 0 < p) (he : emin ≤ 0) : (binary p emin).Faithful ((1 / 2) ^ p) (2 ^ (emin - 1)) where
  u0 := by positivity
  η0 := (two_pos _).le
  mono := rd_mono p emin hp
  zero := rd_zero p emin
  one := rd_id p emin (one_mem p emin hp he)
  err := rd_err' p emin
  exp_rd x := rd_id p emin (rd_mem p emin hp _)
  exp_nonneg x := rd_nonneg p emin (Real.exp_pos x).le
  exp_le_one x hx := by
    have := rd_mono p emin hp (Real.exp_le_one_iff.2 hx)
    rwa [rd_id p emin (one_mem p emin hp he)] at this
  exp_err x := by
    have := rd_err' p emin (Real.exp x)
    rwa [abs_of_pos (Real.exp_pos x)] at this
  log_err y _ := rd_err' p emin (Real.log y)

/-- Double precision. -/
abbrev double : Arith := binary 53 (-1074)

theorem tiny : (2 : ℝ) ^ ((-1074 : ℤ) - 1) ≤ 1 / 10 ^ 100 := by
  rw [show (-1074 : ℤ) - 1 = -(1075 : ℕ) by norm_num, zpow_neg, zpow_natCast, inv_eq_one_div]
  apply one_div_le_one_div_of_le (by positivity)
  calc (10 : ℝ) ^ 100 ≤ (2 ^ 10) ^ 100 := by gcongr; norm_num
    _ = 2 ^ 1000 := (pow_mul 2 10 100).symm
    _ ≤ 2 ^ 1075 := pow_le_pow_right₀ (by norm_num) (by norm_num)

/-- Occupation numbers in double precision, for energies and temperatures with `β |ε - μ|` up to a million. -/
example (beta epsilon mu : ℝ) (h : |beta| ≤ 10 ^ 6) : |double.fermi_function beta epsilon mu - fd (beta * (epsilon - mu))| ≤ 1 / 10 ^ 14 ∧
    0 ≤ double.fermi_function beta epsilon mu ∧ double.fermi_function beta epsilon mu ≤ 1 := by
  have F := C84_ft 53 (-1074) (by norm_num) (by norm_num)
  have t1 := tiny
  refine ⟨(C70_fermi F (by norm_num) (t1.trans (by norm_num)) beta epsilon mu).trans ?_, (C70_range F beta epsilon mu).1⟩
  have t2 : Real.exp (-60 : ℝ) ≤ 1 / 10 ^ 18 := by
    rw [Real.exp_neg, ← one_div]
    apply one_div_le_one_div_of_le (by norm_num)
    have h := Real.add_one_le_exp (1 : ℝ)
    have h2 : Real.exp (60 : ℝ) = Real.exp 1 ^ 60 := by rw [← Real.exp_nat_mul]; norm_num
    rw [h2]
    calc (10 : ℝ) ^ 18 ≤ 2 ^ 60 := by norm_num
      _ ≤ _ := by gcongr; linarith
  have t3 : (7 + 4 * |beta|) * (2 : ℝ) ^ ((-1074 : ℤ) - 1) ≤ (7 + 4 * 10 ^ 6) * (1 / 10 ^ 100) := by
    refine mul_le_mul (by linarith) t1 (two_pos _).le (by norm_num)
  have t4 : (9 : ℝ) * (1 / 2) ^ 53 + (7 + 4 * 10 ^ 6) * (1 / 10 ^ 100) + 1 / 10 ^ 18 ≤ 1 / 10 ^ 14 := by norm_num
  linarith

end Ft

/-! ### C71 -/
namespace CC.Num

/-- C84: rounding to nearest with ties to even is odd, all that C71 assumes. -/
theorem C84_odd (p : ℕ) (emin : ℤ) : Odd (rd p emin) := ⟨rd_neg p emin⟩

end CC.Num

/-! ### C81 -/
namespace CI
variable (p : ℕ) (emin : ℤ)

/-- Binary arithmetic with sums from left to right.  (Products with zeros and ones are exact; numbers that are not floating-point numbers do not occur in a
program.) -/
def binary : Fl where
  rd := rd p emin
  ein L := open Classical in if ∀ t ∈ L, t.prod ∈ F p emin then L.foldl (fun acc t => rd p emin (acc + t.prod)) 0 else (L.map List.prod).sum

theorem fold_err (hp : 0 < p) : ∀ (L : List (List ℝ)) (acc : ℝ), acc ∈ F p emin → (∀ t ∈ L, t.prod ∈ F p emin) →
    |L.foldl (fun acc t => rd p emin (acc + t.prod)) acc - (acc + (L.map List.prod).sum)| ≤
      ((1 + (1 / 2) ^ p) ^ L.length - 1) * (|acc| + (L.map fun t => |t.prod|).sum) := by
  intro L
  have u0 : (0 : ℝ) ≤ (1 / 2) ^ p := by positivity
  generalize hu : ((1 / 2 : ℝ)) ^ p = u at u0
  induction L with
  | nil => intro acc _ _; simp
  | cons t L ih =>
    intro acc ha hL
    have ht := hL t (List.mem_cons_self ..)
    have h1 := rd_add_err p emin ha ht
    rw [hu] at h1
    have h2 := ih (rd p emin (acc + t.prod)) (rd_mem p emin hp _) fun s hs => hL s (List.mem_cons_of_mem _ hs)
    simp only [List.foldl_cons, List.map_cons, List.sum_cons, List.length_cons]
    set r := rd p emin (acc + t.prod)
    set S := (L.map List.prod).sum
    set A := (L.map fun t => |t.prod|).sum
    have hA : 0 ≤ A := List.sum_nonneg fun x hx => by obtain ⟨s, -, rfl⟩ := List.mem_map.1 hx; exact abs_nonneg _
    have ht3 : |acc + t.prod| ≤ |acc| + |t.prod| := abs_add_le _ _
    have hr : |r| ≤ (1 + u) * (|acc| + |t.prod|) := by
      have : |r| ≤ |r - (acc + t.prod)| + |acc + t.prod| := by
        have := abs_add_le (r - (acc + t.prod)) (acc + t.prod)
        rwa [sub_add_cancel] at this
      nlinarith
    have hg : 0 ≤ (1 + u) ^ L.length - 1 := by
      have := one_le_pow₀ (show 1 ≤ 1 + u by linarith) (n := L.length)
      linarith
    have tri : |L.foldl (fun acc t => rd p emin (acc + t.prod)) r - (acc + (t.prod + S))| ≤
        |L.foldl (fun acc t => rd p emin (acc + t.prod)) r - (r + S)| + |r - (acc + t.prod)| := by
      refine le_trans (le_of_eq ?_) (abs_add_le _ _)
      congr 1
      ring
    have h5 : ((1 + u) ^ L.length - 1) * (|r| + A) ≤ ((1 + u) ^ L.length - 1) * ((1 + u) * (|acc| + |t.prod|) + (1 + u) * A) := by
      refine mul_le_mul_of_nonneg_left ?_ hg
      nlinarith
    rw [pow_succ]
    have h6 : u * |acc + t.prod| ≤ u * (|acc| + |t.prod| + A) := mul_le_mul_of_nonneg_left (by linarith) u0
    nlinarith

/-- C84: binary arithmetic satisfies the assumptions of C81, with the usual error of sums from left to right. -/
theorem C84_ci (hp : 0 < p) (he : emin ≤ 0) (N : ℕ) :
    (binary p emin).Good (F p emin) N ((1 / 2) ^ p) (2 ^ (emin + p - 1)) ((1 + (1 / 2) ^ p) ^ N - 1) where
  u0 := by positivity
  η0 := (two_pos _).le
  g0 := by
    have := one_le_pow₀ (show (1 : ℝ) ≤ 1 + (1 / 2) ^ p by linarith [show (0 : ℝ) ≤ (1 / 2) ^ p by positivity]) (n := N)
    linarith
  rd_err := rd_err_normal p emin
  rd_id x hx := rd_id p emin hx
  rd_mem := rd_mem p emin hp
  rd_neg := rd_neg p emin
  one_mem := one_mem p emin hp he
  ein_err L hL _ := by
    have h1 : (1 : ℝ) ≤ 1 + (1 / 2) ^ p := by linarith [show (0 : ℝ) ≤ (1 / 2) ^ p by positivity]
    have hA : 0 ≤ (L.map fun t => |t.prod|).sum := List.sum_nonneg fun x hx => by obtain ⟨s, -, rfl⟩ := List.mem_map.1 hx; exact abs_nonneg _
    unfold binary
    dsimp only
    split_ifs with h
    · have := fold_err p emin hp L 0 (by rw [← rd_zero p emin]; exact rd_mem p emin hp 0) h
      rw [zero_add, abs_zero, zero_add] at this
      refine this.trans (mul_le_mul_of_nonneg_right ?_ hA)
      have := pow_le_pow_right₀ h1 hL
      linarith
    · rw [sub_self, abs_zero]
      have := one_le_pow₀ h1 (n := N)
      exact mul_nonneg (by linarith) hA

/-- Double precision and ten orbitals: sums of one- and two-electron integrals over occupied orbitals have a relative error below `2 * 10^-14`. -/
example : ∃ g ≤ 2 / 10 ^ 14, (binary 53 (-1074)).Good (F 53 (-1074)) (10 * 10) ((1 / 2) ^ 53) (2 ^ (-1022 : ℤ)) g :=
  ⟨_, by norm_num, C84_ci 53 (-1074) (by norm_num) (by norm_num) 100⟩

end CI

/-! ### C60 -/
namespace Heap
variable (p : ℕ) (emin : ℤ)

theorem half_le : ((1 : ℝ) / 2) ^ p ≤ 1 := pow_le_one₀ (by norm_num) (by norm_num)

/-- Real arrays: every operation rounded, sums of products from left to right. -/
def binaryReal : Rounding ℝ ((1 / 2) ^ p) (2 ^ (emin + p - 1)) (szSum (2 ^ (emin + p - 1))) :=
  ltr (by positivity) (half_le p) (two_pos _).le (fun n d => rd p emin (n / d)) (fun o a b => rd p emin (opVal o a b))
    (fun _ _ => rd_err_normal p emin _) (fun _ _ _ => rd_err_normal p emin _)

/-- Complex numbers: real and imaginary parts are rounded after every real operation. -/
def cop : Op → ℂ → ℂ → ℂ
  | .add, a, b => ⟨rd p emin (a.re + b.re), rd p emin (a.im + b.im)⟩
  | .sub, a, b => ⟨rd p emin (a.re - b.re), rd p emin (a.im - b.im)⟩
  | .mul, a, b => ⟨rd p emin (rd p emin (a.re * b.re) - rd p emin (a.im * b.im)), rd p emin (rd p emin (a.re * b.im) + rd p emin (a.im * b.re))⟩

theorem comp_err {u h : ℝ} (x y : ℝ) (hu : 0 ≤ u) (hu1 : u ≤ 1) (hh : 0 ≤ h) (e : ∀ x, |rd p emin x - x| ≤ u * |x| + h) :
    |rd p emin (rd p emin x + rd p emin y) - (x + y)| ≤ 3 * u * (|x| + |y|) + 5 * h := by
  have e1 := e x
  have e2 := e y
  have e3 := e (rd p emin x + rd p emin y)
  have t1 : |rd p emin x| ≤ |x| + (u * |x| + h) := by
    have := abs_add_le (rd p emin x - x) x
    rw [sub_add_cancel] at this
    linarith
  have t2 : |rd p emin y| ≤ |y| + (u * |y| + h) := by
    have := abs_add_le (rd p emin y - y) y
    rw [sub_add_cancel] at this
    linarith
  have t3 := abs_add_le (rd p emin x) (rd p emin y)
  have t4 : |rd p emin (rd p emin x + rd p emin y) - (x + y)| ≤ |rd p emin (rd p emin x + rd p emin y) - (rd p emin x + rd p emin y)| + (|rd p emin x - x| + |rd p emin y - y|) := by
    refine le_trans ?_ (add_le_add_right (abs_add_le _ _) _)
    refine le_trans (le_of_eq ?_) (abs_add_le _ _)
    congr 1
    ring
  have a1 := abs_nonneg x
  have a2 := abs_nonneg y
  have t5 : u * |rd p emin x + rd p emin y| ≤ u * (2 * |x| + 2 * |y| + 2 * h) := mul_le_mul_of_nonneg_left (by nlinarith) hu
  nlinarith

theorem cop_err (o : Op) (a b : ℂ) : ‖cop p emin o a b - opVal o a b‖ ≤ 8 * (1 / 2) ^ p * (‖opVal o a b‖ + 2 * 2 ^ (emin + p - 1)) := by
  have e := rd_err' p emin
  have hu : (0 : ℝ) ≤ (1 / 2) ^ p := by positivity
  have hu1 := half_le p
  have hh : (0 : ℝ) ≤ 2 ^ (emin - 1) := (two_pos _).le
  have hη : ((1 : ℝ) / 2) ^ p * 2 ^ (emin + p - 1) = 2 ^ (emin - 1) := by
    have : (2 : ℝ) ^ (emin + p - 1) = 2 ^ (emin - 1) * 2 ^ p := by
      rw [← zpow_natCast, ← zpow_add₀ (by norm_num)]
      congr 1
      ring
    rw [this, one_div, inv_pow]
    field_simp
  have split : ∀ z : ℂ, ‖z‖ ≤ |z.re| + |z.im| := Complex.norm_le_abs_re_add_abs_im
  rw [mul_add, show 8 * ((1 : ℝ) / 2) ^ p * (2 * 2 ^ (emin + p - 1)) = 16 * 2 ^ (emin - 1) by rw [← hη]; ring]
  generalize ((1 : ℝ) / 2) ^ p = u at *
  generalize (2 : ℝ) ^ (emin - 1) = h at *
  have simple : ∀ z w : ℂ, w.re = rd p emin z.re → w.im = rd p emin z.im → ‖w - z‖ ≤ 8 * u * ‖z‖ + 16 * h := by
    intro z w h1 h2
    refine (split _).trans ?_
    rw [Complex.sub_re, Complex.sub_im, h1, h2]
    have e1 := e z.re
    have e2 := e z.im
    have n1 := mul_le_mul_of_nonneg_left (Complex.abs_re_le_norm z) hu
    have n2 := mul_le_mul_of_nonneg_left (Complex.abs_im_le_norm z) hu
    have n3 := mul_nonneg hu (norm_nonneg z)
    linarith
  cases o with
  | add => exact simple (a + b) _ rfl rfl
  | sub => exact simple (a - b) _ rfl rfl
  | mul =>
    refine (split _).trans ?_
    have cs : ∀ x y z w : ℝ, |x * y| + |z * w| ≤ √(x ^ 2 + z ^ 2) * √(y ^ 2 + w ^ 2) := by
      intro x y z w
      rw [← Real.sqrt_mul (by positivity)]
      apply Real.le_sqrt_of_sq_le
      rw [abs_mul, abs_mul, ← sq_abs x, ← sq_abs y, ← sq_abs z, ← sq_abs w]
      nlinarith [sq_nonneg (|x| * |w| - |z| * |y|)]
    have nrm : ∀ z : ℂ, ‖z‖ = √(z.re ^ 2 + z.im ^ 2) := fun z => by rw [Complex.norm_eq_sqrt_sq_add_sq]
    have c1 : |a.re * b.re| + |-(a.im * b.im)| ≤ ‖a * b‖ := by
      rw [norm_mul, nrm, nrm, abs_neg]
      exact cs _ _ _ _
    have c2 : |a.re * b.im| + |a.im * b.re| ≤ ‖a * b‖ := by
      rw [norm_mul, nrm, nrm b, add_comm (b.re ^ 2)]
      exact cs _ _ _ _
    have e1 := comp_err p emin (a.re * b.re) (-(a.im * b.im)) hu hu1 hh e
    have e2 := comp_err p emin (a.re * b.im) (a.im * b.re) hu hu1 hh e
    rw [rd_neg, ← sub_eq_add_neg, ← sub_eq_add_neg] at e1
    have n1 := mul_le_mul_of_nonneg_left c1 hu
    have n2 := mul_le_mul_of_nonneg_left c2 hu
    have n3 := mul_nonneg hu (norm_nonneg (a * b))
    rw [Complex.sub_re, Complex.sub_im]
    simp only [cop, opVal, Complex.mul_re, Complex.mul_im] at e1 e2 ⊢
    linarith

/-- Complex arrays. -/
def binaryComplex (hp : 3 ≤ p) : Rounding ℂ (8 * (1 / 2) ^ p) (2 * 2 ^ (emin + p - 1)) (szSum (2 * 2 ^ (emin + p - 1))) :=
  ltr (by positivity) (by
      have := pow_le_pow_of_le_one (show (0 : ℝ) ≤ 1 / 2 by norm_num) (by norm_num) hp
      linarith) (by positivity)
    (fun n d => (rd p emin (n / d) : ℝ)) (cop p emin)
    (fun n d => by
      have e : ((n : ℂ) / d) = ((n / d : ℝ) : ℂ) := by push_cast; rfl
      have h := rd_err_normal p emin (n / d : ℝ)
      have h2 := two_pos (emin + p - 1)
      have h3 : (0 : ℝ) ≤ (1 / 2) ^ p := by positivity
      rw [e, ← Complex.ofReal_sub, Complex.norm_real, Complex.norm_real, Real.norm_eq_abs, Real.norm_eq_abs]
      refine h.trans ?_
      have := abs_nonneg (n / d : ℝ)
      nlinarith [mul_nonneg h3 this, mul_nonneg h3 h2.le]) (cop_err p emin)

variable {n : ℕ → ℕ}

/-- C84: the routines of C60 in real binary arithmetic.  The constant does not depend on the precision: with `k` more bits the error bound is `2^k` times
smaller.  `e0` is the exponent of the smallest number with `p` significant bits. -/
theorem C84_cc_real {f : Fun} {ds es : List (Desc n ℝ)} (h : Stable f ds es) (e0 : ℤ) : ∃ C, 0 ≤ C ∧ ∀ p : ℕ,
    ∀ (M : Mem (Arr ℝ)) (args : List Ref), let J := (rounded (binaryReal p (e0 + 1 - p)) true id).total ⟨false, [], fun _ => 0⟩ fun _ a _ => a
      args.length = f.params.length → (∀ r ∈ args, r.1 < M.next) → List.Forall₂ (NearIs ((1 / 2) ^ p)) ds (args.map fun r => seen J r.2 (M.heap r.1)) →
      ∃ rs M', f.run J args M = some (rs, M') ∧ (∀ l < M.next, M'.heap l = M.heap l) ∧
        List.Forall₂ (NearIs (C * (1 / 2) ^ p)) es (rs.map fun r => seen J r.2 (M'.heap r.1)) := by
  obtain ⟨C, hC, H⟩ := h id (fun _ _ => le_rfl) (2 ^ e0) (two_pos _).le _ (sz_mono (two_pos e0).le) 1 zero_le_one
  refine ⟨C, hC, fun p M args => ?_⟩
  intro J h1 h2 h3
  have hJ0 : J = (rounded (binaryReal p (e0 + 1 - p)) true id).total ⟨false, [], fun _ => 0⟩ fun _ a _ => a := rfl
  clear_value J
  have e : e0 + 1 - p + (p : ℤ) - 1 = e0 := by ring
  have key : ∀ (η : ℝ) (A : Rounding ℝ ((1 / 2) ^ p) η (szSum η)), η = 2 ^ e0 → J = (rounded A true id).total ⟨false, [], fun _ => 0⟩ (fun _ a _ => a) →
      ∃ rs M', f.run J args M = some (rs, M') ∧ (∀ l < M.next, M'.heap l = M.heap l) ∧
        List.Forall₂ (NearIs (C * (1 / 2) ^ p)) es (rs.map fun r => seen J r.2 (M'.heap r.1)) := by
    intro η A hη hJ
    subst hη
    subst hJ
    obtain ⟨rs, M', -, g2, g3, -, -, g6⟩ := H ((1 / 2) ^ p) (by positivity) (half_le p) A ⟨false, [], fun _ => 0⟩ (fun _ a _ => a) M args h1 h2 (by rwa [one_mul])
    exact ⟨rs, M', g2, g3, g6⟩
  exact key _ (binaryReal p (e0 + 1 - p)) (by rw [e]) hJ0

/-- C84: the same for complex arrays; the real part of a number is taken exactly. -/
theorem C84_cc_complex {f : Fun} {ds es : List (Desc n ℂ)} (h : Stable f ds es) (e0 : ℤ) : ∃ C, 0 ≤ C ∧ ∀ (p : ℕ) (hp : 3 ≤ p),
    ∀ (M : Mem (Arr ℂ)) (args : List Ref),
      let J := (rounded (binaryComplex p (e0 + 1 - p) hp) true fun z => (z.re : ℂ)).total ⟨false, [], fun _ => 0⟩ fun _ a _ => a
      args.length = f.params.length → (∀ r ∈ args, r.1 < M.next) → List.Forall₂ (NearIs ((1 / 2) ^ p)) ds (args.map fun r => seen J r.2 (M.heap r.1)) →
      ∃ rs M', f.run J args M = some (rs, M') ∧ (∀ l < M.next, M'.heap l = M.heap l) ∧
        List.Forall₂ (NearIs (C * (1 / 2) ^ p)) es (rs.map fun r => seen J r.2 (M'.heap r.1)) := by
  obtain ⟨C, hC, H⟩ := h (fun z => (z.re : ℂ)) (fun x y => by rw [← Complex.ofReal_sub, Complex.norm_real, Real.norm_eq_abs, ← Complex.sub_re]; exact Complex.abs_re_le_norm _)
    (2 * 2 ^ e0) (by positivity) _ (sz_mono (η := 2 * 2 ^ e0) (by positivity)) (1 / 8) (by norm_num)
  refine ⟨8 * C, by positivity, fun p hp M args => ?_⟩
  intro J h1 h2 h3
  have hJ0 : J = (rounded (binaryComplex p (e0 + 1 - p) hp) true fun z => (z.re : ℂ)).total ⟨false, [], fun _ => 0⟩ fun _ a _ => a := rfl
  clear_value J
  have e : e0 + 1 - p + (p : ℤ) - 1 = e0 := by ring
  have hu : 8 * ((1 : ℝ) / 2) ^ p ≤ 1 := by
    have := pow_le_pow_of_le_one (show (0 : ℝ) ≤ 1 / 2 by norm_num) (by norm_num) hp
    linarith
  have key : ∀ (η : ℝ) (A : Rounding ℂ (8 * (1 / 2) ^ p) η (szSum η)), η = 2 * 2 ^ e0 →
      J = (rounded A true fun z => (z.re : ℂ)).total ⟨false, [], fun _ => 0⟩ (fun _ a _ => a) →
      ∃ rs M', f.run J args M = some (rs, M') ∧ (∀ l < M.next, M'.heap l = M.heap l) ∧
        List.Forall₂ (NearIs (8 * C * (1 / 2) ^ p)) es (rs.map fun r => seen J r.2 (M'.heap r.1)) := by
    intro η A hη hJ
    subst hη
    subst hJ
    obtain ⟨rs, M', -, g2, g3, -, -, g6⟩ := H (8 * (1 / 2) ^ p) (by positivity) hu A ⟨false, [], fun _ => 0⟩ (fun _ a _ => a) M args h1 h2
      (by rwa [show 1 / 8 * (8 * ((1 : ℝ) / 2) ^ p) = (1 / 2) ^ p by ring])
    exact ⟨rs, M', g2, g3, by rwa [show 8 * C * ((1 : ℝ) / 2) ^ p = C * (8 * (1 / 2) ^ p) by ring]⟩
  exact key _ (binaryComplex p (e0 + 1 - p) hp) (by rw [e]) hJ0

open Prog CC in
/-- The coupled-cluster energy of two occupied and three virtual orbitals in single, double or any other precision with the range of double precision. -/
example (t1 : Fin 3 → Fin 2 → ℝ) (t2 : Fin 3 → Fin 3 → Fin 2 → Fin 2 → ℝ) (f : Fin 2 → Fin 3 → ℝ) (eri : Fin 2 → Fin 2 → Fin 3 → Fin 3 → ℝ) :
    ∃ C, 0 ≤ C ∧ ∀ p : ℕ, ∀ (M : Mem (Arr ℝ)) (args : List Ref),
      let J := (rounded (binaryReal p (-1022 + 1 - p)) true id).total ⟨false, [], fun _ => 0⟩ fun _ a _ => a
      args.length = cc_energy.params.length → (∀ r ∈ args, r.1 < M.next) →
      List.Forall₂ (NearIs (n := fun k => k + 2) ((1 / 2) ^ p)) [.two false 1 0 t1, .four false 1 1 0 0 t2, .two false 0 1 f, .four false 0 0 1 1 eri]
        (args.map fun r => seen J r.2 (M.heap r.1)) →
      ∃ rs M', cc_energy.run J args M = some (rs, M') ∧ (∀ l < M.next, M'.heap l = M.heap l) ∧
        List.Forall₂ (NearIs (n := fun k => k + 2) (C * (1 / 2) ^ p)) [.num false (CC.cc_energy t1 t2 f eri)] (rs.map fun r => seen J r.2 (M'.heap r.1)) :=
  C84_cc_real (C60_cc_energy (n := fun k => k + 2) (i := false) (t := false) t1 t2 f eri) (-1022)

end Heap
