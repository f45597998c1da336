import Mathlib.Data.Int.Log
import Mathlib.Algebra.Order.Archimedean.Basic
import Mathlib.Algebra.Order.Archimedean.Real.Basic
import Mathlib.Analysis.SpecialFunctions.Exp
import Mathlib.Algebra.Ring.Int.Parity
import Mathlib.Tactic.Linarith
import Mathlib.Tactic.Positivity
import Mathlib.Tactic.FieldSimp
import Mathlib.Tactic.Push
/-!
# Binary floating-point numbers

The numbers `m * 2^e` with `|m| < 2^p` and `e ≥ emin`, and rounding to the nearest of them with ties to even.  IEEE 754 double precision has `p = 53`,
`emin = -1074`, and replaces results of absolute value at least `2^1024` by infinities.
-/
noncomputable section
namespace Binary

/-- The nearest integer; of two nearest integers the even one. -/
def re (x : ℝ) : ℤ :=
  if x - ⌊x⌋ < 1 / 2 then ⌊x⌋ else if 1 / 2 < x - ⌊x⌋ then ⌊x⌋ + 1 else if Even ⌊x⌋ then ⌊x⌋ else ⌊x⌋ + 1

/-- The exponent of the last place of numbers of the size of `x`. -/
def place (p : ℕ) (emin : ℤ) (x : ℝ) : ℤ := max (Int.log 2 |x| + 1 - p) emin

/-- Round to nearest, ties to even. -/
def rd (p : ℕ) (emin : ℤ) (x : ℝ) : ℝ := re (x / 2 ^ place p emin x) * 2 ^ place p emin x

/-- The floating-point numbers. -/
def F (p : ℕ) (emin : ℤ) : Set ℝ := {x | ∃ (m : ℤ) (e : ℤ), |m| < 2 ^ p ∧ emin ≤ e ∧ x = m * 2 ^ e}

theorem re_cases (x : ℝ) : re x = ⌊x⌋ ∧ x - ⌊x⌋ ≤ 1 / 2 ∨ re x = ⌊x⌋ + 1 ∧ 1 / 2 ≤ x - ⌊x⌋ := by
  unfold re
  split_ifs with h1 h2 h3
  · exact Or.inl ⟨rfl, h1.le⟩
  · exact Or.inr ⟨rfl, h2.le⟩
  · exact Or.inl ⟨rfl, not_lt.1 h2⟩
  · exact Or.inr ⟨rfl, not_lt.1 h1⟩

theorem re_err (x : ℝ) : |(re x : ℝ) - x| ≤ 1 / 2 := by
  have h0 := Int.floor_le x
  have h1 := Int.lt_floor_add_one x
  rw [abs_le]
  rcases re_cases x with ⟨h, h'⟩ | ⟨h, h'⟩ <;> rw [h] <;> push_cast <;> constructor <;> linarith

theorem re_int (n : ℤ) : re n = n := by
  unfold re
  rw [Int.floor_intCast, sub_self, if_pos (by norm_num)]

theorem re_neg (x : ℝ) : re (-x) = -re x := by
  by_cases hx : ((⌊x⌋ : ℤ) : ℝ) = x
  · rw [← hx, ← Int.cast_neg, re_int, re_int]
  have h0 : (⌊x⌋ : ℝ) < x := lt_of_le_of_ne (Int.floor_le x) hx
  have h1 := Int.lt_floor_add_one x
  have hf : ⌊-x⌋ = -⌊x⌋ - 1 := by
    rw [Int.floor_eq_iff]
    push_cast
    constructor <;> linarith
  have he : Even (-⌊x⌋ - 1) ↔ ¬ Even ⌊x⌋ := by
    rw [Int.even_sub_one, even_neg]
  unfold re
  rw [hf]
  push_cast
  rcases lt_trichotomy (x - ⌊x⌋) (1 / 2) with h | h | h
  · rw [if_neg (by linarith), if_pos (by linarith), if_pos h]
    ring
  · have c1 : ¬ (-x - (-(⌊x⌋ : ℝ) - 1) < 1 / 2) := by linarith
    have c2 : ¬ (1 / 2 < -x - (-(⌊x⌋ : ℝ) - 1)) := by linarith
    have c3 : ¬ (x - ⌊x⌋ < 1 / 2) := by linarith
    have c4 : ¬ (1 / 2 < x - ⌊x⌋) := by linarith
    simp only [c1, c2, c3, c4, if_false, he]
    by_cases e : Even ⌊x⌋
    · simp only [e, not_true, if_false, if_true]
      ring
    · simp only [e, not_false_eq_true, if_false, if_true]
      ring
  · rw [if_pos (by linarith), if_neg (by linarith), if_pos h]
    ring

theorem re_mono : Monotone re := by
  intro x y h
  have hf := Int.floor_le_floor h
  rcases hf.lt_or_eq with hl | he
  · have a : re x ≤ ⌊x⌋ + 1 := by rcases re_cases x with ⟨h, _⟩ | ⟨h, _⟩ <;> omega
    have b : ⌊y⌋ ≤ re y := by rcases re_cases y with ⟨h, _⟩ | ⟨h, _⟩ <;> omega
    omega
  · have hx : x - ⌊x⌋ ≤ y - ⌊y⌋ := by rw [he]; linarith
    unfold re
    rw [← he] at hx ⊢
    split_ifs <;> first | omega | (exfalso; linarith)

section
variable (p : ℕ) (emin : ℤ)

theorem two_pos (e : ℤ) : (0 : ℝ) < 2 ^ e := zpow_pos (by norm_num) e

theorem place_neg (x : ℝ) : place p emin (-x) = place p emin x := by rw [place, abs_neg]; rfl

theorem rd_neg (x : ℝ) : rd p emin (-x) = -rd p emin x := by
  rw [rd, rd, place_neg, neg_div, re_neg]
  push_cast
  ring

theorem rd_zero : rd p emin 0 = 0 := by
  have : re 0 = 0 := by simpa using re_int 0
  rw [rd, zero_div, this]
  simp

theorem rd_err_place (x : ℝ) : |rd p emin x - x| ≤ 2 ^ place p emin x / 2 := by
  have h := two_pos (place p emin x)
  have e : rd p emin x - x = (re (x / 2 ^ place p emin x) - x / 2 ^ place p emin x) * 2 ^ place p emin x := by
    rw [rd, sub_mul, div_mul_cancel₀ _ h.ne']
  rw [e, abs_mul, abs_of_pos h]
  have := mul_le_mul_of_nonneg_right (re_err (x / 2 ^ place p emin x)) h.le
  linarith

theorem lt_place (x : ℝ) : |x| < 2 ^ (place p emin x + p) := by
  have h : |x| < ((2 : ℕ) : ℝ) ^ (Int.log 2 |x| + 1) := Int.lt_zpow_succ_log_self (by norm_num) |x|
  push_cast at h
  refine h.trans_le (zpow_le_zpow_right₀ (by norm_num) ?_)
  have : Int.log 2 |x| + 1 - p ≤ place p emin x := le_max_left _ _
  omega

theorem place_le_or (x : ℝ) : place p emin x = emin ∨ (emin < place p emin x ∧ (2 : ℝ) ^ (place p emin x + p - 1) ≤ |x| ∨ x = 0) := by
  by_cases hx : x = 0
  · exact Or.inr (Or.inr hx)
  rcases le_total (Int.log 2 |x| + 1 - p) emin with h | h
  · exact Or.inl (max_eq_right h)
  · rcases h.eq_or_lt with h' | h'
    · exact Or.inl (by rw [place, ← h', max_self])
    · refine Or.inr (Or.inl ?_)
      have e : place p emin x = Int.log 2 |x| + 1 - p := max_eq_left h
      have := Int.zpow_log_le_self (R := ℝ) (b := 2) (by norm_num) (abs_pos.2 hx)
      rw [e]
      refine ⟨h', ?_⟩
      have e2 : Int.log 2 |x| + 1 - (p : ℤ) + p - 1 = Int.log 2 |x| := by ring
      rw [e2]
      exact_mod_cast this

/-- The error of rounding: half a unit in the last place, or half of the smallest number. -/
theorem rd_err (x : ℝ) : |rd p emin x - x| ≤ max ((1 / 2) ^ p * |x|) (2 ^ (emin - 1)) := by
  have h := rd_err_place p emin x
  rcases place_le_or p emin x with e | ⟨_, e⟩ | e
  · refine h.trans (le_max_of_le_right ?_)
    rw [e, zpow_sub_one₀ (by norm_num)]
    exact le_of_eq (by ring)
  · refine h.trans (le_max_of_le_left ?_)
    have : (2 : ℝ) ^ (place p emin x + p - 1) = 2 ^ place p emin x / 2 * 2 ^ p := by
      rw [zpow_sub_one₀ (by norm_num), zpow_add₀ (by norm_num), zpow_natCast]
      ring
    rw [this] at e
    have hp : (0 : ℝ) < 2 ^ p := by positivity
    rw [one_div, inv_pow, inv_mul_eq_div, le_div_iff₀ hp]
    exact e
  · subst e
    rw [rd_zero, sub_zero, abs_zero, mul_zero]
    exact le_max_of_le_left le_rfl

theorem mem_of_le {m e : ℤ} (hp : 0 < p) (hm : |m| ≤ 2 ^ p) (he : emin ≤ e) : (m : ℝ) * 2 ^ e ∈ F p emin := by
  rcases hm.lt_or_eq with h | h
  · exact ⟨m, e, h, he, rfl⟩
  · obtain ⟨q, rfl⟩ : ∃ q, p = q + 1 := ⟨p - 1, by omega⟩
    have h2 : (0 : ℤ) < 2 ^ q := by positivity
    have h3 : (2 : ℤ) ^ q < 2 ^ (q + 1) := by rw [pow_succ]; omega
    rcases abs_eq (by positivity) |>.1 h with h | h
    · exact ⟨2 ^ q, e + 1, by rwa [abs_of_pos h2], by omega, by rw [h, zpow_add_one₀ (by norm_num)]; push_cast; ring⟩
    · exact ⟨-2 ^ q, e + 1, by rwa [abs_neg, abs_of_pos h2], by omega, by rw [h, zpow_add_one₀ (by norm_num)]; push_cast; ring⟩

theorem re_le (x : ℝ) {n : ℕ} (h : |x| ≤ 2 ^ n) : |re x| ≤ 2 ^ n := by
  have e (k : ℤ) (hk : (k : ℝ) = 2 ^ n) : re ((2 : ℝ) ^ n) = 2 ^ n := by
    have : ((2 ^ n : ℤ) : ℝ) = 2 ^ n := by push_cast; rfl
    rw [← this, re_int]
  have e := e (2 ^ n) (by push_cast; rfl)
  rw [abs_le] at h ⊢
  constructor
  · have := re_mono h.1
    rwa [re_neg, e] at this
  · have := re_mono h.2
    rwa [e] at this

/-- Results of rounding are floating-point numbers. -/
theorem rd_mem (hp : 0 < p) (x : ℝ) : rd p emin x ∈ F p emin := by
  refine mem_of_le p emin hp (re_le _ ?_) (le_max_right _ _)
  have h := two_pos (place p emin x)
  rw [abs_div, abs_of_pos h, div_le_iff₀ h, ← zpow_natCast, ← zpow_add₀ (by norm_num), add_comm]
  exact (lt_place p emin x).le

theorem rd_of_place {x : ℝ} {m e : ℤ} (h : place p emin x ≤ e) (hx : x = m * 2 ^ e) : rd p emin x = x := by
  have h2 := two_pos (place p emin x)
  obtain ⟨k, hk⟩ : ∃ k : ℕ, e = place p emin x + k := ⟨(e - place p emin x).toNat, by omega⟩
  have : x / 2 ^ place p emin x = ((m * 2 ^ k : ℤ) : ℝ) := by
    rw [div_eq_iff h2.ne']
    conv_lhs => rw [hx, hk, zpow_add₀ (by norm_num), zpow_natCast]
    push_cast
    ring
  rw [rd, this, re_int, ← this, div_mul_cancel₀ _ h2.ne']

/-- Floating-point numbers are not changed by rounding. -/
theorem rd_id {x : ℝ} (hx : x ∈ F p emin) : rd p emin x = x := by
  obtain ⟨m, e, hm, he, rfl⟩ := hx
  by_cases h0 : (m : ℝ) * 2 ^ e = 0
  · rw [h0, rd_zero]
  refine rd_of_place p emin (max_le ?_ he) rfl
  have hl := Int.zpow_log_le_self (R := ℝ) (b := 2) (by norm_num) (abs_pos.2 h0)
  have : |(m : ℝ) * 2 ^ e| < 2 ^ (e + p) := by
    rw [abs_mul, abs_of_pos (two_pos e), zpow_add₀ (by norm_num), zpow_natCast, mul_comm]
    refine mul_lt_mul_of_pos_left ?_ (two_pos e)
    exact_mod_cast hm
  have : ((2 : ℕ) : ℝ) ^ Int.log 2 |(m : ℝ) * 2 ^ e| < 2 ^ (e + p) := lt_of_le_of_lt hl this
  push_cast at this
  have := (zpow_lt_zpow_iff_right₀ (by norm_num)).1 this
  omega

theorem rd_nonneg {x : ℝ} (h : 0 ≤ x) : 0 ≤ rd p emin x := by
  have := re_mono (div_nonneg h (two_pos (place p emin x)).le)
  have e : re 0 = 0 := by simpa using re_int 0
  rw [e] at this
  exact mul_nonneg (by exact_mod_cast this) (two_pos _).le

theorem place_mono {x y : ℝ} (h0 : 0 < x) (h : x ≤ y) : place p emin x ≤ place p emin y := by
  unfold place
  have : Int.log 2 |x| ≤ Int.log 2 |y| := Int.log_mono_right (abs_pos.2 h0.ne') (by rwa [abs_of_pos h0, abs_of_pos (h0.trans_le h)])
  omega

/-- Rounding is monotone. -/
theorem rd_mono (hp : 0 < p) : Monotone (rd p emin) := by
  have pos : ∀ x y : ℝ, 0 < x → x ≤ y → rd p emin x ≤ rd p emin y := by
    intro x y h0 h
    have hy := h0.trans_le h
    rcases (place_mono p emin h0 h).lt_or_eq with hl | he
    · have b : rd p emin x ≤ 2 ^ (place p emin x + p) := by
        have : |re (x / 2 ^ place p emin x)| ≤ 2 ^ p := by
          refine re_le _ ?_
          have h := two_pos (place p emin x)
          rw [abs_div, abs_of_pos h, div_le_iff₀ h, ← zpow_natCast, ← zpow_add₀ (by norm_num), add_comm]
          exact (lt_place p emin x).le
        have := (abs_le.1 this).2
        rw [rd, zpow_add₀ (by norm_num), zpow_natCast, mul_comm]
        exact mul_le_mul_of_nonneg_left (by exact_mod_cast this) (two_pos _).le
      refine b.trans ?_
      have hmin : emin ≤ place p emin x := le_max_right _ _
      rcases place_le_or p emin y with e | ⟨_, e⟩ | e
      · omega
      · have c : (2 : ℝ) ^ (place p emin y + p - 1) ≤ rd p emin y := by
          obtain ⟨q, rfl⟩ : ∃ q, p = q + 1 := ⟨p - 1, by omega⟩
          have e1 : (2 : ℝ) ^ (place (q + 1) emin y + (q + 1 : ℕ) - 1) = ((2 ^ q : ℤ) : ℝ) * 2 ^ place (q + 1) emin y := by
            have : place (q + 1) emin y + ((q + 1 : ℕ) : ℤ) - 1 = place (q + 1) emin y + q := by push_cast; ring
            rw [this, zpow_add₀ (by norm_num), zpow_natCast]
            push_cast
            ring
          rw [e1] at e ⊢
          rw [abs_of_pos hy] at e
          have := re_mono ((le_div_iff₀ (two_pos _)).2 e)
          rw [re_int] at this
          exact mul_le_mul_of_nonneg_right (by exact_mod_cast this) (two_pos _).le
        refine le_trans (zpow_le_zpow_right₀ (by norm_num) ?_) c
        omega
      · exact absurd e hy.ne'
    · rw [rd, rd, he]
      exact mul_le_mul_of_nonneg_right (by exact_mod_cast re_mono (div_le_div_of_nonneg_right h (two_pos _).le)) (two_pos _).le
  intro x y h
  rcases lt_trichotomy x 0 with hx | hx | hx
  · rcases lt_or_ge y 0 with hy | hy
    · have := pos (-y) (-x) (by linarith) (by linarith)
      rw [rd_neg, rd_neg] at this
      linarith
    · have a := rd_nonneg p emin (show 0 ≤ -x by linarith)
      rw [rd_neg] at a
      have b := rd_nonneg p emin hy
      linarith
  · subst hx
    rw [rd_zero]
    exact rd_nonneg p emin h
  · exact pos x y hx h

/-- Sums and differences do not underflow. -/
theorem rd_add_err {a b : ℝ} (ha : a ∈ F p emin) (hb : b ∈ F p emin) : |rd p emin (a + b) - (a + b)| ≤ (1 / 2) ^ p * |a + b| := by
  obtain ⟨m, e, -, he, rfl⟩ := ha
  obtain ⟨n, f, -, hf, rfl⟩ := hb
  obtain ⟨k, hk⟩ : ∃ k : ℕ, e = emin + k := ⟨(e - emin).toNat, by omega⟩
  obtain ⟨l, hl⟩ : ∃ l : ℕ, f = emin + l := ⟨(f - emin).toNat, by omega⟩
  generalize hx : (m : ℝ) * 2 ^ e + n * 2 ^ f = x
  have hx' : x = ((m * 2 ^ k + n * 2 ^ l : ℤ) : ℝ) * 2 ^ emin := by
    rw [← hx, hk, hl, zpow_add₀ (by norm_num), zpow_add₀ (by norm_num), zpow_natCast, zpow_natCast]
    push_cast
    ring
  rcases place_le_or p emin x with e | ⟨_, e⟩ | e
  · rw [rd_of_place p emin e.le hx', sub_self, abs_zero]
    positivity
  · refine (rd_err_place p emin x).trans ?_
    have : (2 : ℝ) ^ (place p emin x + p - 1) = 2 ^ place p emin x / 2 * 2 ^ p := by
      rw [zpow_sub_one₀ (by norm_num), zpow_add₀ (by norm_num), zpow_natCast]
      ring
    rw [this] at e
    have hp : (0 : ℝ) < 2 ^ p := by positivity
    rw [one_div, inv_pow, inv_mul_eq_div, le_div_iff₀ hp]
    exact e
  · rw [e, rd_zero, sub_zero, abs_zero, mul_zero]

theorem one_mem (hp : 0 < p) (he : emin ≤ 0) : (1 : ℝ) ∈ F p emin := by
  refine ⟨1, 0, ?_, he, by norm_num⟩
  rw [abs_one]
  exact one_lt_pow₀ (by norm_num) hp.ne'
end

end Binary
end
