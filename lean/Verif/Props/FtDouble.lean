import Verif.Props.FtRound2
import Verif.Props.Binary
/-!
# C88: grand potentials and their derivatives in double precision
-/
noncomputable section
namespace Ft
open Real

/-- C88: in double precision (without overflow, see C85), for inverse temperatures between `10^-20` and `10^20` and levels at any distance from the chemical potential, the grand
potential and its derivative have errors of at most `2 10^-14 (1 + |x|)` in units of `1 / beta` and `1 / beta ^ 2`. -/
theorem C88_double (beta epsilon mu : ℝ) (h1 : 1 / 10 ^ 20 ≤ beta) (h2 : beta ≤ 10 ^ 20) :
    |double.grand_potential0 beta epsilon mu - omega beta (epsilon - mu)| ≤ 2 / 10 ^ 14 * (1 + |beta * (epsilon - mu)|) / beta ∧
      |double.dgrand_potential0 beta epsilon mu - domega beta (epsilon - mu)| ≤ 2 / 10 ^ 14 * (1 + |beta * (epsilon - mu)|) / beta ^ 2 := by
  have hb : 0 < beta := lt_of_lt_of_le (by norm_num) h1
  have F := C84_ft 53 (-1074) (by norm_num) (by norm_num)
  have hu : ((1 : ℝ) / 2) ^ 53 ≤ 12 / 10 ^ 17 := by norm_num
  have η0 := F.η0
  have hη := tiny
  set η : ℝ := 2 ^ ((-1074 : ℤ) - 1)
  have h21 : exp (21 : ℝ) ≤ 14 * 10 ^ 8 := by
    have e : exp (21 : ℝ) = exp 1 ^ 21 := by rw [← exp_nat_mul]; norm_num
    rw [e]
    have := exp_one_lt_d9.le
    calc exp 1 ^ 21 ≤ 2.7182818286 ^ 21 := by gcongr
      _ ≤ _ := by norm_num
  have h40 : exp (-40 : ℝ) ≤ 1 / 10 ^ 16 := by
    rw [exp_neg, ← one_div]
    apply one_div_le_one_div_of_le (by norm_num)
    have h := exp_one_gt_d9
    have e : exp (40 : ℝ) = exp 1 ^ 40 := by rw [← exp_nat_mul]; norm_num
    rw [e]
    calc (10 : ℝ) ^ 16 ≤ 2.7182818283 ^ 40 := by norm_num
      _ ≤ _ := by gcongr
  have hM : exp 21 * η ≤ 14 * 10 ^ 8 * (1 / 10 ^ 100) := mul_le_mul h21 hη η0 (by norm_num)
  have M0 : 0 ≤ exp 21 * η := by positivity
  have hMb : exp 21 * η * (1 + beta) ≤ 14 * 10 ^ 8 * (1 / 10 ^ 100) * (1 + 10 ^ 20) := mul_le_mul hM (by linarith) (by linarith) (by norm_num)
  have b2 : 0 < beta ^ 2 := by positivity
  have b2l : 1 / 10 ^ 40 ≤ beta ^ 2 := by
    calc (1 : ℝ) / 10 ^ 40 = (1 / 10 ^ 20) ^ 2 := by norm_num
      _ ≤ _ := by gcongr
  have b2u : beta ^ 2 ≤ 10 ^ 40 := by
    calc beta ^ 2 ≤ (10 ^ 20) ^ 2 := by gcongr
      _ = _ := by norm_num
  have X0 := abs_nonneg (beta * (epsilon - mu))
  constructor
  · refine (C70_grand_potential F (hu.trans (by norm_num)) (hM.trans (by norm_num)) beta epsilon mu hb).trans ?_
    set X := |beta * (epsilon - mu)|
    rw [le_div_iff₀ hb, add_mul, div_mul_cancel₀ _ hb.ne']
    have k : 8 * η * beta ≤ 8 * (1 / 10 ^ 100) * 10 ^ 20 := by gcongr
    have k2 : 70 * ((1 : ℝ) / 2) ^ 53 * (1 + X) ≤ 70 * (12 / 10 ^ 17) * (1 + X) := by gcongr
    norm_num at hM k k2 h40 ⊢
    linarith
  · refine (C88_dgrand_potential F (hu.trans (by norm_num)) beta epsilon mu hb (hMb.trans (by norm_num)) ?_).trans ?_
    · norm_num at hη b2l ⊢; linarith
    set X := |beta * (epsilon - mu)|
    rw [le_div_iff₀ b2, add_mul, div_mul_cancel₀ _ b2.ne']
    have k : 4 * η * beta ^ 2 ≤ 4 * (1 / 10 ^ 100) * 10 ^ 40 := by gcongr
    have k3 : η / beta ^ 2 ≤ 1 / 10 ^ 60 := by
      rw [div_le_iff₀ b2]
      norm_num at hη b2l ⊢
      linarith
    have k2 : (90 * ((1 : ℝ) / 2) ^ 53 + 2 * exp (-40) + 40 * (exp 21 * η) * (1 + beta)) * (1 + X) ≤ (15 / 10 ^ 15) * (1 + X) := by
      refine mul_le_mul_of_nonneg_right ?_ (by linarith)
      norm_num at hMb h40 ⊢
      linarith
    norm_num at k k2 k3 ⊢
    linarith

/-- at `kT = 1/10` and a level two above the chemical potential -/
example : |double.dgrand_potential0 10 2 0 - domega 10 2| ≤ 1 / 10 ^ 14 := by
  have := (C88_double 10 2 0 (by norm_num) (by norm_num)).2
  norm_num at this ⊢
  linarith

end Ft
end
