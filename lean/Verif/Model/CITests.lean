import Verif.Model.CIEx
import Mathlib.Analysis.SpecialFunctions.Sqrt
/-!
# The test of `H_on_vec`

`test_mat_on_vec_cisd` of `cqcpy/tests/test_ci_utils.py` as a function of the sizes, the arrays drawn and the threshold.  The tests of the same file that
call pyscf have the loops of the examples (`Model/CIEx`).
-/
noncomputable section
namespace CI.Tests

/-- tests/test_ci_utils.py:26-50: the basis; the same reference string, with `na` electrons, is used for both spins. -/
def basis (nmo na nb : ℕ) : R (List Pair) := do
  let sa ← s_strings nmo na
  let sb ← s_strings nmo nb
  let da ← d_strings nmo na
  let db ← d_strings nmo nb
  let ref ← Dstring.new nmo (aufbau nmo na)
  return [(some ref, some ref)] ++ withB sa ref ++ withA ref sb ++ withB da ref ++ withA ref db ++ prod sa sb

/-- `numpy.linalg.norm` of a vector -/
def norm (v : List ℝ) : ℝ := Real.sqrt (v.map (· ^ 2)).sum

/-- tests/test_ci_utils.py:12-62.  `h0`, `I0` and `v0` are the draws of lines 18, 21 and 53 (`v0` as long as needed).  An exception fails the test, and so does a
zero denominator. -/
def test_mat_on_vec_cisd (nmo na nb : ℕ) (h0 : ℕ → ℕ → ℝ) (I0 : ℕ → ℕ → ℕ → ℕ → ℝ) (v0 : ℕ → ℝ) (thresh : ℝ) : Prop :=
  let ha := fun p q => h0 p q + h0 q p
  let hb := ha
  let Ia := fun p q r s => I0 p q r s + I0 q p s r
  let Ib := Ia
  let Iabab := Ia
  let run : R (List ℝ × List ℝ) := do
    let basis ← basis nmo na nb
    let nd := basis.length
    let vec := (List.range nd).map v0
    let H ← naive_matrix basis ha hb Ia Ib Iabab 0
    let ref := applyRows H vec
    let out ← H_on_vec basis vec ha hb Ia Ib Iabab
    return (out, ref)
  match run with
  | .ok (out, ref) => norm ref ≠ 0 ∧ norm (List.zipWith (· - ·) out ref) / norm ref < thresh
  | .error _ => False

end CI.Tests
end
