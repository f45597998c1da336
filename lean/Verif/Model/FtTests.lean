import Verif.Model.Ft
/-!
# The tests of `ft_utils`

The finite-difference tests of `cqcpy/tests/test_ft_utils.py` as functions of everything the tests fix to literals: the
inverse temperature, the energies, the chemical potential, the step and the tolerance.  Arithmetic is exact.
-/
noncomputable section
namespace Ft.Tests
open Ft

/-- tests/test_ft_utils.py:6-10 -/
def fd_grand_potential (beta epsilon mu delta : ℝ) : ℝ :=
  let fff := grand_potential0 (beta + delta) epsilon mu
  let bbb := grand_potential0 (beta - delta) epsilon mu
  let ref := (fff - bbb) / (2.0 * delta)
  ref

/-- tests/test_ft_utils.py:112-119, 121-128, 130-137: the assertion of the three tests for any input.  Dividing by a
zero `ref` gives `nan` or `inf` (the values are numpy floats), and the comparison is then false. -/
def test_dgrand_potential (beta e mu delta tol : ℝ) : Prop :=
  let ref := fd_grand_potential beta e mu delta
  let out := dgrand_potential0 beta e mu
  let diff := |out - ref| / |ref|
  ref ≠ 0 ∧ diff < tol

/-- tests/test_ft_utils.py:75-94: the conjunction of the two assertions. -/
def test_dfermi (beta e mu delta tol : ℝ) : Prop :=
  let fo := fermi_function beta e mu
  let fv := vfermi_function beta e mu
  let fof := Real.sqrt (fermi_function (beta + delta) e mu)
  let fob := Real.sqrt (fermi_function (beta - delta) e mu)
  let fvf := Real.sqrt (vfermi_function (beta + delta) e mu)
  let fvb := Real.sqrt (vfermi_function (beta - delta) e mu)
  let dfo_fd := (fof - fob) / (2.0 * delta)
  let dfv_fd := (fvf - fvb) / (2.0 * delta)
  let dx := e - mu
  let dfo := -0.5 * dx * fv * Real.sqrt fo
  let dfv := 0.5 * dx * Real.sqrt fv * fo
  let diffo := |dfo - dfo_fd|
  let diffv := |dfv - dfv_fd|
  diffo < tol ∧ diffv < tol

/-- `numpy.linalg.norm` of the first `n` elements of a vector -/
def norm (n : ℕ) (v : ℕ → ℝ) : ℝ := Real.sqrt (∑ i ∈ Finset.range n, v i ^ 2)

/-- tests/test_ft_utils.py:139-149; a zero denominator makes the comparison false. -/
def test_dGP0 (beta : ℝ) (e : Vec) (mu delta tol : ℝ) : Prop :=
  let fff := GP0 (beta + delta) e mu
  let bbb := GP0 (beta - delta) e mu
  let ref := fun i => (fff.val i - bbb.val i) / (2.0 * delta)
  let out := dGP0 beta e mu
  let diff := norm out.len (fun i => out.val i - ref i) / norm fff.len ref
  norm fff.len ref ≠ 0 ∧ diff < tol

end Ft.Tests
end
