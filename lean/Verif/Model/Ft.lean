/-
Finite-temperature helpers, cqcpy/ft_utils.py, over the real numbers (for floating-point rounding see Model/FtRound).
-/
import Mathlib.Analysis.SpecialFunctions.Log.Basic

noncomputable section
namespace Ft

/-- ft_utils.py:3 -/
def hartree_to_ev : ℝ := 27.2113860217
/-- ft_utils.py:4 -/
def kb : ℝ := 8.617330350e-5

/-- ft_utils.py:7-9 -/
def HtoK (T : ℝ) : ℝ := T * hartree_to_ev / kb

/-- ft_utils.py:12-21 -/
def fermi_function (beta epsilon mu : ℝ) : ℝ :=
  let emm := epsilon - mu
  let x := beta * emm
  if x < -30.0 then 1.0 - Real.exp x
  else if x > 30.0 then Real.exp (-x)
  else 1.0 / (Real.exp x + 1.0)

/-- ft_utils.py:24-33 -/
def vfermi_function (beta epsilon mu : ℝ) : ℝ :=
  let emm := epsilon - mu
  let x := beta * emm
  if x > 30.0 then 1.0 - Real.exp (-x)
  else if x < -30.0 then Real.exp x
  else Real.exp x / (Real.exp x + 1.0)

/-- A one-dimensional float array: its length and its elements (elements beyond the length are never read). -/
structure Vec where
  len : ℕ
  val : ℕ → ℝ

/-- `numpy.zeros(epsilon.shape)` for a one-dimensional `epsilon` -/
def zeros (n : ℕ) : Vec := ⟨n, fun _ => 0⟩

/-- `a[i] = x` -/
def Vec.set (a : Vec) (i : ℕ) (x : ℝ) : Vec := ⟨a.len, fun j => if j = i then x else a.val j⟩

/-- ft_utils.py:36-43, the loop over `range(epsilon.shape[0])` as a fold -/
def ffv (beta : ℝ) (epsilon : Vec) (mu : ℝ) : Vec :=
  (List.range epsilon.len).foldl (fun fvir i => fvir.set i (vfermi_function beta (epsilon.val i) mu)) (zeros epsilon.len)

/-- ft_utils.py:46-53 -/
def ff (beta : ℝ) (epsilon : Vec) (mu : ℝ) : Vec :=
  (List.range epsilon.len).foldl (fun focc i => focc.set i (fermi_function beta (epsilon.val i) mu)) (zeros epsilon.len)

/-- ft_utils.py:56-65.  Division by a zero `beta` would raise or give infinities in Python; the theorems assume
`beta` nonzero. -/
def grand_potential0 (beta epsilon mu : ℝ) : ℝ :=
  let emm := epsilon - mu
  let x := beta * emm
  if x < -20.0 then (-Real.exp x) / beta + emm
  else if x > 20.0 then (-Real.exp (-x)) / beta
  else Real.log (fermi_function beta epsilon mu) / beta + emm

/-- ft_utils.py:68-80 -/
def dgrand_potential0 (beta epsilon mu : ℝ) : ℝ :=
  let emm := epsilon - mu
  let x := beta * emm
  if x < -20.0 then -emm * vfermi_function beta epsilon mu / beta + Real.exp x / (beta * beta)
  else if x > 20.0 then emm * fermi_function beta epsilon mu / beta + Real.exp (-x) / (beta * beta)
  else -Real.log (fermi_function beta epsilon mu) / (beta * beta) - emm * vfermi_function beta epsilon mu / beta

/-- ft_utils.py:83-91 -/
def GP0 (beta : ℝ) (epsilon : Vec) (mu : ℝ) : Vec :=
  (List.range epsilon.len).foldl (fun argA i => argA.set i (grand_potential0 beta (epsilon.val i) mu)) (zeros epsilon.len)

/-- ft_utils.py:94-105 -/
def uGP0 (beta : ℝ) (ea eb : Vec) (mu : ℝ) : Vec × Vec :=
  let argA := zeros ea.len
  let argB := zeros eb.len
  let argA := (List.range ea.len).foldl (fun argA i => argA.set i (grand_potential0 beta (ea.val i) mu)) argA
  let argB := (List.range eb.len).foldl (fun argB i => argB.set i (grand_potential0 beta (eb.val i) mu)) argB
  (argA, argB)

/-- ft_utils.py:108-116 -/
def dGP0 (beta : ℝ) (epsilon : Vec) (mu : ℝ) : Vec :=
  (List.range epsilon.len).foldl (fun argA i => argA.set i (dgrand_potential0 beta (epsilon.val i) mu)) (zeros epsilon.len)

end Ft
end
