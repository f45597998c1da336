/-
Finite-temperature helpers, cqcpy/ft_utils.py, in rounded arithmetic: every `+ - * /` is followed by a rounding, `numpy.exp` and `numpy.log`
are arbitrary functions.  Overflow is not part of this model (see C70_exp_arguments for the exponentials).
-/
import Verif.Model.Ft

noncomputable section
namespace Ft

/-- The arithmetic of the machine: rounding, and its exponential and logarithm. -/
structure Arith where
  rd : ℝ → ℝ
  exp : ℝ → ℝ
  log : ℝ → ℝ

/-- Without rounding. -/
def Arith.real : Arith := ⟨id, Real.exp, Real.log⟩

namespace Arith
variable (A : Arith)

/-- ft_utils.py:12-21.  A change of sign is not rounded. -/
def fermi_function (beta epsilon mu : ℝ) : ℝ :=
  let emm := A.rd (epsilon - mu)
  let x := A.rd (beta * emm)
  if x < -30.0 then A.rd (1.0 - A.exp x)
  else if x > 30.0 then A.exp (-x)
  else A.rd (1.0 / A.rd (A.exp x + 1.0))

/-- ft_utils.py:24-33 -/
def vfermi_function (beta epsilon mu : ℝ) : ℝ :=
  let emm := A.rd (epsilon - mu)
  let x := A.rd (beta * emm)
  if x > 30.0 then A.rd (1.0 - A.exp (-x))
  else if x < -30.0 then A.exp x
  else A.rd (A.exp x / A.rd (A.exp x + 1.0))

/-- ft_utils.py:56-65 -/
def grand_potential0 (beta epsilon mu : ℝ) : ℝ :=
  let emm := A.rd (epsilon - mu)
  let x := A.rd (beta * emm)
  if x < -20.0 then A.rd (A.rd ((-A.exp x) / beta) + emm)
  else if x > 20.0 then A.rd ((-A.exp (-x)) / beta)
  else A.rd (A.rd (A.log (A.fermi_function beta epsilon mu) / beta) + emm)

/-- ft_utils.py:68-80 -/
def dgrand_potential0 (beta epsilon mu : ℝ) : ℝ :=
  let emm := A.rd (epsilon - mu)
  let x := A.rd (beta * emm)
  if x < -20.0 then A.rd (A.rd (A.rd (-emm * A.vfermi_function beta epsilon mu) / beta) + A.rd (A.exp x / A.rd (beta * beta)))
  else if x > 20.0 then A.rd (A.rd (A.rd (emm * A.fermi_function beta epsilon mu) / beta) + A.rd (A.exp (-x) / A.rd (beta * beta)))
  else A.rd (A.rd (-A.log (A.fermi_function beta epsilon mu) / A.rd (beta * beta)) - A.rd (A.rd (emm * A.vfermi_function beta epsilon mu) / beta))

/-- ft_utils.py:46-53 -/
def ff (beta : ℝ) (epsilon : Vec) (mu : ℝ) : Vec :=
  (List.range epsilon.len).foldl (fun focc i => focc.set i (A.fermi_function beta (epsilon.val i) mu)) (zeros epsilon.len)

/-- ft_utils.py:36-43 -/
def ffv (beta : ℝ) (epsilon : Vec) (mu : ℝ) : Vec :=
  (List.range epsilon.len).foldl (fun fvir i => fvir.set i (A.vfermi_function beta (epsilon.val i) mu)) (zeros epsilon.len)

/-- ft_utils.py:83-91 -/
def GP0 (beta : ℝ) (epsilon : Vec) (mu : ℝ) : Vec :=
  (List.range epsilon.len).foldl (fun argA i => argA.set i (A.grand_potential0 beta (epsilon.val i) mu)) (zeros epsilon.len)

/-- ft_utils.py:94-105 -/
def uGP0 (beta : ℝ) (ea eb : Vec) (mu : ℝ) : Vec × Vec :=
  let argA := zeros ea.len
  let argB := zeros eb.len
  let argA := (List.range ea.len).foldl (fun argA i => argA.set i (A.grand_potential0 beta (ea.val i) mu)) argA
  let argB := (List.range eb.len).foldl (fun argB i => argB.set i (A.grand_potential0 beta (eb.val i) mu)) argB
  (argA, argB)

/-- ft_utils.py:108-116 -/
def dGP0 (beta : ℝ) (epsilon : Vec) (mu : ℝ) : Vec :=
  (List.range epsilon.len).foldl (fun argA i => argA.set i (A.dgrand_potential0 beta (epsilon.val i) mu)) (zeros epsilon.len)

end Arith
end Ft
end
