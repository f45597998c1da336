/-
Finite-temperature helpers, cqcpy/ft_utils.py, in floating-point arithmetic with overflow, infinities and NaN.  A result that is too large becomes an
infinity; operations without a meaningful result give NaN, and comparisons with NaN are false.  The sign of zero is not modelled: a divisor that is zero
counts as +0 (`beta` and `beta*beta` are the only divisors that can be zero).  Arguments are floats or numpy floats; every division has a numpy float as
its numerator or denominator, so division by zero gives an infinity or NaN and raises nothing.
-/
import Verif.Model.FtRound

noncomputable section
namespace Ft

/-- Floating-point values. -/
inductive X where
  | fin (x : ℝ)
  | pinf
  | ninf
  | nan

/-- Rounded arithmetic with a largest number. -/
structure Mach extends Arith where
  big : ℝ

namespace X

/-- An infinity with the sign of `s`. -/
def inf (s : ℝ) : X := if 0 < s then pinf else if s < 0 then ninf else nan

def neg : X → X
  | fin x => fin (-x)
  | pinf => ninf
  | ninf => pinf
  | nan => nan

/-- `x < c` -/
def Lt (c : ℝ) : X → Prop
  | fin x => x < c
  | ninf => True
  | _ => False

/-- `x > c` -/
def Gt (c : ℝ) : X → Prop
  | fin x => x > c
  | pinf => True
  | _ => False

end X

namespace Mach
open X
variable (A : Mach)

/-- The result of an operation whose exact result is `x`. -/
def out (x : ℝ) : X := if A.big < A.rd x then pinf else if A.rd x < -A.big then ninf else fin (A.rd x)

def add : X → X → X
  | fin a, fin b => A.out (a + b)
  | nan, _ => nan
  | _, nan => nan
  | pinf, ninf => nan
  | ninf, pinf => nan
  | pinf, _ => pinf
  | _, pinf => pinf
  | ninf, _ => ninf
  | _, ninf => ninf

def sub (a b : X) : X := A.add a b.neg

def mul : X → X → X
  | fin a, fin b => A.out (a * b)
  | nan, _ => nan
  | _, nan => nan
  | fin a, pinf => inf a
  | fin a, ninf => inf (-a)
  | pinf, fin b => inf b
  | ninf, fin b => inf (-b)
  | pinf, pinf => pinf
  | pinf, ninf => ninf
  | ninf, pinf => ninf
  | ninf, ninf => pinf

def div : X → X → X
  | fin a, fin b => if b = 0 then inf a else A.out (a / b)
  | nan, _ => nan
  | _, nan => nan
  | fin _, _ => fin 0
  | pinf, fin b => if b < 0 then ninf else pinf
  | ninf, fin b => if b < 0 then pinf else ninf
  | _, _ => nan

/-- `numpy.exp` -/
def exp' : X → X
  | fin x => if A.big < A.exp x then pinf else fin (A.exp x)
  | pinf => pinf
  | ninf => fin 0
  | nan => nan

/-- `numpy.log` -/
def log' : X → X
  | fin y => if 0 < y then fin (A.log y) else if y = 0 then ninf else nan
  | pinf => pinf
  | _ => nan

open Classical

/-- ft_utils.py:12-21 -/
def fermi (beta epsilon mu : X) : X :=
  let emm := A.sub epsilon mu
  let x := A.mul beta emm
  if x.Lt (-30.0) then A.sub (fin 1.0) (A.exp' x)
  else if x.Gt 30.0 then A.exp' x.neg
  else A.div (fin 1.0) (A.add (A.exp' x) (fin 1.0))

/-- ft_utils.py:24-33 -/
def vfermi (beta epsilon mu : X) : X :=
  let emm := A.sub epsilon mu
  let x := A.mul beta emm
  if x.Gt 30.0 then A.sub (fin 1.0) (A.exp' x.neg)
  else if x.Lt (-30.0) then A.exp' x
  else A.div (A.exp' x) (A.add (A.exp' x) (fin 1.0))

/-- ft_utils.py:56-65 -/
def grand (beta epsilon mu : X) : X :=
  let emm := A.sub epsilon mu
  let x := A.mul beta emm
  if x.Lt (-20.0) then A.add (A.div (A.exp' x).neg beta) emm
  else if x.Gt 20.0 then A.div (A.exp' x.neg).neg beta
  else A.add (A.div (A.log' (A.fermi beta epsilon mu)) beta) emm

/-- ft_utils.py:68-80 -/
def dgrand (beta epsilon mu : X) : X :=
  let emm := A.sub epsilon mu
  let x := A.mul beta emm
  if x.Lt (-20.0) then A.add (A.div (A.mul emm.neg (A.vfermi beta epsilon mu)) beta) (A.div (A.exp' x) (A.mul beta beta))
  else if x.Gt 20.0 then A.add (A.div (A.mul emm (A.fermi beta epsilon mu)) beta) (A.div (A.exp' x.neg) (A.mul beta beta))
  else A.sub (A.div (A.log' (A.fermi beta epsilon mu)).neg (A.mul beta beta)) (A.div (A.mul emm (A.vfermi beta epsilon mu)) beta)

end Mach
end Ft
end
