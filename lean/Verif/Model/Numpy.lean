import Verif.Model.Heap
import Mathlib.Algebra.Field.Defs
import Mathlib.Algebra.BigOperators.Group.Finset.Basic
/-!
# What the array programs compute

The programs of `Verif.Model.HeapProg` run on numpy arrays: contents, shapes, element types and exceptions.

An array has an element type (real or complex), a shape and a content.  The operators follow numpy, except that an axis of length one is
never stretched: where numpy would broadcast it the model raises.  (Only numbers, i.e. arrays without axes, combine with arrays of any
shape.)  A theorem saying that a call does not raise in the model therefore says that numpy never stretches an axis.

`einsum` is `numpy.einsum`, which the package uses when pyscf is not installed (cc_equations.py:2-6, cc_energy.py:2-6); a result without
axes is a number, so that `x += e` on it binds a new number.  Arithmetic is exact.
-/

namespace Heap

/-- Exceptions: `NameError`; `ValueError` for shapes, subscripts and axes; `UFuncTypeError` when a complex result is written into a real
array; `ComplexWarning` when a cast drops imaginary parts, which is an exception only if Python is told so. -/
inductive Err | name | shape | cast | loss
deriving DecidableEq

/-- Operators that may raise. -/
structure PInterp (W : Type) where
  lit : ℕ → ℕ → W
  ein : List (List ℕ) → List ℕ → List W → Except Err W
  bin : Op → W → W → Except Err W
  aug : Op → W → W → Except Err W
  neg : W → W
  cast : W → W → Except Err W
  transp : List ℕ → W → Except Err W

variable {W : Type}

def getVal (v : Vals W) (x : ℕ) : Except Err W :=
  match v x with
  | some w => .ok w
  | none => .error .name

def nval (J : PInterp W) (v : Vals W) : Ex → Except Err W
  | .var x => getVal v x
  | .lit p q => .ok (J.lit p q)
  | .ein2 ins out a b => do J.ein ins out [← nval J v a, ← nval J v b]
  | .ein3 ins out a b c => do J.ein ins out [← nval J v a, ← nval J v b, ← nval J v c]
  | .ein4 ins out a b c d => do J.ein ins out [← nval J v a, ← nval J v b, ← nval J v c, ← nval J v d]
  | .ein5 ins out a b c d e => do J.ein ins out [← nval J v a, ← nval J v b, ← nval J v c, ← nval J v d, ← nval J v e]
  | .bin o a b => do J.bin o (← nval J v a) (← nval J v b)
  | .neg a => do return J.neg (← nval J v a)
  | .copy a => nval J v a
  | .astype a x => do J.cast (← nval J v a) (← getVal v x)
  | .transp p a => do J.transp p (← nval J v a)

def nvalAll (J : PInterp W) (v : Vals W) : List (ℕ × Ex) → Vals W → Except Err (Vals W)
  | [], v' => .ok v'
  | (x, e) :: ps, v' => do
    let w ← nval J v e
    nvalAll J v ps (v'.set x (some w))

/-- As `pexec`, with exceptions. -/
def nexec (J : PInterp W) : Stmt → Vals W → Except Err (Vals W)
  | .skip, v => .ok v
  | .seq s t, v => do nexec J t (← nexec J s v)
  | .assign x e, v => do return v.set x (some (← nval J v e))
  | .aug x o e, v => do
    let w ← nval J v e
    return v.set x (some (← J.aug o (← getVal v x) w))
  | .del x, v => do
    let _ ← getVal v x
    return v.set x none
  | .call ps body rs, v => do
    let v1 ← nvalAll J v ps fun _ => none
    let v2 ← nexec J body v1
    nvalAll J v2 rs (back body.augs v2 ps v)

/-- Calling a routine: the returned arrays or the exception. -/
def Fun.nrun (J : PInterp W) (f : Fun) (args : List W) : Except Err (List W) := do
  let v ← nexec J f.body (pbindArgs f.params args)
  f.ret.mapM (nval J v)

/-! ### arrays -/

structure Arr (K : Type) where
  cx : Bool
  shape : List ℕ
  val : List ℕ → K

/-- The extents of the letters of one operand, added to those known; a letter has one extent. -/
def addDims : List ℕ → List ℕ → List (ℕ × ℕ) → Option (List (ℕ × ℕ))
  | [], [], D => some D
  | l :: ls, n :: ns, D => match D.lookup l with
    | none => addDims ls ns (D ++ [(l, n)])
    | some m => if m = n then addDims ls ns D else none
  | _, _, _ => none

def allDims : List (List ℕ) → List (List ℕ) → List (ℕ × ℕ) → Option (List (ℕ × ℕ))
  | [], [], D => some D
  | ls :: ins, s :: ss, D => match addDims ls s D with
    | some D' => allDims ins ss D'
    | none => none
  | _, _, _ => none

/-- The extents of the output letters, which have to be different. -/
def outDims (D : List (ℕ × ℕ)) : List ℕ → Option (List ℕ)
  | [] => some []
  | l :: ls => if l ∈ ls then none else match D.lookup l, outDims D ls with
    | some n, some s => some (n :: s)
    | _, _ => none

/-- The shape of the result, and the letters summed over with their extents. -/
def einShape (ins : List (List ℕ)) (out : List ℕ) (ss : List (List ℕ)) : Option (List ℕ × List (ℕ × ℕ)) :=
  match allDims ins ss [] with
  | some D => match outDims D out with
    | some s => some (s, D.filter fun d => !out.contains d.1)
    | none => none
  | none => none

section
variable {K : Type} [Field K]

/-- Sum over the values of letters. -/
def sumOver : List (ℕ × ℕ) → ((ℕ → ℕ) → K) → (ℕ → ℕ) → K
  | [], f, ρ => f ρ
  | d :: D, f, ρ => ∑ z ∈ Finset.range d.2, sumOver D f (Function.update ρ d.1 z)

/-- The values of the output letters. -/
def bindOut : List ℕ → List ℕ → ℕ → ℕ
  | l :: ls, z :: zs => Function.update (bindOut ls zs) l z
  | _, _ => fun _ => 0

/-- The product of the operands, from the left, for given values of the letters. -/
def einMul : K → List (List ℕ) → List (Arr K) → (ℕ → ℕ) → K
  | x, ls :: ins, a :: as, ρ => einMul (x * a.val (ls.map ρ)) ins as ρ
  | x, _, _, _ => x

def einProd : List (List ℕ) → List (Arr K) → (ℕ → ℕ) → K
  | ls :: ins, a :: as, ρ => einMul (a.val (ls.map ρ)) ins as ρ
  | _, _, _ => 1

def einsum (ins : List (List ℕ)) (out : List ℕ) (as : List (Arr K)) : Except Err (Arr K) :=
  match einShape ins out (as.map Arr.shape) with
  | none => .error .shape
  | some (s, D) => .ok ⟨as.any Arr.cx, s, fun idx => sumOver D (einProd ins as) (bindOut out idx)⟩

def opVal : Op → K → K → K
  | .add, a, b => a + b
  | .sub, a, b => a - b
  | .mul, a, b => a * b

/-- The common shape of two operands: equal, or one is a number. -/
def bshape (s t : List ℕ) : Option (List ℕ) := if s = t then some s else if s = [] then some t else if t = [] then some s else none

/-- The element that a number or an array contributes to an elementwise operation. -/
def Arr.at (a : Arr K) (idx : List ℕ) : K := if a.shape = [] then a.val [] else a.val idx

def arrBin (o : Op) (a b : Arr K) : Except Err (Arr K) :=
  match bshape a.shape b.shape with
  | none => .error .shape
  | some s => .ok ⟨a.cx || b.cx, s, fun idx => opVal o (a.at idx) (b.at idx)⟩

/-- `a += b`, `a -= b`.  The array keeps its shape and element type; a number is replaced by the new number. -/
def arrAug (o : Op) (a b : Arr K) : Except Err (Arr K) :=
  if bshape a.shape b.shape ≠ some a.shape then .error .shape
  else if a.shape ≠ [] ∧ b.cx ∧ !a.cx then .error .cast
  else .ok ⟨a.cx || (a.shape.isEmpty && b.cx), a.shape, fun idx => opVal o (a.at idx) (b.at idx)⟩

/-- `a.transpose(p)`: axis `k` of the result is axis `p[k]` of `a`. -/
def transpShape (p s : List ℕ) : Option (List ℕ) :=
  if p.length = s.length ∧ (List.range s.length).all (fun x => p.contains x) then some (p.map fun x => s.getD x 0) else none

def arrTransp (p : List ℕ) (a : Arr K) : Except Err (Arr K) :=
  match transpShape p a.shape with
  | none => .error .shape
  | some s => .ok ⟨a.cx, s, fun idx => a.val ((List.range p.length).map fun x => idx.getD (p.idxOf x) 0)⟩

/-- `a.astype(x.dtype)`, a new array.  Imaginary parts are dropped with a warning (`warn`: the warning is an exception). -/
def arrCast (warn : Bool) (re : K → K) (a x : Arr K) : Except Err (Arr K) :=
  if warn ∧ a.cx ∧ !x.cx then .error .loss
  else .ok ⟨x.cx, a.shape, if a.cx ∧ !x.cx then fun idx => re (a.val idx) else a.val⟩

/-- numpy; `re` is what casting to a real type does to an element. -/
def numpy (warn : Bool) (re : K → K) : PInterp (Arr K) where
  lit p q := ⟨false, [], fun _ => p / q⟩
  ein := einsum
  bin := arrBin
  aug := arrAug
  neg a := ⟨a.cx, a.shape, fun idx => -a.val idx⟩
  cast := arrCast warn re
  transp := arrTransp

end
end Heap
