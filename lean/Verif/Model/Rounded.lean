import Verif.Model.Numpy
import Mathlib.Analysis.RCLike.Basic
/-!
# Arrays of floating-point numbers

As `Verif.Model.Numpy`, but every elementary operation and every sum of products may be wrong by a small amount.  The numbers are still
elements of a field of real or complex numbers, so overflow and NaN are excluded; what is rounded, and how, is left open.
-/

namespace Heap

/-- Rounded arithmetic.  The result of an elementary operation is wrong by at most `u` times its size (plus `u * η`, for underflow).  A literal
`p/q` is rounded.  `numpy.einsum` forms each element of its result from a list of products (one for each value of the letters summed over), in an
order, with intermediate roundings, and with a grouping of its choice; the error is at most `u` times a bound `G` that depends on the numbers of terms
and factors and on the sizes of the factors. -/
structure Rounding (K : Type) [RCLike K] (u η : ℝ) (G : List (List ℝ) → ℝ) where
  lit : ℕ → ℕ → K
  op : Op → K → K → K
  sop : List (List K) → K
  lit_err : ∀ p q, ‖lit p q - (p / q : K)‖ ≤ u * (‖(p / q : K)‖ + η)
  op_err : ∀ o a b, ‖op o a b - opVal o a b‖ ≤ u * (‖opVal o a b‖ + η)
  sop_err : ∀ L : List (List K), ‖sop L - (L.map List.prod).sum‖ ≤ u * G (L.map fun t => t.map norm)

/-- The values of an expression for all values of some letters. -/
def terms {A : Type} : List (ℕ × ℕ) → ((ℕ → ℕ) → A) → (ℕ → ℕ) → List A
  | [], f, ρ => [f ρ]
  | d :: D, f, ρ => (List.range d.2).flatMap fun z => terms D f (Function.update ρ d.1 z)

/-- The elements of the operands for given values of the letters. -/
def factors {K : Type} (ins : List (List ℕ)) (vs : List (List ℕ → K)) (ρ : ℕ → ℕ) : List K := List.zipWith (fun ls v => v (ls.map ρ)) ins vs

section
variable {K : Type} [RCLike K] {u η : ℝ} {G : List (List ℝ) → ℝ} (A : Rounding K u η G)

def flEinsum (ins : List (List ℕ)) (out : List ℕ) (as : List (Arr K)) : Except Err (Arr K) :=
  match einShape ins out (as.map Arr.shape) with
  | none => .error .shape
  | some (s, D) => .ok ⟨as.any Arr.cx, s, fun idx => A.sop (terms D (factors ins (as.map Arr.val)) (bindOut out idx))⟩

def flBin (o : Op) (a b : Arr K) : Except Err (Arr K) :=
  match bshape a.shape b.shape with
  | none => .error .shape
  | some s => .ok ⟨a.cx || b.cx, s, fun idx => A.op o (a.at idx) (b.at idx)⟩

def flAug (o : Op) (a b : Arr K) : Except Err (Arr K) :=
  if bshape a.shape b.shape ≠ some a.shape then .error .shape
  else if a.shape ≠ [] ∧ b.cx ∧ !a.cx then .error .cast
  else .ok ⟨a.cx || (a.shape.isEmpty && b.cx), a.shape, fun idx => A.op o (a.at idx) (b.at idx)⟩

/-- numpy with rounded arithmetic; changing signs, transposing and casting are exact. -/
def rounded (warn : Bool) (re : K → K) : PInterp (Arr K) where
  lit p q := ⟨false, [], fun _ => A.lit p q⟩
  ein := flEinsum A
  bin := flBin A
  aug := flAug A
  neg a := ⟨a.cx, a.shape, fun idx => -a.val idx⟩
  cast := arrCast warn re
  transp := arrTransp
end

end Heap
