import Verif.Model.Rounded
/-!
# Arrays of floating-point numbers that may overflow

As `Verif.Model.Rounded`, but the elements of arrays are either finite numbers or not finite (`none`: an infinity or NaN).  The result of an operation on
finite numbers is finite and has a small error if it is not larger than the largest number `Ω`; nothing is assumed about other operations.
-/

namespace Heap

/-- Rounded arithmetic with a largest number `Ω`.  The errors are those of `Rounding` as long as the exact result of the operation is in range.
`numpy.einsum` forms products and partial sums in an order of its choice; `H` bounds their sizes, from the sizes of the factors. -/
structure Overflowing (K : Type) [RCLike K] (u η : ℝ) (G H : List (List ℝ) → ℝ) (Ω : ℝ) where
  lit : ℕ → ℕ → Option K
  op : Op → Option K → Option K → Option K
  sop : List (List (Option K)) → Option K
  lit_err : ∀ p q : ℕ, ‖(p / q : K)‖ ≤ Ω → ∃ y, lit p q = some y ∧ ‖y - (p / q : K)‖ ≤ u * (‖(p / q : K)‖ + η)
  op_err : ∀ o a b, ‖opVal o a b‖ ≤ Ω → ∃ y, op o (some a) (some b) = some y ∧ ‖y - opVal o a b‖ ≤ u * (‖opVal o a b‖ + η)
  sop_err : ∀ L : List (List K), H (L.map fun t => t.map norm) ≤ Ω →
    ∃ y, sop (L.map fun t => t.map some) = some y ∧ ‖y - (L.map List.prod).sum‖ ≤ u * G (L.map fun t => t.map norm)

section
variable {K : Type} [RCLike K] {u η Ω : ℝ} {G H : List (List ℝ) → ℝ} (O : Overflowing K u η G H Ω)

def oEinsum (ins : List (List ℕ)) (out : List ℕ) (as : List (Arr (Option K))) : Except Err (Arr (Option K)) :=
  match einShape ins out (as.map Arr.shape) with
  | none => .error .shape
  | some (s, D) => .ok ⟨as.any Arr.cx, s, fun idx => O.sop (terms D (factors ins (as.map Arr.val)) (bindOut out idx))⟩

def oBin (o : Op) (a b : Arr (Option K)) : Except Err (Arr (Option K)) :=
  match bshape a.shape b.shape with
  | none => .error .shape
  | some s => .ok ⟨a.cx || b.cx, s, fun idx => O.op o (a.at idx) (b.at idx)⟩

def oAug (o : Op) (a b : Arr (Option K)) : Except Err (Arr (Option K)) :=
  if bshape a.shape b.shape ≠ some a.shape then .error .shape
  else if a.shape ≠ [] ∧ b.cx ∧ !a.cx then .error .cast
  else .ok ⟨a.cx || (a.shape.isEmpty && b.cx), a.shape, fun idx => O.op o (a.at idx) (b.at idx)⟩

/-- numpy with rounded arithmetic and overflow.  `re` is what casting to a real type does to an element. -/
def overflowing (warn : Bool) (re : Option K → Option K) : PInterp (Arr (Option K)) where
  lit p q := ⟨false, [], fun _ => O.lit p q⟩
  ein := oEinsum O
  bin := oBin O
  aug := oAug O
  neg a := ⟨a.cx, a.shape, fun idx => (a.val idx).map fun x => -x⟩
  cast := arrCast warn re
  transp := arrTransp
end

end Heap
