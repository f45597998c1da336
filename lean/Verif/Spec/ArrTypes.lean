import Verif.Model.Numpy
/-!
# Element types and shapes without contents

A shape is a list of kinds of axes; each kind stands for an extent.
-/
namespace Heap

structure Ty where
  cx : Bool
  shape : List ℕ
deriving DecidableEq

instance {A B : Type} [DecidableEq A] [DecidableEq B] : DecidableEq (Except A B)
  | .ok a, .ok b => decidable_of_iff (a = b) (by simp)
  | .error a, .error b => decidable_of_iff (a = b) (by simp)
  | .ok _, .error _ => isFalse (by simp)
  | .error _, .ok _ => isFalse (by simp)

def tyEin (ins : List (List ℕ)) (out : List ℕ) (as : List Ty) : Except Err Ty :=
  match einShape ins out (as.map Ty.shape) with
  | none => .error .shape
  | some (s, _) => .ok ⟨as.any Ty.cx, s⟩

def tyBin (a b : Ty) : Except Err Ty :=
  match bshape a.shape b.shape with
  | none => .error .shape
  | some s => .ok ⟨a.cx || b.cx, s⟩

def tyAug (a b : Ty) : Except Err Ty :=
  if bshape a.shape b.shape ≠ some a.shape then .error .shape
  else if a.shape ≠ [] ∧ b.cx ∧ !a.cx then .error .cast
  else .ok ⟨a.cx || (a.shape.isEmpty && b.cx), a.shape⟩

def tyTransp (p : List ℕ) (a : Ty) : Except Err Ty :=
  match transpShape p a.shape with
  | none => .error .shape
  | some s => .ok ⟨a.cx, s⟩

def tyCast (warn : Bool) (a x : Ty) : Except Err Ty := if warn ∧ a.cx ∧ !x.cx then .error .loss else .ok ⟨x.cx, a.shape⟩

def types (warn : Bool) : PInterp Ty where
  lit _ _ := ⟨false, []⟩
  ein := tyEin
  bin _ := tyBin
  aug _ := tyAug
  neg := id
  cast := tyCast warn
  transp := tyTransp

end Heap
