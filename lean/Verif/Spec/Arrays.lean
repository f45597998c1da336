import Verif.Spec.Tensors
/-!
# What it means that a routine computes tensors
-/

namespace Heap
variable {n : ℕ → ℕ} {K : Type} [Field K]

/-- The element of a tensor at the given numbers. -/
def Cur.get : (s : List ℕ) → Cur (fun k => Fin (n k)) K s → List ℕ → K
  | [], c, _ => c
  | _ :: _, _, [] => 0
  | k :: s, f, i :: idx => if h : i < n k then Cur.get s (f ⟨i, h⟩) idx else 0

/-- The array has the elements of the tensor. -/
def Holds (t : Ten (fun k => Fin (n k)) K) (a : Arr K) : Prop :=
  a.shape = t.shape.map n ∧ ∀ idx, List.Forall₂ (· < ·) idx a.shape → a.val idx = Cur.get t.shape t.val idx

/-- An element type and a tensor. -/
structure Desc (n : ℕ → ℕ) (K : Type) where
  cx : Bool
  ten : Ten (fun k => Fin (n k)) K

omit [Field K] in
abbrev Desc.num (c : Bool) (x : K) : Desc n K := ⟨c, ⟨[], x⟩⟩
omit [Field K] in
abbrev Desc.two (c : Bool) (k l : ℕ) (f : Fin (n k) → Fin (n l) → K) : Desc n K := ⟨c, ⟨[k, l], f⟩⟩
omit [Field K] in
abbrev Desc.four (c : Bool) (k l p q : ℕ) (f : Fin (n k) → Fin (n l) → Fin (n p) → Fin (n q) → K) : Desc n K := ⟨c, ⟨[k, l, p, q], f⟩⟩

/-- The array has the element type, shape and contents. -/
def Is (d : Desc n K) (a : Arr K) : Prop := a.cx = d.cx ∧ Holds d.ten a

/-- Operators that never raise: an exception becomes an arbitrary result. -/
def PInterp.total {W : Type} (J : PInterp W) (d : W) (put : List ℕ → W → W → W) : Interp W where
  lit := J.lit
  ein ins out as := match J.ein ins out as with | .ok w => w | .error _ => d
  bin o a b := match J.bin o a b with | .ok w => w | .error _ => d
  neg := J.neg
  cast a b := match J.cast a b with | .ok w => w | .error _ => d
  view p a := match J.transp p a with | .ok w => w | .error _ => d
  put := put

/-- Called with references to arrays as described by `ds`, the routine raises nothing (not even `ComplexWarning`), changes no array that
existed before the call, and returns references to new and different arrays as described by `es`.  This holds for every meaning of
dropping imaginary parts (`re`), and the arguments may be the same array or views of the same array. -/
def Computes (f : Fun) (ds es : List (Desc n K)) : Prop :=
  ∀ (re : K → K) (d : Arr K) (put : List ℕ → Arr K → Arr K → Arr K) (M : Mem (Arr K)) (args : List Ref),
    let J := (numpy true re).total d put
    args.length = f.params.length → (∀ r ∈ args, r.1 < M.next) → List.Forall₂ Is ds (args.map fun r => seen J r.2 (M.heap r.1)) →
    ∃ rs M', f.nrun (numpy true re) (args.map fun r => seen J r.2 (M.heap r.1)) = .ok (rs.map fun r => seen J r.2 (M'.heap r.1)) ∧
      f.run J args M = some (rs, M') ∧ (∀ l < M.next, M'.heap l = M.heap l) ∧ (∀ r ∈ rs, M.next ≤ r.1) ∧ (rs.map Prod.fst).Nodup ∧
      List.Forall₂ Is es (rs.map fun r => seen J r.2 (M'.heap r.1))

/-- Called with arrays as described by `ds`, the routine raises `UFuncTypeError`. -/
def RaisesCast (f : Fun) (ds : List (Desc n K)) : Prop :=
  ∀ (warn : Bool) (re : K → K) (as : List (Arr K)), List.Forall₂ Is ds as → f.nrun (numpy warn re) as = .error .cast

end Heap
