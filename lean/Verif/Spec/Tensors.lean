import Verif.Model.Numpy
/-!
# Programs on tensors

The programs of `Verif.Model.HeapProg` with tensors as values: an array with axes of the kinds `k₁, …, kₘ` is a function
`X k₁ → … → X kₘ → K`, where `X k` is the index set of the kind `k` (0 occupied, 1 virtual, 2 and 3 the same for the other spin).
There are no element types.  Axes of different kinds are never identified, so that a run that does not raise here is a run that does not
raise for any extents.
-/

namespace Heap
variable (X : ℕ → Type) (K : Type)

/-- Tensors with the given axes. -/
def Cur : List ℕ → Type
  | [] => K
  | k :: s => X k → Cur s

structure Ten where
  shape : List ℕ
  val : Cur X K shape

variable {X K}

/-- Values of index letters. -/
abbrev TEnv (X : ℕ → Type) := ℕ → Option ((k : ℕ) × X k)

def TEnv.upd (ρ : TEnv X) (l : ℕ) (x : (k : ℕ) × X k) : TEnv X := fun l' => if l' = l then some x else ρ l'

section
variable [Field K]

/-- The element of a tensor at the values of the letters. -/
def Cur.app (ρ : TEnv X) : (s : List ℕ) → Cur X K s → List ℕ → K
  | [], c, _ => c
  | _ :: _, _, [] => 0
  | k :: s, f, l :: ls => match ρ l with
    | some ⟨k', x⟩ => if h : k' = k then Cur.app ρ s (f (h ▸ x)) ls else 0
    | none => 0

/-- The tensor whose elements are given by the values of the letters. -/
def Cur.of : (s : List ℕ) → List ℕ → (TEnv X → K) → TEnv X → Cur X K s
  | [], _, F, ρ => F ρ
  | _ :: s, [], F, ρ => fun _ => Cur.of s [] F ρ
  | k :: s, l :: ls, F, ρ => fun x => Cur.of s ls F (ρ.upd l ⟨k, x⟩)

def tenMul : K → List (List ℕ) → List (Ten X K) → TEnv X → K
  | x, ls :: ins, a :: as, ρ => tenMul (x * Cur.app ρ a.shape a.val ls) ins as ρ
  | x, _, _, _ => x

def tenProd : List (List ℕ) → List (Ten X K) → TEnv X → K
  | ls :: ins, a :: as, ρ => tenMul (Cur.app ρ a.shape a.val ls) ins as ρ
  | _, _, _ => 1

variable [∀ k, Fintype (X k)]

def tenSum : List (ℕ × ℕ) → (TEnv X → K) → TEnv X → K
  | [], F, ρ => F ρ
  | (l, k) :: D, F, ρ => ∑ x : X k, tenSum D F (ρ.upd l ⟨k, x⟩)

def tenEin (ins : List (List ℕ)) (out : List ℕ) (as : List (Ten X K)) : Except Err (Ten X K) :=
  match einShape ins out (as.map Ten.shape) with
  | none => .error .shape
  | some (s, D) => .ok ⟨s, Cur.of s out (tenSum D (tenProd ins as)) fun _ => none⟩

end

section
variable [Field K]

def Cur.map (f : K → K) : (s : List ℕ) → Cur X K s → Cur X K s
  | [], c => f c
  | _ :: s, g => fun x => Cur.map f s (g x)

def Cur.zip (f : K → K → K) : (s : List ℕ) → Cur X K s → Cur X K s → Cur X K s
  | [], c, d => f c d
  | _ :: s, g, h => fun x => Cur.zip f s (g x) (h x)

def tenBin (o : Op) : Ten X K → Ten X K → Except Err (Ten X K)
  | ⟨[], x⟩, ⟨t, g⟩ => .ok ⟨t, Cur.map (opVal (K := K) o x) t g⟩
  | ⟨s, f⟩, ⟨[], y⟩ => .ok ⟨s, Cur.map (fun x => opVal (K := K) o x y) s f⟩
  | ⟨s, f⟩, ⟨t, g⟩ => if h : t = s then .ok ⟨s, Cur.zip (opVal o) s f (h ▸ g)⟩ else .error .shape

def tenAug (o : Op) (a b : Ten X K) : Except Err (Ten X K) :=
  if a.shape = [] ∧ b.shape ≠ [] then .error .shape else tenBin o a b

def tenTransp (p : List ℕ) (a : Ten X K) : Except Err (Ten X K) :=
  match transpShape p a.shape with
  | none => .error .shape
  | some s => .ok ⟨s, Cur.of s p (fun ρ => Cur.app ρ a.shape a.val (List.range p.length)) fun _ => none⟩

/-- Numbers; the first cases are as in the models of the routines. -/
def litVal : ℕ → ℕ → K
  | 1, 1 => 1
  | 2, 1 => 2
  | 1, 2 => 1/2
  | 1, 4 => 1/4
  | p, q => p / q

variable [∀ k, Fintype (X k)] in
def tensors : PInterp (Ten X K) where
  lit p q := ⟨[], litVal (K := K) p q⟩
  ein := tenEin
  bin := tenBin
  aug := tenAug
  neg a := ⟨a.shape, Cur.map (fun x => -x) a.shape a.val⟩
  cast a _ := .ok a
  transp := tenTransp

end
end Heap
