import Mathlib.Data.List.Basic
/-!
# Array programs with references

The routines of `cqcpy/cc_equations.py` and `cqcpy/cc_energy.py` are straight-line programs over numpy arrays: names are bound to arrays,
`x = e` binds a name, `x += e` and `x -= e` write into the array a name refers to, and procedures receive references.  This file gives that
language a semantics with a heap (so that two names may refer to the same array) and a second one without (names have values); the programs
themselves are in `Verif.Model.HeapProg`, transcribed from the Python syntax tree by `tools/gen_heap.py`.

Names are numbered; an attribute such as `I.vvvv` and a component of a tuple are names of their own.  What the operators compute is left
open (`Interp`): the theorems hold for every choice.  Numbers are treated like arrays, which only makes `x += e` write more.
-/

namespace Heap

inductive Op | add | sub | mul
deriving DecidableEq

/-- Expressions: names, literals, `einsum` of two to five operands, `+ - *`, unary minus, `x.copy()`, `x.astype(y.dtype)`, `x.transpose(p)`.
The index letters of `einsum` are numbered from `a`; a literal is written as a fraction (`0.5` is `1 / 2`). -/
inductive Ex
  | var (x : ℕ)
  | lit (num den : ℕ)
  | ein2 (ins : List (List ℕ)) (out : List ℕ) (a b : Ex)
  | ein3 (ins : List (List ℕ)) (out : List ℕ) (a b c : Ex)
  | ein4 (ins : List (List ℕ)) (out : List ℕ) (a b c d : Ex)
  | ein5 (ins : List (List ℕ)) (out : List ℕ) (a b c d e : Ex)
  | bin (o : Op) (a b : Ex)
  | neg (a : Ex)
  | copy (a : Ex)
  | astype (a : Ex) (like : ℕ)
  | transp (p : List ℕ) (a : Ex)

/-- Statements: `x = e`, `x += e` / `x -= e`, `del x`, and a call: the parameters are bound to the arguments in a new scope, the body is
run, and the names of the second list are bound in the scope of the caller to expressions of the scope of the body. -/
inductive Stmt
  | skip
  | seq (s t : Stmt)
  | assign (x : ℕ) (e : Ex)
  | aug (x : ℕ) (o : Op) (e : Ex)
  | del (x : ℕ)
  | call (ps : List (ℕ × Ex)) (body : Stmt) (rs : List (ℕ × Ex))

/-- A routine: its parameters, body and returned expressions. -/
structure Fun where
  params : List ℕ
  body : Stmt
  ret : List Ex

/-- What the operators compute on the contents `W` of arrays. `view p w` is the content seen through a transposed view and `put p w v` the
content after writing `v` through it. -/
structure Interp (W : Type) where
  lit : ℕ → ℕ → W
  ein : List (List ℕ) → List ℕ → List W → W
  bin : Op → W → W → W
  neg : W → W
  cast : W → W → W
  view : List ℕ → W → W
  put : List ℕ → W → W → W

variable {W : Type}

/-! ### with references -/

/-- A reference: a buffer and the transpositions through which it is seen (innermost last). -/
abbrev Ref := ℕ × List (List ℕ)
abbrev Env := ℕ → Option Ref

/-- The content of a reference given the content of its buffer. -/
def seen (J : Interp W) : List (List ℕ) → W → W
  | [], w => w
  | p :: ps, w => J.view p (seen J ps w)

/-- The content of the buffer after writing through a reference. -/
def wrote (J : Interp W) : List (List ℕ) → W → W → W
  | [], _, v => v
  | p :: ps, w, v => wrote J ps w (J.put p (seen J ps w) v)

/-- The buffers allocated so far are those below `next`. -/
structure Mem (W : Type) where
  next : ℕ
  heap : ℕ → W

def Env.set (E : Env) (x : ℕ) (r : Option Ref) : Env := fun y => if y = x then r else E y

/-- The value of an expression; `none` is a `NameError`. -/
def eval (J : Interp W) (h : ℕ → W) (E : Env) : Ex → Option W
  | .var x => (E x).map fun r => seen J r.2 (h r.1)
  | .lit p q => some (J.lit p q)
  | .ein2 ins out a b => do return J.ein ins out [← eval J h E a, ← eval J h E b]
  | .ein3 ins out a b c => do return J.ein ins out [← eval J h E a, ← eval J h E b, ← eval J h E c]
  | .ein4 ins out a b c d => do return J.ein ins out [← eval J h E a, ← eval J h E b, ← eval J h E c, ← eval J h E d]
  | .ein5 ins out a b c d e => do return J.ein ins out [← eval J h E a, ← eval J h E b, ← eval J h E c, ← eval J h E d, ← eval J h E e]
  | .bin o a b => do return J.bin o (← eval J h E a) (← eval J h E b)
  | .neg a => do return J.neg (← eval J h E a)
  | .copy a => eval J h E a
  | .astype a x => do return J.cast (← eval J h E a) (← (E x).map fun r => seen J r.2 (h r.1))
  | .transp p a => do return J.view p (← eval J h E a)

/-- The name whose buffer the value of the expression shares: a name or a transposed view of one.  All other expressions give a new
array (numpy: `einsum` of several operands, arithmetic, `copy`, and `astype`, whose default is to copy). -/
def Ex.base : Ex → Option ℕ
  | .var x => some x
  | .transp _ a => a.base
  | _ => none

/-- The reference that is the value of a view of a name. -/
def Ex.ref (E : Env) : Ex → Option Ref
  | .var x => E x
  | .transp p a => (a.ref E).map fun r => (r.1, p :: r.2)
  | _ => none

/-- A reference to the value of `e`, allocated if it is a new array. -/
def mkRef (J : Interp W) (M : Mem W) (E : Env) (e : Ex) : Option (Ref × Mem W) :=
  match e.base with
  | some _ => (e.ref E).map fun r => (r, M)
  | none => (eval J M.heap E e).map fun w => ((M.next, []), ⟨M.next + 1, fun l => if l = M.next then w else M.heap l⟩)

/-- Binds names of `E'` to values of expressions of `E`. -/
def bindAll (J : Interp W) (E : Env) : List (ℕ × Ex) → Mem W → Env → Option (Mem W × Env)
  | [], M, E' => some (M, E')
  | (x, e) :: ps, M, E' => do
    let (r, M') ← mkRef J M E e
    bindAll J E ps M' (E'.set x (some r))

def exec (J : Interp W) : Stmt → Mem W → Env → Option (Mem W × Env)
  | .skip, M, E => some (M, E)
  | .seq s t, M, E => do
    let (M', E') ← exec J s M E
    exec J t M' E'
  | .assign x e, M, E => do
    let (r, M') ← mkRef J M E e
    return (M', E.set x (some r))
  | .aug x o e, M, E => do
    let v ← eval J M.heap E e
    let r ← E x
    let w := J.bin o (seen J r.2 (M.heap r.1)) v
    return (⟨M.next, fun l => if l = r.1 then wrote J r.2 (M.heap r.1) w else M.heap l⟩, E)
  | .del x, M, E => do
    let _ ← E x
    return (M, E.set x none)
  | .call ps body rs, M, E => do
    let (M1, E1) ← bindAll J E ps M fun _ => none
    let (M2, E2) ← exec J body M1 E1
    bindAll J E2 rs M2 E

/-- References to the values of a list of expressions. -/
def mkRefs (J : Interp W) (E : Env) : List Ex → Mem W → Option (List Ref × Mem W)
  | [], M => some ([], M)
  | e :: es, M => do
    let (r, M') ← mkRef J M E e
    let (rs, M'') ← mkRefs J E es M'
    return (r :: rs, M'')

/-- The scope of a routine called with the given references. -/
def bindArgs : List ℕ → List Ref → Env
  | x :: xs, r :: rs => Env.set (bindArgs xs rs) x (some r)
  | _, _ => fun _ => none

/-- Calling a routine. -/
def Fun.run (J : Interp W) (f : Fun) (args : List Ref) (M : Mem W) : Option (List Ref × Mem W) := do
  let (M', E) ← exec J f.body M (bindArgs f.params args)
  mkRefs J E f.ret M'

/-! ### without references -/

abbrev Vals (W : Type) := ℕ → Option W

def Vals.set (v : Vals W) (x : ℕ) (w : Option W) : Vals W := fun y => if y = x then w else v y

def val (J : Interp W) (v : Vals W) : Ex → Option W
  | .var x => v x
  | .lit p q => some (J.lit p q)
  | .ein2 ins out a b => do return J.ein ins out [← val J v a, ← val J v b]
  | .ein3 ins out a b c => do return J.ein ins out [← val J v a, ← val J v b, ← val J v c]
  | .ein4 ins out a b c d => do return J.ein ins out [← val J v a, ← val J v b, ← val J v c, ← val J v d]
  | .ein5 ins out a b c d e => do return J.ein ins out [← val J v a, ← val J v b, ← val J v c, ← val J v d, ← val J v e]
  | .bin o a b => do return J.bin o (← val J v a) (← val J v b)
  | .neg a => do return J.neg (← val J v a)
  | .copy a => val J v a
  | .astype a x => do return J.cast (← val J v a) (← v x)
  | .transp p a => do return J.view p (← val J v a)

/-- The names that a body writes into. -/
def Stmt.augs : Stmt → List ℕ
  | .skip => []
  | .seq s t => s.augs ++ t.augs
  | .assign _ _ => []
  | .aug x _ _ => [x]
  | .del _ => []
  | .call ps body _ => ps.filterMap fun p => match p.2 with
    | .var y => if p.1 ∈ body.augs then some y else none
    | _ => none

def valAll (J : Interp W) (v : Vals W) : List (ℕ × Ex) → Vals W → Option (Vals W)
  | [], v' => some v'
  | (x, e) :: ps, v' => do
    let w ← val J v e
    valAll J v ps (v'.set x (some w))

/-- The arguments that a procedure writes into get the values of the parameters. -/
def back (l : List ℕ) (v' : Vals W) : List (ℕ × Ex) → Vals W → Vals W
  | [], v => v
  | (x, .var y) :: ps, v => back l v' ps (if x ∈ l then v.set y (v' x) else v)
  | _ :: ps, v => back l v' ps v

/-- Every name has a value of its own: `x += e` is `x = x + e`, and a procedure gives its parameters' final values back. -/
def pexec (J : Interp W) : Stmt → Vals W → Option (Vals W)
  | .skip, v => some v
  | .seq s t, v => do pexec J t (← pexec J s v)
  | .assign x e, v => do return v.set x (some (← val J v e))
  | .aug x o e, v => do return v.set x (some (J.bin o (← v x) (← val J v e)))
  | .del x, v => do
    let _ ← v x
    return v.set x none
  | .call ps body rs, v => do
    let v1 ← valAll J v ps fun _ => none
    let v2 ← pexec J body v1
    valAll J v2 rs (back body.augs v2 ps v)

def pbindArgs : List ℕ → List W → Vals W
  | x :: xs, w :: ws => Vals.set (pbindArgs xs ws) x (some w)
  | _, _ => fun _ => none

/-- The values that a routine returns as a function of the values it is given. -/
def Fun.prun (J : Interp W) (f : Fun) (args : List W) : Option (List W) := do
  let v ← pexec J f.body (pbindArgs f.params args)
  f.ret.mapM (val J v)

end Heap
