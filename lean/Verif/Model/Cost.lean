import Verif.Model.Numpy
/-!
# How much work a routine does

The run of an array program (`Verif.Model.Numpy`) together with the loops it executes over array elements, in the order in which numpy
executes them (cc_equations.py and cc_energy.py throughout: `einsum`, `+ - *`, `+= -=`, unary minus, `.copy()`, `.astype()`).

* `numpy.einsum` called as the package calls it (cc_equations.py:2-6, cc_energy.py:2-6: without `optimize`) is one nest of loops with one
  loop for every letter, whatever the number of operands; with `m` operands every pass does `m - 1` multiplications and one addition.
* An elementwise operation is one pass over the result with one operation for every element; copies and casts do no arithmetic.
* `.transpose(p)` makes a view and executes no loop.
* Each of these except `+=` and `-=` makes a new array.

If pyscf is installed its `einsum` is used instead.  It hands products of two operands to `dgemm`, which does the same number of
multiplications, and splits products of more operands into products of two; the latter is not modelled.
-/

namespace Heap
variable {W : Type}

/-- One nest of loops: the arithmetic operations of each pass, the extents of the loops, and the shape of the array made, if any. -/
structure Ev where
  ops : ℕ
  loop : List ℕ
  new : Option (List ℕ)
deriving DecidableEq

abbrev Traced (A : Type) := Except Err (A × List Ev)

def Traced.pure {A : Type} (a : A) : Traced A := .ok (a, [])

def Traced.bind {A B : Type} (m : Traced A) (k : A → Traced B) : Traced B :=
  match m with
  | .error e => .error e
  | .ok (a, s) => match k a with
    | .error e => .error e
    | .ok (b, t) => .ok (b, s ++ t)

/-- An operation that makes the loops `s` when it succeeds. -/
def Traced.op {A : Type} (m : Except Err A) (s : A → List Ev) : Traced A :=
  match m with
  | .error e => .error e
  | .ok a => .ok (a, s a)

/-- Every letter is a loop. -/
def einLoop (ins ss : List (List ℕ)) : List ℕ := ((allDims ins ss []).getD []).map Prod.snd

section
variable (J : PInterp W) (sh : W → List ℕ)

def trEin (ins : List (List ℕ)) (out : List ℕ) (as : List W) : Traced W :=
  .op (J.ein ins out as) fun r => [⟨as.length, einLoop ins (as.map sh), some (sh r)⟩]

def tval (v : Vals W) : Ex → Traced W
  | .var x => .op (getVal v x) fun _ => []
  | .lit p q => .pure (J.lit p q)
  | .ein2 ins out a b => .bind (tval v a) fun a => .bind (tval v b) fun b => trEin J sh ins out [a, b]
  | .ein3 ins out a b c => .bind (tval v a) fun a => .bind (tval v b) fun b => .bind (tval v c) fun c => trEin J sh ins out [a, b, c]
  | .ein4 ins out a b c d => .bind (tval v a) fun a => .bind (tval v b) fun b => .bind (tval v c) fun c => .bind (tval v d) fun d =>
      trEin J sh ins out [a, b, c, d]
  | .ein5 ins out a b c d e => .bind (tval v a) fun a => .bind (tval v b) fun b => .bind (tval v c) fun c => .bind (tval v d) fun d =>
      .bind (tval v e) fun e => trEin J sh ins out [a, b, c, d, e]
  | .bin o a b => .bind (tval v a) fun a => .bind (tval v b) fun b => .op (J.bin o a b) fun r => [⟨1, sh r, some (sh r)⟩]
  | .neg a => .bind (tval v a) fun a => .op (.ok (J.neg a)) fun r => [⟨1, sh r, some (sh r)⟩]
  | .copy a => .bind (tval v a) fun a => .op (.ok a) fun r => [⟨0, sh r, some (sh r)⟩]
  | .astype a x => .bind (tval v a) fun a => .bind (.op (getVal v x) fun _ => []) fun b => .op (J.cast a b) fun r => [⟨0, sh r, some (sh r)⟩]
  | .transp p a => .bind (tval v a) fun a => .op (J.transp p a) fun _ => []

def tvalAll (v : Vals W) : List (ℕ × Ex) → Vals W → Traced (Vals W)
  | [], v' => .pure v'
  | (x, e) :: ps, v' => .bind (tval J sh v e) fun w => tvalAll v ps (v'.set x (some w))

def texec : Stmt → Vals W → Traced (Vals W)
  | .skip, v => .pure v
  | .seq s t, v => .bind (texec s v) (texec t)
  | .assign x e, v => .bind (tval J sh v e) fun w => .pure (v.set x (some w))
  | .aug x o e, v => .bind (tval J sh v e) fun w => .bind (.op (getVal v x) fun _ => []) fun y =>
      .bind (.op (J.aug o y w) fun r => [⟨1, sh r, none⟩]) fun r => .pure (v.set x (some r))
  | .del x, v => .bind (.op (getVal v x) fun _ => []) fun _ => .pure (v.set x none)
  | .call ps body rs, v => .bind (tvalAll J sh v ps fun _ => none) fun v1 => .bind (texec body v1) fun v2 =>
      tvalAll J sh v2 rs (back body.augs v2 ps v)

def trets (v : Vals W) : List Ex → Traced (List W)
  | [] => .pure []
  | e :: es => .bind (tval J sh v e) fun w => .bind (trets v es) fun ws => .pure (w :: ws)

/-- Calling a routine: the returned arrays and the loops executed, or the exception. -/
def Fun.trun (f : Fun) (args : List W) : Traced (List W) :=
  .bind (texec J sh f.body (pbindArgs f.params args)) fun v => trets J sh v f.ret
end

/-- The passes through all loops. -/
def Ev.passes (e : Ev) : ℕ := e.loop.prod

/-- The arithmetic operations on array elements. -/
def flops (s : List Ev) : ℕ := (s.map fun e => e.ops * e.loop.prod).sum

/-- The elements of all arrays made. -/
def allocated (s : List Ev) : ℕ := (s.map fun e => (e.new.map List.prod).getD 0).sum

end Heap
