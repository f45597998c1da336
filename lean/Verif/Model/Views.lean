import Mathlib.Algebra.Field.Defs
import Mathlib.Algebra.Group.Hom.Defs
import Mathlib.Data.List.Forall2
/-!
# numpy arrays in memory: slices, views, assignment to slices

The conversions of cqcpy/spin_utils.py and the containers of cqcpy/ov_blocks.py with what `Verif.Model.SpinFin` and `Verif.Model.Util` leave out: element
types, shapes, exceptions, and which results share memory with which arguments.

A buffer has an element type (real or complex), a shape and a content.  An array is a view of a buffer: a shape and a map from its indices
to those of the buffer.  Slicing and transposing make views; arithmetic, `copy` and `numpy.zeros` make new buffers.  Values assigned to
a slice are broadcast as in numpy (axes of length one are stretched, missing leading axes are added, superfluous leading axes of length one dropped), and
complex values assigned to a real array lose their imaginary parts with a `ComplexWarning`, which does not stop the program.  Bounds are
natural numbers: negative bounds, which numpy counts from the end, are not modelled.
-/

namespace Np

/-- `IndexError`, `ValueError`, `AssertionError`. -/
inductive Err | index | value | assertion
deriving DecidableEq

structure Buf (K : Type) where
  cx : Bool
  shape : List ℕ
  val : List ℕ → K

/-- Buffers `0`, ..., `next - 1`; `warned`: a `ComplexWarning` has been issued. -/
structure Mem (K : Type) where
  next : ℕ
  heap : ℕ → Buf K
  warned : Bool

structure View where
  loc : ℕ
  shape : List ℕ
  ix : List ℕ → List ℕ

/-- The indices of an array of shape `s`. -/
def InBox (s idx : List ℕ) : Prop := List.Forall₂ (· < ·) idx s

variable {K : Type} [Field K]

/-- The element type and the elements of an array. -/
def Mem.cx (m : Mem K) (v : View) : Bool := (m.heap v.loc).cx
def Mem.read (m : Mem K) (v : View) (idx : List ℕ) : K := (m.heap v.loc).val (v.ix idx)

/-- Programs: they change the memory and may raise. -/
abbrev Run (K α : Type) := StateT (Mem K) (Except Err) α

def raise {α : Type} (e : Err) : Run K α := fun _ => .error e

/-- A new buffer. -/
def alloc (cx : Bool) (s : List ℕ) (val : List ℕ → K) : Run K View := fun m =>
  .ok (⟨m.next, s, id⟩, ⟨m.next + 1, Function.update m.heap m.next ⟨cx, s, val⟩, m.warned⟩)

/-- `numpy.zeros(s)`: real. -/
def zeros (s : List ℕ) : Run K View := alloc false s fun _ => 0

/-- `v.copy()` -/
def copy (v : View) : Run K View := fun m => alloc (m.cx v) v.shape (m.read v) m

/-- `-v` -/
def neg (v : View) : Run K View := fun m => alloc (m.cx v) v.shape (fun idx => -m.read v idx) m

/-! ### broadcasting -/

/-- The common shape, from the last axis on. -/
def bcShapeRev : List ℕ → List ℕ → Option (List ℕ)
  | [], ys => some ys
  | xs, [] => some xs
  | x :: xs, y :: ys =>
    match bcShapeRev xs ys with
    | none => none
    | some s => if x = y then some (x :: s) else if x = 1 then some (y :: s) else if y = 1 then some (x :: s) else none

/-- Whether an array of shape `s` can be assigned to a slice of shape `t` (from the last axis on). -/
def bcToRev : List ℕ → List ℕ → Bool
  | [], _ => true
  | x :: xs, [] => x == 1 && bcToRev xs []
  | x :: xs, y :: ys => (x == y || x == 1) && bcToRev xs ys

/-- The index of the broadcast array that belongs to an index (from the last axis on) of the result. -/
def bcIxRev : List ℕ → List ℕ → List ℕ
  | [], _ => []
  | _ :: xs, [] => 0 :: bcIxRev xs []
  | x :: xs, i :: is => (if x = 1 then 0 else i) :: bcIxRev xs is

def bcIx (s idx : List ℕ) : List ℕ := (bcIxRev s.reverse idx.reverse).reverse

/-- `v - w` -/
def sub (v w : View) : Run K View := fun m =>
  match bcShapeRev v.shape.reverse w.shape.reverse with
  | none => .error .value
  | some s => alloc (m.cx v || m.cx w) s.reverse (fun idx => m.read v (bcIx v.shape idx) - m.read w (bcIx w.shape idx)) m

/-! ### views -/

/-- `:n` and `n:` -/
inductive Sl | to (n : ℕ) | from (n : ℕ)

def Sl.extent : Sl → ℕ → ℕ
  | .to k, n => min k n
  | .from k, n => n - k

def Sl.shift : Sl → ℕ → ℕ
  | .to _, i => i
  | .from k, i => k + i

def slShape : List Sl → List ℕ → Option (List ℕ)
  | [], s => some s
  | _ :: _, [] => none
  | l :: ls, n :: s => match slShape ls s with
    | none => none
    | some t => some (l.extent n :: t)

def slIx : List Sl → List ℕ → List ℕ
  | l :: ls, i :: idx => l.shift i :: slIx ls idx
  | _, idx => idx

/-- `v[l1, l2, ...]` -/
def slice (v : View) (ls : List Sl) : Run K View := fun m =>
  match slShape ls v.shape with
  | none => .error .index
  | some s => .ok (⟨v.loc, s, fun idx => v.ix (slIx ls idx)⟩, m)

/-- `v.transpose(p)` -/
def transpose (p : List ℕ) (v : View) : Run K View := fun m =>
  if p.length = v.shape.length ∧ (List.range v.shape.length).all p.contains then
    .ok (⟨v.loc, p.map fun x => v.shape.getD x 0, fun idx => v.ix ((List.range p.length).map fun x => idx.getD (p.idxOf x) 0)⟩, m)
  else .error .value

/-- The buffer after writing `f` to the indices of a view. -/
noncomputable def writeVal (t : View) (f old : List ℕ → K) : List ℕ → K := fun j =>
  open Classical in if h : ∃ idx, InBox t.shape idx ∧ t.ix idx = j then f h.choose else old j

/-- `v[...] = w` for a view `t = v[...]`; the values are those before the assignment. -/
noncomputable def assign (re : K →+ K) (t w : View) : Run K Unit := fun m =>
  if bcToRev w.shape.reverse t.shape.reverse then
    let loss := m.cx w && !m.cx t
    let f := fun idx => if loss then re (m.read w (bcIx w.shape idx)) else m.read w (bcIx w.shape idx)
    .ok ((), ⟨m.next, Function.update m.heap t.loc { m.heap t.loc with val := writeVal t f (m.heap t.loc).val }, m.warned || loss⟩)
  else .error .value

/-- `v[l1, l2, ...] = w` -/
noncomputable def setSlice (re : K →+ K) (v : View) (ls : List Sl) (w : View) : Run K Unit := do
  let t ← slice v ls
  assign re t w

/-! ### containers (ov_blocks.py) -/

/-- `one_e_blocks`, ov_blocks.py:1-6 -/
structure OneB where
  (oo ov vo vv : View)

/-- `two_e_blocks`, ov_blocks.py:9-21 -/
structure TwoB where
  (vvvv vvvo vovv vvoo vovo oovv vooo ooov oooo : View)

/-- `two_e_blocks_full`, ov_blocks.py:44-65 -/
structure TwoBF where
  (vvvv vvvo vvov vovv ovvv vvoo vovo ovvo voov ovov oovv vooo ovoo oovo ooov oooo : View)

/-- `make_two_e_blocks`, ov_blocks.py:24-41.  It returns a `two_e_blocks_full` whose other seven blocks are `None`; the model returns the nine. -/
def make_two_e_blocks (Itot : View) (n1o n1v n2o n2v n3o n3v n4o n4v : ℕ) : Run K TwoB :=
  match Itot.shape with
  | [n1, n2, n3, n4] => do
    if n1 ≠ n1o + n1v then raise .assertion
    if n2 ≠ n2o + n2v then raise .assertion
    if n3 ≠ n3o + n3v then raise .assertion
    if n4 ≠ n4o + n4v then raise .assertion
    let Ivvvv ← slice Itot [.from n1o, .from n2o, .from n3o, .from n4o]
    let Ivvvo ← slice Itot [.from n1o, .from n2o, .from n3o, .to n4o]
    let Ivovv ← slice Itot [.from n1o, .to n2o, .from n3o, .from n4o]
    let Ivvoo ← slice Itot [.from n1o, .from n2o, .to n3o, .to n4o]
    let Ivovo ← slice Itot [.from n1o, .to n2o, .from n3o, .to n4o]
    let Ioovv ← slice Itot [.to n1o, .to n2o, .from n3o, .from n4o]
    let Ivooo ← slice Itot [.from n1o, .to n2o, .to n3o, .to n4o]
    let Iooov ← slice Itot [.to n1o, .to n2o, .to n3o, .from n4o]
    let Ioooo ← slice Itot [.to n1o, .to n2o, .to n3o, .to n4o]
    return ⟨Ivvvv, Ivvvo, Ivovv, Ivvoo, Ivovo, Ioovv, Ivooo, Iooov, Ioooo⟩
  | _ => raise .value

/-- `make_two_e_blocks_full`, ov_blocks.py:68-94 -/
def make_two_e_blocks_full (Itot : View) (n1o n1v n2o n2v n3o n3v n4o n4v : ℕ) : Run K TwoBF :=
  match Itot.shape with
  | [n1, n2, n3, n4] => do
    if n1 ≠ n1o + n1v then raise .assertion
    if n2 ≠ n2o + n2v then raise .assertion
    if n3 ≠ n3o + n3v then raise .assertion
    if n4 ≠ n4o + n4v then raise .assertion
    let Ivvvv ← slice Itot [.from n1o, .from n2o, .from n3o, .from n4o]
    let Ivvvo ← slice Itot [.from n1o, .from n2o, .from n3o, .to n4o]
    let Ivvov ← slice Itot [.from n1o, .from n2o, .to n3o, .from n4o]
    let Ivovv ← slice Itot [.from n1o, .to n2o, .from n3o, .from n4o]
    let Iovvv ← slice Itot [.to n1o, .from n2o, .from n3o, .from n4o]
    let Ivvoo ← slice Itot [.from n1o, .from n2o, .to n3o, .to n4o]
    let Ivovo ← slice Itot [.from n1o, .to n2o, .from n3o, .to n4o]
    let Iovvo ← slice Itot [.to n1o, .from n2o, .from n3o, .to n4o]
    let Ivoov ← slice Itot [.from n1o, .to n2o, .to n3o, .from n4o]
    let Iovov ← slice Itot [.to n1o, .from n2o, .to n3o, .from n4o]
    let Ioovv ← slice Itot [.to n1o, .to n2o, .from n3o, .from n4o]
    let Ivooo ← slice Itot [.from n1o, .to n2o, .to n3o, .to n4o]
    let Iovoo ← slice Itot [.to n1o, .from n2o, .to n3o, .to n4o]
    let Ioovo ← slice Itot [.to n1o, .to n2o, .from n3o, .to n4o]
    let Iooov ← slice Itot [.to n1o, .to n2o, .to n3o, .from n4o]
    let Ioooo ← slice Itot [.to n1o, .to n2o, .to n3o, .to n4o]
    return { vvvv := Ivvvv, vvvo := Ivvvo, vvov := Ivvov, vovv := Ivovv, ovvv := Iovvv, vvoo := Ivvoo, vovo := Ivovo, ovov := Iovov,
             voov := Ivoov, ovvo := Iovvo, oovv := Ioovv, vooo := Ivooo, ovoo := Iovoo, oovo := Ioovo, ooov := Iooov, oooo := Ioooo }
  | _ => raise .value

/-! ### spin_utils.py -/

section
variable (re : K →+ K)

/-- `F_to_spin`, spin_utils.py:7-26 -/
noncomputable def F_to_spin (Faa Fbb : OneB) (noa nva nob nvb : ℕ) : Run K OneB := do
  let no := noa + nob
  let nv := nva + nvb
  let Foo ← zeros [no, no]
  setSlice re Foo [.to noa, .to noa] Faa.oo
  setSlice re Foo [.from noa, .from noa] Fbb.oo
  let Fov ← zeros [no, nv]
  setSlice re Fov [.to noa, .to nva] Faa.ov
  setSlice re Fov [.from noa, .from nva] Fbb.ov
  let Fvo ← zeros [nv, no]
  setSlice re Fvo [.to nva, .to noa] Faa.vo
  setSlice re Fvo [.from nva, .from noa] Fbb.vo
  let Fvv ← zeros [nv, nv]
  setSlice re Fvv [.to nva, .to nva] Faa.vv
  setSlice re Fvv [.from nva, .from nva] Fbb.vv
  return ⟨Foo, Fov, Fvo, Fvv⟩

/-- `F_to_spatial`, spin_utils.py:29-45 -/
def F_to_spatial (F : OneB) (noa nva _nob _nvb : ℕ) : Run K (OneB × OneB) := do
  let oo ← slice F.oo [.to noa, .to noa]
  let ov ← slice F.ov [.to noa, .to nva]
  let vo ← slice F.vo [.to nva, .to noa]
  let vv ← slice F.vv [.to nva, .to nva]
  let Fa : OneB := ⟨oo, ov, vo, vv⟩
  let oo ← slice F.oo [.from noa, .from noa]
  let ov ← slice F.ov [.from noa, .from nva]
  let vo ← slice F.vo [.from nva, .from noa]
  let vv ← slice F.vv [.from nva, .from nva]
  let Fb : OneB := ⟨oo, ov, vo, vv⟩
  return (Fa, Fb)

/-- `T1_to_spin`, spin_utils.py:48-54 -/
noncomputable def T1_to_spin (Ta Tb : View) (noa nva nob nvb : ℕ) : Run K View := do
  let no := noa + nob
  let nv := nva + nvb
  let T ← zeros [nv, no]
  setSlice re T [.to nva, .to noa] (← copy Ta)
  setSlice re T [.from nva, .from noa] (← copy Tb)
  return T

/-- `T1_to_spatial`, spin_utils.py:57-60 -/
def T1_to_spatial (T : View) (noa nva _nob _nvb : ℕ) : Run K (View × View) := do
  let Ta ← copy (← slice T [.to nva, .to noa])
  let Tb ← copy (← slice T [.from nva, .from noa])
  return (Ta, Tb)

/-- `T2_to_spin`, spin_utils.py:87-97 -/
noncomputable def T2_to_spin (Taa Tab Tbb : View) (noa nva nob nvb : ℕ) : Run K View := do
  let no := noa + nob
  let nv := nva + nvb
  let T ← zeros [nv, nv, no, no]
  setSlice re T [.to nva, .to nva, .to noa, .to noa] (← copy Taa)
  setSlice re T [.from nva, .from nva, .from noa, .from noa] (← copy Tbb)
  setSlice re T [.to nva, .from nva, .to noa, .from noa] (← copy Tab)
  setSlice re T [.from nva, .to nva, .from noa, .to noa] (← copy (← transpose [1, 0, 3, 2] Tab))
  setSlice re T [.to nva, .from nva, .from noa, .to noa] (← neg (← copy (← transpose [0, 1, 3, 2] Tab)))
  setSlice re T [.from nva, .to nva, .to noa, .from noa] (← neg (← copy (← transpose [1, 0, 2, 3] Tab)))
  return T

/-- `D2_to_spin`, spin_utils.py:100-110 -/
noncomputable def D2_to_spin (Daa Dab Dbb : View) (noa nva nob nvb : ℕ) : Run K View := do
  let no := noa + nob
  let nv := nva + nvb
  let D ← zeros [nv, nv, no, no]
  setSlice re D [.to nva, .to nva, .to noa, .to noa] (← copy Daa)
  setSlice re D [.from nva, .from nva, .from noa, .from noa] (← copy Dbb)
  setSlice re D [.to nva, .from nva, .to noa, .from noa] (← copy Dab)
  setSlice re D [.from nva, .to nva, .from noa, .to noa] (← copy (← transpose [1, 0, 3, 2] Dab))
  setSlice re D [.to nva, .from nva, .from noa, .to noa] (← copy (← transpose [0, 1, 3, 2] Dab))
  setSlice re D [.from nva, .to nva, .to noa, .from noa] (← copy (← transpose [1, 0, 2, 3] Dab))
  return D

/-- `T2_to_spatial`, spin_utils.py:113-117 -/
def T2_to_spatial (T : View) (noa nva _nob _nvb : ℕ) : Run K (View × View × View) := do
  let Taa ← copy (← slice T [.to nva, .to nva, .to noa, .to noa])
  let Tbb ← copy (← slice T [.from nva, .from nva, .from noa, .from noa])
  let Tab ← copy (← slice T [.to nva, .from nva, .to noa, .from noa])
  return (Taa, Tab, Tbb)

/-- `int_to_spin_block`, spin_utils.py:120-133 -/
noncomputable def int_to_spin_block (aaaa bbbb abab baba abba baab : View) (na1 na2 na3 na4 nb1 nb2 nb3 nb4 : ℕ) : Run K View := do
  let n1 := na1 + nb1
  let n2 := na2 + nb2
  let n3 := na3 + nb3
  let n4 := na4 + nb4
  let I ← zeros [n1, n2, n3, n4]
  setSlice re I [.to na1, .to na2, .to na3, .to na4] aaaa
  setSlice re I [.from na1, .from na2, .from na3, .from na4] bbbb
  setSlice re I [.to na1, .from na2, .to na3, .from na4] abab
  setSlice re I [.to na1, .from na2, .from na3, .to na4] abba
  setSlice re I [.from na1, .to na2, .to na3, .from na4] baab
  setSlice re I [.from na1, .to na2, .from na3, .to na4] baba
  return I

/-- The group of statements that `int_to_spin` (spin_utils.py:136-239) repeats for each of its nine blocks, for example lines 139-147.
The arrays that occur, in the order of their first occurrence in the group: `a - a'.transpose((0, 1, 3, 2))`, `b - b'.transpose((0, 1, 3, 2))`,
`p`, `q.transpose((1, 0, 3, 2))`, `-r.transpose((0, 1, 3, 2))`, `-s.transpose((1, 0, 2, 3))`. -/
noncomputable def spinGroup (a a' b b' p q r s : View) (na1 na2 na3 na4 nb1 nb2 nb3 nb4 : ℕ) : Run K View := do
  let aaaa ← sub a (← transpose [0, 1, 3, 2] a')
  let bbbb ← sub b (← transpose [0, 1, 3, 2] b')
  let abab := p
  let baba ← transpose [1, 0, 3, 2] q
  let abba ← neg (← transpose [0, 1, 3, 2] r)
  let baab ← neg (← transpose [1, 0, 2, 3] s)
  int_to_spin_block re aaaa bbbb abab baba abba baab na1 na2 na3 na4 nb1 nb2 nb3 nb4

/-- The group that `int_to_spin2` (spin_utils.py:242-345) repeats; as `spinGroup` without the differences. -/
noncomputable def spinGroup2 (a b p q r s : View) (na1 na2 na3 na4 nb1 nb2 nb3 nb4 : ℕ) : Run K View := do
  let aaaa := a
  let bbbb := b
  let abab := p
  let baba ← transpose [1, 0, 3, 2] q
  let abba ← neg (← transpose [0, 1, 3, 2] r)
  let baab ← neg (← transpose [1, 0, 2, 3] s)
  int_to_spin_block re aaaa bbbb abab baba abba baab na1 na2 na3 na4 nb1 nb2 nb3 nb4

/-- `int_to_spin`, spin_utils.py:136-239 -/
noncomputable def int_to_spin (A B X : TwoBF) (noa nva nob nvb : ℕ) : Run K TwoB := do
  let Ivvvv ← spinGroup re A.vvvv A.vvvv B.vvvv B.vvvv X.vvvv X.vvvv X.vvvv X.vvvv nva nva nva nva nvb nvb nvb nvb
  let Ivvvo ← spinGroup re A.vvvo A.vvov B.vvvo B.vvov X.vvvo X.vvov X.vvov X.vvvo nva nva nva noa nvb nvb nvb nob
  let Ivovv ← spinGroup re A.vovv A.vovv B.vovv B.vovv X.vovv X.ovvv X.vovv X.ovvv nva noa nva nva nvb nob nvb nvb
  let Ivvoo ← spinGroup re A.vvoo A.vvoo B.vvoo B.vvoo X.vvoo X.vvoo X.vvoo X.vvoo nva nva noa noa nvb nvb nob nob
  let Ivovo ← spinGroup re A.vovo A.voov B.vovo B.voov X.vovo X.ovov X.voov X.ovvo nva noa nva noa nvb nob nvb nob
  let Ioovv ← spinGroup re A.oovv A.oovv B.oovv B.oovv X.oovv X.oovv X.oovv X.oovv noa noa nva nva nob nob nvb nvb
  let Ivooo ← spinGroup re A.vooo A.vooo B.vooo B.vooo X.vooo X.ovoo X.vooo X.ovoo nva noa noa noa nvb nob nob nob
  let Iooov ← spinGroup re A.ooov A.oovo B.ooov B.oovo X.ooov X.oovo X.oovo X.ooov noa noa noa nva nob nob nob nvb
  let Ioooo ← spinGroup re A.oooo A.oooo B.oooo B.oooo X.oooo X.oooo X.oooo X.oooo noa noa noa noa nob nob nob nob
  return ⟨Ivvvv, Ivvvo, Ivovv, Ivvoo, Ivovo, Ioovv, Ivooo, Iooov, Ioooo⟩

/-- `int_to_spin2`, spin_utils.py:242-345 -/
noncomputable def int_to_spin2 (A B : TwoB) (X : TwoBF) (noa nva nob nvb : ℕ) : Run K TwoB := do
  let Ivvvv ← spinGroup2 re A.vvvv B.vvvv X.vvvv X.vvvv X.vvvv X.vvvv nva nva nva nva nvb nvb nvb nvb
  let Ivvvo ← spinGroup2 re A.vvvo B.vvvo X.vvvo X.vvov X.vvov X.vvvo nva nva nva noa nvb nvb nvb nob
  let Ivovv ← spinGroup2 re A.vovv B.vovv X.vovv X.ovvv X.vovv X.ovvv nva noa nva nva nvb nob nvb nvb
  let Ivvoo ← spinGroup2 re A.vvoo B.vvoo X.vvoo X.vvoo X.vvoo X.vvoo nva nva noa noa nvb nvb nob nob
  let Ivovo ← spinGroup2 re A.vovo B.vovo X.vovo X.ovov X.voov X.ovvo nva noa nva noa nvb nob nvb nob
  let Ioovv ← spinGroup2 re A.oovv B.oovv X.oovv X.oovv X.oovv X.oovv noa noa nva nva nob nob nvb nvb
  let Ivooo ← spinGroup2 re A.vooo B.vooo X.vooo X.ovoo X.vooo X.ovoo nva noa noa noa nvb nob nob nob
  let Iooov ← spinGroup2 re A.ooov B.ooov X.ooov X.oovo X.oovo X.ooov noa noa noa nva nob nob nob nvb
  let Ioooo ← spinGroup2 re A.oooo B.oooo X.oooo X.oooo X.oooo X.oooo noa noa noa noa nob nob nob nob
  return ⟨Ivvvv, Ivvvo, Ivovv, Ivvoo, Ivovo, Ioovv, Ivooo, Iooov, Ioooo⟩
end

/-- `int_to_spatial`, spin_utils.py:348-397 -/
def int_to_spatial (I : TwoB) (noa _nob nva _nvb : ℕ) : Run K (TwoB × TwoB × TwoBF) := do
  let vvvv ← slice I.vvvv [.to nva, .to nva, .to nva, .to nva]
  let vvvo ← slice I.vvvo [.to nva, .to nva, .to nva, .to noa]
  let vovv ← slice I.vovv [.to nva, .to noa, .to nva, .to nva]
  let vvoo ← slice I.vvoo [.to nva, .to nva, .to noa, .to noa]
  let vovo ← slice I.vovo [.to nva, .to noa, .to nva, .to noa]
  let oovv ← slice I.oovv [.to noa, .to noa, .to nva, .to nva]
  let vooo ← slice I.vooo [.to nva, .to noa, .to noa, .to noa]
  let ooov ← slice I.ooov [.to noa, .to noa, .to noa, .to nva]
  let oooo ← slice I.oooo [.to noa, .to noa, .to noa, .to noa]
  let Ia : TwoB := ⟨vvvv, vvvo, vovv, vvoo, vovo, oovv, vooo, ooov, oooo⟩
  let vvvv ← slice I.vvvv [.from nva, .from nva, .from nva, .from nva]
  let vvvo ← slice I.vvvo [.from nva, .from nva, .from nva, .from noa]
  let vovv ← slice I.vovv [.from nva, .from noa, .from nva, .from nva]
  let vvoo ← slice I.vvoo [.from nva, .from nva, .from noa, .from noa]
  let vovo ← slice I.vovo [.from nva, .from noa, .from nva, .from noa]
  let oovv ← slice I.oovv [.from noa, .from noa, .from nva, .from nva]
  let vooo ← slice I.vooo [.from nva, .from noa, .from noa, .from noa]
  let ooov ← slice I.ooov [.from noa, .from noa, .from noa, .from nva]
  let oooo ← slice I.oooo [.from noa, .from noa, .from noa, .from noa]
  let Ib : TwoB := ⟨vvvv, vvvo, vovv, vvoo, vovo, oovv, vooo, ooov, oooo⟩
  let vvvv ← slice I.vvvv [.to nva, .from nva, .to nva, .from nva]
  let vvvo ← slice I.vvvo [.to nva, .from nva, .to nva, .from noa]
  let vvov ← neg (← transpose [0, 1, 3, 2] (← slice I.vvvo [.to nva, .from nva, .from nva, .to noa]))
  let vovv ← slice I.vovv [.to nva, .from noa, .to nva, .from nva]
  let ovvv ← neg (← transpose [1, 0, 2, 3] (← slice I.vovv [.from nva, .to noa, .to nva, .from nva]))
  let vvoo ← slice I.vvoo [.to nva, .from nva, .to noa, .from noa]
  let vovo ← slice I.vovo [.to nva, .from noa, .to nva, .from noa]
  let voov ← neg (← transpose [0, 1, 3, 2] (← slice I.vovo [.to nva, .from noa, .from nva, .to noa]))
  let ovov ← transpose [1, 0, 3, 2] (← slice I.vovo [.from nva, .to noa, .from nva, .to noa])
  let ovvo ← neg (← transpose [1, 0, 2, 3] (← slice I.vovo [.from nva, .to noa, .to nva, .from noa]))
  let oovv ← slice I.oovv [.to noa, .from noa, .to nva, .from nva]
  let vooo ← slice I.vooo [.to nva, .from noa, .to noa, .from noa]
  let ovoo ← neg (← transpose [1, 0, 2, 3] (← slice I.vooo [.from nva, .to noa, .to noa, .from noa]))
  let ooov ← slice I.ooov [.to noa, .from noa, .to noa, .from nva]
  let oovo ← neg (← transpose [0, 1, 3, 2] (← slice I.ooov [.to noa, .from noa, .from noa, .to nva]))
  let oooo ← slice I.oooo [.to noa, .from noa, .to noa, .from noa]
  let Iabab : TwoBF := { vvvv := vvvv, vvvo := vvvo, vvov := vvov, vovv := vovv, ovvv := ovvv, vvoo := vvoo, vovo := vovo, ovvo := ovvo,
                         voov := voov, ovov := ovov, oovv := oovv, vooo := vooo, ovoo := ovoo, oovo := oovo, ooov := ooov, oooo := oooo }
  return (Ia, Ib, Iabab)

end Np
