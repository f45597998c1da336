import Verif.Model.CI
/-!
# Memory model of `cqcpy/ci_utils.py`

`Verif.Model.CI` gives every string its own value.  In the code a `Dstring` or `Pstring` holds a *reference* to a numpy array: `numpy.asarray` keeps the
array it is given, `copy` makes a new one, assignments such as `occnew[i] = 0` and `out[idx] += s*x` write into an array, and the elements of
the lists and bases that are returned may share arrays.  Here the routines act on a memory of integer arrays (occupations) and arrays of
coefficients, statement by statement.

Not modelled: rebinding the attributes `n`, `occ` of an object (the library never does), the Python lists that hold strings (the library only appends to
lists it has made itself), and the arrays inside the matrix elements (all are made by `copy` or by operators; the functions return numbers).
`list.index` compares identity before equality; as equality of strings is reflexive this makes no difference, and only equality is modelled.
`gmakeCfromT` and `makeCfromT` are not included.
-/
namespace CI
namespace Memo

variable {K : Type}

/-- The memory: integer arrays and arrays of coefficients, numbered in the order in which they were made. -/
structure Mem (K : Type) where
  ints : List (List ℤ)
  vecs : List (List K)

/-- Computations with memory.  The memory is kept when an exception is raised. -/
def M (K : Type) (α : Type) : Type := Mem K → R α × Mem K

instance : Monad (M K) where
  pure x := fun μ => (.ok x, μ)
  bind m f := fun μ =>
    match m μ with
    | (.ok x, μ') => f x μ'
    | (.error e, μ') => (.error e, μ')

/-- `raise` -/
def raise {α : Type} (e : Err) : M K α := fun μ => (.error e, μ)

/-- a computation that does not touch memory -/
def lift {α : Type} (r : R α) : M K α := fun μ => (r, μ)

/-- a new integer array with the given elements -/
def alloc (l : List ℤ) : M K ℕ := fun μ => (.ok μ.ints.length, { μ with ints := μ.ints ++ [l] })
/-- the elements of an integer array -/
def read (p : ℕ) : M K (List ℤ) := fun μ => (.ok (μ.ints.getD p []), μ)
/-- `x.copy()` -/
def copy (p : ℕ) : M K ℕ := do
  let l ← read p
  alloc l
/-- `x[i] = v` (the index has been checked by a read) -/
def write (p i : ℕ) (v : ℤ) : M K Unit := fun μ => (.ok (), { μ with ints := μ.ints.modify p (·.set i v) })

/-- a new array of coefficients -/
def allocV (l : List K) : M K ℕ := fun μ => (.ok μ.vecs.length, { μ with vecs := μ.vecs ++ [l] })
/-- the elements of an array of coefficients -/
def readV (p : ℕ) : M K (List K) := fun μ => (.ok (μ.vecs.getD p []), μ)
/-- `out[idx] += x` -/
def addV [Field K] (p idx : ℕ) (x : K) : M K Unit := fun μ =>
  match addAt (μ.vecs.getD p []) idx x with
  | .ok l => (.ok (), { μ with vecs := μ.vecs.set p l })
  | .error e => (.error e, μ)

/-- `for x in l: ... dlist.append(...)` -/
def collectM {α β : Type} : List α → (α → M K (List β)) → M K (List β)
  | [], _ => pure []
  | x :: l, f => do
    let u ← f x
    let v ← collectM l f
    pure (u ++ v)

/-- `for x in l: ...` -/
def loopM {α : Type} : List α → (α → M K Unit) → M K Unit
  | [], _ => pure ()
  | x :: l, f => do
    f x
    loopM l f

/-- An occupation passed to a routine: a Python list or a numpy array of integers. -/
inductive Occ
  | list (l : List ℤ)
  | array (p : ℕ)

/-- the elements of the argument -/
def Occ.elems : Occ → M K (List ℤ)
  | .list l => pure l
  | .array p => read p

/-- `numpy.asarray(occ)`: a list is copied, an array is not. -/
def asarray : Occ → M K ℕ
  | .list l => alloc l
  | .array p => pure p

/-- A `Dstring`: its number of orbitals and the array it refers to. -/
structure DRef where
  n : ℕ
  occ : ℕ
  deriving DecidableEq

/-- cqcpy/ci_utils.py:5-8 (`Dstring.__init__`). -/
def newD (n : ℕ) (occ : Occ) : M K DRef := do
  let p ← asarray occ
  let l ← read p
  if n = l.length then pure ⟨n, p⟩ else raise .assertion

/-- cqcpy/ci_utils.py:10-31 (`Dstring.excite`). -/
def DRef.excite (d : DRef) (i a : ℕ) : M K (Option (ℤ × DRef)) := do
  let occ ← read d.occ
  let oi ← lift (get occ i)
  if oi ≠ 1 then pure none
  else
    let oa ← lift (get occ a)
    if oa ≠ 0 then pure none
    else if i = a then
      let new ← newD d.n (.array d.occ)
      pure (some (1, new))
    else if i < a then
      let occnew ← copy d.occ
      write occnew i 0
      write occnew a 1
      let o ← read d.occ
      let otemp := slice o (i + 1) a
      let sign : ℤ := if otemp.sum % 2 = 0 then 1 else -1
      let new ← newD d.n (.array occnew)
      pure (some (sign, new))
    else
      let occnew ← copy d.occ
      write occnew i 0
      write occnew a 1
      let o ← read d.occ
      let otemp := slice o (a + 1) i
      let sign : ℤ := if otemp.sum % 2 = 0 then 1 else -1
      let new ← newD d.n (.array occnew)
      pure (some (sign, new))

/-- The string part of the result of `excite`. -/
def strM (r : Option (ℤ × DRef)) : Option DRef := r.map Prod.snd

/-- `d.excite(i, a)` where `d` may be `None`. -/
def exciteOM (d : Option DRef) (i a : ℕ) : M K (Option (ℤ × DRef)) :=
  match d with
  | some d => d.excite i a
  | none => raise .attribute

/-- A `Pstring`. -/
structure PRef where
  n : ℕ
  occ : ℕ
  deriving DecidableEq

/-- cqcpy/ci_utils.py:38-41 (`Pstring.__init__`). -/
def newP (n : ℕ) (occ : Occ) : M K PRef := do
  let p ← asarray occ
  let l ← read p
  if n = l.length then pure ⟨n, p⟩ else raise .assertion

/-- cqcpy/ci_utils.py:43-46 (`Pstring.raize`). -/
def PRef.raize (d : PRef) (p : ℕ) : M K PRef := do
  let occnew ← copy d.occ
  let l ← read occnew
  let x ← lift (get l p)
  write occnew p (x + 1)
  newP d.n (.array occnew)

/-- cqcpy/ci_utils.py:48-54 (`Pstring.lower`). -/
def PRef.lower (d : PRef) (p : ℕ) : M K (Option PRef) := do
  let occnew ← copy d.occ
  let l ← read occnew
  let x ← lift (get l p)
  if x = 0 then pure none
  else
    write occnew p (x - 1)
    let new ← newP d.n (.array occnew)
    pure (some new)

/-- cqcpy/ci_utils.py:60-66 (`level`, `diff`). -/
def levelM (ref string : DRef) : M K ℤ := do
  let r ← read ref.occ
  let s ← read string.occ
  pure (level ⟨ref.n, r⟩ ⟨string.n, s⟩)

/-- The lists `occ`, `iocc`, `ivir` and the reference with which the string routines begin (cqcpy/ci_utils.py:70-75, 85-90, 107-112, 136-141). -/
def begin (n nocc : ℕ) (occ? : Option Occ) : M K (List ℤ × List ℕ × List ℕ × DRef) := do
  let occ := occ?.getD (.list (aufbau n nocc))
  let o ← occ.elems
  let vir := virt o
  let iocc := positions o
  let ivir := positions vir
  let ref ← newD n occ
  pure (o, iocc, ivir, ref)

/-- cqcpy/ci_utils.py:69-81 (`s_strings`). -/
def s_stringsM (n nocc : ℕ) (occ? : Option Occ := none) : M K (List (Option DRef)) := do
  let (_, iocc, ivir, ref) ← begin n nocc occ?
  collectM iocc fun i =>
    collectM ivir fun a => do
      let r ← ref.excite i a
      pure [strM r]

/-- cqcpy/ci_utils.py:84-103 (`d_strings`). -/
def d_stringsM (n nocc : ℕ) (occ? : Option Occ := none) : M K (List (Option DRef)) := do
  let (_, iocc, ivir, ref) ← begin n nocc occ?
  collectM iocc fun i =>
    collectM ivir fun a =>
      collectM iocc fun j =>
        if j ≤ i then pure [] else
        collectM ivir fun b =>
          if b ≤ a then pure [] else do
          let r1 ← ref.excite i a
          let r2 ← exciteOM (strM r1) j b
          pure [strM r2]

/-- cqcpy/ci_utils.py:106-132 (`t_strings`). -/
def t_stringsM (n nocc : ℕ) (occ? : Option Occ := none) : M K (List (Option DRef)) := do
  let (_, iocc, ivir, ref) ← begin n nocc occ?
  collectM iocc fun i =>
    collectM ivir fun a =>
      collectM iocc fun j =>
        if j ≤ i then pure [] else
        collectM ivir fun b =>
          if b ≤ a then pure [] else
          collectM iocc fun k =>
            if k ≤ j then pure [] else
            collectM ivir fun c =>
              if c ≤ b then pure [] else do
              let r1 ← ref.excite i a
              let r2 ← exciteOM (strM r1) j b
              let r3 ← exciteOM (strM r2) k c
              pure [strM r3]

/-- cqcpy/ci_utils.py:135-168 (`q_strings`), with the loops over the values of `occ` as in `CI.q_strings`. -/
def q_stringsM (n nocc : ℕ) (occ? : Option Occ := none) : M K (List (Option DRef)) := do
  let (o, iocc, ivir, ref) ← begin n nocc occ?
  collectM (o.map Int.toNat) fun i =>
    collectM ivir fun a =>
      collectM (o.map Int.toNat) fun j =>
        if j ≤ i then pure [] else
        collectM ivir fun b =>
          if b ≤ a then pure [] else
          collectM iocc fun k =>
            if k ≤ j then pure [] else
            collectM ivir fun c =>
              if c ≤ b then pure [] else
              collectM iocc fun l =>
                if l ≤ k then pure [] else
                collectM ivir fun d =>
                  if d ≤ c then pure [] else do
                  let r1 ← ref.excite i a
                  let r2 ← exciteOM (strM r1) j b
                  let r3 ← exciteOM (strM r2) k c
                  let r4 ← exciteOM (strM r3) l d
                  pure [strM r4]

/-- cqcpy/ci_utils.py:171-178 (`s_pstrings`). -/
def s_pstringsM (nmode : ℕ) : M K (List PRef) := do
  let ref ← newP nmode (.list (List.replicate nmode 0))
  collectM (List.range nmode) fun i => do
    let temp ← ref.raize i
    pure [temp]

/-- cqcpy/ci_utils.py:181-189 (`d_pstrings`). -/
def d_pstringsM (nmode : ℕ) : M K (List PRef) := do
  let ref ← newP nmode (.list (List.replicate nmode 0))
  collectM (List.range nmode) fun i =>
    collectM (List.range' i (nmode - i)) fun j => do
      let t1 ← ref.raize i
      let temp ← t1.raize j
      pure [temp]

/-! ## bases -/

/-- an element of the unrestricted bases -/
abbrev PairM := Option DRef × Option DRef

/-- `for a in la: basis.append((a, refb))` -/
def withBM (la : List (Option DRef)) (refb : DRef) : List PairM := la.map fun a => (a, some refb)
/-- `for b in lb: basis.append((refa, b))` -/
def withAM (refa : DRef) (lb : List (Option DRef)) : List PairM := lb.map fun b => (some refa, b)
/-- `for a in la: for b in lb: basis.append((a, b))` -/
def prodM (la lb : List (Option DRef)) : List PairM := la.flatMap fun a => lb.map fun b => (a, b)

/-- cqcpy/ci_utils.py:192-207 (`ucis_basis`). -/
def ucis_basisM (n na nb : ℕ) (gs : Bool := true) : M K (List PairM) := do
  let sa ← s_stringsM n na
  let sb ← s_stringsM n nb
  let refa ← newD n (.list (aufbau n na))
  let refb ← newD n (.list (aufbau n nb))
  let basis : List PairM := if gs then [(some refa, some refb)] else []
  pure (basis ++ withBM sa refb ++ withAM refa sb)

/-- cqcpy/ci_utils.py:210-231 (`ucisd_basis`). -/
def ucisd_basisM (n na nb : ℕ) : M K (List PairM) := do
  let sa ← s_stringsM n na
  let sb ← s_stringsM n nb
  let da ← d_stringsM n na
  let db ← d_stringsM n nb
  let refa ← newD n (.list (aufbau n na))
  let refb ← newD n (.list (aufbau n nb))
  pure ([(some refa, some refb)] ++ withBM sa refb ++ withAM refa sb ++ withBM da refb ++ withAM refa db ++ prodM sa sb)

/-- cqcpy/ci_utils.py:234-267 (`ucisdt_basis`). -/
def ucisdt_basisM (n na nb : ℕ) : M K (List PairM) := do
  let sa ← s_stringsM n na
  let sb ← s_stringsM n nb
  let da ← d_stringsM n na
  let db ← d_stringsM n nb
  let ta ← t_stringsM n na
  let tb ← t_stringsM n nb
  let refa ← newD n (.list (aufbau n na))
  let refb ← newD n (.list (aufbau n nb))
  pure ([(some refa, some refb)] ++ withBM sa refb ++ withAM refa sb ++ withBM da refb ++ withAM refa db ++ prodM sa sb
    ++ withBM ta refb ++ withAM refa tb ++ prodM da sb ++ prodM sa db)

/-- cqcpy/ci_utils.py:270-318 (`ucisdtq_basis`). -/
def ucisdtq_basisM (n na nb : ℕ) : M K (List PairM) := do
  let sa ← s_stringsM n na
  let sb ← s_stringsM n nb
  let da ← d_stringsM n na
  let db ← d_stringsM n nb
  let ta ← t_stringsM n na
  let tb ← t_stringsM n nb
  let qa ← q_stringsM n na
  let qb ← q_stringsM n nb
  let refa ← newD n (.list (aufbau n na))
  let refb ← newD n (.list (aufbau n nb))
  pure ([(some refa, some refb)] ++ withBM sa refb ++ withAM refa sb ++ withBM da refb ++ withAM refa db ++ prodM sa sb
    ++ withBM ta refb ++ withAM refa tb ++ prodM da sb ++ prodM sa db
    ++ withBM qa refb ++ withAM refa qb ++ prodM ta sb ++ prodM da db ++ prodM sa tb)

/-- cqcpy/ci_utils.py:321-332 (`gcis_basis`).  `occ` is a Python list, from which `Dstring` and `s_strings` make arrays of their own. -/
def gcis_basisM (nmo n : ℕ) (gs : Bool := true) : M K (List (Option DRef)) := do
  let occ := gocc nmo n
  let ref ← newD nmo (.list occ)
  let singles ← s_stringsM nmo n (some (.list occ))
  let basis : List (Option DRef) := if gs then [some ref] else []
  pure (basis ++ singles)

/-- cqcpy/ci_utils.py:335-349 (`gcisd_basis`). -/
def gcisd_basisM (nmo n : ℕ) : M K (List (Option DRef)) := do
  let occ := gocc nmo n
  let ref ← newD nmo (.list occ)
  let singles ← s_stringsM nmo n (some (.list occ))
  let doubles ← d_stringsM nmo n (some (.list occ))
  pure ([some ref] ++ singles ++ doubles)

/-- cqcpy/ci_utils.py:352-369 (`gcisdt_basis`). -/
def gcisdt_basisM (nmo n : ℕ) : M K (List (Option DRef)) := do
  let occ := gocc nmo n
  let ref ← newD nmo (.list occ)
  let singles ← s_stringsM nmo n (some (.list occ))
  let doubles ← d_stringsM nmo n (some (.list occ))
  let triples ← t_stringsM nmo n (some (.list occ))
  pure ([some ref] ++ singles ++ doubles ++ triples)

/-- cqcpy/ci_utils.py:372-392 (`gcisdtq_basis`). -/
def gcisdtq_basisM (nmo n : ℕ) : M K (List (Option DRef)) := do
  let occ := gocc nmo n
  let ref ← newD nmo (.list occ)
  let singles ← s_stringsM nmo n (some (.list occ))
  let doubles ← d_stringsM nmo n (some (.list occ))
  let triples ← t_stringsM nmo n (some (.list occ))
  let quadles ← q_stringsM nmo n (some (.list occ))
  pure ([some ref] ++ singles ++ doubles ++ triples ++ quadles)

/-- cqcpy/ci_utils.py:395-402 (`vcis_basis`). -/
def vcis_basisM (nmode : ℕ) : M K (List PRef) := do
  let ref ← newP nmode (.list (List.replicate nmode 0))
  let singles ← s_pstringsM nmode
  pure ([ref] ++ singles)

/-- cqcpy/ci_utils.py:405-415 (`vcisd_basis`). -/
def vcisd_basisM (nmode : ℕ) : M K (List PRef) := do
  let ref ← newP nmode (.list (List.replicate nmode 0))
  let singles ← s_pstringsM nmode
  let doubles ← d_pstringsM nmode
  pure ([ref] ++ singles ++ doubles)

/-! ## operators on vectors -/

/-- the value of a string -/
def DRef.value (d : DRef) : M K Dstring := do
  let l ← read d.occ
  pure ⟨d.n, l⟩

/-- `x == y` where `x` may be `None`. -/
def eqOM (x : Option DRef) (y : DRef) : M K Bool :=
  match x with
  | some d => do
    let u ← d.value
    let v ← y.value
    pure (u == v)
  | none => raise .attribute

/-- `basis.index(y)` -/
def indexM (basis : List (Option DRef)) (y : DRef) : M K ℕ :=
  match basis with
  | [] => raise .value
  | x :: l => do
    let t ← eqOM x y
    if t then pure 0
    else
      let k ← indexM l y
      pure (k + 1)

/-- `basis.index((ya, yb))` -/
def index2M (basis : List PairM) (ya yb : DRef) : M K ℕ :=
  match basis with
  | [] => raise .value
  | x :: l => do
    let t ← eqOM x.1 ya
    let t' ← if t then eqOM x.2 yb else pure false
    if t' then pure 0
    else
      let k ← index2M l ya yb
      pure (k + 1)

variable [Field K]

/-- `try: idx = basis.index(..); out[idx] += x / except ValueError: pass` -/
def tryAddM (idx : M K ℕ) (out : ℕ) (x : K) : M K Unit := fun μ =>
  match idx μ with
  | (.ok k, μ') => addV out k x μ'
  | (.error .value, μ') => (.ok (), μ')
  | (.error e, μ') => (.error e, μ')

/-- `out = numpy.zeros(vec.shape)`, `for ix, x in enumerate(vec): ...`, `return out`.  The elements of `vec` are read when the loop arrives at them. -/
def overVec (vec : ℕ) (f : ℕ → ℕ → K → M K Unit) : M K ℕ := do
  let v ← readV vec
  let out ← allocV (List.replicate v.length 0)
  loopM (List.range v.length) fun ix => do
    let w ← readV vec
    let x ← lift (get w ix)
    f out ix x
  pure out

/-- cqcpy/ci_utils.py:1428-1440 (`s_on_vec`). -/
def s_on_vecM (basis : List (Option DRef)) (vec i a : ℕ) : M K ℕ :=
  overVec vec fun out ix x => do
    let dd ← lift (get basis ix)
    match ← exciteOM dd i a with
    | none => pure ()
    | some (s, new) => tryAddM (indexM basis new) out ((s : K) * x)

/-- cqcpy/ci_utils.py:1443-1455 (`sa_on_vec`), simplified as `CI.sa_on_vec`. -/
def sa_on_vecM (basis : List PairM) (vec i a : ℕ) : M K ℕ :=
  overVec vec fun out ix x => do
    let (ab, bb) ← lift (get basis ix)
    match ← exciteOM ab i a with
    | none => pure ()
    | some (sa, anew) =>
      match bb with
      | some bb => tryAddM (index2M basis anew bb) out ((sa : K) * x)
      | none => raise .attribute

/-- cqcpy/ci_utils.py:1458-1470 (`sb_on_vec`). -/
def sb_on_vecM (basis : List PairM) (vec i a : ℕ) : M K ℕ :=
  overVec vec fun out ix x => do
    let (ab, bb) ← lift (get basis ix)
    match ← exciteOM bb i a with
    | none => pure ()
    | some (sb, bnew) =>
      match ab with
      | some ab => tryAddM (index2M basis ab bnew) out ((sb : K) * x)
      | none => raise .attribute

/-- cqcpy/ci_utils.py:1473-1488 (`d_on_vec`). -/
def d_on_vecM (basis : List (Option DRef)) (vec i j a b : ℕ) : M K ℕ :=
  overVec vec fun out ix x => do
    let dd ← lift (get basis ix)
    match ← exciteOM dd i a with
    | none => pure ()
    | some (s1, temp) =>
      match ← temp.excite j b with
      | none => pure ()
      | some (s2, new) => tryAddM (indexM basis new) out ((s1 : K) * s2 * x)

/-- cqcpy/ci_utils.py:1491-1506 (`da_on_vec`). -/
def da_on_vecM (basis : List PairM) (vec i j a b : ℕ) : M K ℕ :=
  overVec vec fun out ix x => do
    let (ab, bb) ← lift (get basis ix)
    match ← exciteOM ab i a with
    | none => pure ()
    | some (s1, atemp) =>
      match ← atemp.excite j b with
      | none => pure ()
      | some (s2, anew) =>
        match bb with
        | some bb => tryAddM (index2M basis anew bb) out ((s1 : K) * s2 * x)
        | none => raise .attribute

/-- cqcpy/ci_utils.py:1509-1524 (`db_on_vec`). -/
def db_on_vecM (basis : List PairM) (vec i j a b : ℕ) : M K ℕ :=
  overVec vec fun out ix x => do
    let (ab, bb) ← lift (get basis ix)
    match ← exciteOM bb i a with
    | none => pure ()
    | some (s1, btemp) =>
      match ← btemp.excite j b with
      | none => pure ()
      | some (s2, bnew) =>
        match ab with
        | some ab => tryAddM (index2M basis ab bnew) out ((s1 : K) * s2 * x)
        | none => raise .attribute

/-- cqcpy/ci_utils.py:1527-1542 (`sasb_on_vec`). -/
def sasb_on_vecM (basis : List PairM) (vec i j a b : ℕ) : M K ℕ :=
  overVec vec fun out ix x => do
    let (ab, bb) ← lift (get basis ix)
    match ← exciteOM ab i a with
    | none => pure ()
    | some (sa, anew) =>
      match ← exciteOM bb j b with
      | none => pure ()
      | some (sb, bnew) => tryAddM (index2M basis anew bnew) out ((sa : K) * sb * x)

/-- the values of the strings of a basis element -/
def stringsM (x : PairM) : M K (Dstring × Dstring) :=
  match x with
  | (some a, some b) => do
    let u ← a.value
    let v ← b.value
    pure (u, v)
  | _ => raise .attribute

/-- cqcpy/ci_utils.py:1545-1551 (`H_on_vec`). -/
def H_on_vecM (basis : List PairM) (vec : ℕ) (ha hb : ℕ → ℕ → K) (Ia Ib Iabab : ℕ → ℕ → ℕ → ℕ → K) : M K ℕ := do
  let v ← readV vec
  let out ← allocV (List.replicate v.length 0)
  loopM (enum basis) fun (i, b) =>
    loopM (enum basis) fun (j, k) => do
      let w ← readV vec
      let x ← lift (get w j)
      let (b0, b1) ← stringsM b
      let (k0, k1) ← stringsM k
      let m ← lift (ci_matrixel b0 b1 k0 k1 ha hb Ia Ib Iabab 0)
      addV out i (x * m)
  pure out

/-- cqcpy/ci_utils.py:1554-1559 (`gH_on_vec`). -/
def gH_on_vecM (basis : List (Option DRef)) (vec : ℕ) (h : ℕ → ℕ → K) (I : ℕ → ℕ → ℕ → ℕ → K) : M K ℕ := do
  let v ← readV vec
  let out ← allocV (List.replicate v.length 0)
  loopM (enum basis) fun (i, b) =>
    loopM (enum basis) fun (j, k) => do
      let w ← readV vec
      let x ← lift (get w j)
      match b, k with
      | some b, some k =>
        let b ← b.value
        let k ← k.value
        let m ← lift (gci_matrixel b k h I 0)
        addV out i (x * m)
      | _, _ => raise .attribute
  pure out

end Memo
end CI
