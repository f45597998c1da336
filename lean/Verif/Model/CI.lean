import Mathlib.Algebra.Field.Defs
import Mathlib.Algebra.BigOperators.Group.Finset.Basic
import Mathlib.Algebra.Order.Group.Unbundled.Int
import Mathlib.Data.Int.Cast.Defs
/-!
# Model of `cqcpy/ci_utils.py`: strings, bases, matrix elements, operators on vectors

Occupation arrays are lists of integers, exceptions are values of `Err`, `None` is `none`, and a Python loop is `collect`
(a loop that appends to a list) or `loop` (a loop that updates a value).  Coefficients live in a field `K` in place of
floating point numbers.  Indices are natural numbers: Python's negative indices are modelled in `Model/CIIndex`.  Integral arrays are
functions of their indices; a shape that does not match the number of orbitals is not modelled.
-/
namespace CI

/-- the exceptions the modelled code can raise -/
inductive Err
  | index | value | assertion | attribute | exception
  deriving DecidableEq, Repr

abbrev R := Except Err

/-- `for x in l: ... dlist.append(...)`, the appended items in order -/
def collect {α β : Type} : List α → (α → R (List β)) → R (List β)
  | [], _ => .ok []
  | x :: l, f => do
    let u ← f x
    let v ← collect l f
    .ok (u ++ v)

/-- `for x in l: C = f(x, C)` -/
def loop {α σ : Type} : List α → (α → σ → R σ) → σ → R σ
  | [], _, c => .ok c
  | x :: l, f, c => do
    let c' ← f x c
    loop l f c'

/-- `l[i]` -/
def get {α : Type} (l : List α) (i : ℕ) : R α :=
  match l[i]? with
  | some x => .ok x
  | none => .error .index

/-- `l[i:j]` -/
def slice (l : List ℤ) (i j : ℕ) : List ℤ := (l.take j).drop i

/-! ## Dstring, Pstring -/

/-- cqcpy/ci_utils.py:4-8, 33-34 (`Dstring`; `__eq__` compares both fields). -/
structure Dstring where
  n : ℕ
  occ : List ℤ
  deriving DecidableEq, Repr

/-- cqcpy/ci_utils.py:5-8 (`Dstring.__init__`). -/
def Dstring.new (n : ℕ) (occ : List ℤ) : R Dstring :=
  if n = occ.length then .ok ⟨n, occ⟩ else .error .assertion

/-- cqcpy/ci_utils.py:10-31 (`Dstring.excite`); `none` is `(None, None)`. -/
def Dstring.excite (d : Dstring) (i a : ℕ) : R (Option (ℤ × Dstring)) := do
  let oi ← get d.occ i
  if oi ≠ 1 then return none
  let oa ← get d.occ a
  if oa ≠ 0 then return none
  if i = a then
    let new ← Dstring.new d.n d.occ
    return some (1, new)
  else if i < a then
    let occnew := (d.occ.set i 0).set a 1
    let otemp := slice d.occ (i + 1) a
    let sign : ℤ := if otemp.sum % 2 = 0 then 1 else -1
    let new ← Dstring.new d.n occnew
    return some (sign, new)
  else
    let occnew := (d.occ.set i 0).set a 1
    let otemp := slice d.occ (a + 1) i
    let sign : ℤ := if otemp.sum % 2 = 0 then 1 else -1
    let new ← Dstring.new d.n occnew
    return some (sign, new)

/-- The string part of the result of `excite`. -/
def str (r : Option (ℤ × Dstring)) : Option Dstring := r.map Prod.snd

/-- `d.excite(i, a)` where `d` may be `None`. -/
def exciteO (d : Option Dstring) (i a : ℕ) : R (Option (ℤ × Dstring)) :=
  match d with
  | some d => d.excite i a
  | none => .error .attribute

/-- cqcpy/ci_utils.py:37-41, 56-57 (`Pstring`). -/
structure Pstring where
  n : ℕ
  occ : List ℤ
  deriving DecidableEq, Repr

/-- cqcpy/ci_utils.py:38-41 (`Pstring.__init__`). -/
def Pstring.new (n : ℕ) (occ : List ℤ) : R Pstring :=
  if n = occ.length then .ok ⟨n, occ⟩ else .error .assertion

/-- cqcpy/ci_utils.py:43-46 (`Pstring.raize`). -/
def Pstring.raize (d : Pstring) (p : ℕ) : R Pstring := do
  let x ← get d.occ p
  Pstring.new d.n (d.occ.set p (x + 1))

/-- cqcpy/ci_utils.py:48-54 (`Pstring.lower`). -/
def Pstring.lower (d : Pstring) (p : ℕ) : R (Option Pstring) := do
  let x ← get d.occ p
  if x = 0 then return none
  else
    let new ← Pstring.new d.n (d.occ.set p (x - 1))
    return some new

/-- cqcpy/ci_utils.py:60-62 (`level`). -/
def level (ref string : Dstring) : ℤ := (List.zipWith (fun o1 o2 : ℤ => |o1 - o2|) ref.occ string.occ).sum

/-- cqcpy/ci_utils.py:65-66 (`diff`). -/
def diff (bra ket : Dstring) : ℤ := level bra ket

/-! ## strings -/

/-- `[1 if i < nocc else 0 for i in range(n)]` -/
def aufbau (n nocc : ℕ) : List ℤ := (List.range n).map fun i => if i < nocc then 1 else 0

/-- `[1 if x == 0 else 0 for x in occ]` -/
def virt (occ : List ℤ) : List ℤ := occ.map fun x => if x = 0 then 1 else 0

/-- `[i for i, x in enumerate(l) if x > 0]` -/
def positions (l : List ℤ) : List ℕ := (List.range l.length).filter fun i => l.getD i 0 > 0

/-- cqcpy/ci_utils.py:69-81 (`s_strings`). -/
def s_strings (n nocc : ℕ) (occ? : Option (List ℤ) := none) : R (List (Option Dstring)) := do
  let occ := occ?.getD (aufbau n nocc)
  let vir := virt occ
  let iocc := positions occ
  let ivir := positions vir
  let ref ← Dstring.new n occ
  collect iocc fun i =>
    collect ivir fun a => do
      let r ← ref.excite i a
      return [str r]

/-- cqcpy/ci_utils.py:84-103 (`d_strings`). -/
def d_strings (n nocc : ℕ) (occ? : Option (List ℤ) := none) : R (List (Option Dstring)) := do
  let occ := occ?.getD (aufbau n nocc)
  let vir := virt occ
  let iocc := positions occ
  let ivir := positions vir
  let ref ← Dstring.new n occ
  collect iocc fun i =>
    collect ivir fun a =>
      collect iocc fun j =>
        if j ≤ i then .ok [] else
        collect ivir fun b =>
          if b ≤ a then .ok [] else do
          let r1 ← ref.excite i a
          let r2 ← exciteO (str r1) j b
          return [str r2]

/-- cqcpy/ci_utils.py:106-132 (`t_strings`). -/
def t_strings (n nocc : ℕ) (occ? : Option (List ℤ) := none) : R (List (Option Dstring)) := do
  let occ := occ?.getD (aufbau n nocc)
  let vir := virt occ
  let iocc := positions occ
  let ivir := positions vir
  let ref ← Dstring.new n occ
  collect iocc fun i =>
    collect ivir fun a =>
      collect iocc fun j =>
        if j ≤ i then .ok [] else
        collect ivir fun b =>
          if b ≤ a then .ok [] else
          collect iocc fun k =>
            if k ≤ j then .ok [] else
            collect ivir fun c =>
              if c ≤ b then .ok [] else do
              let r1 ← ref.excite i a
              let r2 ← exciteO (str r1) j b
              let r3 ← exciteO (str r2) k c
              return [str r3]

/-- cqcpy/ci_utils.py:135-168 (`q_strings`).  The two outer loops run over the *values* of `occ`, as in the code
(`for i in occ`, `for j in occ`).  Occupation numbers used as indices are assumed non-negative here (`toNat`). -/
def q_strings (n nocc : ℕ) (occ? : Option (List ℤ) := none) : R (List (Option Dstring)) := do
  let occ := occ?.getD (aufbau n nocc)
  let vir := virt occ
  let iocc := positions occ
  let ivir := positions vir
  let ref ← Dstring.new n occ
  collect (occ.map Int.toNat) fun i =>
    collect ivir fun a =>
      collect (occ.map Int.toNat) fun j =>
        if j ≤ i then .ok [] else
        collect ivir fun b =>
          if b ≤ a then .ok [] else
          collect iocc fun k =>
            if k ≤ j then .ok [] else
            collect ivir fun c =>
              if c ≤ b then .ok [] else
              collect iocc fun l =>
                if l ≤ k then .ok [] else
                collect ivir fun d =>
                  if d ≤ c then .ok [] else do
                  let r1 ← ref.excite i a
                  let r2 ← exciteO (str r1) j b
                  let r3 ← exciteO (str r2) k c
                  let r4 ← exciteO (str r3) l d
                  return [str r4]

/-- cqcpy/ci_utils.py:171-178 (`s_pstrings`). -/
def s_pstrings (nmode : ℕ) : R (List Pstring) := do
  let ref ← Pstring.new nmode (List.replicate nmode 0)
  collect (List.range nmode) fun i => do
    let temp ← ref.raize i
    return [temp]

/-- cqcpy/ci_utils.py:181-189 (`d_pstrings`). -/
def d_pstrings (nmode : ℕ) : R (List Pstring) := do
  let ref ← Pstring.new nmode (List.replicate nmode 0)
  collect (List.range nmode) fun i =>
    collect (List.range' i (nmode - i)) fun j => do
      let t1 ← ref.raize i
      let temp ← t1.raize j
      return [temp]

/-! ## bases -/

/-- A basis element of the unrestricted bases: an alpha and a beta string. -/
abbrev Pair := Option Dstring × Option Dstring

/-- `for a in la: basis.append((a, refb))` -/
def withB (la : List (Option Dstring)) (refb : Dstring) : List Pair := la.map fun a => (a, some refb)
/-- `for b in lb: basis.append((refa, b))` -/
def withA (refa : Dstring) (lb : List (Option Dstring)) : List Pair := lb.map fun b => (some refa, b)
/-- `for a in la: for b in lb: basis.append((a, b))` -/
def prod (la lb : List (Option Dstring)) : List Pair := la.flatMap fun a => lb.map fun b => (a, b)

/-- cqcpy/ci_utils.py:192-207 (`ucis_basis`). -/
def ucis_basis (n na nb : ℕ) (gs : Bool := true) : R (List Pair) := do
  let sa ← s_strings n na
  let sb ← s_strings n nb
  let refa ← Dstring.new n (aufbau n na)
  let refb ← Dstring.new n (aufbau n nb)
  let basis : List Pair := if gs then [(some refa, some refb)] else []
  return basis ++ withB sa refb ++ withA refa sb

/-- cqcpy/ci_utils.py:210-231 (`ucisd_basis`). -/
def ucisd_basis (n na nb : ℕ) : R (List Pair) := do
  let sa ← s_strings n na
  let sb ← s_strings n nb
  let da ← d_strings n na
  let db ← d_strings n nb
  let refa ← Dstring.new n (aufbau n na)
  let refb ← Dstring.new n (aufbau n nb)
  return [(some refa, some refb)] ++ withB sa refb ++ withA refa sb ++ withB da refb ++ withA refa db ++ prod sa sb

/-- cqcpy/ci_utils.py:234-267 (`ucisdt_basis`). -/
def ucisdt_basis (n na nb : ℕ) : R (List Pair) := do
  let sa ← s_strings n na
  let sb ← s_strings n nb
  let da ← d_strings n na
  let db ← d_strings n nb
  let ta ← t_strings n na
  let tb ← t_strings n nb
  let refa ← Dstring.new n (aufbau n na)
  let refb ← Dstring.new n (aufbau n nb)
  return [(some refa, some refb)] ++ withB sa refb ++ withA refa sb ++ withB da refb ++ withA refa db ++ prod sa sb
    ++ withB ta refb ++ withA refa tb ++ prod da sb ++ prod sa db

/-- cqcpy/ci_utils.py:270-318 (`ucisdtq_basis`). -/
def ucisdtq_basis (n na nb : ℕ) : R (List Pair) := do
  let sa ← s_strings n na
  let sb ← s_strings n nb
  let da ← d_strings n na
  let db ← d_strings n nb
  let ta ← t_strings n na
  let tb ← t_strings n nb
  let qa ← q_strings n na
  let qb ← q_strings n nb
  let refa ← Dstring.new n (aufbau n na)
  let refb ← Dstring.new n (aufbau n nb)
  return [(some refa, some refb)] ++ withB sa refb ++ withA refa sb ++ withB da refb ++ withA refa db ++ prod sa sb
    ++ withB ta refb ++ withA refa tb ++ prod da sb ++ prod sa db
    ++ withB qa refb ++ withA refa qb ++ prod ta sb ++ prod da db ++ prod sa tb

/-- The reference occupation of the general bases: `occa + occb` (cqcpy/ci_utils.py:322-326, 336-340, 353-357, 373-377). -/
def gocc (nmo n : ℕ) : List ℤ := aufbau (nmo / 2) (n - n / 2) ++ aufbau (nmo / 2) (n / 2)

/-- cqcpy/ci_utils.py:321-332 (`gcis_basis`). -/
def gcis_basis (nmo n : ℕ) (gs : Bool := true) : R (List (Option Dstring)) := do
  let occ := gocc nmo n
  let ref ← Dstring.new nmo occ
  let singles ← s_strings nmo n (some occ)
  let basis : List (Option Dstring) := if gs then [some ref] else []
  return basis ++ singles

/-- cqcpy/ci_utils.py:335-349 (`gcisd_basis`). -/
def gcisd_basis (nmo n : ℕ) : R (List (Option Dstring)) := do
  let occ := gocc nmo n
  let ref ← Dstring.new nmo occ
  let singles ← s_strings nmo n (some occ)
  let doubles ← d_strings nmo n (some occ)
  return [some ref] ++ singles ++ doubles

/-- cqcpy/ci_utils.py:352-369 (`gcisdt_basis`). -/
def gcisdt_basis (nmo n : ℕ) : R (List (Option Dstring)) := do
  let occ := gocc nmo n
  let ref ← Dstring.new nmo occ
  let singles ← s_strings nmo n (some occ)
  let doubles ← d_strings nmo n (some occ)
  let triples ← t_strings nmo n (some occ)
  return [some ref] ++ singles ++ doubles ++ triples

/-- cqcpy/ci_utils.py:372-392 (`gcisdtq_basis`). -/
def gcisdtq_basis (nmo n : ℕ) : R (List (Option Dstring)) := do
  let occ := gocc nmo n
  let ref ← Dstring.new nmo occ
  let singles ← s_strings nmo n (some occ)
  let doubles ← d_strings nmo n (some occ)
  let triples ← t_strings nmo n (some occ)
  let quadles ← q_strings nmo n (some occ)
  return [some ref] ++ singles ++ doubles ++ triples ++ quadles

/-- cqcpy/ci_utils.py:395-402 (`vcis_basis`). -/
def vcis_basis (nmode : ℕ) : R (List Pstring) := do
  let ref ← Pstring.new nmode (List.replicate nmode 0)
  let singles ← s_pstrings nmode
  return [ref] ++ singles

/-- cqcpy/ci_utils.py:405-415 (`vcisd_basis`). -/
def vcisd_basis (nmode : ℕ) : R (List Pstring) := do
  let ref ← Pstring.new nmode (List.replicate nmode 0)
  let singles ← s_pstrings nmode
  let doubles ← d_pstrings nmode
  return [ref] ++ singles ++ doubles

/-! ## matrix elements -/

variable {K : Type} [Field K]

/-- `numpy.nonzero(l)[0]` -/
def nonzero (l : List ℤ) : List ℕ := (List.range l.length).filter fun i => l.getD i 0 ≠ 0

/-- `[(ob - ok) for ob, ok in zip(bra.occ, ket.occ)]` -/
def occdiff (bra ket : Dstring) : List ℤ := List.zipWith (fun ob ok => ob - ok) bra.occ ket.occ
/-- `[-1 if a < 0 else 0 for a in aa]` -/
def minus (aa : List ℤ) : List ℤ := aa.map fun a => if a < 0 then -1 else 0
/-- `[1 if a > 0 else 0 for a in aa]` -/
def plus (aa : List ℤ) : List ℤ := aa.map fun a => if a > 0 then 1 else 0

/-- `o1, o2 = o` -/
def unpack2 (o : List ℕ) : R (ℕ × ℕ) :=
  match o with
  | [o1, o2] => .ok (o1, o2)
  | _ => .error .value

/-- `1.0 if b[i1+1:i2].sum() % 2 == 0 else -1.0` -/
def parity (b : List ℤ) (i1 i2 : ℕ) : K := if (slice b (i1 + 1) i2).sum % 2 = 0 then 1 else -1

/-- entry of an occupation array as a number -/
def val (p : List ℤ) (i : ℕ) : K := ((p.getD i 0 : ℤ) : K)

/-- `numpy.einsum('ii,i->', M, p)` -/
def tr1 (M : ℕ → ℕ → K) (p : List ℤ) : K := ∑ i ∈ Finset.range p.length, M i i * val p i
/-- `numpy.einsum('ijij,i,j->', M, p, q)` -/
def coul (M : ℕ → ℕ → ℕ → ℕ → K) (p q : List ℤ) : K :=
  ∑ i ∈ Finset.range p.length, ∑ j ∈ Finset.range q.length, M i j i j * val p i * val q j
/-- `numpy.einsum('ijji,i,j->', M, p, q)` -/
def exch (M : ℕ → ℕ → ℕ → ℕ → K) (p q : List ℤ) : K :=
  ∑ i ∈ Finset.range p.length, ∑ j ∈ Finset.range q.length, M i j j i * val p i * val q j

/-- cqcpy/ci_utils.py:1272-1310 (`gci_matrixel`); `const` is not used by the code. -/
def gci_matrixel (bra ket : Dstring) (h : ℕ → ℕ → K) (I : ℕ → ℕ → ℕ → ℕ → K) (_const : K) : R K := do
  let ddd := diff bra ket / 2
  let aa := occdiff bra ket
  let ao := minus aa
  let av := plus aa
  if ddd = 0 then
    let p := bra.occ
    return tr1 h p + 1 / 2 * coul I p p - 1 / 2 * exch I p p
  else if ddd = 1 then
    let o ← get (nonzero ao) 0
    let v ← get (nonzero av) 0
    let p := ket.occ
    let b := bra.occ
    let i1 := min o v
    let i2 := max o v
    let sign : K := parity b i1 i2
    return sign * (h v o + tr1 (fun x y => I v x o y) p - tr1 (fun x y => I v x y o) p)
  else if ddd = 2 then
    let (o1, o2) ← unpack2 (nonzero ao)
    let (v1, v2) ← unpack2 (nonzero av)
    let b := bra.occ
    let i1 := min o1 v1
    let i2 := max o1 v1
    let j1 := min o2 v2
    let j2 := max o2 v2
    let sign1 : K := parity b i1 i2
    let sign2 : K := parity b j1 j2
    return sign1 * sign2 * (I v1 v2 o1 o2 - I v1 v2 o2 o1)
  else return 0

/-- cqcpy/ci_utils.py:1313-1425 (`ci_matrixel`). -/
def ci_matrixel (braa brab keta ketb : Dstring) (ha hb : ℕ → ℕ → K) (Ia Ib Iabab : ℕ → ℕ → ℕ → ℕ → K) (const : K) :
    R K := do
  let diffa := diff braa keta / 2
  let diffb := diff brab ketb / 2
  let aa := occdiff braa keta
  let bb := occdiff brab ketb
  let ao := minus aa
  let av := plus aa
  let bo := minus bb
  let bv := plus bb
  if diffa = 0 ∧ diffb = 0 then
    let pa := braa.occ
    let Ea := tr1 ha pa + 1 / 2 * coul Ia pa pa - 1 / 2 * exch Ia pa pa
    let pb := brab.occ
    let Eb := tr1 hb pb + 1 / 2 * coul Ib pb pb - 1 / 2 * exch Ib pb pb
    let Eab := coul Iabab pa pb
    return Ea + Eb + Eab + const
  else if diffa = 1 ∧ diffb = 0 then
    let o ← get (nonzero ao) 0
    let v ← get (nonzero av) 0
    let pa := keta.occ
    let pb := ketb.occ
    let ba := braa.occ
    let i1 := min o v
    let i2 := max o v
    let sign : K := parity ba i1 i2
    return sign * (ha v o + tr1 (fun x y => Ia v x o y) pa - tr1 (fun x y => Ia v x y o) pa
      + tr1 (fun x y => Iabab v x o y) pb)
  else if diffa = 0 ∧ diffb = 1 then
    let o ← get (nonzero bo) 0
    let v ← get (nonzero bv) 0
    let pa := keta.occ
    let pb := ketb.occ
    let bb := brab.occ
    let i1 := min o v
    let i2 := max o v
    let sign : K := parity bb i1 i2
    return sign * (hb v o + tr1 (fun x y => Ib v x o y) pb - tr1 (fun x y => Ib v x y o) pb
      + tr1 (fun x y => Iabab x v y o) pa)
  else if diffa = 1 ∧ diffb = 1 then
    let oa ← get (nonzero ao) 0
    let va ← get (nonzero av) 0
    let ob ← get (nonzero bo) 0
    let vb ← get (nonzero bv) 0
    let ba := braa.occ
    let bb := brab.occ
    let i1a := min oa va
    let i2a := max oa va
    let i1b := min ob vb
    let i2b := max ob vb
    let signa : K := parity ba i1a i2a
    let signb : K := parity bb i1b i2b
    return signa * signb * Iabab va vb oa ob
  else if diffa = 2 ∧ diffb = 0 then
    let (o1, o2) ← unpack2 (nonzero ao)
    let (v1, v2) ← unpack2 (nonzero av)
    let ba := braa.occ
    let i1 := min o1 v1
    let i2 := max o1 v1
    let j1 := min o2 v2
    let j2 := max o2 v2
    let sign1 : K := parity ba i1 i2
    let sign2 : K := parity ba j1 j2
    let sign := if v2 < o1 ∨ o2 < v1 then -sign1 * sign2 else sign1 * sign2
    return sign * (Ia v1 v2 o1 o2 - Ia v1 v2 o2 o1)
  else if diffa = 0 ∧ diffb = 2 then
    let (o1, o2) ← unpack2 (nonzero bo)
    let (v1, v2) ← unpack2 (nonzero bv)
    let bb := brab.occ
    let i1 := min o1 v1
    let i2 := max o1 v1
    let j1 := min o2 v2
    let j2 := max o2 v2
    let sign1 : K := parity bb i1 i2
    let sign2 : K := parity bb j1 j2
    let sign := if v2 < o1 ∨ o2 < v1 then -sign1 * sign2 else sign1 * sign2
    return sign * (Ib v1 v2 o1 o2 - Ib v1 v2 o2 o1)
  else return 0

/-! ## operators on vectors -/

/-- `x == y` where `x` may be `None` and `y` is a string: comparing `None` ends in `Dstring.__eq__` reading `None.occ`. -/
def eqO (x : Option Dstring) (y : Dstring) : R Bool :=
  match x with
  | some d => .ok (d == y)
  | none => .error .attribute

/-- `basis.index(y)` -/
def index (basis : List (Option Dstring)) (y : Dstring) : R ℕ :=
  match basis with
  | [] => .error .value
  | x :: l => do
    let t ← eqO x y
    if t then return 0
    else
      let k ← index l y
      return k + 1

/-- `basis.index((ya, yb))`; a tuple comparison looks at the second components only if the first ones agree. -/
def index2 (basis : List Pair) (ya yb : Dstring) : R ℕ :=
  match basis with
  | [] => .error .value
  | x :: l => do
    let t ← eqO x.1 ya
    let t' ← if t then eqO x.2 yb else pure false
    if t' then return 0
    else
      let k ← index2 l ya yb
      return k + 1

/-- `out[idx] += x` -/
def addAt (out : List K) (idx : ℕ) (x : K) : R (List K) :=
  if idx < out.length then .ok (out.modify idx (· + x)) else .error .index

/-- `try: idx = basis.index(..); out[idx] += x / except ValueError: pass` -/
def tryAdd (idx : R ℕ) (out : List K) (x : K) : R (List K) :=
  match idx with
  | .ok k => addAt out k x
  | .error .value => .ok out
  | .error e => .error e

/-- `numpy.zeros(vec.shape)` -/
def zeros (vec : List K) : List K := List.replicate vec.length 0

/-- `enumerate(vec)` -/
def enum {α : Type} (vec : List α) : List (ℕ × α) := vec.zipIdx.map fun p => (p.2, p.1)

/-- cqcpy/ci_utils.py:1428-1440 (`s_on_vec`). -/
def s_on_vec (basis : List (Option Dstring)) (vec : List K) (i a : ℕ) : R (List K) :=
  loop (enum vec) (fun (ix, x) out => do
    let dd ← get basis ix
    match ← exciteO dd i a with
    | none => return out
    | some (s, new) => tryAdd (index basis new) out ((s : K) * x)) (zeros vec)

/-- cqcpy/ci_utils.py:1443-1455 (`sa_on_vec`). Simplified: if the other string of the pair is `None`
the model reports the `AttributeError` of a comparison with it even when no comparison would be reached; no basis of this module has such pairs. -/
def sa_on_vec (basis : List Pair) (vec : List K) (i a : ℕ) : R (List K) :=
  loop (enum vec) (fun (ix, x) out => do
    let (ab, bb) ← get basis ix
    match ← exciteO ab i a with
    | none => return out
    | some (sa, anew) =>
      match bb with
      | some bb => tryAdd (index2 basis anew bb) out ((sa : K) * x)
      | none => .error .attribute) (zeros vec)

/-- cqcpy/ci_utils.py:1458-1470 (`sb_on_vec`). Simplified like `sa_on_vec`. -/
def sb_on_vec (basis : List Pair) (vec : List K) (i a : ℕ) : R (List K) :=
  loop (enum vec) (fun (ix, x) out => do
    let (ab, bb) ← get basis ix
    match ← exciteO bb i a with
    | none => return out
    | some (sb, bnew) =>
      match ab with
      | some ab => tryAdd (index2 basis ab bnew) out ((sb : K) * x)
      | none => .error .attribute) (zeros vec)

/-- cqcpy/ci_utils.py:1473-1488 (`d_on_vec`). -/
def d_on_vec (basis : List (Option Dstring)) (vec : List K) (i j a b : ℕ) : R (List K) :=
  loop (enum vec) (fun (ix, x) out => do
    let dd ← get basis ix
    match ← exciteO dd i a with
    | none => return out
    | some (s1, temp) =>
      match ← temp.excite j b with
      | none => return out
      | some (s2, new) => tryAdd (index basis new) out ((s1 : K) * s2 * x)) (zeros vec)

/-- cqcpy/ci_utils.py:1491-1506 (`da_on_vec`). Simplified like `sa_on_vec`. -/
def da_on_vec (basis : List Pair) (vec : List K) (i j a b : ℕ) : R (List K) :=
  loop (enum vec) (fun (ix, x) out => do
    let (ab, bb) ← get basis ix
    match ← exciteO ab i a with
    | none => return out
    | some (s1, atemp) =>
      match ← atemp.excite j b with
      | none => return out
      | some (s2, anew) =>
        match bb with
        | some bb => tryAdd (index2 basis anew bb) out ((s1 : K) * s2 * x)
        | none => .error .attribute) (zeros vec)

/-- cqcpy/ci_utils.py:1509-1524 (`db_on_vec`). Simplified like `sa_on_vec`. -/
def db_on_vec (basis : List Pair) (vec : List K) (i j a b : ℕ) : R (List K) :=
  loop (enum vec) (fun (ix, x) out => do
    let (ab, bb) ← get basis ix
    match ← exciteO bb i a with
    | none => return out
    | some (s1, btemp) =>
      match ← btemp.excite j b with
      | none => return out
      | some (s2, bnew) =>
        match ab with
        | some ab => tryAdd (index2 basis ab bnew) out ((s1 : K) * s2 * x)
        | none => .error .attribute) (zeros vec)

/-- cqcpy/ci_utils.py:1527-1542 (`sasb_on_vec`). -/
def sasb_on_vec (basis : List Pair) (vec : List K) (i j a b : ℕ) : R (List K) :=
  loop (enum vec) (fun (ix, x) out => do
    let (ab, bb) ← get basis ix
    match ← exciteO ab i a with
    | none => return out
    | some (sa, anew) =>
      match ← exciteO bb j b with
      | none => return out
      | some (sb, bnew) => tryAdd (index2 basis anew bnew) out ((sa : K) * sb * x)) (zeros vec)

/-- the strings of a basis element, as read by `H_on_vec` -/
def strings (x : Pair) : R (Dstring × Dstring) :=
  match x with
  | (some a, some b) => .ok (a, b)
  | _ => .error .attribute

/-- cqcpy/ci_utils.py:1545-1551 (`H_on_vec`). -/
def H_on_vec (basis : List Pair) (vec : List K) (ha hb : ℕ → ℕ → K) (Ia Ib Iabab : ℕ → ℕ → ℕ → ℕ → K) : R (List K) :=
  loop (enum basis) (fun (i, b) out =>
    loop (enum basis) (fun (j, k) out => do
      let x ← get vec j
      let (b0, b1) ← strings b
      let (k0, k1) ← strings k
      let m ← ci_matrixel b0 b1 k0 k1 ha hb Ia Ib Iabab 0
      addAt out i (x * m)) out) (zeros vec)

/-- cqcpy/ci_utils.py:1554-1559 (`gH_on_vec`). -/
def gH_on_vec (basis : List (Option Dstring)) (vec : List K) (h : ℕ → ℕ → K) (I : ℕ → ℕ → ℕ → ℕ → K) : R (List K) :=
  loop (enum basis) (fun (i, b) out =>
    loop (enum basis) (fun (j, k) out => do
      let x ← get vec j
      match b, k with
      | some b, some k =>
        let m ← gci_matrixel b k h I 0
        addAt out i (x * m)
      | _, _ => .error .attribute) out) (zeros vec)

end CI
