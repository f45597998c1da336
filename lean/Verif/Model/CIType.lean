import Verif.Model.CI
/-!
# Matrix elements for occupations of other element types

`Dstring` keeps the element type of the array it is given (`numpy.asarray`); arithmetic on its elements is that of this type.  The two strings of a call have the same
type.  A difference of two signed or unsigned integers of `w` bits wraps around; that of two booleans raises a `TypeError`.  Sums of slices, products with integrals and
comparisons with 0 and 1 do not depend on the type (`numpy` adds up small integers and booleans in the default integer type).  The 64-bit unsigned type, whose values
need not fit into the default integer type of `numpy.array(diff, dtype=int)`, is not modelled, nor are floating-point occupations (on which these operations are exact).
-/
namespace CI

/-- Element types of occupation arrays: signed or unsigned integers of `w` bits (unsigned: `w < 64`), and booleans. -/
inductive DType
  | signed (w : ℕ)
  | unsigned (w : ℕ)
  | bool

/-- `o1 - o2`; the `TypeError` for booleans is `.exception` here. -/
def DType.sub (t : DType) (x y : ℤ) : R ℤ :=
  match t with
  | .signed w => .ok ((x - y).bmod (2 ^ w))
  | .unsigned w => .ok ((x - y) % 2 ^ w)
  | .bool => .error .exception

/-- `abs(x)` for an integer of this type -/
def DType.abs (t : DType) (x : ℤ) : ℤ :=
  match t with
  | .signed w => (|x|).bmod (2 ^ w)
  | .unsigned _ => x
  | .bool => x

/-- `[(ob - ok) for ob, ok in zip(bra.occ, ket.occ)]`, cqcpy/ci_utils.py:1274, 1316-1317 -/
def occdiffD (t : DType) (bra ket : Dstring) : R (List ℤ) := (bra.occ.zip ket.occ).mapM fun p => t.sub p.1 p.2

/-- cqcpy/ci_utils.py:60-66 (`level`, `diff`). -/
def levelD (t : DType) (ref string : Dstring) : R ℤ := do
  let diff ← (ref.occ.zip string.occ).mapM fun p => do
    let d ← t.sub p.1 p.2
    return t.abs d
  return diff.sum

variable {K : Type} [Field K]

/-- cqcpy/ci_utils.py:1272-1310 (`gci_matrixel`); `const` is not used by the code. -/
def gci_matrixelD (t : DType) (bra ket : Dstring) (h : ℕ → ℕ → K) (I : ℕ → ℕ → ℕ → ℕ → K) (_const : K) : R K := do
  let ddd := (← levelD t bra ket) / 2
  let aa ← occdiffD t bra ket
  let ao := minus aa
  let av := plus aa
  if ddd = 0 then
    let p := bra.occ
    return tr1 h p + 1 / 2 * coul I p p - 1 / 2 * exch I p p
  else if ddd = 1 then
    let o ← get (nonzero ao) 0
    let v ← get (nonzero av) 0
    let p := ket.occ
    let b := bra.occ
    let i1 := min o v
    let i2 := max o v
    let sign : K := parity b i1 i2
    return sign * (h v o + tr1 (fun x y => I v x o y) p - tr1 (fun x y => I v x y o) p)
  else if ddd = 2 then
    let (o1, o2) ← unpack2 (nonzero ao)
    let (v1, v2) ← unpack2 (nonzero av)
    let b := bra.occ
    let i1 := min o1 v1
    let i2 := max o1 v1
    let j1 := min o2 v2
    let j2 := max o2 v2
    let sign1 : K := parity b i1 i2
    let sign2 : K := parity b j1 j2
    return sign1 * sign2 * (I v1 v2 o1 o2 - I v1 v2 o2 o1)
  else return 0

/-- cqcpy/ci_utils.py:1313-1425 (`ci_matrixel`). -/
def ci_matrixelD (t : DType) (braa brab keta ketb : Dstring) (ha hb : ℕ → ℕ → K) (Ia Ib Iabab : ℕ → ℕ → ℕ → ℕ → K) (const : K) :
    R K := do
  let diffa := (← levelD t braa keta) / 2
  let diffb := (← levelD t brab ketb) / 2
  let aa ← occdiffD t braa keta
  let bb ← occdiffD t brab ketb
  let ao := minus aa
  let av := plus aa
  let bo := minus bb
  let bv := plus bb
  if diffa = 0 ∧ diffb = 0 then
    let pa := braa.occ
    let Ea := tr1 ha pa + 1 / 2 * coul Ia pa pa - 1 / 2 * exch Ia pa pa
    let pb := brab.occ
    let Eb := tr1 hb pb + 1 / 2 * coul Ib pb pb - 1 / 2 * exch Ib pb pb
    let Eab := coul Iabab pa pb
    return Ea + Eb + Eab + const
  else if diffa = 1 ∧ diffb = 0 then
    let o ← get (nonzero ao) 0
    let v ← get (nonzero av) 0
    let pa := keta.occ
    let pb := ketb.occ
    let ba := braa.occ
    let i1 := min o v
    let i2 := max o v
    let sign : K := parity ba i1 i2
    return sign * (ha v o + tr1 (fun x y => Ia v x o y) pa - tr1 (fun x y => Ia v x y o) pa
      + tr1 (fun x y => Iabab v x o y) pb)
  else if diffa = 0 ∧ diffb = 1 then
    let o ← get (nonzero bo) 0
    let v ← get (nonzero bv) 0
    let pa := keta.occ
    let pb := ketb.occ
    let bb := brab.occ
    let i1 := min o v
    let i2 := max o v
    let sign : K := parity bb i1 i2
    return sign * (hb v o + tr1 (fun x y => Ib v x o y) pb - tr1 (fun x y => Ib v x y o) pb
      + tr1 (fun x y => Iabab x v y o) pa)
  else if diffa = 1 ∧ diffb = 1 then
    let oa ← get (nonzero ao) 0
    let va ← get (nonzero av) 0
    let ob ← get (nonzero bo) 0
    let vb ← get (nonzero bv) 0
    let ba := braa.occ
    let bb := brab.occ
    let i1a := min oa va
    let i2a := max oa va
    let i1b := min ob vb
    let i2b := max ob vb
    let signa : K := parity ba i1a i2a
    let signb : K := parity bb i1b i2b
    return signa * signb * Iabab va vb oa ob
  else if diffa = 2 ∧ diffb = 0 then
    let (o1, o2) ← unpack2 (nonzero ao)
    let (v1, v2) ← unpack2 (nonzero av)
    let ba := braa.occ
    let i1 := min o1 v1
    let i2 := max o1 v1
    let j1 := min o2 v2
    let j2 := max o2 v2
    let sign1 : K := parity ba i1 i2
    let sign2 : K := parity ba j1 j2
    let sign := if v2 < o1 ∨ o2 < v1 then -sign1 * sign2 else sign1 * sign2
    return sign * (Ia v1 v2 o1 o2 - Ia v1 v2 o2 o1)
  else if diffa = 0 ∧ diffb = 2 then
    let (o1, o2) ← unpack2 (nonzero bo)
    let (v1, v2) ← unpack2 (nonzero bv)
    let bb := brab.occ
    let i1 := min o1 v1
    let i2 := max o1 v1
    let j1 := min o2 v2
    let j2 := max o2 v2
    let sign1 : K := parity bb i1 i2
    let sign2 : K := parity bb j1 j2
    let sign := if v2 < o1 ∨ o2 < v1 then -sign1 * sign2 else sign1 * sign2
    return sign * (Ib v1 v2 o1 o2 - Ib v1 v2 o2 o1)
  else return 0

end CI
