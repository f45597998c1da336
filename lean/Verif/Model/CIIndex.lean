import Verif.Model.CI
/-!
# Model of the strings of `cqcpy/ci_utils.py` with Python's negative indices

`Model/CI.lean` takes natural numbers as orbital numbers.  The methods accept any Python integer: NumPy reads `occ[i]` for
`-n ≤ i < 0` as `occ[n + i]`, and a slice with a negative bound counts that bound from the end, clamped to the array.
Here the indices are integers and the methods are modelled with these rules.
-/
namespace CI

/-- The position NumPy reads for `l[i]` on an array of length `n`; `none` stands for `IndexError`. -/
def position (n : ℕ) (i : ℤ) : Option ℕ :=
  if 0 ≤ i ∧ i < n then some i.toNat
  else if -(n : ℤ) ≤ i ∧ i < 0 then some (i + n).toNat
  else none

/-- `l[i]` -/
def getZ (l : List ℤ) (i : ℤ) : R ℤ :=
  match position l.length i with
  | some k => get l k
  | none => .error .index

/-- `l[i] = x` -/
def setZ (l : List ℤ) (i : ℤ) (x : ℤ) : R (List ℤ) :=
  match position l.length i with
  | some k => .ok (l.set k x)
  | none => .error .index

/-- A bound of a slice of an array of length `n`: negative bounds count from the end, and both ends are clamped. -/
def bound (n : ℕ) (i : ℤ) : ℕ := if i < 0 then (i + n).toNat else min i.toNat n

/-- `l[i:j]` -/
def sliceZ (l : List ℤ) (i j : ℤ) : List ℤ := (l.take (bound l.length j)).drop (bound l.length i)

/-- cqcpy/ci_utils.py:10-31 (`Dstring.excite`) for integer indices; `none` is `(None, None)`. -/
def Dstring.exciteZ (d : Dstring) (i a : ℤ) : R (Option (ℤ × Dstring)) := do
  let oi ← getZ d.occ i
  if oi ≠ 1 then return none
  let oa ← getZ d.occ a
  if oa ≠ 0 then return none
  if i = a then
    let new ← Dstring.new d.n d.occ
    return some (1, new)
  else if i < a then
    let occ1 ← setZ d.occ i 0
    let occnew ← setZ occ1 a 1
    let otemp := sliceZ d.occ (i + 1) a
    let sign : ℤ := if otemp.sum % 2 = 0 then 1 else -1
    let new ← Dstring.new d.n occnew
    return some (sign, new)
  else
    let occ1 ← setZ d.occ i 0
    let occnew ← setZ occ1 a 1
    let otemp := sliceZ d.occ (a + 1) i
    let sign : ℤ := if otemp.sum % 2 = 0 then 1 else -1
    let new ← Dstring.new d.n occnew
    return some (sign, new)

/-- cqcpy/ci_utils.py:43-46 (`Pstring.raize`) for an integer index. -/
def Pstring.raizeZ (d : Pstring) (p : ℤ) : R Pstring := do
  let x ← getZ d.occ p
  let occnew ← setZ d.occ p (x + 1)
  Pstring.new d.n occnew

/-- cqcpy/ci_utils.py:48-54 (`Pstring.lower`) for an integer index. -/
def Pstring.lowerZ (d : Pstring) (p : ℤ) : R (Option Pstring) := do
  let x ← getZ d.occ p
  if x = 0 then return none
  else
    let occnew ← setZ d.occ p (x - 1)
    let new ← Pstring.new d.n occnew
    return some new

end CI
