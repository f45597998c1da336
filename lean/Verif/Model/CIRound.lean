/-
Matrix elements and Hamiltonian-vector products of cqcpy/ci_utils.py, and the matrices of the CI examples, in rounded arithmetic: every `+ - *` is
followed by a rounding, and `numpy.einsum` forms a sum of products in some order with some roundings.  Occupation numbers are small integers and exact, a
change of sign is exact.  Overflow is not part of this model.
-/
import Verif.Model.CIEx

namespace CI

/-- The arithmetic of the machine: rounding of the result of an operation, and the sum of products of `numpy.einsum`. -/
structure Fl where
  rd : ℝ → ℝ
  ein : List (List ℝ) → ℝ

/-- Without rounding. -/
noncomputable def Fl.real : Fl := ⟨id, fun L => (L.map List.prod).sum⟩

namespace Fl
variable (A : Fl)

/-- `numpy.einsum('ii,i->', M, p)` -/
noncomputable def tr1 (M : ℕ → ℕ → ℝ) (p : List ℤ) : ℝ := A.ein ((List.range p.length).map fun i => [M i i, val p i])
/-- `numpy.einsum('ijij,i,j->', M, p, q)` -/
noncomputable def coul (M : ℕ → ℕ → ℕ → ℕ → ℝ) (p q : List ℤ) : ℝ :=
  A.ein ((List.range p.length).flatMap fun i => (List.range q.length).map fun j => [M i j i j, val p i, val q j])
/-- `numpy.einsum('ijji,i,j->', M, p, q)` -/
noncomputable def exch (M : ℕ → ℕ → ℕ → ℕ → ℝ) (p q : List ℤ) : ℝ :=
  A.ein ((List.range p.length).flatMap fun i => (List.range q.length).map fun j => [M i j j i, val p i, val q j])

/-- cqcpy/ci_utils.py:1272-1310 (`gci_matrixel`). -/
noncomputable def gci_matrixel (bra ket : Dstring) (h : ℕ → ℕ → ℝ) (I : ℕ → ℕ → ℕ → ℕ → ℝ) (_const : ℝ) : R ℝ := do
  let ddd := diff bra ket / 2
  let aa := occdiff bra ket
  let ao := minus aa
  let av := plus aa
  if ddd = 0 then
    let p := bra.occ
    let Hel := A.tr1 h p
    let Hel := A.rd (Hel + A.rd (1 / 2 * A.coul I p p))
    let Hel := A.rd (Hel - A.rd (1 / 2 * A.exch I p p))
    return Hel
  else if ddd = 1 then
    let o ← get (nonzero ao) 0
    let v ← get (nonzero av) 0
    let p := ket.occ
    let b := bra.occ
    let i1 := min o v
    let i2 := max o v
    let sign : ℝ := parity b i1 i2
    let Hel := A.rd (0 + h v o)
    let Hel := A.rd (Hel + A.tr1 (fun x y => I v x o y) p)
    let Hel := A.rd (Hel - A.tr1 (fun x y => I v x y o) p)
    return A.rd (sign * Hel)
  else if ddd = 2 then
    let (o1, o2) ← unpack2 (nonzero ao)
    let (v1, v2) ← unpack2 (nonzero av)
    let b := bra.occ
    let i1 := min o1 v1
    let i2 := max o1 v1
    let j1 := min o2 v2
    let j2 := max o2 v2
    let sign1 : ℝ := parity b i1 i2
    let sign2 : ℝ := parity b j1 j2
    let Hel := A.rd (I v1 v2 o1 o2 - I v1 v2 o2 o1)
    return A.rd (A.rd (sign1 * sign2) * Hel)
  else return 0

/-- cqcpy/ci_utils.py:1313-1425 (`ci_matrixel`). -/
noncomputable def ci_matrixel (braa brab keta ketb : Dstring) (ha hb : ℕ → ℕ → ℝ) (Ia Ib Iabab : ℕ → ℕ → ℕ → ℕ → ℝ) (const : ℝ) :
    R ℝ := do
  let diffa := diff braa keta / 2
  let diffb := diff brab ketb / 2
  let aa := occdiff braa keta
  let bb := occdiff brab ketb
  let ao := minus aa
  let av := plus aa
  let bo := minus bb
  let bv := plus bb
  if diffa = 0 ∧ diffb = 0 then
    let pa := braa.occ
    let Ea := A.tr1 ha pa
    let Ea := A.rd (Ea + A.rd (1 / 2 * A.coul Ia pa pa))
    let Ea := A.rd (Ea - A.rd (1 / 2 * A.exch Ia pa pa))
    let pb := brab.occ
    let Eb := A.tr1 hb pb
    let Eb := A.rd (Eb + A.rd (1 / 2 * A.coul Ib pb pb))
    let Eb := A.rd (Eb - A.rd (1 / 2 * A.exch Ib pb pb))
    let Eab := A.coul Iabab pa pb
    let Hel := A.rd (A.rd (Ea + Eb) + Eab)
    return A.rd (Hel + const)
  else if diffa = 1 ∧ diffb = 0 then
    let o ← get (nonzero ao) 0
    let v ← get (nonzero av) 0
    let pa := keta.occ
    let pb := ketb.occ
    let ba := braa.occ
    let i1 := min o v
    let i2 := max o v
    let sign : ℝ := parity ba i1 i2
    let Hel := A.rd (0 + ha v o)
    let Hel := A.rd (Hel + A.tr1 (fun x y => Ia v x o y) pa)
    let Hel := A.rd (Hel - A.tr1 (fun x y => Ia v x y o) pa)
    let Hel := A.rd (Hel + A.tr1 (fun x y => Iabab v x o y) pb)
    return A.rd (sign * Hel)
  else if diffa = 0 ∧ diffb = 1 then
    let o ← get (nonzero bo) 0
    let v ← get (nonzero bv) 0
    let pa := keta.occ
    let pb := ketb.occ
    let bb := brab.occ
    let i1 := min o v
    let i2 := max o v
    let sign : ℝ := parity bb i1 i2
    let Hel := A.rd (0 + hb v o)
    let Hel := A.rd (Hel + A.tr1 (fun x y => Ib v x o y) pb)
    let Hel := A.rd (Hel - A.tr1 (fun x y => Ib v x y o) pb)
    let Hel := A.rd (Hel + A.tr1 (fun x y => Iabab x v y o) pa)
    return A.rd (sign * Hel)
  else if diffa = 1 ∧ diffb = 1 then
    let oa ← get (nonzero ao) 0
    let va ← get (nonzero av) 0
    let ob ← get (nonzero bo) 0
    let vb ← get (nonzero bv) 0
    let ba := braa.occ
    let bb := brab.occ
    let i1a := min oa va
    let i2a := max oa va
    let i1b := min ob vb
    let i2b := max ob vb
    let signa : ℝ := parity ba i1a i2a
    let signb : ℝ := parity bb i1b i2b
    return A.rd (A.rd (signa * signb) * Iabab va vb oa ob)
  else if diffa = 2 ∧ diffb = 0 then
    let (o1, o2) ← unpack2 (nonzero ao)
    let (v1, v2) ← unpack2 (nonzero av)
    let ba := braa.occ
    let i1 := min o1 v1
    let i2 := max o1 v1
    let j1 := min o2 v2
    let j2 := max o2 v2
    let sign1 : ℝ := parity ba i1 i2
    let sign2 : ℝ := parity ba j1 j2
    let sign := if v2 < o1 ∨ o2 < v1 then A.rd (-sign1 * sign2) else A.rd (sign1 * sign2)
    let Hel := A.rd (Ia v1 v2 o1 o2 - Ia v1 v2 o2 o1)
    return A.rd (sign * Hel)
  else if diffa = 0 ∧ diffb = 2 then
    let (o1, o2) ← unpack2 (nonzero bo)
    let (v1, v2) ← unpack2 (nonzero bv)
    let bb := brab.occ
    let i1 := min o1 v1
    let i2 := max o1 v1
    let j1 := min o2 v2
    let j2 := max o2 v2
    let sign1 : ℝ := parity bb i1 i2
    let sign2 : ℝ := parity bb j1 j2
    let sign := if v2 < o1 ∨ o2 < v1 then A.rd (-sign1 * sign2) else A.rd (sign1 * sign2)
    let Hel := A.rd (Ib v1 v2 o1 o2 - Ib v1 v2 o2 o1)
    return A.rd (sign * Hel)
  else return 0

/-- `out[idx] += x` -/
noncomputable def addAt (out : List ℝ) (idx : ℕ) (x : ℝ) : R (List ℝ) :=
  if idx < out.length then .ok (out.modify idx fun y => A.rd (y + x)) else .error .index

/-- cqcpy/ci_utils.py:1545-1551 (`H_on_vec`). -/
noncomputable def H_on_vec (basis : List Pair) (vec : List ℝ) (ha hb : ℕ → ℕ → ℝ) (Ia Ib Iabab : ℕ → ℕ → ℕ → ℕ → ℝ) : R (List ℝ) :=
  loop (enum basis) (fun (i, b) out =>
    loop (enum basis) (fun (j, k) out => do
      let x ← get vec j
      let (b0, b1) ← strings b
      let (k0, k1) ← strings k
      let m ← A.ci_matrixel b0 b1 k0 k1 ha hb Ia Ib Iabab 0
      A.addAt out i (A.rd (x * m))) out) (zeros vec)

/-- cqcpy/ci_utils.py:1554-1559 (`gH_on_vec`). -/
noncomputable def gH_on_vec (basis : List (Option Dstring)) (vec : List ℝ) (h : ℕ → ℕ → ℝ) (I : ℕ → ℕ → ℕ → ℕ → ℝ) : R (List ℝ) :=
  loop (enum basis) (fun (i, b) out =>
    loop (enum basis) (fun (j, k) out => do
      let x ← get vec j
      match b, k with
      | some b, some k =>
        let m ← A.gci_matrixel b k h I 0
        A.addAt out i (A.rd (x * m))
      | _, _ => .error .attribute) out) (zeros vec)

/-- examples/cisd.py:33-37, examples/cisd_Be.py:32-36, examples/cis.py:47-50, examples/cis_H2.py:44-47: the loops that fill `H`. -/
noncomputable def naive_matrix (basis : List Pair) (ha hb : ℕ → ℕ → ℝ) (Ia Ib Iabab : ℕ → ℕ → ℕ → ℕ → ℝ) (const : ℝ) : R (List (List ℝ)) :=
  basis.mapM fun b => basis.mapM fun k => do
    let (b0, b1) ← strings b
    let (k0, k1) ← strings k
    A.ci_matrixel b0 b1 k0 k1 ha hb Ia Ib Iabab const

/-- examples/cisd.py:19-37, examples/cisd_Be.py:18-36: the matrix `H`. -/
noncomputable def cisd_matrix (nmo N : ℕ) (ha : ℕ → ℕ → ℝ) (I : ℕ → ℕ → ℕ → ℕ → ℝ) (Escf enuc : ℝ) : R (List (List ℝ)) := do
  let na := N / 2
  let nb := na
  let basis ← ucisd_basis nmo na nb
  let const := A.rd (-Escf + enuc)
  A.naive_matrix basis ha ha I I I const

/-- examples/cis.py:36-50, examples/cis_H2.py:33-47: the matrix `H`. -/
noncomputable def cis_matrix (nmo N : ℕ) (ha : ℕ → ℕ → ℝ) (I : ℕ → ℕ → ℕ → ℕ → ℝ) (Escf enuc : ℝ) : R (List (List ℝ)) := do
  let na := N / 2
  let nb := na
  let basis ← ucis_basis nmo na nb false
  let const := A.rd (-Escf + enuc)
  A.naive_matrix basis ha ha I I I const

end Fl
end CI
