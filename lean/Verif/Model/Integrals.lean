/-
Model of cqcpy/integrals.py.

An array of four axes is a record of its extents and a function of natural-number indices, meaningful below the extents.  An array of
orbital coefficients is the list of its columns (`o.shape[1]` is the length); a column is an element of a type `V` of orbitals.

The integral codes of pyscf are outside the repository.  `ao2mo.general(mol, (o1, o2, o3, o4), compact=False)`, reshaped, is taken to be
the table of an integral form `(φ1 φ2 | φ3 φ4)` over the columns; the form is a parameter, arbitrary unless a theorem says otherwise.
For periodic systems the form also depends on the k-points.

Not modelled: element types (`dtype`), broadcasting of length-one axes in slice assignments (a mismatch is an error here).
-/
import Verif.Model.Blocks
import Mathlib.Algebra.Field.Defs
import Mathlib.Algebra.Star.Basic

set_option linter.unusedVariables false
namespace Eri

inductive Err
  | value | attribute | assertion | exception
  deriving DecidableEq, Repr

abbrev R := Except Err

/-- A numpy array with four axes. -/
structure Arr (K : Type) where
  n1 : ℕ
  n2 : ℕ
  n3 : ℕ
  n4 : ℕ
  val : ℕ → ℕ → ℕ → ℕ → K

variable {K V : Type} [Field K]

/-- `A.transpose(0, 2, 1, 3)` -/
def Arr.t0213 (A : Arr K) : Arr K := ⟨A.n1, A.n3, A.n2, A.n4, fun p q r s => A.val p r q s⟩
/-- `A.transpose(0, 3, 2, 1)` -/
def Arr.t0321 (A : Arr K) : Arr K := ⟨A.n1, A.n4, A.n3, A.n2, fun p q r s => A.val p s r q⟩
/-- `A.transpose(2, 3, 0, 1)` -/
def Arr.t2301 (A : Arr K) : Arr K := ⟨A.n3, A.n4, A.n1, A.n2, fun p q r s => A.val r s p q⟩
/-- `-A` -/
def Arr.neg (A : Arr K) : Arr K := { A with val := fun p q r s => -A.val p q r s }
/-- `A - B`: equal shapes are required -/
def Arr.sub (A B : Arr K) : R (Arr K) :=
  if A.n1 = B.n1 ∧ A.n2 = B.n2 ∧ A.n3 = B.n3 ∧ A.n4 = B.n4 then
    .ok ⟨A.n1, A.n2, A.n3, A.n4, fun p q r s => A.val p q r s - B.val p q r s⟩
  else .error .value
/-- `numpy.zeros((n1, n2, n3, n4))` -/
def Arr.zeros (n1 n2 n3 n4 : ℕ) : Arr K := ⟨n1, n2, n3, n4, fun _ _ _ _ => 0⟩

/-- The slices `[:a]` and `[a:]` of an axis. -/
inductive Sl
  | upto (a : ℕ)
  | fro (a : ℕ)

/-- first index of a slice of an axis of length `n` -/
def Sl.lo : Sl → ℕ → ℕ
  | .upto _, _ => 0
  | .fro a, n => min a n

/-- end of a slice of an axis of length `n` -/
def Sl.hi : Sl → ℕ → ℕ
  | .upto a, n => min a n
  | .fro _, n => n

/-- `A[s1, s2, s3, s4] = B` -/
def Arr.put (A : Arr K) (s1 s2 s3 s4 : Sl) (B : Arr K) : R (Arr K) :=
  if B.n1 = s1.hi A.n1 - s1.lo A.n1 ∧ B.n2 = s2.hi A.n2 - s2.lo A.n2 ∧ B.n3 = s3.hi A.n3 - s3.lo A.n3 ∧
      B.n4 = s4.hi A.n4 - s4.lo A.n4 then
    .ok ⟨A.n1, A.n2, A.n3, A.n4, fun p q r s =>
      if (s1.lo A.n1 ≤ p ∧ p < s1.hi A.n1) ∧ (s2.lo A.n2 ≤ q ∧ q < s2.hi A.n2) ∧ (s3.lo A.n3 ≤ r ∧ r < s3.hi A.n3) ∧
          (s4.lo A.n4 ≤ s ∧ s < s4.hi A.n4) then
        B.val (p - s1.lo A.n1) (q - s2.lo A.n2) (r - s3.lo A.n3) (s - s4.lo A.n4)
      else A.val p q r s⟩
  else .error .value

/-- The integral form of a molecule: `(φ1 φ2 | φ3 φ4)`. -/
abbrev Form (V K : Type) := V → V → V → V → K

/-- `mol_ao2mo.general(mol, (o1, o2, o3, o4), compact=False).reshape(n1, n2, n3, n4)` (pyscf; trusted) -/
def ao2mo [Inhabited V] (g : Form V K) (o1 o2 o3 o4 : List V) : Arr K :=
  ⟨o1.length, o2.length, o3.length, o4.length, fun p q r s =>
    g (o1.getD p default) (o2.getD q default) (o3.getD r default) (o4.getD s default)⟩

variable [Inhabited V]

/-- cqcpy/integrals.py:6-19 (`get_chem`); also :135-148 (`get_chem_sol`), which differs only in the integral code called. -/
def get_chem (mol : Form V K) (o1 o2 o3 o4 : List V) (anti : Bool := false) : R (Arr K) :=
  let Id := ao2mo mol o1 o2 o3 o4
  if anti then
    let Ix := ao2mo mol o1 o4 o3 o2
    Id.sub Ix.t0321
  else .ok Id

/-- cqcpy/integrals.py:22-25 (`get_chem_anti`): the second set of orbitals is not used. -/
def get_chem_anti (mol : Form V K) (o1 o2 o3 o4 : List V) : R (Arr K) := get_chem mol o1 o1 o3 o4 true

/-- cqcpy/integrals.py:28-30 (`get_phys`); also :183-184 (`get_phys_sol`). -/
def get_phys (mol : Form V K) (o1 o2 o3 o4 : List V) (anti : Bool := false) : R (Arr K) := do
  return (← get_chem mol o1 o3 o2 o4 anti).t0213

/-- cqcpy/integrals.py:33-36 (`get_phys_anti`). -/
def get_phys_anti (mol : Form V K) (o1 o2 o3 o4 : List V) : R (Arr K) := get_phys mol o1 o2 o3 o4 true

/-- cqcpy/integrals.py:39-70 (`get_chemu`); also :232-263 (`get_chemu_sol`). -/
def get_chemu (mol : Form V K) (o1 o2 o3 o4 p1 p2 p3 p4 : List V) (anti : Bool := false) : R (Arr K) := do
  let Ia ← get_chem mol o1 o2 o3 o4 anti
  let Ib ← get_chem mol p1 p2 p3 p4 anti
  let Iaabb ← get_chem mol o1 o2 p3 p4
  let Ibbaa ← get_chem mol p1 p2 o3 o4
  let a1 := o1.length
  let a2 := o2.length
  let a3 := o3.length
  let a4 := o4.length
  let b1 := p1.length
  let b2 := p2.length
  let b3 := p3.length
  let b4 := p4.length
  let I := Arr.zeros (a1 + b1) (a2 + b2) (a3 + b3) (a4 + b4)
  let I ← I.put (.upto a1) (.upto a2) (.upto a3) (.upto a4) Ia
  let I ← I.put (.fro a1) (.fro a2) (.fro a3) (.fro a4) Ib
  let I ← I.put (.upto a1) (.upto a2) (.fro a3) (.fro a4) Iaabb
  let I ← I.put (.fro a1) (.fro a2) (.upto a3) (.upto a4) Ibbaa
  if anti then
    let Iaabbx ← get_chem mol o1 o4 p3 p2
    let Ibbaax ← get_chem mol p1 p4 o3 o2
    let I ← I.put (.upto a1) (.fro a2) (.fro a3) (.upto a4) Iaabbx.t0321.neg
    let I ← I.put (.fro a1) (.upto a2) (.upto a3) (.fro a4) Ibbaax.t0321.neg
    return I
  else return I

/-- cqcpy/integrals.py:73-77 (`get_chem_antiu`); also :266-267 (`get_chem_antiu_sol`). -/
def get_chem_antiu (mol : Form V K) (o1 o2 o3 o4 p1 p2 p3 p4 : List V) : R (Arr K) := get_chemu mol o1 o2 o3 o4 p1 p2 p3 p4 true

/-- cqcpy/integrals.py:80-102 (`get_chemu_all`); also :278-299 (`get_chemu_all_sol`). -/
def get_chemu_all (mol : Form V K) (oa ob : List V) (anti : Bool := false) : R (Arr K) := do
  let na := oa.length
  let nb := ob.length
  let n := na + nb
  let Ia := ao2mo mol oa oa oa oa
  let Ib := ao2mo mol ob ob ob ob
  let Iab := ao2mo mol oa oa ob ob
  let Id := Arr.zeros n n n n
  let Id ← Id.put (.upto na) (.upto na) (.upto na) (.upto na) Ia
  let Id ← Id.put (.fro na) (.fro na) (.fro na) (.fro na) Ib
  let Id ← Id.put (.upto na) (.upto na) (.fro na) (.fro na) Iab
  let Id ← Id.put (.fro na) (.fro na) (.upto na) (.upto na) Iab.t2301
  if anti then Id.sub Id.t0321 else return Id

/-- cqcpy/integrals.py:105-109 (`get_chem_antiu_all`). -/
def get_chem_antiu_all (mol : Form V K) (oa ob : List V) : R (Arr K) := get_chemu_all mol oa ob true

/-- cqcpy/integrals.py:112-117 (`get_physu_all`); also :302-303 (`get_physu_all_sol`). -/
def get_physu_all (mol : Form V K) (oa ob : List V) (anti : Bool := false) : R (Arr K) := do
  return (← get_chemu_all mol oa ob anti).t0213

/-- cqcpy/integrals.py:120-124 (`get_phys_antiu_all`). -/
def get_phys_antiu_all (mol : Form V K) (oa ob : List V) : R (Arr K) := get_physu_all mol oa ob true

/-- cqcpy/integrals.py:127-132 (`get_phys_antiu`); also :270-275 (`get_phys_antiu_sol`). -/
def get_phys_antiu (mol : Form V K) (o1 o2 o3 o4 p1 p2 p3 p4 : List V) : R (Arr K) := do
  return (← get_chem_antiu mol o1 o3 o2 o4 p1 p3 p2 p4).t0213

/-- The parts of a pyscf mean-field object read here.  `mo_occ` and `mo_coeff` have one set (restricted, `len(mo_occ.shape) == 1`) or
one per spin (`len(mo_occ.shape) == 2`); `other` stands for any other shape.  `mol` and `sol` are the integral forms of
`mol_ao2mo.general` and `mf.with_df.ao2mo`, the second used if `mf` has an attribute `kpt`. -/
inductive Orbs (V K : Type)
  | restricted (occ : List K) (coeff : List V)
  | unrestricted (occa occb : List K) (coeffa coeffb : List V)
  | other

structure MF (V K : Type) where
  orbs : Orbs V K
  pbc : Bool
  mol : Form V K
  sol : Form V K

/-- the integral form used -/
def MF.form (mf : MF V K) : Form V K := if mf.pbc then mf.sol else mf.mol

/-- cqcpy/integrals.py:306-328 (`get_physu_all_gen`); `none` is the implicit `None` for other shapes. -/
def get_physu_all_gen (mf : MF V K) (anti : Bool := false) : R (Option (Arr K)) :=
  if mf.pbc then
    match mf.orbs with
    | .restricted _ mo => do return some (← get_physu_all mf.sol mo mo anti)
    | .unrestricted _ _ moa mob => do return some (← get_physu_all mf.sol moa mob anti)
    | .other => return none
  else
    match mf.orbs with
    | .restricted _ mo => do return some (← get_physu_all mf.mol mo mo anti)
    | .unrestricted _ _ moa mob => do return some (← get_physu_all mf.mol moa mob anti)
    | .other => return none

/-- cqcpy/integrals.py:331-335 (`get_phys_antiu_all_gen`). -/
def get_phys_antiu_all_gen (mf : MF V K) : R (Option (Arr K)) := get_physu_all_gen mf true

/-- cqcpy/integrals.py:338-344 (`get_phys_gen`). -/
def get_phys_gen (mf : MF V K) (mo1 mo2 mo3 mo4 : List V) (anti : Bool := false) : R (Arr K) :=
  if mf.pbc then get_phys mf.sol mo1 mo2 mo3 mo4 anti else get_phys mf.mol mo1 mo2 mo3 mo4 anti

/-- The attributes of an `eri_blocks` object; `none`: the attribute is never set, so reading it raises `AttributeError`. -/
structure EriBlocks (K : Type) where
  vvvv : Option (Arr K)
  vvvo : Option (Arr K)
  vovv : Option (Arr K)
  vvoo : Option (Arr K)
  vovo : Option (Arr K)
  oovv : Option (Arr K)
  vooo : Option (Arr K)
  ooov : Option (Arr K)
  oooo : Option (Arr K)

/-- `if self.has_xxxx: self.xxxx = ...` -/
def ifHas (b : Bool) (x : R (Arr K)) : R (Option (Arr K)) := if b then do return some (← x) else return none

/-- cqcpy/integrals.py:404-422 (`_build_integrals_mol`) and :424-444 (`_build_integrals_sol`), which differ only in the integral code;
`has k` is the flag set for code `k` in :357-382. -/
def build_integrals (has : ℕ → Bool) (g : Form V K) (oa ob va vb : List V) : R (EriBlocks K) := do
  let vvvv ← ifHas (has 1) (get_phys_antiu g va va va va vb vb vb vb)
  let vvvo ← ifHas (has 2) (get_phys_antiu g va va va oa vb vb vb ob)
  let vovv ← ifHas (has 3) (get_phys_antiu g va oa va va vb ob vb vb)
  let vvoo ← ifHas (has 4) (get_phys_antiu g va va oa oa vb vb ob ob)
  let vovo ← ifHas (has 5) (get_phys_antiu g va oa va oa vb ob vb ob)
  let oovv ← ifHas (has 6) (get_phys_antiu g oa oa va va ob ob vb vb)
  let vooo ← ifHas (has 7) (get_phys_antiu g va oa oa oa vb ob ob ob)
  let ooov ← ifHas (has 8) (get_phys_antiu g oa oa oa va ob ob ob vb)
  let oooo ← ifHas (has 9) (get_phys_antiu g oa oa oa oa ob ob ob ob)
  return ⟨vvvv, vvvo, vovv, vvoo, vovo, oovv, vooo, ooov, oooo⟩

/-- `mo_coeff[:, mask]`: the columns where the mask holds (a boolean mask must have the length of the axis). -/
def maskCols (coeff : List V) (mask : List Bool) : R (List V) :=
  if mask.length = coeff.length then .ok (((coeff.zip mask).filter (·.2)).map (·.1)) else .error .value

variable [LinearOrder K]

/-- cqcpy/integrals.py:356-402 (`eri_blocks.__init__`). -/
def eri_blocks (mf : MF V K) (code : ℕ := 0) : R (EriBlocks K) :=
  let has : ℕ → Bool := fun k => code = k ∨ code = 0
  match mf.orbs with
  | .restricted occ coeff => do
    let o ← maskCols coeff (occ.map fun x => decide (x > 0))
    let v ← maskCols coeff (occ.map fun x => decide (x = 0))
    if mf.pbc then build_integrals has mf.sol o o v v else build_integrals has mf.mol o o v v
  | .unrestricted occa occb coeffa coeffb => do
    let oa ← maskCols coeffa (occa.map fun x => decide (x > 0))
    let va ← maskCols coeffa (occa.map fun x => decide (x = 0))
    let ob ← maskCols coeffb (occb.map fun x => decide (x > 0))
    let vb ← maskCols coeffb (occb.map fun x => decide (x = 0))
    if mf.pbc then build_integrals has mf.sol oa ob va vb else build_integrals has mf.mol oa ob va vb
  | .other => return ⟨none, none, none, none, none, none, none, none, none⟩

end Eri

/-! ### k-points -/
namespace Eri
variable {K V : Type} [Field K] [Inhabited V]

/-- The parts of a k-point mean-field object read here: the number of k-points, the table `kconserv` of `kpts_helper.KptsHelper`, the
integral form of `kmf.with_df.ao2mo` (a function of four k-points and four orbitals), and the coefficients of each k-point. -/
structure KMF (V K : Type) where
  nk : ℕ
  kconserv : ℕ → ℕ → ℕ → ℕ
  form : ℕ → ℕ → ℕ → ℕ → Form V K
  mo_coeff : ℕ → List V
  nmo : ℕ

/-- cqcpy/integrals.py:151-180 (`get_chem_solk`); the k-point indices are in range. -/
def get_chem_solk (kmf : KMF V K) (k1 k2 k3 k4 : ℕ) (o1 o2 o3 o4 : List V) (anti : Bool := false) : R (Arr K) :=
  let k4test := kmf.kconserv k1 k2 k3
  if k4 ≠ k4test then .ok (Arr.zeros o1.length o2.length o3.length o4.length)
  else
    let Id := ao2mo (kmf.form k1 k2 k3 k4) o1 o2 o3 o4
    if anti then
      let Ix := ao2mo (kmf.form k1 k4 k3 k2) o1 o4 o3 o2
      Id.sub Ix.t0321
    else .ok Id

/-- cqcpy/integrals.py:187-192 (`get_phys_solk`). -/
def get_phys_solk (kmf : KMF V K) (k1 k2 k3 k4 : ℕ) (o1 o2 o3 o4 : List V) (anti : Bool := false) : R (Arr K) := do
  return (← get_chem_solk kmf k1 k3 k2 k4 o1 o3 o2 o4 anti).t0213

/-- The table of arrays `h2[kp, kq, kr]` of `get_solk_integrals`, cqcpy/integrals.py:203-229; `chem` is `eriorder[0].lower() == 'c'`.
The assignment into `h2` fails unless the block has the shape `(nmo, nmo, nmo, nmo)`, which the assertion of :208-209 ensures.  (The
one-electron part is `h1` below.) -/
def solk_h2 (kmf : KMF V K) (chem : Bool) : R (ℕ → ℕ → ℕ → Arr K) := do
  if ¬ (∀ k < kmf.nk, (kmf.mo_coeff k).length = kmf.nmo) then throw .assertion
  let mut h2 : ℕ → ℕ → ℕ → Arr K := fun _ _ _ => Arr.zeros kmf.nmo kmf.nmo kmf.nmo kmf.nmo
  let triples := (List.range kmf.nk).flatMap fun kp => (List.range kmf.nk).flatMap fun kq => (List.range kmf.nk).map fun kr => (kp, kq, kr)
  triples.foldlM (fun (h2 : ℕ → ℕ → ℕ → Arr K) (t : ℕ × ℕ × ℕ) => do
    let (kp, kq, kr) := t
    let ks := if chem then kmf.kconserv kp kq kr else kmf.kconserv kp kr kq
    let mop := kmf.mo_coeff kp
    let moq := kmf.mo_coeff kq
    let mor := kmf.mo_coeff kr
    let mos := kmf.mo_coeff ks
    let X ← (if chem then get_chem_solk kmf kp kq kr ks mop moq mor mos else get_phys_solk kmf kp kq kr ks mop moq mor mos : R (Arr K))
    if X.n1 = kmf.nmo ∧ X.n2 = kmf.nmo ∧ X.n3 = kmf.nmo ∧ X.n4 = kmf.nmo then
      return fun a b c => if a = kp ∧ b = kq ∧ c = kr then X else h2 a b c
    else throw .value) h2

/-- The one-electron part of `get_solk_integrals`, cqcpy/integrals.py:200-202: `mo.T.conj() @ hcore_ao[k] @ mo`; an orbital of k-point
`k` is its vector of coefficients over `nao` basis functions. -/
def solk_h1 [Star K] (nao : ℕ) (hcore : ℕ → ℕ → ℕ → K) (mo_coeff : ℕ → List (ℕ → K)) (k p q : ℕ) : K :=
  ∑ ν ∈ Finset.range nao, (∑ μ ∈ Finset.range nao, star (((mo_coeff k).getD p fun _ => 0) μ) * hcore k μ ν)
    * ((mo_coeff k).getD q fun _ => 0) ν

end Eri
