import Verif.Model.IntRound
import Verif.Model.Rounded
/-!
# The integrals of periodic systems in rounded arithmetic

The functions of the section on k-points of `Verif.Model.Integrals` once more, with the array that pyscf returns for four k-points and four sets of
orbitals, the subtraction of the machine, and its sums of products as parameters.  Of the mean-field object they read everything except the exact
integrals.
-/
namespace Eri
variable {K V : Type} [Field K]

/-- `kmf.with_df.ao2mo((o1, o2, o3, o4), kpts=(k1, k2, k3, k4), compact=False).reshape(n1, n2, n3, n4)` as computed (pyscf). -/
abbrev KernelK (V K : Type) := ℕ → ℕ → ℕ → ℕ → Kernel V K

variable (sub : K → K → K) (kern : KernelK V K)

/-- cqcpy/integrals.py:151-180 (`get_chem_solk`); the k-point indices are in range. -/
def fl_get_chem_solk (kmf : KMF V K) (k1 k2 k3 k4 : ℕ) (o1 o2 o3 o4 : List V) (anti : Bool := false) : R (Arr K) :=
  let k4test := kmf.kconserv k1 k2 k3
  if k4 ≠ k4test then .ok (Arr.zeros o1.length o2.length o3.length o4.length)
  else
    let Id := kern k1 k2 k3 k4 o1 o2 o3 o4
    if anti then
      let Ix := kern k1 k4 k3 k2 o1 o4 o3 o2
      Id.subBy sub Ix.t0321
    else .ok Id

/-- cqcpy/integrals.py:187-192 (`get_phys_solk`). -/
def fl_get_phys_solk (kmf : KMF V K) (k1 k2 k3 k4 : ℕ) (o1 o2 o3 o4 : List V) (anti : Bool := false) : R (Arr K) := do
  return (← fl_get_chem_solk sub kern kmf k1 k3 k2 k4 o1 o3 o2 o4 anti).t0213

/-- The table of arrays `h2[kp, kq, kr]` of `get_solk_integrals`, cqcpy/integrals.py:203-229; `chem` is `eriorder[0].lower() == 'c'`. -/
def fl_solk_h2 (kmf : KMF V K) (chem : Bool) : R (ℕ → ℕ → ℕ → Arr K) := do
  if ¬ (∀ k < kmf.nk, (kmf.mo_coeff k).length = kmf.nmo) then throw .assertion
  let mut h2 : ℕ → ℕ → ℕ → Arr K := fun _ _ _ => Arr.zeros kmf.nmo kmf.nmo kmf.nmo kmf.nmo
  let triples := (List.range kmf.nk).flatMap fun kp => (List.range kmf.nk).flatMap fun kq => (List.range kmf.nk).map fun kr => (kp, kq, kr)
  triples.foldlM (fun (h2 : ℕ → ℕ → ℕ → Arr K) (t : ℕ × ℕ × ℕ) => do
    let (kp, kq, kr) := t
    let ks := if chem then kmf.kconserv kp kq kr else kmf.kconserv kp kr kq
    let mop := kmf.mo_coeff kp
    let moq := kmf.mo_coeff kq
    let mor := kmf.mo_coeff kr
    let mos := kmf.mo_coeff ks
    let X ← (if chem then fl_get_chem_solk sub kern kmf kp kq kr ks mop moq mor mos else fl_get_phys_solk sub kern kmf kp kq kr ks mop moq mor mos : R (Arr K))
    if X.n1 = kmf.nmo ∧ X.n2 = kmf.nmo ∧ X.n3 = kmf.nmo ∧ X.n4 = kmf.nmo then
      return fun a b c => if a = kp ∧ b = kq ∧ c = kr then X else h2 a b c
    else throw .value) h2

/-- The one-electron part of `get_solk_integrals`, cqcpy/integrals.py:200-202: `reduce(numpy.dot, (mo.T.conj(), hcore_ao[k], mo))`; `sop` is the sum of
products as computed by `numpy.dot`, in any order. -/
def fl_solk_h1 [Star K] (sop : List (List K) → K) (nao : ℕ) (hcore : ℕ → ℕ → ℕ → K) (mo_coeff : ℕ → List (ℕ → K)) (k p q : ℕ) : K :=
  sop ((List.range nao).map fun ν =>
    [sop ((List.range nao).map fun μ => [star (((mo_coeff k).getD p fun _ => 0) μ), hcore k μ ν]), ((mo_coeff k).getD q fun _ => 0) ν])

end Eri
