/-
The tests of cqcpy/tests/test_integrals.py as propositions: "all assertions of the test hold".

What pyscf provides is a parameter: the table of basis function integrals, the core Hamiltonian, the orbitals and the numbers of electrons.  The Fock matrices, total
energies and coupled-cluster integrals that the tests take from pyscf are defined here from these as pyscf documents them (`vj`, `vk`, `uhf_fock`, `rhf_fock`,
`krhf_energy`, `eris_k`).  Numbers are real or complex; there is no rounding.
-/
import Verif.Model.KEx
import Verif.Model.Util
import Mathlib.Analysis.RCLike.Basic

noncomputable section
namespace Eri.Tests
open scoped BigOperators
open Finset (range)
variable {𝕜 : Type} [RCLike 𝕜]

/-- an orbital: its coefficients over the basis functions -/
abbrev Orb (𝕜 : Type) := ℕ → 𝕜

instance : Inhabited (Orb 𝕜) := ⟨fun _ => 0⟩

/-! ### pyscf -/

/-- The integrals `(pq|rs)` over orbitals, from those over `nao` basis functions; the first and third orbital are conjugated. -/
def mo (nao : ℕ) (eri : ℕ → ℕ → ℕ → ℕ → 𝕜) : Form (Orb 𝕜) 𝕜 := fun c1 c2 c3 c4 =>
  ∑ m ∈ range nao, ∑ n ∈ range nao, ∑ l ∈ range nao, ∑ s ∈ range nao, star (c1 m) * c2 n * star (c3 l) * c4 s * eri m n l s

/-- the density matrix of orbitals occupied once -/
def dm (occ : List (Orb 𝕜)) (m n : ℕ) : 𝕜 := (occ.map fun c => c m * star (c n)).sum

/-- Coulomb matrix of a density matrix: `vj[m,n] = sum_ls (mn|ls) D[s,l]` -/
def vj (nao : ℕ) (eri : ℕ → ℕ → ℕ → ℕ → 𝕜) (D : ℕ → ℕ → 𝕜) (m n : ℕ) : 𝕜 := ∑ l ∈ range nao, ∑ s ∈ range nao, eri m n l s * D s l

/-- exchange matrix of a density matrix: `vk[m,n] = sum_ls (ml|sn) D[l,s]` -/
def vk (nao : ℕ) (eri : ℕ → ℕ → ℕ → ℕ → 𝕜) (D : ℕ → ℕ → 𝕜) (m n : ℕ) : 𝕜 := ∑ l ∈ range nao, ∑ s ∈ range nao, eri m l s n * D l s

/-- `scf.UHF(mol).get_fock()`: the Fock matrices of both spins -/
def uhf_fock (nao : ℕ) (eri : ℕ → ℕ → ℕ → ℕ → 𝕜) (h1 : ℕ → ℕ → 𝕜) (occa occb : List (Orb 𝕜)) : (ℕ → ℕ → 𝕜) × (ℕ → ℕ → 𝕜) :=
  (fun m n => h1 m n + vj nao eri (fun m n => dm occa m n + dm occb m n) m n - vk nao eri (dm occa) m n,
   fun m n => h1 m n + vj nao eri (fun m n => dm occa m n + dm occb m n) m n - vk nao eri (dm occb) m n)

/-- `scf.RHF(cell, exxdiv=None).get_fock()` -/
def rhf_fock (nao : ℕ) (eri : ℕ → ℕ → ℕ → ℕ → 𝕜) (h1 : ℕ → ℕ → 𝕜) (occ : List (Orb 𝕜)) : ℕ → ℕ → 𝕜 :=
  let D := fun m n => 2 * dm occ m n
  fun m n => h1 m n + vj nao eri D m n - vk nao eri D m n / 2

/-- The numbers of alpha and beta electrons of a molecule with `nelectron` electrons and `spin = nalpha - nbeta` (`mol.nelec`). -/
def nelec (nelectron spin : ℕ) : ℕ × ℕ := ((nelectron + spin) / 2, nelectron - (nelectron + spin) / 2)

/-! ### numpy -/

/-- `numpy.linalg.norm` of an array with four axes -/
def norm4 (A : Arr 𝕜) : ℝ := Real.sqrt (∑ p ∈ range A.n1, ∑ q ∈ range A.n2, ∑ r ∈ range A.n3, ∑ s ∈ range A.n4, ‖A.val p q r s‖ ^ 2)

/-- `numpy.linalg.norm(A - B) < thresh` for two-dimensional arrays -/
def near2 (A B : CC.Num.Arr2 𝕜) (thresh : ℝ) : Prop :=
  A.rows = B.rows ∧ A.cols = B.cols ∧ Real.sqrt (∑ p ∈ range A.rows, ∑ q ∈ range A.cols, ‖A.val p q - B.val p q‖ ^ 2) < thresh

/-- `numpy.linalg.norm(A - B) < thresh` -/
def near4 (A B : Arr 𝕜) (thresh : ℝ) : Prop := ∃ C, A.sub B = .ok C ∧ norm4 C < thresh

/-- `mos[:, i].reshape((nao, 1))` -/
def col (mos : List (Orb 𝕜)) (i : ℕ) : R (List (Orb 𝕜)) := match mos[i]? with | some c => .ok [c] | none => .error .exception

/-- `einsum('mp,mn,nq->pq', numpy.conj(mos), v, mos)` -/
def toMO (nao : ℕ) (mos : List (Orb 𝕜)) (v : ℕ → ℕ → 𝕜) : CC.Num.Arr2 𝕜 :=
  ⟨mos.length, mos.length, fun p q => ∑ m ∈ range nao, ∑ n ∈ range nao, star ((mos.getD p fun _ => 0) m) * v m n * (mos.getD q fun _ => 0) n⟩

/-- `pad = numpy.zeros(nmo); pad[:n] = numpy.ones(n); numpy.diag(pad)`.  A negative `n` or one above `nmo` is a `ValueError`. -/
def diagOnes (nmo : ℕ) (n : ℤ) : R (CC.Num.Arr2 𝕜) :=
  if n < 0 ∨ (nmo : ℤ) < n then .error .value else .ok ⟨nmo, nmo, fun i j => if i = j ∧ (i : ℤ) < n then 1 else 0⟩

/-- `utils.block_diag` with the exceptions of this model -/
def block_diag (A B : CC.Num.Arr2 𝕜) : R (CC.Num.Arr2 𝕜) := match CC.Num.block_diag A B with | .ok M => .ok M | .error _ => .error .value

/-- `einsum('pqrs,qs->pr', eri, p)`, or with `swap` `einsum('pqrs,sq->pr', eri, p)` -/
def contract (swap : Bool) (eri : Arr 𝕜) (p : CC.Num.Arr2 𝕜) : R (CC.Num.Arr2 𝕜) :=
  if eri.n2 = (if swap then p.cols else p.rows) ∧ eri.n4 = (if swap then p.rows else p.cols) then
    .ok ⟨eri.n1, eri.n3, fun a c => ∑ q ∈ range eri.n2, ∑ s ∈ range eri.n4, eri.val a q c s * (if swap then p.val s q else p.val q s)⟩
  else .error .value

/-! ### the tests -/

/-- `test_phys`, tests/test_integrals.py:84-97; `test_sol_phys`, :110-125, has the same with the orbitals of a solid (`solid`: all four columns of one set). -/
def test_phys (g : Form (Orb 𝕜) 𝕜) (solid : Bool) (moa mob : List (Orb 𝕜)) (thresh : ℝ) : Prop :=
  let run : R (Arr 𝕜 × Arr 𝕜) := do
    let mo1 ← col moa 0
    let mo2 ← col moa 1
    let mo3 ← if solid then col moa 2 else col mob 0
    let mo4 ← if solid then col moa 3 else col mob 1
    let ref ← get_chem g mo1 mo3 mo2 mo4 true
    let out ← get_phys g mo1 mo2 mo3 mo4 true
    return (ref.t0213, out)
  match run with
  | .ok (ref, out) => ‖ref.val 0 0 0 0 - out.val 0 0 0 0‖ < thresh
  | .error _ => False

/-- `test_u`, tests/test_integrals.py:99-108 -/
def test_u (g : Form (Orb 𝕜) 𝕜) (moa mob : List (Orb 𝕜)) (thresh : ℝ) : Prop :=
  match get_chemu g moa moa moa moa mob mob mob mob true, get_chemu_all g moa mob true with
  | .ok Iref, .ok Iout => near4 Iref Iout thresh
  | _, _ => False

/-- `test_fock`, tests/test_integrals.py:127-155.  The occupied orbitals are the first ones. -/
def test_fock (nao : ℕ) (eri : ℕ → ℕ → ℕ → ℕ → 𝕜) (h1 : ℕ → ℕ → 𝕜) (moa mob : List (Orb 𝕜)) (nelectron spin : ℕ) (thresh : ℝ) : Prop :=
  let f := uhf_fock nao eri h1 (moa.take (nelec nelectron spin).1) (mob.take (nelec nelectron spin).2)
  let va := fun m n => f.1 m n - h1 m n
  let vb := fun m n => f.2 m n - h1 m n
  let vmoa := toMO nao moa va
  let vmob := toMO nao mob vb
  let na : ℤ := nelectron / 2 + spin
  let nb : ℤ := nelectron - na
  let nmo := moa.length
  let run : R (CC.Num.Arr2 𝕜 × CC.Num.Arr2 𝕜) := do
    let pmoa ← diagOnes nmo na
    let pmob ← diagOnes nmo nb
    let p ← block_diag pmoa pmob
    let eri ← get_physu_all (mo nao eri) moa mob true
    let JK ← contract false eri p
    let vtot ← block_diag vmoa vmob
    return (vtot, JK)
  match run with
  | .ok (vtot, JK) => near2 vtot JK thresh
  | .error _ => False

/-- `test_fock_sol`, tests/test_integrals.py:157-183, and `test_fock_sol_k`, :185-211 (`swap`) -/
def test_fock_sol (swap : Bool) (nao : ℕ) (eri : ℕ → ℕ → ℕ → ℕ → 𝕜) (h1 : ℕ → ℕ → 𝕜) (mos : List (Orb 𝕜)) (nelectron spin : ℕ) (thresh : ℝ) : Prop :=
  let f := rhf_fock nao eri h1 (mos.take (nelectron / 2))
  let v := fun m n => f m n - h1 m n
  let vmo := toMO nao mos v
  let na : ℤ := nelectron / 2 + spin
  let nb : ℤ := nelectron - na
  let nmo := mos.length
  let run : R (CC.Num.Arr2 𝕜 × CC.Num.Arr2 𝕜) := do
    let pmoa ← diagOnes nmo na
    let pmob ← diagOnes nmo nb
    let p ← block_diag pmoa pmob
    let eri ← get_physu_all (mo nao eri) mos mos true
    let JK ← contract swap eri p
    let vtot ← block_diag vmo vmo
    return (vtot, JK)
  match run with
  | .ok (vtot, JK) => near2 vtot JK thresh
  | .error _ => False

/-- `test_eri_sol_k`, tests/test_integrals.py:213-233; pyscf's `eris.oooo` and `eris.oovv` are the chemist's integrals. -/
def test_eri_sol_k (mf : MF (Orb 𝕜) 𝕜) (o v : List (Orb 𝕜)) (thresh : ℝ) : Prop :=
  let oooo := ao2mo mf.form o o o o
  let oovv := ao2mo mf.form o o v v
  match get_phys_gen mf o o o o, get_chem mf.form o o v v with
  | .ok Ioooo, .ok Ioovv => near4 oooo Ioooo.t0213 thresh ∧ near4 oovv Ioovv thresh
  | _, _ => False

/-- pyscf's `eris[k1, k2, k3]` of k-point coupled cluster: physicist's integrals divided by the number of k-points -/
def eris_k (kmf : KMF (Orb 𝕜) 𝕜) (k1 k2 k3 : ℕ) (o1 o2 o3 o4 : List (Orb 𝕜)) : Arr 𝕜 :=
  (ao2mo (kmf.form k1 k3 k2 (kmf.kconserv k1 k3 k2)) o1 o3 o2 o4).t0213.div kmf.nk

/-- `c * A` -/
def scale (c : 𝕜) (A : Arr 𝕜) : Arr 𝕜 := { A with val := fun p q r s => c * A.val p q r s }

/-- `test_eri_sol_kpts`, tests/test_integrals.py:235-268; the k-points are fixed to 0, 1, 0, 1 in the test. -/
def test_eri_sol_kpts (kmf : KMF (Orb 𝕜) 𝕜) (k1 k2 k3 k4 : ℕ) (o1 o2 o3 o4 v3 v4 : List (Orb 𝕜)) (thresh : ℝ) : Prop :=
  let oooo := eris_k kmf k1 k2 k3 o1 o2 o3 o4
  let oovv := eris_k kmf k1 k2 k3 o1 o2 v3 v4
  match get_chem_solk kmf k1 k3 k2 k4 o1 o3 o2 o4, get_phys_solk kmf k1 k2 k3 k4 o1 o2 o3 o4, get_chem_solk kmf k1 k3 k2 k4 o1 v3 o2 v4 with
  | .ok X, .ok Y, .ok Z => near4 oooo (scale (1 / (kmf.nk : 𝕜)) X).t0213 thresh ∧ near4 oooo (scale (1 / (kmf.nk : 𝕜)) Y) thresh ∧
      near4 oovv (scale (1 / (kmf.nk : 𝕜)) Z).t0213 thresh
  | _, _, _ => False

/-- pyscf's `kmf.energy_tot()` of a restricted k-point mean field: the nuclear energy plus the average over k-points of
`trace(D (h + veff/2))`, where `veff = vj - vk/2` averages over the k-points of the density and `D` is twice the density of the first `nocc` orbitals. -/
def krhf_energy (nk nao nocc : ℕ) (eri : ℕ → ℕ → ℕ → ℕ → ℕ → ℕ → ℕ → ℕ → 𝕜) (hcore : ℕ → ℕ → ℕ → 𝕜) (mos : ℕ → List (Orb 𝕜)) (enuc : 𝕜) : 𝕜 :=
  let D := fun k m n => 2 * dm ((mos k).take nocc) m n
  let J := fun k m n => (∑ l ∈ range nk, vj nao (eri k k l l) (D l) m n) / nk
  let X := fun k m n => (∑ l ∈ range nk, vk nao (eri k l l k) (D l) m n) / nk
  let veff := fun k m n => J k m n - X k m n / 2
  enuc + (∑ k ∈ range nk, ∑ m ∈ range nao, ∑ n ∈ range nao, (hcore k m n + veff k m n / 2) * D k n m) / nk

/-- `test_integrals_kpts`, tests/test_integrals.py:270-304: chemist's order first, then physicist's. -/
def test_integrals_kpts (kmf : KMF (Orb 𝕜) 𝕜) (nao nocc : ℕ) (hcore : ℕ → ℕ → ℕ → 𝕜) (enuc Eref : 𝕜) (thresh : ℝ) : Prop :=
  match kscf kmf false nocc (solk_h1 nao hcore kmf.mo_coeff) enuc, kscf kmf true nocc (solk_h1 nao hcore kmf.mo_coeff) enuc with
  | .ok E, .ok E' => ‖E - Eref‖ < thresh ∧ ‖E' - Eref‖ < thresh
  | _, _ => False

end Eri.Tests
end
