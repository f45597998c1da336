/-
Model of the CIS and CISD examples: examples/cisd.py, examples/cisd_Be.py, examples/cis.py and examples/cis_H2.py (the parts that use cqcpy).

Not modelled: the Hartree-Fock calculation, `TDA` and `ci.CISD` of pyscf (the orbitals, `Escf`, the core Hamiltonian and the nuclear energy are
parameters) and printing.  `numpy.linalg.eigh` is described by `Eigh`.
-/
import Verif.Model.CI
import Mathlib.Data.Real.Basic
import Mathlib.Order.Fin.Basic

namespace CI
variable {K : Type} [Field K]

/-- examples/cisd.py:23, examples/cisd_Be.py:22 (`ha = numpy.einsum('mp,mn,nq->pq', mos, hcore, mos)`). -/
def mo_core (nao : ℕ) (mos hcore : ℕ → ℕ → K) (p q : ℕ) : K :=
  ∑ m ∈ Finset.range nao, ∑ n ∈ Finset.range nao, mos m p * hcore m n * mos n q

/-- examples/cisd.py:33-37, examples/cisd_Be.py:32-36: the loops that fill `H`; examples/cis.py:47-50 and examples/cis_H2.py:44-47 have the same. -/
def naive_matrix (basis : List Pair) (ha hb : ℕ → ℕ → K) (Ia Ib Iabab : ℕ → ℕ → ℕ → ℕ → K) (const : K) : R (List (List K)) :=
  basis.mapM fun b => basis.mapM fun k => do
    let (b0, b1) ← strings b
    let (k0, k1) ← strings k
    ci_matrixel b0 b1 k0 k1 ha hb Ia Ib Iabab const

/-- examples/cisd.py:19-37, examples/cisd_Be.py:18-36: the matrix `H`.  `N` is `mol.nelectron`, `I` the result of `integrals.get_phys`
(`Model/Integrals`), `enuc` is `mol.energy_nuc()`. -/
def cisd_matrix (nmo N : ℕ) (ha : ℕ → ℕ → K) (I : ℕ → ℕ → ℕ → ℕ → K) (Escf enuc : K) : R (List (List K)) := do
  let na := N / 2
  let nb := na
  let basis ← ucisd_basis nmo na nb
  let const := -Escf + enuc
  naive_matrix basis ha ha I I I const

/-- examples/cis.py:36-50, examples/cis_H2.py:33-47: the matrix `H`.  `F` and `mo_energy` (lines 44-46 and 41-43) are not used by the example. -/
def cis_matrix (nmo N : ℕ) (ha : ℕ → ℕ → K) (I : ℕ → ℕ → ℕ → ℕ → K) (Escf enuc : K) : R (List (List K)) := do
  let na := N / 2
  let nb := na
  let basis ← ucis_basis nmo na nb false
  let const := -Escf + enuc
  naive_matrix basis ha ha I I I const

/-- a matrix, given by its rows, applied to a vector -/
def applyRows (H : List (List ℝ)) (v : List ℝ) : List ℝ := H.map fun r => (List.zipWith (· * ·) r v).sum

/-- What `eout, v = numpy.linalg.eigh(H)` returns (examples/cisd.py:39, examples/cisd_Be.py:38, examples/cis.py:52, examples/cis_H2.py:49): eigenvalues in ascending order, `vs i` the column
`v[:, i]`, orthonormal. -/
structure Eigh (H : List (List ℝ)) {N : ℕ} (eout : Fin N → ℝ) (vs : Fin N → List ℝ) : Prop where
  size : H.length = N
  ascending : Monotone eout
  length : ∀ i, (vs i).length = N
  orthonormal : ∀ i j, (List.zipWith (· * ·) (vs i) (vs j)).sum = if i = j then 1 else 0
  eigen : ∀ i, applyRows H (vs i) = (vs i).map (eout i * ·)

end CI
