/-
Model of the k-point calculations of examples/kpt_hamiltonian.py and examples/kmp2.py.

What PySCF provides (mean field, core Hamiltonian, integrals, table of momentum conservation) is a parameter, as in `Model/Integrals`.
-/
import Verif.Model.Integrals
import Mathlib.Data.Complex.Basic

namespace Eri
variable {K V : Type} [Field K] [Inhabited V]

/-- Array `A / n`. -/
def Arr.div (A : Arr K) (n : K) : Arr K := { A with val := fun p q r s => A.val p q r s / n }

/-- A table with an entry for each of three k-points, filled by loops over all of them; an entry must have the shape of the table
(otherwise the assignment fails). -/
def fill (nk n1 n2 n3 n4 : ℕ) (f : ℕ → ℕ → ℕ → R (Arr K)) : R (ℕ → ℕ → ℕ → Arr K) :=
  ((List.range nk).flatMap fun kp => (List.range nk).flatMap fun kq => (List.range nk).map fun kr => (kp, kq, kr)).foldlM
    (fun (h : ℕ → ℕ → ℕ → Arr K) (t : ℕ × ℕ × ℕ) => do
      let X ← f t.1 t.2.1 t.2.2
      if X.n1 = n1 ∧ X.n2 = n2 ∧ X.n3 = n3 ∧ X.n4 = n4 then
        return fun a b c => if a = t.1 ∧ b = t.2.1 ∧ c = t.2.2 then X else h a b c
      else throw .value) fun _ _ _ => Arr.zeros n1 n2 n3 n4

/-- examples/kpt_hamiltonian.py:36-51, with `eriorder='chem'` (`phys = false`) or with the lines commented out in :35 and :46-47
(`phys = true`).  `h1` is the one-electron part. -/
def kscf (kmf : KMF V K) (phys : Bool) (nocc : ℕ) (h1 : ℕ → ℕ → ℕ → K) (enuc : K) : R K := do
  let h2 ← solk_h2 kmf (!phys)
  let h2 := fun kp kq kr => (h2 kp kq kr).div kmf.nk
  let E := enuc
  let E := (List.range kmf.nk).foldl (fun E k => E + 2 * (∑ i ∈ Finset.range nocc, h1 k i i) / kmf.nk) E
  return (List.range kmf.nk).foldl (fun E kp => (List.range kmf.nk).foldl (fun E kq =>
    let E := if phys then E + 2 * (∑ i ∈ Finset.range nocc, ∑ j ∈ Finset.range nocc, (h2 kp kq kp).val i j i j) / kmf.nk
      else E + 2 * (∑ i ∈ Finset.range nocc, ∑ j ∈ Finset.range nocc, (h2 kp kp kq).val i i j j) / kmf.nk
    E - (∑ i ∈ Finset.range nocc, ∑ j ∈ Finset.range nocc, (h2 kp kq kq).val i j j i) / kmf.nk) E) E

/-- examples/kmp2.py:39-52: the table of integrals. -/
def kmp2_eris (kmf : KMF V K) : R (ℕ → ℕ → ℕ → Arr K) :=
  fill kmf.nk kmf.nmo kmf.nmo kmf.nmo kmf.nmo fun kp kq kr => do
    let ks := kmf.kconserv kp kr kq
    let X ← get_phys_solk kmf kp kq kr ks (kmf.mo_coeff kp) (kmf.mo_coeff kq) (kmf.mo_coeff kr) (kmf.mo_coeff ks)
    return X.div kmf.nk

/-- examples/kmp2.py:54-66: the table of amplitudes; `e` are the orbital energies. -/
noncomputable def kmp2_abij (kmf : KMF V ℂ) (nocc : ℕ) (e : ℕ → ℕ → ℝ) (eris : ℕ → ℕ → ℕ → Arr ℂ) : R (ℕ → ℕ → ℕ → Arr ℂ) :=
  let nvir := kmf.nmo - nocc
  fill kmf.nk nvir nvir nocc nocc fun ka kb ki =>
    let kj := kmf.kconserv ka ki kb
    let D2 : ℕ → ℕ → ℕ → ℕ → ℝ := fun a b i j => e ka (nocc + a) + e kb (nocc + b) - e ki i - e kj j
    .ok ⟨nvir, nvir, nocc, nocc, fun a b i j => -1 * (eris ka kb ki).val (nocc + a) (nocc + b) i j / D2 a b i j⟩

/-- examples/kmp2.py:39-77: the correlation energy of all cells (it is divided by `nkpts` when printed, :80). -/
noncomputable def kmp2 (kmf : KMF V ℂ) (nocc : ℕ) (e : ℕ → ℕ → ℝ) : R ℝ := do
  let nvir := kmf.nmo - nocc
  let eris ← kmp2_eris kmf
  let abij ← kmp2_abij kmf nocc e eris
  return (List.range kmf.nk).foldl (fun E ka => (List.range kmf.nk).foldl (fun E kb => (List.range kmf.nk).foldl (fun E ki =>
    let kj := kmf.kconserv ka ki kb
    let I2 := fun i j a b => (eris ki kj ka).val i j (nocc + a) (nocc + b)
    let I2x := fun i j a b => (eris ki kj kb).val i j (nocc + a) (nocc + b)
    let E := E + 2 * (∑ i ∈ Finset.range nocc, ∑ j ∈ Finset.range nocc, ∑ a ∈ Finset.range nvir, ∑ b ∈ Finset.range nvir,
      I2 i j a b * (abij ka kb ki).val a b i j).re
    E - (∑ i ∈ Finset.range nocc, ∑ j ∈ Finset.range nocc, ∑ b ∈ Finset.range nvir, ∑ a ∈ Finset.range nvir,
      I2x i j b a * (abij ka kb ki).val a b i j).re) E) E) 0

end Eri
