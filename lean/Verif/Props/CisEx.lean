/-
C74 for the scripts: what examples/cis.py prints are the singlet and triplet excitation energies.
-/
import Verif.Props.Cisd
import Verif.Props.CIS
import Mathlib.Data.Multiset.Sort

namespace CI
open Fock

section roots
open Matrix Polynomial

/-- the eigenvalues returned by `eigh` are the roots of the characteristic polynomial -/
theorem Eigh.charpoly_roots {α : Type} {D : List α} {m : α → α → ℝ} {N : ℕ} {eout : Fin N → ℝ} {vs : Fin N → List ℝ}
    (he : Eigh (D.map fun b => D.map (m b)) eout vs) (A : Matrix (Fin D.length) (Fin D.length) ℝ) (hA : ∀ i j, A i j = m D[i] D[j]) :
    A.charpoly.roots = Multiset.map eout Finset.univ.val := by
  obtain rfl : D.length = N := by simpa using he.size
  set V : Matrix (Fin D.length) (Fin D.length) ℝ := Matrix.of fun a i => (vs i).getD a 0 with hV
  have dotp : ∀ i j, ∑ a : Fin D.length, V a i * V a j = if i = j then 1 else 0 := by
    intro i j
    rw [← he.orthonormal i j]
    have : List.zipWith (· * ·) (vs i) (vs j) = List.ofFn fun a : Fin D.length => V a i * V a j := by
      apply List.ext_getElem
      · simp [he.length]
      · intro a h1 h2
        simp [hV, he.length]
    rw [this, List.sum_ofFn]
  have h1 : Vᵀ * V = 1 := by
    ext i j
    rw [mul_apply, Matrix.one_apply, ← dotp i j]
    rfl
  have h2 : A * V = V * diagonal eout := by
    ext a i
    rw [mul_diagonal, mul_apply]
    have e := congrArg (fun l : List ℝ => l.getD a 0) (he.eigen i)
    simp only [applyRows_eq D m (he.length i)] at e
    have ha : (a : ℕ) < (vs i).length := by rw [he.length]; exact a.2
    have e' : (matvec (matOf D m) (vs i)).getD a 0 = ∑ j ∈ Finset.range (vs i).length, matOf D m a j * (vs i).getD j 0 := by
      simp [matvec, ha]
    rw [e', he.length, Finset.sum_range] at e
    rw [show V a i * eout i = (List.map (fun x => eout i * x) (vs i)).getD a 0 by simp [hV, ha, mul_comm], ← e]
    refine Finset.sum_congr rfl fun b _ => ?_
    rw [hA, matOf_some (m := m) (List.getElem?_eq_getElem a.2) (List.getElem?_eq_getElem b.2)]
    rfl
  have h3 : A = V * diagonal eout * Vᵀ := by
    rw [← h2, Matrix.mul_assoc, mul_eq_one_comm.mp h1, Matrix.mul_one]
  rw [h3, charpoly_mul_comm, ← Matrix.mul_assoc, h1, Matrix.one_mul, charpoly_diagonal]
  exact roots_multiset_prod_X_sub_C (Multiset.map eout Finset.univ.val) ▸ by rw [Multiset.map_map]; rfl

/-- `eigh` can return something -/
theorem exists_eigh {α : Type} {D : List α} {m : α → α → ℝ} (hs : ∀ b ∈ D, ∀ k ∈ D, m b k = m k b) :
    ∃ (eout : Fin D.length → ℝ) (vs : Fin D.length → List ℝ), Eigh (D.map fun b => D.map (m b)) eout vs := by
  obtain ⟨vs, es, hr⟩ := roots_complete (N := D.length) (op := fun v => .ok (applyRows (D.map fun b => D.map (m b)) v)) (M := matOf D m)
    (fun v hv => by rw [applyRows_eq D m hv]) (matOf_symm hs)
  refine ⟨es ∘ Tuple.sort es, vs ∘ Tuple.sort es, by simp, Tuple.monotone_sort es, fun i => hr.1 _, fun i j => ?_, fun i => ?_⟩
  · have := hr.2.1 (Tuple.sort es i) (Tuple.sort es j)
    simpa [dot, Function.comp] using this
  · simpa using hr.2.2 (Tuple.sort es i)

end roots

section script
variable {h : ℕ → ℕ → ℝ} {I : ℕ → ℕ → ℕ → ℕ → ℝ}

/-- the matrix of the script is the matrix of `C74_singlet_triplet` -/
theorem cis_data (sI : ∀ p q r s, I p q r s = I q p s r) {B : List Pair} {nmo N : ℕ} (hB : ucis_basis nmo (N / 2) (N / 2) false = .ok B) (Escf enuc : ℝ)
    {H : Matrix (Fin B.length) (Fin B.length) ℝ} (hH : IsMatrix B h h I I I (-Escf + enuc) H) :
    ∃ (D : List (Dstring × Dstring)) (m : Dstring × Dstring → Dstring × Dstring → ℝ) (e : Fin B.length ≃ Fin D.length),
      cis_matrix nmo N h I Escf enuc = .ok (D.map fun b => D.map (m b)) ∧ (∀ i j, H (e.symm i) (e.symm j) = m D[i] D[j]) ∧
      ∀ b k, m b k = elt (spinHam nmo nmo h h I I I) (psupp b) (psupp k) + if b = k then -Escf + enuc else 0 := by
  obtain ⟨B', hB', he⟩ := C33_ucis nmo (N / 2) (N / 2) false
  rw [hB, Except.ok.injEq] at hB'
  subst hB'
  have hex : ∀ d : Dstring × Dstring, (some d.1, some d.2) ∈ B → (IsDet d.1 ∧ d.1.n = nmo ∧ (supp d.1).card = (supp ⟨nmo, aufbau nmo (N / 2)⟩).card) ∧
      IsDet d.2 ∧ d.2.n = nmo ∧ (supp d.2).card = (supp ⟨nmo, aufbau nmo (N / 2)⟩).card := by
    intro d hd
    obtain ⟨da, db, k, l, e, h2, h3, -⟩ := (he.2 _).1 hd
    simp only [Prod.mk.injEq, Option.some.injEq] at e
    obtain ⟨rfl, rfl⟩ := e
    exact ⟨⟨h2.1, h2.2.1, h2.card⟩, h3.1, h3.2.1, h3.card⟩
  obtain ⟨D, hD, -, hm⟩ := C79_matrix he h h I I I (-Escf + enuc) sI sI
  refine ⟨D, _, finCongr (by rw [hD, List.length_map]), ?_, fun i j => ?_, fun _ _ => rfl⟩
  · rw [cis_matrix]
    simp only [hB, bind, Except.bind]
    exact hm
  · obtain ⟨ba, bb, ka, kb, h1, h2, h3⟩ := hH ((finCongr (by rw [hD, List.length_map])).symm i) ((finCongr (by rw [hD, List.length_map])).symm j)
    have g : ∀ (i : Fin D.length) (x : Fin B.length), (x : ℕ) = i → B.get x = (some D[i].1, some D[i].2) := by
      intro i x hx
      subst hD
      simp [hx]
    rw [g i _ rfl] at h1
    rw [g j _ rfl] at h2
    simp only [Prod.mk.injEq, Option.some.injEq] at h1 h2
    obtain ⟨rfl, rfl⟩ := h1
    obtain ⟨rfl, rfl⟩ := h2
    have hi := hex D[i] (by rw [hD]; exact List.mem_map.mpr ⟨D[i], List.getElem_mem _, rfl⟩)
    have hj := hex D[j] (by rw [hD]; exact List.mem_map.mpr ⟨D[j], List.getElem_mem _, rfl⟩)
    rw [C35_ci_matrixel h h I I I _ hi.1.1 hi.2.1 hj.1.1 hj.2.1 hi.1.2.1 hi.2.2.1 hj.1.2.1 hj.2.2.1 (hi.1.2.2.trans hj.1.2.2.symm)
      (hi.2.2.2.trans hj.2.2.2.symm) sI sI, Except.ok.injEq] at h3
    exact h3.symm

/-- C74: if `Escf` is the closed-shell energy, the eigenvalues that examples/cis.py prints are the singlet and the triplet Tamm-Dancoff excitation
energies, sorted together with their multiplicities: `numpy.sort(numpy.concatenate((erefs, ereft)))` when all states are requested. -/
theorem C74_script (sh : ∀ p q, h p q = h q p) (sI : ∀ p q r s, I p q r s = I q p s r) (wI : ∀ p q r s, I p q r s = I r s p q)
    {nmo N : ℕ} (hN : N / 2 ≤ nmo) {Escf enuc : ℝ} (hE : Escf = closedEnergy (N / 2) h I + enuc) :
    ∃ H, cis_matrix nmo N h I Escf enuc = .ok H ∧ (∃ (M : ℕ) (eout : Fin M → ℝ) (vs : Fin M → List ℝ), Eigh H eout vs) ∧
      ∀ (M : ℕ) (eout : Fin M → ℝ) (vs : Fin M → List ℝ), Eigh H eout vs →
        M = 2 * ((N / 2) * (nmo - N / 2)) ∧
        List.ofFn eout = ((singlet nmo (N / 2) h I).charpoly.roots + (triplet nmo (N / 2) h I).charpoly.roots).sort (· ≤ ·) := by
  have h0 : ci_matrixel ⟨nmo, aufbau nmo (N / 2)⟩ ⟨nmo, aufbau nmo (N / 2)⟩ ⟨nmo, aufbau nmo (N / 2)⟩ ⟨nmo, aufbau nmo (N / 2)⟩ h h I I I (-Escf + enuc) = .ok 0 := by
    rw [C35_ci_matrixel h h I I I _ (isDet_aufbau _ _) (isDet_aufbau _ _) (isDet_aufbau _ _) (isDet_aufbau _ _) rfl rfl rfl rfl rfl rfl sI sI, if_pos rfl]
    have := elR_closed (h := h) (I := I) hN
    rw [elR] at this
    change Except.ok (elt _ (psupp (closed nmo (N / 2))) (psupp (closed nmo (N / 2))) + _) = _
    rw [this, hE]
    congr 1; ring
  obtain ⟨B, H, hB, hH, hp, hr⟩ := C74_singlet_triplet hN sI h0
  obtain ⟨D, m, e, h1, h2, h3⟩ := cis_data sI hB Escf enuc hH
  have hl : B.length = D.length := by simpa using Fintype.card_congr e
  have hsym : ∀ b ∈ D, ∀ k ∈ D, m b k = m k b := by
    intro b _ k _
    rw [h3, h3, spinHam, elt_ham_symm _ (fun p q => by
      rcases so_elim p with ⟨p, rfl⟩ | ⟨p, rfl⟩ <;> rcases so_elim q with ⟨q, rfl⟩ | ⟨q, rfl⟩
      exacts [sh p q, rfl, rfl, sh p q]) (spinV_herm wI wI wI)]
    congr 1
    exact if_congr eq_comm rfl rfl
  obtain ⟨eo, vs0, he0⟩ := exists_eigh hsym
  refine ⟨_, h1, ⟨_, eo, vs0, he0⟩, fun M eout vs he => ⟨?_, ?_⟩⟩
  · have hM : D.length = M := by simpa using he.size
    have := congrArg Polynomial.natDegree hp
    rw [(Matrix.charpoly_monic _).natDegree_mul (Matrix.charpoly_monic _), Matrix.charpoly_natDegree_eq_dim, Matrix.charpoly_natDegree_eq_dim,
      Matrix.charpoly_natDegree_eq_dim, Fintype.card_fin, Fintype.card_prod, Fintype.card_fin, Fintype.card_fin] at this
    omega
  · have key := he.charpoly_roots (Matrix.reindex e e H) fun i j => h2 i j
    rw [Matrix.charpoly_reindex, hr] at key
    refine List.Perm.eq_of_pairwise' (r := (· ≤ ·)) he.ascending.sortedLE_ofFn.pairwise (Multiset.pairwise_sort _ _) ?_
    rw [← Multiset.coe_eq_coe, Multiset.sort_eq, key]
    simp [List.ofFn_eq_map]

/-- two orbitals and two electrons: the script prints two numbers -/
example : ∃ H, cis_matrix 2 2 (fun p q => if p = 1 ∧ q = 1 then (7 : ℝ) else 0) (fun p q r s => if p = s ∧ q = r then 1 else 0) 1 0 = .ok H ∧
    ∀ (M : ℕ) (eout : Fin M → ℝ) (vs : Fin M → List ℝ), Eigh H eout vs → M = 2 := by
  obtain ⟨H, h1, -, h2⟩ := C74_script (h := fun p q => if p = 1 ∧ q = 1 then (7 : ℝ) else 0) (I := fun p q r s => if p = s ∧ q = r then 1 else 0)
    (fun p q => by simp only [and_comm]) (fun p q r s => by simp only [and_comm]) (fun p q r s => by simp only [eq_comm, and_comm]) (nmo := 2) (N := 2) (by norm_num)
    (Escf := 1) (enuc := 0) (by norm_num [closedEnergy])
  exact ⟨H, h1, fun M eout vs he => (h2 M eout vs he).1⟩

end script

end CI
