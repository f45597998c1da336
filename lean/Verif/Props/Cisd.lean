/-
The CISD examples.
-/
import Verif.Model.CIEx
import Verif.Props.CIRot
import Verif.Props.CIS

namespace CI
open Fock

section matrix
variable {K : Type} [Field K] [CharZero K]

theorem mapM_ok {α β : Type} {f : α → R β} {g : α → β} {l : List α} (h : ∀ x ∈ l, f x = .ok (g x)) : l.mapM f = .ok (l.map g) := by
  induction l with
  | nil => rfl
  | cons a l ih =>
    rw [List.mapM_cons, h a (List.mem_cons_self ..), ih fun x hx => h x (List.mem_cons_of_mem _ hx)]
    rfl

/-- C79: the loops of the examples fill `H` with the matrix of the Hamiltonian between the determinants of the basis, with `const` added on the
diagonal. -/
theorem C79_matrix {B : List Pair} {refa refb : Dstring} {P : ℕ → ℕ → Prop} (he : EnumeratesU B refa refb P) (ha hb : ℕ → ℕ → K)
    (Ia Ib Iabab : ℕ → ℕ → ℕ → ℕ → K) (const : K) (va : ∀ p q r s, Ia p q r s = Ia q p s r) (vb : ∀ p q r s, Ib p q r s = Ib q p s r) :
    ∃ D : List (Dstring × Dstring), B = D.map (fun d => (some d.1, some d.2)) ∧ D.Nodup ∧
      naive_matrix B ha hb Ia Ib Iabab const = .ok (D.map fun b => D.map fun k =>
        elt (spinHam refa.n refb.n ha hb Ia Ib Iabab) (psupp b) (psupp k) + if b = k then const else 0) := by
  obtain ⟨D, hB⟩ := he.basis
  have hm : ∀ d ∈ D, (IsDet d.1 ∧ d.1.n = refa.n ∧ (supp d.1).card = (supp refa).card) ∧ IsDet d.2 ∧ d.2.n = refb.n ∧ (supp d.2).card = (supp refb).card := by
    intro d hd
    have : (some d.1, some d.2) ∈ B := by rw [hB.1]; exact List.mem_map.2 ⟨d, hd, rfl⟩
    obtain ⟨da, db, k, l, e, h2, h3, -⟩ := (he.2 _).1 this
    simp only [Prod.mk.injEq, Option.some.injEq] at e
    obtain ⟨rfl, rfl⟩ := e
    exact ⟨⟨h2.1, h2.2.1, h2.card⟩, h3.1, h3.2.1, h3.card⟩
  refine ⟨D, hB.1, hB.2.1, ?_⟩
  rw [naive_matrix, hB.1]
  rw [mapM_ok (g := fun b => D.map fun k => match b with
    | (some a, some a') => elt (spinHam refa.n refb.n ha hb Ia Ib Iabab) (psupp (a, a')) (psupp k) + if (a, a') = k then const else 0
    | _ => 0), List.map_map]
  · rfl
  · intro b hb'
    obtain ⟨b, hbD, rfl⟩ := List.mem_map.1 hb'
    rw [mapM_ok (g := fun k => match k with
      | (some a, some a') => elt (spinHam refa.n refb.n ha hb Ia Ib Iabab) (psupp b) (psupp (a, a')) + if b = (a, a') then const else 0
      | _ => 0), List.map_map]
    · rfl
    · intro k hk
      obtain ⟨k, hkD, rfl⟩ := List.mem_map.1 hk
      obtain ⟨⟨a1, a2, a3⟩, a4, a5, a6⟩ := hm b hbD
      obtain ⟨⟨c1, c2, c3⟩, c4, c5, c6⟩ := hm k hkD
      exact C35_ci_matrixel ha hb Ia Ib Iabab const a1 a4 c1 c4 a2 a5 c2 c5 (a3.trans c3.symm) (a6.trans c6.symm) va vb

end matrix


/-! ### rows -/

section rows
variable {α : Type}

theorem applyRows_eq (D : List α) (m : α → α → ℝ) {v : List ℝ} (hv : v.length = D.length) :
    applyRows (D.map fun b => D.map (m b)) v = matvec (matOf D m) v := by
  apply List.ext_getElem
  · simp [applyRows, matvec, hv]
  · intro i h1 h2
    have hi : i < D.length := by simpa [applyRows] using h1
    simp only [applyRows, matvec, List.getElem_map, List.getElem_range]
    have : List.zipWith (· * ·) (D.map (m D[i])) v = List.ofFn fun j : Fin v.length => matOf D m i j * v.getD j 0 := by
      apply List.ext_getElem
      · simp [hv]
      · intro j h3 h4
        have hj : j < D.length := by simp at h3; omega
        have hj' : j < v.length := by omega
        simp [matOf_some (m := m) (List.getElem?_eq_getElem hi) (List.getElem?_eq_getElem hj), hj']
    rw [this, List.sum_ofFn, Finset.sum_range]

theorem matvec_shift {D : List α} [DecidableEq α] (hD : D.Nodup) (m : α → α → ℝ) (c : ℝ) {v : List ℝ} (hv : v.length = D.length) :
    toV D.length (matvec (matOf D fun b k => m b k + if b = k then c else 0) v) = toV D.length (matvec (matOf D m) v) + c • toV D.length v := by
  ext i
  have hi : (i : ℕ) < v.length := by rw [hv]; exact i.2
  simp only [toV, matvec, PiLp.add_apply, PiLp.smul_apply, smul_eq_mul]
  rw [List.getD_eq_getElem _ _ (by simpa using hi), List.getD_eq_getElem _ _ (by simpa using hi)]
  simp only [List.getElem_map, List.getElem_range]
  have : ∀ j ∈ Finset.range v.length, matOf D (fun b k => m b k + if b = k then c else 0) i j * v.getD j 0 =
      matOf D m i j * v.getD j 0 + if (i : ℕ) = j then c * v.getD j 0 else 0 := by
    intro j hj
    have hj' : j < D.length := by rw [Finset.mem_range] at hj; omega
    rw [matOf_some (List.getElem?_eq_getElem i.2) (List.getElem?_eq_getElem hj'),
      matOf_some (List.getElem?_eq_getElem i.2) (List.getElem?_eq_getElem hj')]
    simp only [List.Nodup.getElem_inj_iff hD]
    split_ifs <;> ring
  rw [Finset.sum_congr rfl this, Finset.sum_add_distrib, Finset.sum_ite_eq, if_pos (Finset.mem_range.mpr hi)]

theorem length_applyRows (H : List (List ℝ)) (v : List ℝ) : (applyRows H v).length = H.length := by simp [applyRows]

/-- the element in row `i` and column `j` -/
def entry (H : List (List ℝ)) (i j : ℕ) : ℝ := (H.getD i []).getD j 0

theorem entry_map {D : List α} (m : α → α → ℝ) {i j : ℕ} (hi : i < D.length) (hj : j < D.length) :
    entry (D.map fun b => D.map (m b)) i j = m D[i] D[j] := by
  simp [entry, hi, hj]

end rows

/-! ### the CISD matrix -/

section cisd
variable {h : ℕ → ℕ → ℝ} {I : ℕ → ℕ → ℕ → ℕ → ℝ}

theorem ucisd_cons (n na nb : ℕ) : ∃ B, ucisd_basis n na nb = .ok ((some ⟨n, aufbau n na⟩, some ⟨n, aufbau n nb⟩) :: B) := by
  obtain ⟨⟨sa, hsa, esa⟩, ⟨da, hda, eda⟩, -⟩ := C32_default n na
  obtain ⟨⟨sb, hsb, esb⟩, ⟨db, hdb, edb⟩, -⟩ := C32_default n nb
  unfold ucisd_basis
  simp only [hsa, hsb, hda, hdb, new_aufbau, bind, Except.bind, pure, Except.pure, List.cons_append]
  exact ⟨_, rfl⟩

/-- the matrix element of the Hamiltonian, in restricted orbitals -/
noncomputable def elR (n : ℕ) (h : ℕ → ℕ → ℝ) (I : ℕ → ℕ → ℕ → ℕ → ℝ) (b k : Dstring × Dstring) : ℝ :=
  elt (spinHam n n h h I I I) (psupp b) (psupp k)

/-- the closed-shell determinant -/
def closed (n na : ℕ) : Dstring × Dstring := (⟨n, aufbau n na⟩, ⟨n, aufbau n na⟩)

theorem cisd_data (sh : ∀ p q, h p q = h q p) (sI : ∀ p q r s, I p q r s = I q p s r) (wI : ∀ p q r s, I p q r s = I r s p q)
    (nmo N : ℕ) (Escf enuc : ℝ) :
    ∃ (D : List (Dstring × Dstring)), ucisd_basis nmo (N / 2) (N / 2) = .ok (D.map fun d => (some d.1, some d.2)) ∧ D.Nodup ∧
      D[0]? = some (closed nmo (N / 2)) ∧
      (∀ d, d ∈ D ↔ ∃ k l, Excitation ⟨nmo, aufbau nmo (N / 2)⟩ d.1 k ∧ Excitation ⟨nmo, aufbau nmo (N / 2)⟩ d.2 l ∧ k + l ≤ 2) ∧
      cisd_matrix nmo N h I Escf enuc = .ok (D.map fun b => D.map fun k => elR nmo h I b k + if b = k then -Escf + enuc else 0) ∧
      (∀ b ∈ D, ∀ k ∈ D, elR nmo h I b k = elR nmo h I k b) ∧
      ∀ v, v.length = D.length → H_on_vec (D.map fun d => (some d.1, some d.2)) v h h I I I = .ok (matvec (matOf D (elR nmo h I)) v) := by
  obtain ⟨B, hB, he⟩ := C33_ucisd nmo (N / 2) (N / 2)
  have hS : SymU h h I I I := ⟨sh, sh, sI, sI, wI, wI, wI⟩
  obtain ⟨D, hBD, hD, hmem, hsy, hop⟩ := enumU_data hS he
  obtain ⟨D', hBD', -, hmat⟩ := C79_matrix he h h I I I (-Escf + enuc) sI sI
  have hinj : Function.Injective fun d : Dstring × Dstring => ((some d.1, some d.2) : Pair) := by
    rintro ⟨a, b⟩ ⟨c, d⟩ e
    simpa using e
  obtain rfl : D = D' := List.map_injective_iff.mpr hinj (hBD.symm.trans hBD')
  have hel : ∀ b ∈ D, ∀ k ∈ D, elU h h I I I b k = elR nmo h I b k := by
    intro b hbD k hk
    obtain ⟨_, _, a1, a2, -⟩ := (hmem b).mp hbD
    obtain ⟨_, _, c1, c2, -⟩ := (hmem k).mp hk
    rw [elU, C35_ci_matrixel h h I I I 0 a1.1 a2.1 c1.1 c2.1 a1.2.1 a2.2.1 c1.2.1 c2.2.1
      (a1.card.trans c1.card.symm) (a2.card.trans c2.card.symm) sI sI]
    simp only [ite_self, add_zero]
    rfl
  obtain ⟨B', hB'⟩ := ucisd_cons nmo (N / 2) (N / 2)
  refine ⟨D, by rw [hB, hBD], hD, ?_, hmem, ?_, ?_, ?_⟩
  · rw [hB, hBD] at hB'
    cases D with
    | nil => simp at hB'
    | cons d D =>
      simp only [List.map_cons, Except.ok.injEq, List.cons.injEq, Prod.mk.injEq, Option.some.injEq] at hB'
      obtain ⟨⟨h1, h2⟩, -⟩ := hB'
      rw [List.getElem?_cons_zero, closed]
      exact congrArg some (Prod.ext h1 h2)
  · simp only [cisd_matrix, hB, bind, Except.bind]
    exact hmat
  · intro b hb k hk; rw [← hel b hb k hk, hsy b hb k hk, hel k hk b hb]
  · intro v hv
    have := hop v (by rw [hv, hBD, List.length_map])
    rw [hBD] at this
    rw [this]
    congr 1
    simp only [matvec]
    refine List.map_congr_left fun i hi => Finset.sum_congr rfl fun j hj => ?_
    rw [List.mem_range] at hi; rw [Finset.mem_range] at hj
    rw [matOf_some (List.getElem?_eq_getElem (show i < D.length by omega)) (List.getElem?_eq_getElem (show j < D.length by omega)),
      matOf_some (List.getElem?_eq_getElem (show i < D.length by omega)) (List.getElem?_eq_getElem (show j < D.length by omega)),
      hel _ (List.getElem_mem _) _ (List.getElem_mem _)]

/-- what the columns of `eigh` are -/
theorem Eigh.roots {D : List (Dstring × Dstring)} {m : Dstring × Dstring → Dstring × Dstring → ℝ} {N : ℕ} {eout : Fin N → ℝ} {vs : Fin N → List ℝ}
    (he : Eigh (D.map fun b => D.map (m b)) eout vs) : D.length = N ∧ Roots N (fun v => .ok (applyRows (D.map fun b => D.map (m b)) v)) vs eout :=
  ⟨by simpa using he.size, he.length, he.orthonormal, fun i => congrArg Except.ok (he.eigen i)⟩

/-- C79: `cisd.py` gets a symmetric matrix with one row per determinant, and `numpy.linalg.eigh` finds for it orthonormal eigenvectors `v[:, i]` of
`H_on_vec` over the CISD basis, a complete set, with the eigenvalues `eout[i] + Escf - mol.energy_nuc()`. -/
theorem C79_eigenvalues (sh : ∀ p q, h p q = h q p) (sI : ∀ p q r s, I p q r s = I q p s r) (wI : ∀ p q r s, I p q r s = I r s p q)
    (nmo N : ℕ) (Escf enuc : ℝ) :
    ∃ B H, ucisd_basis nmo (N / 2) (N / 2) = .ok B ∧ cisd_matrix nmo N h I Escf enuc = .ok H ∧ H.length = B.length ∧
      (∀ r ∈ H, r.length = B.length) ∧ (∀ i j, i < B.length → j < B.length → entry H i j = entry H j i) ∧
      (∃ (eout : Fin B.length → ℝ) (vs : Fin B.length → List ℝ), Eigh H eout vs) ∧
      ∀ (eout : Fin B.length → ℝ) (vs : Fin B.length → List ℝ), Eigh H eout vs →
        Roots B.length (fun v => H_on_vec B v h h I I I) vs (fun i => eout i + Escf - enuc) := by
  obtain ⟨D, hB, hD, h0, hmem, hH, hsy, hop⟩ := cisd_data sh sI wI nmo N Escf enuc
  set c := -Escf + enuc with hc
  have hsy' : ∀ b ∈ D, ∀ k ∈ D, (elR nmo h I b k + if b = k then c else 0) = elR nmo h I k b + if k = b then c else 0 := by
    intro b hb k hk
    rw [hsy b hb k hk]
    congr 1
    exact if_congr eq_comm rfl rfl
  refine ⟨_, _, hB, hH, by simp, fun r hr => ?_, fun i j hi hj => ?_, ?_, ?_⟩
  · obtain ⟨b, -, rfl⟩ := List.mem_map.mp hr
    simp
  · rw [List.length_map] at hi hj
    rw [entry_map (fun b k => elR nmo h I b k + if b = k then c else 0) hi hj,
      entry_map (fun b k => elR nmo h I b k + if b = k then c else 0) hj hi, hsy' _ (List.getElem_mem _) _ (List.getElem_mem _)]
  · rw [List.length_map]
    obtain ⟨vs, es, hr⟩ := roots_complete (N := D.length)
      (op := fun v => .ok (applyRows (D.map fun b => D.map fun k => elR nmo h I b k + if b = k then c else 0) v))
      (M := matOf D fun b k => elR nmo h I b k + if b = k then c else 0)
      (fun v hv => by rw [applyRows_eq D (fun b k => elR nmo h I b k + if b = k then c else 0) hv]) (matOf_symm hsy')
    refine ⟨es ∘ Tuple.sort es, vs ∘ Tuple.sort es, by simp, Tuple.monotone_sort es, fun i => hr.1 _, fun i j => ?_, fun i => ?_⟩
    · have := hr.2.1 (Tuple.sort es i) (Tuple.sort es j)
      simpa [dot, Function.comp] using this
    · simpa using hr.2.2 (Tuple.sort es i)
  · intro eout vs he
    have hl : ∀ i, (vs i).length = D.length := fun i => (he.length i).trans (by simp)
    refine ⟨he.length, he.orthonormal, fun i => ?_⟩
    change H_on_vec _ _ _ _ _ _ _ = _
    rw [hop _ (hl i)]
    congr 1
    have h1 := congrArg (toV D.length) (he.eigen i)
    rw [applyRows_eq D (fun b k => elR nmo h I b k + if b = k then c else 0) (hl i), matvec_shift hD _ _ (hl i), toV_map] at h1
    refine toV_injective (N := D.length) (by rw [length_matvec, hl]) (by simp [hl]) ?_
    rw [toV_map]
    have h2 := eq_sub_of_add_eq h1
    rw [h2, ← sub_smul]
    congr 1
    rw [hc]; ring

/-! ### the reference -/

/-- energy of the closed-shell determinant of `no` orbitals, without the nuclear repulsion -/
def closedEnergy (no : ℕ) (h : ℕ → ℕ → ℝ) (I : ℕ → ℕ → ℕ → ℕ → ℝ) : ℝ :=
  2 * ∑ i ∈ Finset.range no, h i i + ∑ i ∈ Finset.range no, ∑ j ∈ Finset.range no, (2 * I i j i j - I i j j i)

theorem psupp_closed {n no : ℕ} (hno : no ≤ n) : psupp (closed n no) = emb (Finset.range no) (Finset.range no) := by
  rw [psupp, closed, supp_aufbau, min_eq_left hno]

theorem elR_closed {n no : ℕ} (hno : no ≤ n) : elR n h I (closed n no) (closed n no) = closedEnergy no h I := by
  have hs : Finset.range no ⊆ Finset.range n := Finset.range_subset_range.mpr hno
  rw [elR, psupp_closed hno, spinHam, slater_diag _ _ _ (emb_subset hs hs)]
  simp only [sum_emb, spinH, spinV, up, dn, ofLex_toLex, sub_zero]
  have e : ∑ i ∈ Finset.range no, ∑ j ∈ Finset.range no, I j i j i = ∑ i ∈ Finset.range no, ∑ j ∈ Finset.range no, I i j i j := Finset.sum_comm
  simp only [closedEnergy, Finset.sum_add_distrib, Finset.sum_sub_distrib, ← Finset.mul_sum, e]
  ring

theorem length_pos_of_getElem? {α : Type} {D : List α} {x : α} (h0 : D[0]? = some x) : 0 < D.length := by
  cases D with
  | nil => simp at h0
  | cons => simp

/-- C79: the first determinant of the basis is the closed shell, and the first element of the matrix is its energy relative to `Escf`. -/
theorem C79_reference (sh : ∀ p q, h p q = h q p) (sI : ∀ p q r s, I p q r s = I q p s r) (wI : ∀ p q r s, I p q r s = I r s p q)
    {nmo N : ℕ} (hN : N / 2 ≤ nmo) (Escf enuc : ℝ) :
    ∃ B H, ucisd_basis nmo (N / 2) (N / 2) = .ok ((some ⟨nmo, aufbau nmo (N / 2)⟩, some ⟨nmo, aufbau nmo (N / 2)⟩) :: B) ∧
      cisd_matrix nmo N h I Escf enuc = .ok H ∧ entry H 0 0 = closedEnergy (N / 2) h I + enuc - Escf := by
  obtain ⟨D, hB, hD, h0, hmem, hH, hsy, hop⟩ := cisd_data sh sI wI nmo N Escf enuc
  obtain ⟨B, hB'⟩ := ucisd_cons nmo (N / 2) (N / 2)
  have hp := length_pos_of_getElem? h0
  have e0 : D[0] = closed nmo (N / 2) := by rw [List.getElem?_eq_getElem hp] at h0; exact Option.some.inj h0
  refine ⟨B, _, hB', hH, ?_⟩
  rw [entry_map (fun b k => elR nmo h I b k + if b = k then -Escf + enuc else 0) hp hp, if_pos rfl, e0, elR_closed hN]
  ring

/-- expectation values of the matrix are not below the first eigenvalue -/
theorem Eigh.low {D : List (Dstring × Dstring)} {m : Dstring × Dstring → Dstring × Dstring → ℝ} {N : ℕ} {eout : Fin N → ℝ} {vs : Fin N → List ℝ}
    (he : Eigh (D.map fun b => D.map (m b)) eout vs) (hN : 0 < N) {w : List ℝ} (hw : w.length = N) :
    eout ⟨0, hN⟩ * dot w w ≤ dot w (applyRows (D.map fun b => D.map (m b)) w) := by
  obtain ⟨hl, hr⟩ := he.roots
  obtain ⟨w', h1, h2⟩ := roots_low (M := matOf D m) (fun v hv => by rw [applyRows_eq D m (hv.trans hl.symm)]) hr
    (E := eout ⟨0, hN⟩) (fun i => he.ascending (Fin.mk_le_mk.mpr (Nat.zero_le _))) hw
  cases h1
  exact h2

/-- expectation value of a combination of two basis states -/
theorem dot_two (D : List (Dstring × Dstring)) (m : Dstring × Dstring → Dstring × Dstring → ℝ) {i j : ℕ} (hi : i < D.length) (hj : j < D.length)
    (hij : i ≠ j) (s t : ℝ) :
    dot (tab D.length fun k => if k = i then s else if k = j then t else 0) (tab D.length fun k => if k = i then s else if k = j then t else 0) = s * s + t * t ∧
    dot (tab D.length fun k => if k = i then s else if k = j then t else 0)
      (applyRows (D.map fun b => D.map (m b)) (tab D.length fun k => if k = i then s else if k = j then t else 0)) =
      s * s * m D[i] D[i] + s * t * m D[i] D[j] + t * s * m D[j] D[i] + t * t * m D[j] D[j] := by
  have two : ∀ (F : ℕ → ℝ), ∑ k ∈ Finset.range D.length, (if k = i then s else if k = j then t else 0) * F k = s * F i + t * F j := by
    intro F
    have : ∀ k ∈ Finset.range D.length, (if k = i then s else if k = j then t else 0) * F k = (if k = i then s * F i else 0) + if k = j then t * F j else 0 := by
      intro k _
      by_cases h1 : k = i
      · subst h1; simp [hij]
      · by_cases h2 : k = j
        · subst h2; simp [h1]
        · simp [h1, h2]
    rw [Finset.sum_congr rfl this, Finset.sum_add_distrib, Finset.sum_ite_eq', Finset.sum_ite_eq', if_pos (Finset.mem_range.mpr hi), if_pos (Finset.mem_range.mpr hj)]
  have hM : ∀ a b, (ha : a < D.length) → (hb : b < D.length) → matOf D m a b = m D[a] D[b] := fun a b ha hb =>
    matOf_some (List.getElem?_eq_getElem ha) (List.getElem?_eq_getElem hb)
  constructor
  · rw [dot_tab, two]; simp [hij.symm]
  · rw [applyRows_eq D m (by simp)]
    have : matvec (matOf D m) (tab D.length fun k => if k = i then s else if k = j then t else 0) = tab D.length fun k => s * matOf D m k i + t * matOf D m k j := by
      simp only [matvec, length_tab]
      refine List.map_congr_left fun k hk => ?_
      rw [← two]
      refine Finset.sum_congr rfl fun l hl => ?_
      rw [mul_comm]
      congr 1
      simp [tab, Finset.mem_range.mp hl]
    rw [this, dot_tab, two, hM _ _ hi hi, hM _ _ hi hj, hM _ _ hj hi, hM _ _ hj hj]
    ring

/-- C79: with the energy of the closed shell as `Escf` the printed correlation energy `eout[0]` is never positive.  It is zero only if no element of the
first row of the matrix differs from zero. -/
theorem C79_correlation (sh : ∀ p q, h p q = h q p) (sI : ∀ p q r s, I p q r s = I q p s r) (wI : ∀ p q r s, I p q r s = I r s p q)
    {nmo N : ℕ} (hN : N / 2 ≤ nmo) {Escf enuc : ℝ} (hE : Escf = closedEnergy (N / 2) h I + enuc) {H : List (List ℝ)}
    (hH : cisd_matrix nmo N h I Escf enuc = .ok H) {n : ℕ} {eout : Fin n → ℝ} {vs : Fin n → List ℝ} (he : Eigh H eout vs) :
    ∃ hn : 0 < n, eout ⟨0, hn⟩ ≤ 0 ∧ (eout ⟨0, hn⟩ = 0 → ∀ k, entry H 0 k = 0) := by
  obtain ⟨D, hB, hD, h0, hmem, hH', hsy, hop⟩ := cisd_data sh sI wI nmo N Escf enuc
  rw [hH'] at hH
  cases hH
  have hp := length_pos_of_getElem? h0
  have e0 : D[0] = closed nmo (N / 2) := by rw [List.getElem?_eq_getElem hp] at h0; exact Option.some.inj h0
  obtain ⟨hl, -⟩ := he.roots
  have hn : 0 < n := hl ▸ hp
  set m : Dstring × Dstring → Dstring × Dstring → ℝ := fun b k => elR nmo h I b k + if b = k then -Escf + enuc else 0 with hm
  have m00 : m D[0] D[0] = 0 := by
    simp only [hm, if_true, e0]
    rw [elR_closed hN, hE]; ring
  have hms : ∀ {i j : ℕ} (hi : i < D.length) (hj : j < D.length), m D[i] D[j] = m D[j] D[i] := fun hi hj => by
    simp only [hm]
    rw [hsy _ (List.getElem_mem hi) _ (List.getElem_mem hj)]
    congr 1
    exact if_congr eq_comm rfl rfl
  have low := fun (w : List ℝ) (hw : w.length = D.length) => he.low hn (hw.trans hl)
  have lo : eout ⟨0, hn⟩ ≤ 0 := by
    have h1 := low (tab D.length fun k => if k = 0 then 1 else if k = D.length then 0 else 0) (by simp)
    have e : (tab D.length fun k => if k = 0 then (1 : ℝ) else if k = D.length then 0 else 0) = tab D.length fun k => if k = 0 then 1 else 0 := by
      simp only [ite_self]
    rw [e, applyRows_eq D m (by simp), dot_tab] at h1
    have : matvec (matOf D m) (tab D.length fun k => if k = 0 then (1 : ℝ) else 0) = tab D.length fun k => matOf D m k 0 := by
      simp only [matvec, length_tab]
      refine List.map_congr_left fun k hk => ?_
      rw [Finset.sum_eq_single_of_mem 0 (Finset.mem_range.mpr hp)]
      · simp [tab, hp]
      · intro l hl h0
        simp [tab, Finset.mem_range.mp hl, h0]
    rw [this, dot_tab] at h1
    rw [Finset.sum_eq_single_of_mem 0 (Finset.mem_range.mpr hp) (fun k _ hk => by simp [hk]),
      Finset.sum_eq_single_of_mem 0 (Finset.mem_range.mpr hp) (fun k _ hk => by simp [hk]),
      matOf_some (List.getElem?_eq_getElem hp) (List.getElem?_eq_getElem hp), m00] at h1
    simpa using h1
  refine ⟨hn, lo, fun hz k => ?_⟩
  by_cases hk : k < D.length
  · rw [entry_map m hp hk]
    rcases Nat.eq_zero_or_pos k with rfl | hk0
    · exact m00
    · have key : ∀ s t : ℝ, (0 : ℝ) ≤ (2 : ℝ) * (s * t) * m D[0] D[k] + t * t * m D[k] D[k] := by
        intro s t
        obtain ⟨h1, h2⟩ := dot_two D m hp hk (Nat.pos_iff_ne_zero.mp hk0).symm s t
        have h3 := low (tab D.length fun l => if l = 0 then s else if l = k then t else 0) (by simp)
        rw [h1, h2, m00, hz, hms hk hp] at h3
        linarith
      by_contra hne
      generalize m D[0] D[k] = x at key hne
      generalize m D[k] D[k] = y at key
      have h1 := key (-(y + 1) / (2 * x)) 1
      have h2 : -(y + 1) / (2 * x) * (2 * x) = -(y + 1) := div_mul_cancel₀ _ (mul_ne_zero two_ne_zero hne)
      nlinarith
  · simp only [entry, List.getD_eq_getElem?_getD, List.getElem?_map]
    rw [List.getElem?_eq_getElem hp]
    simp only [Option.map_some, Option.getD_some, List.getElem?_map]
    rw [List.getElem?_eq_none (by omega)]
    rfl

/-- C79: the correlation energy is negative as soon as the electrons interact: if one integral `I[a, b, i, j]` with occupied `i`, `j` and virtual
`a`, `b` differs from zero, `eout[0]` is less than zero. -/
theorem C79_negative (sh : ∀ p q, h p q = h q p) (sI : ∀ p q r s, I p q r s = I q p s r) (wI : ∀ p q r s, I p q r s = I r s p q)
    {nmo N : ℕ} (hN : N / 2 ≤ nmo) {Escf enuc : ℝ} (hE : Escf = closedEnergy (N / 2) h I + enuc) {H : List (List ℝ)}
    (hH : cisd_matrix nmo N h I Escf enuc = .ok H) {n : ℕ} {eout : Fin n → ℝ} {vs : Fin n → List ℝ} (he : Eigh H eout vs)
    {i j a b : ℕ} (hi : i < N / 2) (hj : j < N / 2) (ha : N / 2 ≤ a) (hb : N / 2 ≤ b) (ha' : a < nmo) (hb' : b < nmo) (hI : I a b i j ≠ 0) :
    ∃ hn : 0 < n, eout ⟨0, hn⟩ < 0 := by
  obtain ⟨hn, hle, hz⟩ := C79_correlation sh sI wI hN hE hH he
  refine ⟨hn, lt_of_le_of_ne hle fun hze => hI ?_⟩
  have hrow := hz hze
  obtain ⟨D, hB, hD, h0, hmem, hH', hsy, hop⟩ := cisd_data sh sI wI nmo N Escf enuc
  rw [hH'] at hH
  cases hH
  have hp := length_pos_of_getElem? h0
  have e0 : D[0] = closed nmo (N / 2) := by rw [List.getElem?_eq_getElem hp] at h0; exact Option.some.inj h0
  set R := Finset.range (N / 2) with hR
  have hRs : R ⊆ Finset.range nmo := Finset.range_subset_range.mpr hN
  have exc : ∀ {x y : ℕ}, x < N / 2 → N / 2 ≤ y → y < nmo →
      Excitation ⟨nmo, aufbau nmo (N / 2)⟩ (ofSet nmo (insert y (R.erase x))) 1 ∧ supp (ofSet nmo (insert y (R.erase x))) = insert y (R.erase x) := by
    intro x y hx hy hy'
    have hsub : insert y (R.erase x) ⊆ Finset.range nmo := by
      intro z hz'
      rw [Finset.mem_insert] at hz'
      rcases hz' with rfl | hz'
      · exact Finset.mem_range.mpr hy'
      · exact hRs (Finset.mem_of_mem_erase hz')
    have hsp := supp_ofSet (n := nmo) hsub
    refine ⟨⟨isDet_ofSet _ _, rfl, ?_, ?_⟩, hsp⟩
    · rw [supp_aufbau, min_eq_left hN, hsp, Finset.card_eq_one]
      refine ⟨x, ?_⟩
      ext z
      simp only [Finset.mem_sdiff, Finset.mem_insert, Finset.mem_erase, Finset.mem_singleton, hR, Finset.mem_range]
      omega
    · rw [supp_aufbau, min_eq_left hN, hsp, Finset.card_eq_one]
      refine ⟨y, ?_⟩
      ext z
      simp only [Finset.mem_sdiff, Finset.mem_insert, Finset.mem_erase, Finset.mem_singleton, hR, Finset.mem_range]
      omega
  obtain ⟨x1, s1⟩ := exc hi ha ha'
  obtain ⟨x2, s2⟩ := exc hj hb hb'
  have hd : (ofSet nmo (insert a (R.erase i)), ofSet nmo (insert b (R.erase j))) ∈ D := (hmem _).mpr ⟨1, 1, x1, x2, le_refl _⟩
  obtain ⟨k, hk, ek⟩ := List.mem_iff_getElem.mp hd
  have h1 := hrow k
  rw [entry_map (fun b k => elR nmo h I b k + if b = k then -Escf + enuc else 0) hp hk, ek, e0, if_neg, add_zero] at h1
  · rw [← e0, ← ek, hsy _ (List.getElem_mem hp) _ (List.getElem_mem hk), ek, e0, elR, psupp_closed hN, psupp, s1, s2] at h1
    have E2 : emb R R = emb (insert i (R.erase i)) (insert j (R.erase j)) := by
      rw [Finset.insert_erase (Finset.mem_range.mpr hi), Finset.insert_erase (Finset.mem_range.mpr hj)]
    have E := slater_double (emb (Finset.range nmo) (Finset.range nmo)) (spinH h h) (spinV I I I) (spinV_pair sI sI)
      (C := emb (R.erase i) (R.erase j)) (o1 := up i) (o2 := dn j) (v1 := up a) (v2 := dn b) (by simp) (by simp)
      (by simp [hR, ha]) (by simp [hR, hb]) up_lt_dn up_lt_dn (by rw [Ne, up_inj]; omega)
      up_ne_dn up_ne_dn.symm (by rw [Ne, dn_inj]; omega) (by simp; omega) (by simp; omega) (by simp [ha']) (by simp [hb'])
    rw [← emb_insert_dn, ← emb_insert_dn, ← emb_insert_up, ← emb_insert_up, ← E2] at E
    rw [spinHam, E] at h1
    simp only [mul_eq_zero, pow_eq_zero_iff', neg_eq_zero, one_ne_zero, false_and, false_or, or_false, not_dn_lt_up, if_false] at h1
    simpa [spinV] using h1
  · intro e
    have := congrArg (fun d => supp d.1) e
    simp only [closed, s1, supp_aufbau, min_eq_left hN] at this
    have h2 : a ∈ Finset.range (N / 2) := by rw [this]; simp
    rw [Finset.mem_range] at h2
    omega

/-- number of electrons of a determinant outside of the lowest `no` orbitals -/
def excited (no : ℕ) (d : Dstring × Dstring) : ℕ := (supp d.1 \ Finset.range no).card + (supp d.2 \ Finset.range no).card

/-- C79: in canonical orbitals (no Fock matrix elements between occupied and virtual orbitals) the closed shell does not mix with single excitations, and
every correlation energy is given by the coefficients of the double excitations alone: `eout[i] v[0, i] = Σ_D H[0, D] v[D, i]`. -/
theorem C79_projection (sh : ∀ p q, h p q = h q p) (sI : ∀ p q r s, I p q r s = I q p s r) (wI : ∀ p q r s, I p q r s = I r s p q)
    {nmo N : ℕ} (hN : N / 2 ≤ nmo) {Escf enuc : ℝ} (hE : Escf = closedEnergy (N / 2) h I + enuc)
    (hF : ∀ i a, i < N / 2 → N / 2 ≤ a → a < nmo → fockR (N / 2) h I a i = 0) :
    ∃ (D : List (Dstring × Dstring)) (H : List (List ℝ)), ucisd_basis nmo (N / 2) (N / 2) = .ok (D.map fun d => (some d.1, some d.2)) ∧ cisd_matrix nmo N h I Escf enuc = .ok H ∧
      (∀ (k : ℕ) (hk : k < D.length), excited (N / 2) D[k] ≤ 1 → entry H 0 k = 0) ∧
      ∀ (n : ℕ) (eout : Fin n → ℝ) (vs : Fin n → List ℝ), Eigh H eout vs → ∀ i, eout i * (vs i).getD 0 0 =
        ∑ k : Fin D.length, if excited (N / 2) D[k] = 2 then entry H 0 k * (vs i).getD k 0 else 0 := by
  obtain ⟨D, hB, hD, h0, hmem, hH, hsy, hop⟩ := cisd_data sh sI wI nmo N Escf enuc
  have hp := length_pos_of_getElem? h0
  have e0 : D[0] = closed nmo (N / 2) := by rw [List.getElem?_eq_getElem hp] at h0; exact Option.some.inj h0
  have hR : supp ⟨nmo, aufbau nmo (N / 2)⟩ = Finset.range (N / 2) := by rw [supp_aufbau, min_eq_left hN]
  have hRs : Finset.range (N / 2) ⊆ Finset.range nmo := Finset.range_subset_range.mpr hN
  have href : (⟨nmo, aufbau nmo (N / 2)⟩ : Dstring) = ofSet nmo (Finset.range (N / 2)) := by
    rw [← hR]; exact (ofSet_supp (isDet_aufbau nmo (N / 2))).symm
  have hlev : ∀ d ∈ D, ∃ k l, Excitation ⟨nmo, aufbau nmo (N / 2)⟩ d.1 k ∧ Excitation ⟨nmo, aufbau nmo (N / 2)⟩ d.2 l ∧ k + l ≤ 2 ∧ excited (N / 2) d = k + l := by
    intro d hd
    obtain ⟨k, l, h1, h2, h3⟩ := (hmem d).mp hd
    exact ⟨k, l, h1, h2, h3, by rw [excited, ← hR, h1.2.2.2, h2.2.2.2]⟩
  have fz : ∀ i ∈ Finset.range (N / 2), ∀ a < nmo, a ∉ Finset.range (N / 2) →
      h a i + ∑ j ∈ Finset.range (N / 2), (I a j i j - I a j j i) + ∑ j ∈ Finset.range (N / 2), I a j i j = 0 := by
    intro i hi a ha ha'
    rw [Finset.mem_range] at hi ha'
    rw [← hF i a hi (not_lt.mp ha') ha, fockR]
    simp only [Finset.sum_sub_distrib, ← Finset.mul_sum]; ring
  have row : ∀ (k : ℕ) (hk : k < D.length), excited (N / 2) D[k] ≤ 1 →
      entry (D.map fun b => D.map fun k => elR nmo h I b k + if b = k then -Escf + enuc else 0) 0 k = 0 := by
    intro k hk hl
    rw [entry_map (fun b k => elR nmo h I b k + if b = k then -Escf + enuc else 0) hp hk]
    obtain ⟨x, y, x1, y1, -, hxy⟩ := hlev _ (List.getElem_mem hk)
    have hdk : (D[k]).1.n = nmo ∧ (D[k]).2.n = nmo := ⟨x1.2.1, y1.2.1⟩
    have hci : ci_matrixel (D[k]).1 (D[k]).2 ⟨nmo, aufbau nmo (N / 2)⟩ ⟨nmo, aufbau nmo (N / 2)⟩ h h I I I 0 = .ok (elR nmo h I D[0] D[k]) := by
      rw [C35_ci_matrixel h h I I I 0 x1.1 y1.1 (isDet_aufbau _ _) (isDet_aufbau _ _) x1.2.1 y1.2.1 rfl rfl x1.card y1.card sI sI,
        hsy _ (List.getElem_mem hp) _ (List.getElem_mem hk), e0]
      simp only [ite_self, add_zero]
      rfl
    rw [hxy] at hl
    rcases Nat.eq_zero_or_pos x with rfl | hx
    · have d1 := x1.zero (isDet_aufbau _ _)
      rcases Nat.eq_zero_or_pos y with rfl | hy
      · have d2 := y1.zero (isDet_aufbau _ _)
        have : D[k] = D[0] := by rw [e0]; exact Prod.ext d1 d2
        rw [this, if_pos rfl, e0, elR_closed hN, hE]; ring
      · obtain rfl : y = 1 := by omega
        obtain ⟨i, a, hi, ha, han, ed⟩ := y1.one
        rw [hR] at hi ha ed
        obtain ⟨s, -, hs⟩ := C72_brillouin_beta (A := Finset.range (N / 2)) hRs hRs hi ha han h h (Ia := I) (Ib := I) I sI sI 0
        have fz' := fz i hi a han ha
        have e3 : ∀ j, I j a j i = I a j i j := fun j => sI _ _ _ _
        simp only [e3] at hs
        rw [fz', mul_zero, ← href] at hs
        rw [d1, ed, hs] at hci
        have hz : elR nmo h I D[0] D[k] = 0 := (Except.ok.inj hci).symm
        rw [hz, if_neg, zero_add]
        intro e
        have e4 := congrArg (fun d : Dstring × Dstring => supp d.2) e
        rw [e0] at e4
        simp only [closed, hR] at e4
        rw [ed, supp_ofSet] at e4
        · exact ha (by rw [e4]; simp)
        · intro z hz; rw [Finset.mem_insert] at hz
          rcases hz with rfl | hz
          · exact Finset.mem_range.mpr han
          · exact hRs (Finset.mem_of_mem_erase hz)
    · obtain rfl : x = 1 := by omega
      obtain rfl : y = 0 := by omega
      have d2 := y1.zero (isDet_aufbau _ _)
      obtain ⟨i, a, hi, ha, han, ed⟩ := x1.one
      rw [hR] at hi ha ed
      obtain ⟨s, -, hs⟩ := C72_brillouin (B := Finset.range (N / 2)) hRs hRs hi ha han h h (Ia := I) (Ib := I) I sI sI 0
      have fz' := fz i hi a han ha
      rw [fz', mul_zero, ← href] at hs
      rw [d2, ed, hs] at hci
      have hz : elR nmo h I D[0] D[k] = 0 := (Except.ok.inj hci).symm
      rw [hz, if_neg, zero_add]
      intro e
      have e4 := congrArg (fun d : Dstring × Dstring => supp d.1) e
      rw [e0] at e4
      simp only [closed, hR] at e4
      rw [ed, supp_ofSet] at e4
      · exact ha (by rw [e4]; simp)
      · intro z hz; rw [Finset.mem_insert] at hz
        rcases hz with rfl | hz
        · exact Finset.mem_range.mpr han
        · exact hRs (Finset.mem_of_mem_erase hz)
  refine ⟨D, _, hB, hH, row, fun n eout vs he i => ?_⟩
  obtain ⟨hl, -⟩ := he.roots
  have hv : (vs i).length = D.length := (he.length i).trans hl.symm
  have h1 := congrArg (fun l => l.getD 0 0) (he.eigen i)
  rw [applyRows_eq D (fun b k => elR nmo h I b k + if b = k then -Escf + enuc else 0) hv] at h1
  have h2 : ((vs i).map (eout i * ·)).getD 0 0 = eout i * (vs i).getD 0 0 := by
    simp [List.getD_eq_getElem?_getD, List.getElem?_eq_getElem (show 0 < (vs i).length by omega)]
  rw [h2] at h1
  rw [← h1]
  simp only [matvec, hv]
  rw [List.getD_eq_getElem _ _ (by simpa using hp)]
  simp only [List.getElem_map, List.getElem_range, Finset.sum_range]
  refine Finset.sum_congr rfl fun k _ => ?_
  rw [matOf_some (List.getElem?_eq_getElem hp) (List.getElem?_eq_getElem k.2),
    ← entry_map (fun b k => elR nmo h I b k + if b = k then -Escf + enuc else 0) hp k.2]
  split_ifs with hlk
  · rfl
  · obtain ⟨x, y, -, -, h3, h4⟩ := hlev _ (List.getElem_mem k.2)
    rw [row k k.2 (by have : excited (N / 2) D[(k : ℕ)] ≠ 2 := hlk
                      omega), zero_mul]

/-- C79: CISD is variational: over every larger basis of excitations of the closed shell the Hamiltonian has a state with an energy not above that of CISD. -/
theorem C79_variational (sh : ∀ p q, h p q = h q p) (sI : ∀ p q r s, I p q r s = I q p s r) (wI : ∀ p q r s, I p q r s = I r s p q)
    {nmo N : ℕ} {Escf enuc : ℝ} {H : List (List ℝ)} (hH : cisd_matrix nmo N h I Escf enuc = .ok H) {n : ℕ} {eout : Fin n → ℝ}
    {vs : Fin n → List ℝ} (he : Eigh H eout vs) (i : Fin n) {B : List Pair} {P : ℕ → ℕ → Prop}
    (hB : EnumeratesU B ⟨nmo, aufbau nmo (N / 2)⟩ ⟨nmo, aufbau nmo (N / 2)⟩ P) (hP : ∀ k l, k + l ≤ 2 → P k l) :
    ∃ (ws : Fin (i + 1) → List ℝ) (es : Fin (i + 1) → ℝ), Roots B.length (fun v => H_on_vec B v h h I I I) ws es ∧
      ∀ j, es j ≤ eout i + Escf - enuc := by
  obtain ⟨B₂, H', h1, h2, h3, -, -, -, h4⟩ := C79_eigenvalues sh sI wI nmo N Escf enuc
  rw [hH] at h2
  cases h2
  obtain rfl : n = B₂.length := by rw [← h3, he.size]
  obtain ⟨B₂', h1', e2⟩ := C33_ucisd nmo (N / 2) (N / 2)
  rw [h1] at h1'
  cases h1'
  have hr := h4 eout vs he
  let f : Fin (i + 1) → Fin B₂.length := fun j => ⟨j, by omega⟩
  refine C68_nested ⟨sh, sh, sI, sI, wI, wI, wI⟩ e2 hB hP (vs := vs ∘ f) (es := fun j => eout (f j) + Escf - enuc)
    ⟨fun j => hr.1 _, fun j k => ?_, fun j => hr.2.2 _⟩ fun j => ?_
  · have := hr.2.1 (f j) (f k)
    simpa [f, Fin.ext_iff] using this
  · have : eout (f j) ≤ eout i := he.ascending (Fin.mk_le_of_le_val (by simpa using Nat.lt_succ_iff.mp j.2))
    linarith

/-- C79: the transformed core Hamiltonian is symmetric, and with the orbitals multiplied by a matrix `U` it is the transform of the old one: the
condition on `h` above holds for every symmetric `hcore`. -/
theorem C79_core {nao : ℕ} {hcore : ℕ → ℕ → ℝ} (hs : ∀ m n, hcore m n = hcore n m) (mos U : ℕ → ℕ → ℝ) (nmo : ℕ) (p q : ℕ) :
    mo_core nao mos hcore p q = mo_core nao mos hcore q p ∧
    mo_core nao (fun m p => ∑ k ∈ Finset.range nmo, mos m k * U k p) hcore p q = mo_core nmo U (mo_core nao mos hcore) p q := by
  constructor
  · unfold mo_core
    rw [Finset.sum_comm]
    refine Finset.sum_congr rfl fun m _ => Finset.sum_congr rfl fun n _ => ?_
    rw [hs]; ring
  · unfold mo_core
    simp only [Finset.sum_mul, Finset.mul_sum]
    have e1 : ∀ x ∈ Finset.range nao, (∑ y ∈ Finset.range nao, ∑ i ∈ Finset.range nmo, ∑ j ∈ Finset.range nmo,
        mos x j * U j p * hcore x y * (mos y i * U i q)) = ∑ j ∈ Finset.range nmo, ∑ i ∈ Finset.range nmo, ∑ y ∈ Finset.range nao,
          mos x j * U j p * hcore x y * (mos y i * U i q) := fun x _ => by
      rw [Finset.sum_comm, Finset.sum_congr rfl fun i _ => Finset.sum_comm, Finset.sum_comm]
    rw [Finset.sum_congr rfl e1, Finset.sum_comm]
    refine Finset.sum_congr rfl fun j _ => ?_
    rw [Finset.sum_comm]
    refine Finset.sum_congr rfl fun i _ => Finset.sum_congr rfl fun x _ => Finset.sum_congr rfl fun y _ => by ring

/-- two electrons in two orbitals with the integrals of `symU_w`: the correlation energy is negative -/
example {H : List (List ℝ)} (hH : cisd_matrix 2 2 hw Iw (closedEnergy 1 hw Iw + 3) 3 = .ok H) {n : ℕ} {eout : Fin n → ℝ} {vs : Fin n → List ℝ}
    (he : Eigh H eout vs) : ∃ hn : 0 < n, eout ⟨0, hn⟩ < 0 :=
  C79_negative symU_w.sa symU_w.va symU_w.wa (i := 0) (j := 0) (a := 1) (b := 1) (by norm_num) rfl hH he (by norm_num) (by norm_num) (by norm_num)
    (by norm_num) (by norm_num) (by norm_num) (by norm_num [Iw])

/-- and there is a matrix and a spectrum -/
example : ∃ (H : List (List ℝ)) (n : ℕ) (eout : Fin n → ℝ) (vs : Fin n → List ℝ), cisd_matrix 2 2 hw Iw (closedEnergy 1 hw Iw + 3) 3 = .ok H ∧
    Eigh H eout vs := by
  obtain ⟨B, H, -, h2, -, -, -, ⟨eout, vs, h3⟩, -⟩ := C79_eigenvalues symU_w.sa symU_w.va symU_w.wa 2 2 (closedEnergy 1 hw Iw + 3) 3
  exact ⟨H, _, eout, vs, h2, h3⟩

/-- canonical orbitals of different parity: the conditions of `C79_projection` hold, and the closed shell mixes with the double excitation -/
example : ∃ (h : ℕ → ℕ → ℝ) (I : ℕ → ℕ → ℕ → ℕ → ℝ), (∀ p q, h p q = h q p) ∧ (∀ p q r s, I p q r s = I q p s r) ∧
    (∀ p q r s, I p q r s = I r s p q) ∧ (∀ i a, i < 1 → 1 ≤ a → a < 2 → fockR 1 h I a i = 0) ∧ I 1 1 0 0 ≠ 0 := by
  refine ⟨fun p q => if p = q then p else 0, fun p q r s => if (p + q + r + s) % 2 = 0 then 1 else 0, fun p q => ?_, fun p q r s => ?_,
    fun p q r s => ?_, fun i a hi ha ha' => ?_, by norm_num⟩
  · by_cases e : p = q
    · simp [e]
    · simp [e, Ne.symm e]
  · exact if_congr (by rw [show p + q + r + s = q + p + s + r by omega]) rfl rfl
  · exact if_congr (by rw [show p + q + r + s = r + s + p + q by omega]) rfl rfl
  · obtain rfl : i = 0 := by omega
    obtain rfl : a = 1 := by omega
    norm_num [fockR]

end cisd

end CI
