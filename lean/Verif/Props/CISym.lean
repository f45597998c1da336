import Verif.Props.CIVar
/-!
# C72: symmetries of the CI Hamiltonian
-/
noncomputable section
namespace CI
open Fock

variable {K : Type} [Field K]

theorem val_swap (M : ℕ → ℕ → ℕ → ℕ → K) (p q : List ℤ) : coul (fun a b c d => M b a d c) q p = coul M p q := by
  unfold coul
  rw [Finset.sum_comm]
  exact Finset.sum_congr rfl fun i _ => Finset.sum_congr rfl fun j _ => by ring

theorem get_cases {α : Type} (l : List α) : (∃ x, get l 0 = .ok x) ∨ get l 0 = .error .index := by
  unfold get
  cases l[0]? <;> simp

/-- C72: exchanging the two spins in all arguments does not change a matrix element, nor the exceptions. -/
theorem C72_spin_flip (braa brab keta ketb : Dstring) (ha hb : ℕ → ℕ → K) (Ia Ib Iabab : ℕ → ℕ → ℕ → ℕ → K) (const : K) :
    ci_matrixel brab braa ketb keta hb ha Ib Ia (fun p q r s => Iabab q p s r) const = ci_matrixel braa brab keta ketb ha hb Ia Ib Iabab const := by
  unfold ci_matrixel
  simp only [val_swap]
  generalize diff braa keta / 2 = x
  generalize diff brab ketb / 2 = y
  by_cases hx0 : x = 0
  · subst hx0
    by_cases hy0 : y = 0
    · subst hy0
      simp only [and_self, if_true]
      congr 1; ring
    · by_cases hy1 : y = 1
      · subst hy1; simp
      · by_cases hy2 : y = 2
        · subst hy2; simp
        · simp [hy0, hy1, hy2]
  · by_cases hx1 : x = 1
    · subst hx1
      by_cases hy0 : y = 0
      · subst hy0; simp
      · by_cases hy1 : y = 1
        · subst hy1
          simp only [and_self, if_true, one_ne_zero, and_false, false_and, if_false]
          rcases get_cases (nonzero (minus (occdiff braa keta))) with ⟨oa, h1⟩ | h1 <;>
          rcases get_cases (nonzero (plus (occdiff braa keta))) with ⟨va, h2⟩ | h2 <;>
          rcases get_cases (nonzero (minus (occdiff brab ketb))) with ⟨ob, h3⟩ | h3 <;>
          rcases get_cases (nonzero (plus (occdiff brab ketb))) with ⟨vb, h4⟩ | h4 <;>
          simp only [h1, h2, h3, h4, bind, Except.bind, mul_comm (parity brab.occ _ _)]
        · simp [hy0, hy1]
    · by_cases hx2 : x = 2
      · subst hx2
        by_cases hy0 : y = 0
        · subst hy0; simp
        · simp [hy0]
      · simp [hx0, hx1, hx2]

/-! ### selection rules -/

section selection
variable {G : Type} [AddCommGroup G]

/-- A Hamiltonian that conserves the sum of labels connects determinants with equal sums only. -/
theorem elt_ham_label {ι : Type} [LinearOrder ι] (U : Finset ι) {h : ι → ι → K} {V : ι → ι → ι → ι → K} (g : ι → G)
    (hh : ∀ p q, h p q ≠ 0 → g p = g q) (hV : ∀ p q r s, V p q r s ≠ 0 → g p + g q = g r + g s) {bra ket : Finset ι}
    (hne : ∑ i ∈ bra, g i ≠ ∑ i ∈ ket, g i) : elt (ham U h V) bra ket = 0 := by
  rw [elt_ham, Finset.sum_eq_zero, zero_add, Finset.sum_eq_zero, mul_zero]
  · refine fun p _ => Finset.sum_eq_zero fun q _ => Finset.sum_eq_zero fun r _ => Finset.sum_eq_zero fun s _ => ?_
    by_contra hc
    obtain ⟨h1, h2⟩ := mul_ne_zero_iff.mp hc
    unfold c2 at h2
    split_ifs at h2 with hp
    · obtain ⟨⟨p1, p2⟩, ⟨r1, r2⟩, e⟩ := hp
      apply hne
      rw [← Finset.add_sum_erase _ g p1, ← Finset.add_sum_erase _ g p2, ← Finset.add_sum_erase _ g r1, ← Finset.add_sum_erase _ g r2, e,
        ← add_assoc, ← add_assoc, hV p q r s h1]
    · exact h2 rfl
  · refine fun p _ => Finset.sum_eq_zero fun q _ => ?_
    by_contra hc
    obtain ⟨h1, h2⟩ := mul_ne_zero_iff.mp hc
    split_ifs at h2 with hp
    · obtain ⟨p1, q1, e⟩ := hp
      apply hne
      rw [← Finset.add_sum_erase _ g p1, ← Finset.add_sum_erase _ g q1, e, hh p q h1]
    · exact h2 rfl

/-- The sum of the labels of the occupied orbitals. -/
def label (g : ℕ → G) (d : Dstring) : G := ∑ i ∈ supp d, g i

/-- Integrals over alpha and beta orbitals labelled by `ga`, `gb` that vanish unless the labels of the bra add up to those of the ket. -/
structure Conserves (ga gb : ℕ → G) (ha hb : ℕ → ℕ → K) (Ia Ib Iabab : ℕ → ℕ → ℕ → ℕ → K) : Prop where
  ha : ∀ p q, ha p q ≠ 0 → ga p = ga q
  hb : ∀ p q, hb p q ≠ 0 → gb p = gb q
  Ia : ∀ p q r s, Ia p q r s ≠ 0 → ga p + ga q = ga r + ga s
  Ib : ∀ p q r s, Ib p q r s ≠ 0 → gb p + gb q = gb r + gb s
  Iabab : ∀ p q r s, Iabab p q r s ≠ 0 → ga p + gb q = ga r + gb s

/-- labels of spin orbitals -/
def spinLabel (ga gb : ℕ → G) (p : SO) : G :=
  match ofLex p with
  | .inl p => ga p
  | .inr p => gb p

theorem sum_spinLabel (ga gb : ℕ → G) (A B : Finset ℕ) : ∑ x ∈ emb A B, spinLabel ga gb x = ∑ i ∈ A, ga i + ∑ i ∈ B, gb i := by
  simp [emb, Finset.sum_map, Finset.sum_disjSum, spinLabel]

variable [CharZero K] {ga gb : ℕ → G} {ha hb : ℕ → ℕ → K} {Ia Ib Iabab : ℕ → ℕ → ℕ → ℕ → K}

/-- C72: matrix elements between determinants of different symmetry vanish. -/
theorem C72_selection (hc : Conserves ga gb ha hb Ia Ib Iabab) {braa brab keta ketb : Dstring} (da : IsDet braa) (db : IsDet brab)
    (ea : IsDet keta) (eb : IsDet ketb) (la : keta.n = braa.n) (lb : ketb.n = brab.n) (hca : (supp braa).card = (supp keta).card)
    (hcb : (supp brab).card = (supp ketb).card) (va : ∀ p q r s, Ia p q r s = Ia q p s r) (vb : ∀ p q r s, Ib p q r s = Ib q p s r) (const : K)
    (hne : label ga braa + label gb brab ≠ label ga keta + label gb ketb) :
    ci_matrixel braa brab keta ketb ha hb Ia Ib Iabab const = .ok 0 := by
  rw [C35_ci_matrixel ha hb Ia Ib Iabab const da db ea eb rfl rfl la lb hca hcb va vb, spinHam,
    elt_ham_label _ (spinLabel ga gb), if_neg, add_zero]
  · rintro h; apply hne; rw [Prod.mk.injEq] at h; rw [h.1, h.2]
  · intro p q
    simp only [spinH, spinLabel]
    rcases ofLex p with p | p <;> rcases ofLex q with q | q <;>
      first
      | exact hc.ha _ _
      | exact hc.hb _ _
      | exact fun h => absurd rfl h
  · intro p q r s
    simp only [spinV, spinLabel]
    rcases ofLex p with p | p <;> rcases ofLex q with q | q <;> rcases ofLex r with r | r <;> rcases ofLex s with s | s <;>
      first
      | exact hc.Ia _ _ _ _
      | exact hc.Ib _ _ _ _
      | exact hc.Iabab _ _ _ _
      | exact fun h => absurd rfl h
      | (intro h; have := hc.Iabab _ _ _ _ h; simp only; rw [add_comm, this, add_comm])
  · rwa [sum_spinLabel, sum_spinLabel]

/-- C72: over determinants made by exciting a reference, `H_on_vec` keeps vectors of one symmetry: if the coefficients of determinants of
other symmetries vanish, so do those of the result. -/
theorem C72_H_on_vec (hc : Conserves ga gb ha hb Ia Ib Iabab) (va : ∀ p q r s, Ia p q r s = Ia q p s r)
    (vb : ∀ p q r s, Ib p q r s = Ib q p s r) {B : List Pair} {refa refb : Dstring} {P : ℕ → ℕ → Prop} (he : EnumeratesU B refa refb P)
    {v : List K} (hv : v.length = B.length) (g : G)
    (h0 : ∀ (i : ℕ) (da db : Dstring), B[i]? = some (some da, some db) → label ga da + label gb db ≠ g → v.getD i 0 = 0) :
    ∃ w, H_on_vec B v ha hb Ia Ib Iabab = .ok w ∧ w.length = B.length ∧
      ∀ (i : ℕ) (da db : Dstring), B[i]? = some (some da, some db) → label ga da + label gb db ≠ g → w.getD i 0 = 0 := by
  obtain ⟨D, hB⟩ := he.basis
  have hmem : ∀ d ∈ D, ∃ k l, Excitation refa d.1 k ∧ Excitation refb d.2 l := fun d hd => by
    have : (some d.1, some d.2) ∈ B := by rw [hB.1, List.mem_map]; exact ⟨d, hd, rfl⟩
    obtain ⟨da, db, k, l, e, h1, h2, -⟩ := (he.2 _).mp this
    simp only [Prod.mk.injEq, Option.some.injEq] at e
    rw [e.1, e.2]; exact ⟨k, l, h1, h2⟩
  have hin : ∀ b ∈ D, ∀ k ∈ D, ∃ x, ci_matrixel b.1 b.2 k.1 k.2 ha hb Ia Ib Iabab 0 = .ok x ∧
      (label ga b.1 + label gb b.2 ≠ label ga k.1 + label gb k.2 → x = 0) := fun b hb' k hk => by
    obtain ⟨_, _, a1, a2⟩ := hmem b hb'
    obtain ⟨_, _, c1, c2⟩ := hmem k hk
    have e1 := c1.2.1.trans a1.2.1.symm
    have e2 := c2.2.1.trans a2.2.1.symm
    have e3 := a1.card.trans c1.card.symm
    have e4 := a2.card.trans c2.card.symm
    refine ⟨_, C35_ci_matrixel ha hb Ia Ib Iabab 0 a1.1 a2.1 c1.1 c2.1 rfl rfl e1 e2 e3 e4 va vb, fun hne => ?_⟩
    have := C72_selection hc a1.1 a2.1 c1.1 c2.1 e1 e2 e3 e4 va vb 0 hne
    rw [C35_ci_matrixel ha hb Ia Ib Iabab 0 a1.1 a2.1 c1.1 c2.1 rfl rfl e1 e2 e3 e4 va vb] at this
    exact Except.ok.inj this
  choose! m hm using hin
  let M : ℕ → ℕ → K := fun i j => match D[i]?, D[j]? with
    | some b, some k => m b k
    | _, _ => 0
  have hM : ∀ i j b k, D[i]? = some b → D[j]? = some k → M i j = m b k := fun i j b k hi hj => by simp only [M, hi, hj]
  have hBD : ∀ (i : ℕ) (da db : Dstring), B[i]? = some (some da, some db) → D[i]? = some (da, db) := fun i da db h => by
    rw [hB.1, List.getElem?_map, Option.map_eq_some_iff] at h
    obtain ⟨d, h1, h2⟩ := h
    simp only [Prod.mk.injEq, Option.some.injEq] at h2
    rw [h1, ← h2.1, ← h2.2]
  have hl : B.length = D.length := by rw [hB.1, List.length_map]
  refine ⟨matvec M v, C38_H_matrix hB.1 hv ha hb Ia Ib Iabab M fun i j b k hi hj => ?_, by simp [matvec, hv], fun i da db hi hne => ?_⟩
  · rw [hM i j b k hi hj]
    exact (hm b (List.mem_of_getElem? hi) k (List.mem_of_getElem? hj)).1
  · have hi' := hBD i da db hi
    have hil : i < v.length := by rw [hv]; by_contra hn; rw [List.getElem?_eq_none (by omega)] at hi; simp at hi
    have e : (matvec M v).getD i 0 = ∑ j ∈ Finset.range v.length, M i j * v.getD j 0 := by
      simp [matvec, List.getD_eq_getElem?_getD, hil]
    rw [e]
    refine Finset.sum_eq_zero fun j hj => ?_
    have hjl : j < D.length := by rw [← hl, ← hv]; exact Finset.mem_range.mp hj
    have hj' := List.getElem?_eq_getElem hjl
    rw [hM i j _ _ hi' hj']
    by_cases hlab : label ga D[j].1 + label gb D[j].2 = g
    · rw [(hm (da, db) (List.mem_of_getElem? hi') D[j] (List.getElem_mem _)).2 (by rw [hlab]; exact hne), zero_mul]
    · rw [h0 j D[j].1 D[j].2 (by rw [hB.1, List.getElem?_map, hj']; rfl) hlab, mul_zero]

/-- C72: the same for `gci_matrixel`. -/
theorem C72_gselection {g : ℕ → G} {h : ℕ → ℕ → K} {I : ℕ → ℕ → ℕ → ℕ → K} (hh : ∀ p q, h p q ≠ 0 → g p = g q)
    (hI' : ∀ p q r s, I p q r s ≠ 0 → g p + g q = g r + g s) {bra ket : Dstring} (d : IsDet bra) (e : IsDet ket) (kn : ket.n = bra.n)
    (hcard : (supp bra).card = (supp ket).card) (hI : ∀ p q r s, I p q r s = I q p s r) (const : K) (hne : label g bra ≠ label g ket) :
    gci_matrixel bra ket h I const = .ok 0 := by
  classical
  rw [C35_gci_partial const h I d e rfl kn hcard hI, elt_ham_label _ g hh hI' hne, mul_zero]

end selection

/-! ### linearity -/

theorem elt_ham_add {ι : Type} [LinearOrder ι] (U : Finset ι) (h h' : ι → ι → K) (V V' : ι → ι → ι → ι → K) (c : K) (bra ket : Finset ι) :
    elt (ham U (fun p q => c * h p q + h' p q) fun p q r s => c * V p q r s + V' p q r s) bra ket =
      c * elt (ham U h V) bra ket + elt (ham U h' V') bra ket := by
  simp only [elt_ham, add_mul, Finset.sum_add_distrib, mul_assoc, ← Finset.mul_sum]
  ring

section linear
variable [CharZero K]

/-- C72: matrix elements are linear in the integrals and the constant. -/
theorem C72_linear {braa brab keta ketb : Dstring} (da : IsDet braa) (db : IsDet brab) (ea : IsDet keta) (eb : IsDet ketb)
    (la : keta.n = braa.n) (lb : ketb.n = brab.n) (hca : (supp braa).card = (supp keta).card)
    (hcb : (supp brab).card = (supp ketb).card) {ha hb ha' hb' : ℕ → ℕ → K} {Ia Ib Iabab Ia' Ib' Iabab' : ℕ → ℕ → ℕ → ℕ → K}
    (va : ∀ p q r s, Ia p q r s = Ia q p s r) (vb : ∀ p q r s, Ib p q r s = Ib q p s r)
    (va' : ∀ p q r s, Ia' p q r s = Ia' q p s r) (vb' : ∀ p q r s, Ib' p q r s = Ib' q p s r) (const const' c : K) :
    ∃ x y, ci_matrixel braa brab keta ketb ha hb Ia Ib Iabab const = .ok x ∧
      ci_matrixel braa brab keta ketb ha' hb' Ia' Ib' Iabab' const' = .ok y ∧
      ci_matrixel braa brab keta ketb (fun p q => c * ha p q + ha' p q) (fun p q => c * hb p q + hb' p q)
        (fun p q r s => c * Ia p q r s + Ia' p q r s) (fun p q r s => c * Ib p q r s + Ib' p q r s)
        (fun p q r s => c * Iabab p q r s + Iabab' p q r s) (c * const + const') = .ok (c * x + y) := by
  refine ⟨_, _, C35_ci_matrixel _ _ _ _ _ _ da db ea eb rfl rfl la lb hca hcb va vb, C35_ci_matrixel _ _ _ _ _ _ da db ea eb rfl rfl la lb hca hcb va' vb', ?_⟩
  rw [C35_ci_matrixel _ _ _ _ _ _ da db ea eb rfl rfl la lb hca hcb (fun p q r s => by rw [va, va']) (fun p q r s => by rw [vb, vb'])]
  have e1 : spinH (fun p q => c * ha p q + ha' p q) (fun p q => c * hb p q + hb' p q) = fun p q => c * spinH ha hb p q + spinH ha' hb' p q := by
    funext p q
    simp only [spinH]
    rcases ofLex p with p | p <;> rcases ofLex q with q | q <;> simp
  have e2 : spinV (fun p q r s => c * Ia p q r s + Ia' p q r s) (fun p q r s => c * Ib p q r s + Ib' p q r s)
      (fun p q r s => c * Iabab p q r s + Iabab' p q r s) = fun p q r s => c * spinV Ia Ib Iabab p q r s + spinV Ia' Ib' Iabab' p q r s := by
    funext p q r s
    simp only [spinV]
    rcases ofLex p with p | p <;> rcases ofLex q with q | q <;> rcases ofLex r with r | r <;> rcases ofLex s with s | s <;> simp
  rw [spinHam, e1, e2, elt_ham_add]
  congr 1
  simp only [spinHam]
  split_ifs <;> ring

/-! ### Brillouin's theorem -/

/-- C72: the element between a determinant and the one with the alpha electron of `i` moved to `a` is, up to its sign, the element of the Fock
matrix of that determinant. -/
theorem C72_brillouin {na nb : ℕ} {A B : Finset ℕ} (hA : A ⊆ Finset.range na) (hB : B ⊆ Finset.range nb) {i a : ℕ} (hi : i ∈ A)
    (ha' : a ∉ A) (han : a < na) (ha hb : ℕ → ℕ → K) {Ia Ib : ℕ → ℕ → ℕ → ℕ → K} (Iabab : ℕ → ℕ → ℕ → ℕ → K)
    (va : ∀ p q r s, Ia p q r s = Ia q p s r) (vb : ∀ p q r s, Ib p q r s = Ib q p s r) (const : K) :
    ∃ s : K, (s = 1 ∨ s = -1) ∧
      ci_matrixel (ofSet na (insert a (A.erase i))) (ofSet nb B) (ofSet na A) (ofSet nb B) ha hb Ia Ib Iabab const
        = .ok (s * (ha a i + ∑ j ∈ A, (Ia a j i j - Ia a j j i) + ∑ j ∈ B, Iabab a j i j)) := by
  have hai : i ≠ a := fun h => ha' (h ▸ hi)
  have hk : insert a (A.erase i) \ A = {a} := by
    ext x
    simp only [Finset.mem_sdiff, Finset.mem_insert, Finset.mem_erase, Finset.mem_singleton]
    constructor
    · rintro ⟨rfl | h, h'⟩
      · rfl
      · exact absurd h.2 h'
    · rintro rfl; exact ⟨.inl rfl, ha'⟩
  have hn : a ∉ A.erase i := fun h => ha' (Finset.mem_of_mem_erase h)
  have hcard : (insert a (A.erase i)).card = A.card := by rw [Finset.card_insert_of_notMem hn, Finset.card_erase_add_one hi]
  have hsub : insert a (A.erase i) ⊆ Finset.range na := by
    intro x hx
    rcases Finset.mem_insert.mp hx with rfl | h
    · exact Finset.mem_range.mpr han
    · exact hA (Finset.mem_of_mem_erase h)
  rw [ci_single_a ha hb Ia Ib Iabab const va vb hsub hA hB hcard (by rw [hk]; rfl)]
  have E := slater_single (emb (Finset.range na) (Finset.range nb)) (spinH ha hb) (spinV Ia Ib Iabab) (spinV_pair va vb)
    (C := emb (A.erase i) B) (o := up i) (v := up a) (by simp) (by simpa using fun _ => ha') (by simpa [up_inj] using hai)
    (emb_subset ((Finset.erase_subset _ _).trans hA) hB) (by simpa using Finset.mem_range.mp (hA hi)) (by simpa using han)
  rw [← emb_insert_up, ← emb_insert_up, Finset.insert_erase hi] at E
  refine ⟨(-1) ^ btw (emb (insert a (A.erase i)) B) (up a) (up i), neg_one_pow_eq_or K _, ?_⟩
  rw [spinHam, E]
  congr 2
  simp only [sum_emb, spinH, spinV, ofLex_toLex, sub_zero]
  ring

/-- C72: so `H` does not couple the determinant to single excitations (of alpha electrons) exactly when these Fock matrix elements vanish. -/
theorem C72_brillouin_iff {na nb : ℕ} {A B : Finset ℕ} (hA : A ⊆ Finset.range na) (hB : B ⊆ Finset.range nb) {i a : ℕ} (hi : i ∈ A)
    (ha' : a ∉ A) (han : a < na) (ha hb : ℕ → ℕ → K) {Ia Ib : ℕ → ℕ → ℕ → ℕ → K} (Iabab : ℕ → ℕ → ℕ → ℕ → K)
    (va : ∀ p q r s, Ia p q r s = Ia q p s r) (vb : ∀ p q r s, Ib p q r s = Ib q p s r) (const : K) :
    ci_matrixel (ofSet na (insert a (A.erase i))) (ofSet nb B) (ofSet na A) (ofSet nb B) ha hb Ia Ib Iabab const = .ok 0 ↔
      ha a i + ∑ j ∈ A, (Ia a j i j - Ia a j j i) + ∑ j ∈ B, Iabab a j i j = 0 := by
  obtain ⟨s, hs, e⟩ := C72_brillouin hA hB hi ha' han ha hb Iabab va vb const
  rw [e]
  have hs0 : s ≠ 0 := by rcases hs with rfl | rfl <;> simp
  constructor
  · intro h
    exact (mul_eq_zero.mp (Except.ok.inj h)).resolve_left hs0
  · intro h; rw [h, mul_zero]

/-- C72: the same for beta electrons, by exchanging the spins. -/
theorem C72_brillouin_beta {na nb : ℕ} {A B : Finset ℕ} (hA : A ⊆ Finset.range na) (hB : B ⊆ Finset.range nb) {i a : ℕ} (hi : i ∈ B)
    (ha' : a ∉ B) (han : a < nb) (ha hb : ℕ → ℕ → K) {Ia Ib : ℕ → ℕ → ℕ → ℕ → K} (Iabab : ℕ → ℕ → ℕ → ℕ → K)
    (va : ∀ p q r s, Ia p q r s = Ia q p s r) (vb : ∀ p q r s, Ib p q r s = Ib q p s r) (const : K) :
    ∃ s : K, (s = 1 ∨ s = -1) ∧
      ci_matrixel (ofSet na A) (ofSet nb (insert a (B.erase i))) (ofSet na A) (ofSet nb B) ha hb Ia Ib Iabab const
        = .ok (s * (hb a i + ∑ j ∈ B, (Ib a j i j - Ib a j j i) + ∑ j ∈ A, Iabab j a j i)) := by
  rw [← C72_spin_flip]
  exact C72_brillouin hB hA hi ha' han hb ha (fun p q r s => Iabab q p s r) vb va const

/-- A level-one excitation moves one electron. -/
theorem Excitation.one {ref d : Dstring} (h : Excitation ref d 1) :
    ∃ i a, i ∈ supp ref ∧ a ∉ supp ref ∧ a < ref.n ∧ d = ofSet ref.n (insert a ((supp ref).erase i)) := by
  obtain ⟨C, o, v, ho, hv, hov, e1, e2, -, -⟩ := differ1 h.card h.2.2.2
  refine ⟨o, v, by rw [e2]; simp, by rw [e2]; simp [hv, hov.symm], ?_, ?_⟩
  · have : v ∈ supp d := by rw [e1]; simp
    rw [← h.2.1]; exact Finset.mem_range.mp (supp_subset d this)
  · rw [e2, Finset.erase_insert ho, ← e1, ← h.2.1]
    exact (ofSet_supp h.1).symm

theorem Excitation.zero {ref d : Dstring} (hr : IsDet ref) (h : Excitation ref d 0) : d = ref := by
  have h1 : supp d ⊆ supp ref := Finset.sdiff_eq_empty_iff_subset.mp (Finset.card_eq_zero.mp h.2.2.2)
  have h2 : supp ref ⊆ supp d := Finset.sdiff_eq_empty_iff_subset.mp (Finset.card_eq_zero.mp h.2.2.1)
  rw [← ofSet_supp h.1, h.2.1, h1.antisymm h2, ofSet_supp hr]

/-- C72: if the Fock matrix of the reference has no elements between occupied and virtual orbitals, the reference is an eigenvector of the
Hamiltonian over the reference and its single excitations, with the expectation value as eigenvalue. -/
theorem C72_cis_reference {refa refb : Dstring} (hra : IsDet refa) (hrb : IsDet refb) {ha hb : ℕ → ℕ → K} {Ia Ib : ℕ → ℕ → ℕ → ℕ → K}
    {Iabab : ℕ → ℕ → ℕ → ℕ → K} (va : ∀ p q r s, Ia p q r s = Ia q p s r) (vb : ∀ p q r s, Ib p q r s = Ib q p s r)
    (fa : ∀ i ∈ supp refa, ∀ a < refa.n, a ∉ supp refa →
      ha a i + ∑ j ∈ supp refa, (Ia a j i j - Ia a j j i) + ∑ j ∈ supp refb, Iabab a j i j = 0)
    (fb : ∀ i ∈ supp refb, ∀ a < refb.n, a ∉ supp refb →
      hb a i + ∑ j ∈ supp refb, (Ib a j i j - Ib a j j i) + ∑ j ∈ supp refa, Iabab j a j i = 0)
    {B : List Pair} {P : ℕ → ℕ → Prop} (he : EnumeratesU B refa refb P) (hP : ∀ k l, P k l → k + l ≤ 1) :
    ∃ E, ci_matrixel refa refb refa refb ha hb Ia Ib Iabab 0 = .ok E ∧
      H_on_vec B (B.map fun x => if x = (some refa, some refb) then 1 else 0) ha hb Ia Ib Iabab
        = .ok (B.map fun x => if x = (some refa, some refb) then E else 0) := by
  obtain ⟨D, hB⟩ := he.basis
  have hmem : ∀ d ∈ D, ∃ k l, Excitation refa d.1 k ∧ Excitation refb d.2 l ∧ k + l ≤ 1 := fun d hd => by
    have : (some d.1, some d.2) ∈ B := by rw [hB.1, List.mem_map]; exact ⟨d, hd, rfl⟩
    obtain ⟨da, db, k, l, e, h1, h2, h3⟩ := (he.2 _).mp this
    simp only [Prod.mk.injEq, Option.some.injEq] at e
    rw [e.1, e.2]; exact ⟨k, l, h1, h2, hP k l h3⟩
  have hE := C35_ci_matrixel ha hb Ia Ib Iabab 0 hra hrb hra hrb rfl rfl rfl rfl rfl rfl va vb
  refine ⟨_, hE, ?_⟩
  generalize hEv : elt (spinHam refa.n refb.n ha hb Ia Ib Iabab) (emb (supp refa) (supp refb)) (emb (supp refa) (supp refb)) +
    (if (refa, refb) = (refa, refb) then (0 : K) else 0) = E at hE
  have sa := ofSet_supp hra
  have sb := ofSet_supp hrb
  have hcol : ∀ d ∈ D, ci_matrixel d.1 d.2 refa refb ha hb Ia Ib Iabab 0 = .ok (if d = (refa, refb) then E else 0) := by
    intro d hd
    obtain ⟨k, l, h1, h2, h3⟩ := hmem d hd
    by_cases hk : k = 0
    · subst hk
      have e1 := h1.zero hra
      by_cases hl : l = 0
      · subst hl
        have e2 := h2.zero hrb
        rw [if_pos (Prod.ext e1 e2), e1, e2, hE]
      · obtain rfl : l = 1 := by omega
        obtain ⟨i, a, hi, hna, han, e2⟩ := h2.one
        rw [if_neg]
        · obtain ⟨s, -, e⟩ := C72_brillouin_beta (supp_subset refa) (supp_subset refb) hi hna han ha hb Iabab va vb 0
          rw [fb i hi a han hna, mul_zero, sa, sb] at e
          rw [e1, e2, e]
        · rintro rfl
          have := h2.2.2.1
          simp at this
    · obtain rfl : k = 1 := by omega
      obtain rfl : l = 0 := by omega
      have e2 := h2.zero hrb
      obtain ⟨i, a, hi, hna, han, e1⟩ := h1.one
      rw [if_neg]
      · obtain ⟨s, -, e⟩ := C72_brillouin (supp_subset refa) (supp_subset refb) hi hna han ha hb Iabab va vb 0
        rw [fa i hi a han hna, mul_zero, sa, sb] at e
        rw [e1, e2, e]
      · rintro rfl
        have := h1.2.2.1
        simp at this
  let M : ℕ → ℕ → K := fun i j => match D[i]?, D[j]? with
    | some b, some k => match ci_matrixel b.1 b.2 k.1 k.2 ha hb Ia Ib Iabab 0 with
      | .ok x => x
      | .error _ => 0
    | _, _ => 0
  rw [C38_H_matrix hB.1 (by simp) ha hb Ia Ib Iabab M]
  · congr 1
    have hlen : B.length = D.length := by rw [hB.1, List.length_map]
    apply List.ext_getElem
    · simp [matvec]
    · intro i h1 h2
      have hi : i < D.length := by simpa [hlen] using h2
      have hget : ∀ j (hj : j < D.length), B[j]'(by omega) = (some D[j].1, some D[j].2) := fun j hj => by
        simp only [hB.1, List.getElem_map]
      have hiff : ∀ d : Dstring × Dstring, (some d.1, some d.2) = (some refa, some refb) ↔ d = (refa, refb) := fun d => by
        simp [Prod.ext_iff]
      have hM : ∀ j (hj : j < D.length), D[j] = (refa, refb) → M i j = if D[i] = (refa, refb) then E else 0 := fun j hj e => by
        simp only [M, List.getElem?_eq_getElem hi, List.getElem?_eq_getElem hj, e, hcol D[i] (List.getElem_mem _)]
      simp only [matvec, List.getElem_map, List.getElem_range, List.length_map, hget i hi, hiff]
      have hterm : ∀ j ∈ Finset.range B.length, M i j * (B.map fun x => if x = (some refa, some refb) then (1 : K) else 0).getD j 0 =
          if D[j]? = some (refa, refb) then (if D[i] = (refa, refb) then E else 0) else 0 := fun j hj => by
        have hj' : j < D.length := by rw [← hlen]; exact Finset.mem_range.mp hj
        rw [List.getD_eq_getElem?_getD, List.getElem?_map, List.getElem?_eq_getElem (by omega), List.getElem?_eq_getElem hj', hget j hj']
        simp only [Option.map_some, Option.getD_some, hiff, Option.some.injEq]
        by_cases h : D[j] = (refa, refb)
        · rw [if_pos h, if_pos h, hM j hj' h, mul_one]
        · rw [if_neg h, if_neg h, mul_zero]
      rw [Finset.sum_congr rfl hterm]
      by_cases hex : ∃ j, ∃ hj : j < D.length, D[j] = (refa, refb)
      · obtain ⟨j, hj, e⟩ := hex
        rw [Finset.sum_eq_single j]
        · rw [List.getElem?_eq_getElem hj, e, if_pos rfl]
        · intro k hk hkj
          have hk' : k < D.length := by rw [← hlen]; exact Finset.mem_range.mp hk
          rw [if_neg]
          rw [List.getElem?_eq_getElem hk']
          intro h
          exact hkj ((List.Nodup.getElem_inj_iff hB.2.1).mp ((Option.some.inj h).trans e.symm))
        · intro h; exact absurd (Finset.mem_range.mpr (by omega)) h
      · rw [Finset.sum_eq_zero]
        · rw [if_neg]; exact fun h => hex ⟨i, hi, h⟩
        · intro j hj
          have hj' : j < D.length := by rw [← hlen]; exact Finset.mem_range.mp hj
          rw [if_neg]
          rw [List.getElem?_eq_getElem hj']
          exact fun h => hex ⟨j, hj', Option.some.inj h⟩
  · intro i j b k hi hj
    obtain ⟨_, _, a1, a2, -⟩ := hmem b (List.mem_of_getElem? hi)
    obtain ⟨_, _, c1, c2, -⟩ := hmem k (List.mem_of_getElem? hj)
    have e := C35_ci_matrixel ha hb Ia Ib Iabab 0 a1.1 a2.1 c1.1 c2.1 rfl rfl (c1.2.1.trans a1.2.1.symm) (c2.2.1.trans a2.2.1.symm)
      (a1.card.trans c1.card.symm) (a2.card.trans c2.card.symm) va vb
    simp only [M, hi, hj, e]

/-- C72: Brillouin's theorem for `ucis_basis`. -/
theorem C72_ucis {n na nb : ℕ} (hna : na ≤ n) (hnb : nb ≤ n) {ha hb : ℕ → ℕ → K} {Ia Ib : ℕ → ℕ → ℕ → ℕ → K} {Iabab : ℕ → ℕ → ℕ → ℕ → K}
    (va : ∀ p q r s, Ia p q r s = Ia q p s r) (vb : ∀ p q r s, Ib p q r s = Ib q p s r)
    (fa : ∀ i < na, ∀ a, na ≤ a → a < n →
      ha a i + ∑ j ∈ Finset.range na, (Ia a j i j - Ia a j j i) + ∑ j ∈ Finset.range nb, Iabab a j i j = 0)
    (fb : ∀ i < nb, ∀ a, nb ≤ a → a < n →
      hb a i + ∑ j ∈ Finset.range nb, (Ib a j i j - Ib a j j i) + ∑ j ∈ Finset.range na, Iabab j a j i = 0) :
    ∃ B E, ucis_basis n na nb true = .ok B ∧
      H_on_vec B (B.map fun x => if x = (some ⟨n, aufbau n na⟩, some ⟨n, aufbau n nb⟩) then 1 else 0) ha hb Ia Ib Iabab
        = .ok (B.map fun x => if x = (some ⟨n, aufbau n na⟩, some ⟨n, aufbau n nb⟩) then E else 0) ∧
      (some ⟨n, aufbau n na⟩, some ⟨n, aufbau n nb⟩) ∈ B := by
  obtain ⟨B, h1, h2⟩ := C33_ucis n na nb true
  have sa : supp ⟨n, aufbau n na⟩ = Finset.range na := by rw [supp_aufbau, min_eq_left hna]
  have sb : supp ⟨n, aufbau n nb⟩ = Finset.range nb := by rw [supp_aufbau, min_eq_left hnb]
  obtain ⟨E, -, h3⟩ := C72_cis_reference (isDet_aufbau n na) (isDet_aufbau n nb) va vb
    (fun i hi a han hna => by
      rw [sa] at *
      rw [sb]
      exact fa i (Finset.mem_range.mp hi) a (by simpa using hna) han)
    (fun i hi a han hna => by
      rw [sb] at *
      rw [sa]
      exact fb i (Finset.mem_range.mp hi) a (by simpa using hna) han) h2 (fun k l h => h.1)
  refine ⟨B, E, h1, h3, (h2.2 _).mpr ⟨_, _, 0, 0, rfl, ⟨isDet_aufbau n na, rfl, by simp⟩, ⟨isDet_aufbau n nb, rfl, by simp⟩, by simp⟩⟩

/-- integrals for which the hypotheses hold -/
example : ∃ B E, ucis_basis 3 1 1 true = .ok B ∧
    H_on_vec B (B.map fun x => if x = (some ⟨3, aufbau 3 1⟩, some ⟨3, aufbau 3 1⟩) then 1 else 0) (fun p q => if p = q then (p : ℚ) else 1)
      (fun p q => if p = q then (p : ℚ) else 1) 0 0 (fun p q r s => if p = r ∧ q = s then 2 else -1)
      = .ok (B.map fun x => if x = (some ⟨3, aufbau 3 1⟩, some ⟨3, aufbau 3 1⟩) then E else 0) := by
  obtain ⟨B, E, h1, h2, -⟩ := C72_ucis (K := ℚ) (n := 3) (na := 1) (nb := 1) (by omega) (by omega)
    (ha := fun p q => if p = q then (p : ℚ) else 1) (hb := fun p q => if p = q then (p : ℚ) else 1) (Ia := 0) (Ib := 0)
    (Iabab := fun p q r s => if p = r ∧ q = s then 2 else -1) (fun _ _ _ _ => rfl) (fun _ _ _ _ => rfl)
    (fun i hi a h1 h2 => by
      obtain rfl : i = 0 := by omega
      have : a ≠ 0 := by omega
      simp [this])
    (fun i hi a h1 h2 => by
      obtain rfl : i = 0 := by omega
      have : a ≠ 0 := by omega
      simp [this])
  exact ⟨B, E, h1, h2⟩

end linear

/-- integrals with a symmetry: orbitals 0, 1 of different parity -/
example : Conserves (G := ZMod 2) (fun p => (p : ZMod 2)) (fun p => (p : ZMod 2)) (fun p q => if p = q then (p : ℚ) + 1 else 0)
    (fun p q => if p = q then (p : ℚ) + 1 else 0) (fun p q r s => if (p + q : ZMod 2) = r + s then 1 else 0)
    (fun p q r s => if (p + q : ZMod 2) = r + s then 1 else 0) (fun p q r s => if (p + q : ZMod 2) = r + s then 2 else 0) := by
  constructor
  · intro p q h; by_contra hc; apply h; rw [if_neg]; rintro rfl; exact hc rfl
  · intro p q h; by_contra hc; apply h; rw [if_neg]; rintro rfl; exact hc rfl
  all_goals (intro p q r s h; by_contra hc; exact h (if_neg hc))

example : label (fun p => (p : ZMod 2)) (ofSet 3 {0, 1}) ≠ label (fun p => (p : ZMod 2)) (ofSet 3 {0, 2}) := by decide

end CI
end
