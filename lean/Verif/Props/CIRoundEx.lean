import Verif.Props.CIRound
import Verif.Props.CisEx

/-! # C81: rounding errors of CI matrix elements, of products with vectors and of the energies that examples/cis.py and examples/cisd.py print -/

namespace CI

open Fock
open scoped InnerProductSpace

/-! ### eigenvalues of nearby matrices -/

theorem rows_eq {n : ℕ} {H : List (List ℝ)} (hl : H.length = n) (hr : ∀ r ∈ H, r.length = n) :
    H = (List.range n).map fun i => (List.range n).map (entry H i) := by
  apply List.ext_getElem (by simp [hl])
  intro i h1 h2
  have hi := hr _ (List.getElem_mem h1)
  apply List.ext_getElem (by simp [hi])
  intro j h3 h4
  simp [entry, h1, h3]

theorem Eigh.opM {n : ℕ} {H : List (List ℝ)} (hr : ∀ r ∈ H, r.length = n) {e : Fin n → ℝ} {vs : Fin n → List ℝ} (he : Eigh H e vs) :
    Orthonormal ℝ (fun i => toV n (vs i)) ∧ ∀ i, CI.opM n (entry H) (toV n (vs i)) = e i • toV n (vs i) := by
  refine (roots_iff (op := fun v => .ok (applyRows H v)) (fun v hv => ?_) he.length).mp
    ⟨he.length, he.orthonormal, fun i => congrArg Except.ok (he.eigen i)⟩
  rw [rows_eq he.size hr, applyRows_eq (List.range n) _ (by simp [hv])]
  congr 1
  simp only [matvec]
  refine List.map_congr_left fun i hi => Finset.sum_congr rfl fun j hj => ?_
  rw [List.mem_range] at hi; rw [Finset.mem_range] at hj
  rw [hv] at hi hj
  congr 1
  rw [matOf_some (b := i) (k := j) (by simp [hi]) (by simp [hj]), entry_map (entry H) (by simpa using hi) (by simpa using hj)]
  simp

theorem quad_bound {n : ℕ} {M : ℕ → ℕ → ℝ} {δ : ℝ} (h : ∀ i j, i < n → j < n → |M i j| ≤ δ) (x : EuclideanSpace ℝ (Fin n)) :
    |⟪x, opM n M x⟫_ℝ| ≤ n * δ * ⟪x, x⟫_ℝ := by
  rcases Nat.eq_zero_or_pos n with h0 | h0
  · subst h0
    simp [PiLp.inner_apply]
  have hδ : 0 ≤ δ := (abs_nonneg _).trans (h 0 0 h0 h0)
  have e1 : ⟪x, opM n M x⟫_ℝ = ∑ i : Fin n, ∑ j : Fin n, x i * (M i j * x j) := by
    simp only [opM, PiLp.inner_apply, LinearMap.coe_mk, AddHom.coe_mk, RCLike.inner_apply, conj_trivial, Finset.sum_mul]
    exact Finset.sum_congr rfl fun i _ => Finset.sum_congr rfl fun j _ => by ring
  have e2 : ⟪x, x⟫_ℝ = ∑ i, x i ^ 2 := by
    rw [PiLp.inner_apply]
    exact Finset.sum_congr rfl fun i _ => by simp [pow_two]
  rw [e1, e2]
  have e3 : ∀ i j : Fin n, |x i * (M i j * x j)| ≤ δ * ((x i ^ 2 + x j ^ 2) / 2) := fun i j => by
    have h1 : |x i * (M i j * x j)| = |M i j| * (|x i| * |x j|) := by rw [abs_mul, abs_mul]; ring
    have h2 : |x i| * |x j| ≤ (x i ^ 2 + x j ^ 2) / 2 := by
      have := sq_nonneg (|x i| - |x j|)
      rw [← sq_abs (x i), ← sq_abs (x j)]
      nlinarith
    rw [h1]
    exact mul_le_mul (h i j i.2 j.2) h2 (mul_nonneg (abs_nonneg _) (abs_nonneg _)) hδ
  calc |∑ i : Fin n, ∑ j : Fin n, x i * (M i j * x j)| ≤ ∑ i : Fin n, ∑ j : Fin n, |x i * (M i j * x j)| :=
        (Finset.abs_sum_le_sum_abs _ _).trans (Finset.sum_le_sum fun i _ => Finset.abs_sum_le_sum_abs _ _)
    _ ≤ ∑ i : Fin n, ∑ j : Fin n, δ * ((x i ^ 2 + x j ^ 2) / 2) := Finset.sum_le_sum fun i _ => Finset.sum_le_sum fun j _ => e3 i j
    _ = n * δ * ∑ i, x i ^ 2 := by
        simp only [← Finset.mul_sum, ← Finset.sum_div, Finset.sum_add_distrib, Finset.sum_const, Finset.card_univ, Fintype.card_fin, nsmul_eq_mul]
        ring

/-- Weyl's inequality, one direction -/
theorem eigh_le {n : ℕ} {H H' : List (List ℝ)} (hr : ∀ r ∈ H, r.length = n) (hr' : ∀ r ∈ H', r.length = n) {e e' : Fin n → ℝ} {vs vs' : Fin n → List ℝ}
    (he : Eigh H e vs) (he' : Eigh H' e' vs') {δ : ℝ} (hδ : ∀ i j, i < n → j < n → |entry H' i j - entry H i j| ≤ δ) (k : Fin n) : e' k ≤ e k + n * δ := by
  classical
  obtain ⟨o, hv⟩ := he.opM hr
  obtain ⟨o', hv'⟩ := he'.opM hr'
  set v := fun i => toV n (vs i)
  set v' := fun i => toV n (vs' i)
  let ι : Fin (k + 1) → Fin n := fun i => ⟨i, by omega⟩
  have hι : Function.Injective ι := fun i j h => Fin.ext (by simpa [ι] using h)
  let b : OrthonormalBasis (Fin n) ℝ (EuclideanSpace ℝ (Fin n)) :=
    OrthonormalBasis.mk o' (o'.linearIndependent.span_eq_top_of_card_eq_finrank' (by simp)).ge
  have hb : ∀ i, b i = v' i := fun i => by simp [b, v']
  let L : (Fin (k + 1) → ℝ) →ₗ[ℝ] (Fin k → ℝ) :=
    { toFun := fun c j => ⟪v' ⟨j, by omega⟩, ∑ i, c i • v (ι i)⟫_ℝ
      map_add' := fun c d => by ext j; simp [add_smul, Finset.sum_add_distrib, inner_add_right]
      map_smul' := fun r c => by ext j; simp [mul_smul, ← Finset.smul_sum, inner_smul_right] }
  obtain ⟨c, hc, hc0⟩ := Submodule.exists_mem_ne_zero_of_ne_bot (LinearMap.ker_ne_bot_of_finrank_lt (f := L) (by simp))
  set x := ∑ i, c i • v (ι i) with hx
  have h0 : ∀ j : Fin n, j < k → ⟪v' j, x⟫_ℝ = 0 := fun j hj => congrFun (LinearMap.mem_ker.mp hc) ⟨j, hj⟩
  have ow : Orthonormal ℝ fun i => v (ι i) := o.comp ι hι
  have n1 : ⟪x, x⟫_ℝ = ∑ i, c i ^ 2 := by
    rw [hx, ow.inner_sum]
    exact Finset.sum_congr rfl fun i _ => by simp [pow_two]
  have m1 : ⟪x, opM n (entry H) x⟫_ℝ = ∑ i, e (ι i) * c i ^ 2 := by
    rw [hx, map_sum]
    simp only [map_smul, v, hv, smul_smul]
    rw [ow.inner_sum]
    exact Finset.sum_congr rfl fun i _ => by simp; ring
  have le1 : ⟪x, opM n (entry H) x⟫_ℝ ≤ e k * ⟪x, x⟫_ℝ := by
    rw [m1, n1, Finset.mul_sum]
    exact Finset.sum_le_sum fun i _ => mul_le_mul_of_nonneg_right (he.ascending (Fin.mk_le_mk.mpr (by have := i.2; omega))) (sq_nonneg _)
  have n2 : ⟪x, x⟫_ℝ = ∑ j, ⟪v' j, x⟫_ℝ ^ 2 := by
    rw [← b.sum_inner_mul_inner x x]
    exact Finset.sum_congr rfl fun j _ => by rw [hb, real_inner_comm x, pow_two]
  have m2 : ⟪x, opM n (entry H') x⟫_ℝ = ∑ j, e' j * ⟪v' j, x⟫_ℝ ^ 2 := by
    have hxx : x = ∑ i, ⟪v' i, x⟫_ℝ • v' i := by simpa only [hb] using (b.sum_repr' x).symm
    conv_lhs => rw [hxx, map_sum, ← hxx, inner_sum]
    refine Finset.sum_congr rfl fun i _ => ?_
    rw [map_smul, hv' i, inner_smul_right, inner_smul_right, real_inner_comm]; ring
  have le2 : e' k * ⟪x, x⟫_ℝ ≤ ⟪x, opM n (entry H') x⟫_ℝ := by
    rw [m2, n2, Finset.mul_sum]
    refine Finset.sum_le_sum fun j _ => ?_
    rcases lt_or_ge j k with hj | hj
    · rw [h0 j hj]; simp
    · exact mul_le_mul_of_nonneg_right (he'.ascending hj) (sq_nonneg _)
  have hd := quad_bound (M := fun i j => entry H' i j - entry H i j) hδ x
  have hsub : opM n (fun i j => entry H' i j - entry H i j) x = opM n (entry H') x - opM n (entry H) x := by
    ext i; simp [opM, sub_mul, Finset.sum_sub_distrib]
  rw [hsub, inner_sub_right] at hd
  have hd' := (abs_le.mp hd).2
  have hpos : 0 < ⟪x, x⟫_ℝ := by
    rw [n1]
    obtain ⟨i, hi⟩ : ∃ i, c i ≠ 0 := by
      by_contra hn
      push Not at hn
      exact hc0 (funext hn)
    exact lt_of_lt_of_le (by positivity : 0 < c i ^ 2) (Finset.single_le_sum (f := fun i => c i ^ 2) (fun i _ => sq_nonneg _) (Finset.mem_univ i))
  nlinarith

/-- Weyl's inequality -/
theorem eigh_near {n : ℕ} {H H' : List (List ℝ)} (hr : ∀ r ∈ H, r.length = n) (hr' : ∀ r ∈ H', r.length = n) {e e' : Fin n → ℝ} {vs vs' : Fin n → List ℝ}
    (he : Eigh H e vs) (he' : Eigh H' e' vs') {δ : ℝ} (hδ : ∀ i j, i < n → j < n → |entry H' i j - entry H i j| ≤ δ) (k : Fin n) : |e' k - e k| ≤ n * δ := by
  rw [abs_le]
  have h1 := eigh_le hr hr' he he' hδ k
  have h2 := eigh_le hr' hr he' he (fun i j hi hj => by rw [abs_sub_comm]; exact hδ i j hi hj) k
  constructor <;> linarith

/-! ### without roundings -/

theorem real_tr1 : Fl.real.tr1 = tr1 (K := ℝ) := by
  funext M p
  simp [Fl.real, Fl.tr1, tr1, sum_range_list, Function.comp_def]
theorem real_coul : Fl.real.coul = coul (K := ℝ) := by
  funext M p q
  simp [Fl.real, Fl.coul, coul, List.map_flatMap, sum_flatMap_map, sum_range_list, Function.comp_def, mul_assoc]
theorem real_exch : Fl.real.exch = exch (K := ℝ) := by
  funext M p q
  simp [Fl.real, Fl.exch, exch, List.map_flatMap, sum_flatMap_map, sum_range_list, Function.comp_def, mul_assoc]

/-- C81: without roundings the rounded model is the model of C35 and C38. -/
theorem C81_real : Fl.real.gci_matrixel = CI.gci_matrixel (K := ℝ) ∧ Fl.real.ci_matrixel = CI.ci_matrixel (K := ℝ) ∧ Fl.real.H_on_vec = CI.H_on_vec (K := ℝ) ∧
    Fl.real.gH_on_vec = CI.gH_on_vec (K := ℝ) ∧ Fl.real.cis_matrix = CI.cis_matrix (K := ℝ) ∧ Fl.real.cisd_matrix = CI.cisd_matrix (K := ℝ) := by
  have h0 : ∀ x, Fl.real.rd x = x := fun x => rfl
  have h1 : Fl.real.gci_matrixel = CI.gci_matrixel (K := ℝ) := by
    funext bra ket h I const
    simp only [Fl.gci_matrixel, CI.gci_matrixel, real_tr1, real_coul, real_exch, h0, zero_add]
  have h2 : Fl.real.ci_matrixel = CI.ci_matrixel (K := ℝ) := by
    funext braa brab keta ketb ha hb Ia Ib Iabab const
    simp only [Fl.ci_matrixel, CI.ci_matrixel, real_tr1, real_coul, real_exch, h0, zero_add]
  have h3 : Fl.real.addAt = CI.addAt (K := ℝ) := rfl
  have h4 : Fl.real.naive_matrix = CI.naive_matrix (K := ℝ) := by
    funext B ha hb Ia Ib Iabab const
    simp only [Fl.naive_matrix, CI.naive_matrix, h2]
  refine ⟨h1, h2, ?_, ?_, ?_, ?_⟩
  · funext B v ha hb Ia Ib Iabab
    simp only [Fl.H_on_vec, CI.H_on_vec, h2, h3, h0]
  · funext B v h I
    simp only [Fl.gH_on_vec, CI.gH_on_vec, h1, h3, h0]
    rfl
  · funext n N h I a b
    simp only [Fl.cis_matrix, CI.cis_matrix, h4, h0]
  · funext n N h I a b
    simp only [Fl.cisd_matrix, CI.cisd_matrix, h4, h0]

/-! ### elements -/

theorem RNear.ok {e S y : ℝ} {r r' : R ℝ} (h : RNear e S r r') (hy : r' = .ok y) : ∃ x, r = .ok x ∧ Near e S x y := by
  subst hy
  cases r with
  | error e => exact h.elim
  | ok x => exact ⟨x, rfl, h⟩

section elements
variable {A : Fl} {F : Set ℝ} {T : ℕ} {u η g w a b : ℝ} (hA : A.Good F T u η g)
variable {ha' hb' ha hb : ℕ → ℕ → ℝ} {Ia' Ib' Iabab' Ia Ib Iabab : ℕ → ℕ → ℕ → ℕ → ℝ}
include hA

theorem ci_near (hc : Close w a b ha' hb' Ia' Ib' Iabab' ha hb Ia Ib Iabab) (va : ∀ p q r s, Ia p q r s = Ia q p s r) (vb : ∀ p q r s, Ib p q r s = Ib q p s r)
    {braa brab keta ketb : Dstring} (d1 : IsDet braa) (d2 : IsDet brab) (d3 : IsDet keta) (d4 : IsDet ketb) {n : ℕ} (hT : n * n ≤ T)
    (n1 : braa.n = n) (n2 : brab.n = n) (n3 : keta.n = n) (n4 : ketb.n = n) (ca : (supp braa).card = (supp keta).card) (cb : (supp brab).card = (supp ketb).card)
    {m : ℕ} (hm : (supp keta).card + (supp ketb).card ≤ m) (hm0 : 1 ≤ m) {const' const C : ℝ} (hC : Near (amp u g w 5) C const' const) :
    ∃ x, A.ci_matrixel braa brab keta ketb ha' hb' Ia' Ib' Iabab' const' = .ok x ∧
      Near (amp u g w 6) (a * m + 2 * b * m ^ 2 + C + 11 * η) x
        (elt (spinHam n n ha hb Ia Ib Iabab) (emb (supp braa) (supp brab)) (emb (supp keta) (supp ketb)) + if (braa, brab) = (keta, ketb) then const else 0) :=
  (rnear_ci hA d1 d2 d3 d4 n1.le n2.le n3.le n4.le hT (by rw [ca, cb]; exact hm) hm hm0 hc hC).ok
    (C35_ci_matrixel ha hb Ia Ib Iabab const d1 d2 d3 d4 n1 n2 n3 n4 ca cb va vb)

/-- C81: the number that `ci_matrixel` computes on a machine, from integrals with relative error `w`, differs from the matrix element of the Hamiltonian
by at most a small multiple of the sizes of the integrals, the squared number of electrons and the constant.  (`u` is the unit roundoff, `g` the relative error of sums, `η`
accounts for underflow; `T` terms can be summed with error `g`.) -/
theorem C81_ci_matrixel (hc : Close w a b ha' hb' Ia' Ib' Iabab' ha hb Ia Ib Iabab) (va : ∀ p q r s, Ia p q r s = Ia q p s r)
    (vb : ∀ p q r s, Ib p q r s = Ib q p s r) {braa brab keta ketb : Dstring} (d1 : IsDet braa) (d2 : IsDet brab) (d3 : IsDet keta) (d4 : IsDet ketb) {n : ℕ}
    (hT : n * n ≤ T) (n1 : braa.n = n) (n2 : brab.n = n) (n3 : keta.n = n) (n4 : ketb.n = n) (ca : (supp braa).card = (supp keta).card)
    (cb : (supp brab).card = (supp ketb).card) {m : ℕ} (hm : (supp keta).card + (supp ketb).card = m) (hm0 : 1 ≤ m) (const : ℝ) :
    ∃ x, A.ci_matrixel braa brab keta ketb ha' hb' Ia' Ib' Iabab' const = .ok x ∧
      |x - (elt (spinHam n n ha hb Ia Ib Iabab) (emb (supp braa) (supp brab)) (emb (supp keta) (supp ketb)) + if (braa, brab) = (keta, ketb) then const else 0)| ≤
        ((1 + w) * (1 + g) * (1 + u) ^ 6 - 1) * (a * m + 2 * b * m ^ 2 + |const| + 11 * η) := by
  obtain ⟨x, h1, h2⟩ := ci_near hA hc va vb d1 d2 d3 d4 hT n1 n2 n3 n4 ca cb hm.le hm0 (Near.refl (amp_nonneg hA hc.w0 5) (le_refl |const|))
  exact ⟨x, h1, h2.1⟩

omit hA in
theorem diff_supp {d e : Dstring} (hd : IsDet d) (he : IsDet e) (hn : d.n = e.n) (hc : (supp d).card = (supp e).card) :
    diff d e / 2 = ((supp d \ supp e).card : ℤ) := by
  have := diff_bits (supp_subset d) (hn ▸ supp_subset e) hc
  rwa [ofSet_supp hd, hn, ofSet_supp he] at this

/-- C81: between determinants that differ in two or more electrons, the computed matrix element is the exact one, rounded once. -/
theorem C81_doubles (va : ∀ p q r s, Ia p q r s = Ia q p s r) (vb : ∀ p q r s, Ib p q r s = Ib q p s r)
    {braa brab keta ketb : Dstring} (d1 : IsDet braa) (d2 : IsDet brab) (d3 : IsDet keta) (d4 : IsDet ketb) {n : ℕ}
    (n1 : braa.n = n) (n2 : brab.n = n) (n3 : keta.n = n) (n4 : ketb.n = n) (ca : (supp braa).card = (supp keta).card)
    (cb : (supp brab).card = (supp ketb).card) (h2 : 2 ≤ (supp braa \ supp keta).card + (supp brab \ supp ketb).card) (const : ℝ) :
    A.ci_matrixel braa brab keta ketb ha hb Ia Ib Iabab const =
      .ok (A.rd (elt (spinHam n n ha hb Ia Ib Iabab) (emb (supp braa) (supp brab)) (emb (supp keta) (supp ketb)))) := by
  have e1 := diff_supp d1 d3 (n1.trans n3.symm) ca
  have e2 := diff_supp d2 d4 (n2.trans n4.symm) cb
  rw [ci_rounded hA (by rw [e1, e2]; omega) (by rw [e1, e2]; omega) (by rw [e1, e2]; omega),
    C35_ci_matrixel ha hb Ia Ib Iabab const d1 d2 d3 d4 n1 n2 n3 n4 ca cb va vb, if_neg, add_zero]
  · rfl
  · intro he
    simp only [Prod.mk.injEq] at he
    rw [he.1, he.2] at h2
    simp at h2

/-- C81: hence these elements of the computed matrix are symmetric to the last bit. -/
theorem C81_symmetric (hS : SymU ha hb Ia Ib Iabab)
    {braa brab keta ketb : Dstring} (d1 : IsDet braa) (d2 : IsDet brab) (d3 : IsDet keta) (d4 : IsDet ketb) {n : ℕ}
    (n1 : braa.n = n) (n2 : brab.n = n) (n3 : keta.n = n) (n4 : ketb.n = n) (ca : (supp braa).card = (supp keta).card)
    (cb : (supp brab).card = (supp ketb).card) (h2 : 2 ≤ (supp braa \ supp keta).card + (supp brab \ supp ketb).card) (const : ℝ) :
    A.ci_matrixel braa brab keta ketb ha hb Ia Ib Iabab const = A.ci_matrixel keta ketb braa brab ha hb Ia Ib Iabab const := by
  rw [C81_doubles hA hS.va hS.vb d1 d2 d3 d4 n1 n2 n3 n4 ca cb h2, C81_doubles hA hS.va hS.vb d3 d4 d1 d2 n3 n4 n1 n2 ca.symm cb.symm
    (by rw [card_sdiff_symm ca, card_sdiff_symm cb]; exact h2), spinHam, elt_ham_symm _ _ (spinV_herm hS.wa hS.wb hS.wab)]
  intro p q
  rcases so_elim p with ⟨p, rfl⟩ | ⟨p, rfl⟩ <;> rcases so_elim q with ⟨q, rfl⟩ | ⟨q, rfl⟩
  exacts [hS.sa p q, rfl, rfl, hS.sb p q]

/-- C81: `gci_matrixel` on the machine compared with `gci_matrixel` in exact arithmetic. -/
theorem C81_gci_matrixel {h' h : ℕ → ℕ → ℝ} {I' I : ℕ → ℕ → ℕ → ℕ → ℝ} (hw : 0 ≤ w) (kh : ∀ p q, |h' p q - h p q| ≤ w * a ∧ |h p q| ≤ a)
    (kI : ∀ p q r s, |I' p q r s - I p q r s| ≤ w * b ∧ |I p q r s| ≤ b) {bra ket : Dstring} (d1 : IsDet bra) (d2 : IsDet ket) {n : ℕ} (hT : n * n ≤ T)
    (n1 : bra.n = n) (n2 : ket.n = n) (hc : (supp bra).card = (supp ket).card) {m : ℕ} (hm : (supp ket).card = m) (hm0 : 1 ≤ m) (const : ℝ) {y : ℝ}
    (hy : CI.gci_matrixel bra ket h I const = .ok y) :
    ∃ x, A.gci_matrixel bra ket h' I' const = .ok x ∧ |x - y| ≤ ((1 + w) * (1 + g) * (1 + u) ^ 3 - 1) * (a * m + 2 * b * m ^ 2 + 4 * η) := by
  obtain ⟨x, h1, h2⟩ := (rnear_gci hA d1 d2 n1.le n2.le hT (hc.trans hm).le hm.le hm0 (const' := const) hw kh kI).ok hy
  exact ⟨x, h1, h2.1⟩

end elements

/-! ### vectors -/

section vectors
variable {A : Fl} {F : Set ℝ} {T : ℕ} {u η g w a b : ℝ} (hA : A.Good F T u η g)
variable {ha' hb' ha hb : ℕ → ℕ → ℝ} {Ia' Ib' Iabab' Ia Ib Iabab : ℕ → ℕ → ℕ → ℕ → ℝ}
include hA

omit hA in
theorem enum_dets {B : List Pair} {refa refb : Dstring} {P : ℕ → ℕ → Prop} (he : EnumeratesU B refa refb P) :
    ∃ D : List (Dstring × Dstring), B = D.map (fun d => (some d.1, some d.2)) ∧ D.Nodup ∧
      ∀ d ∈ D, (IsDet d.1 ∧ d.1.n = refa.n ∧ (supp d.1).card = (supp refa).card) ∧ IsDet d.2 ∧ d.2.n = refb.n ∧ (supp d.2).card = (supp refb).card := by
  obtain ⟨D, hB⟩ := he.basis
  refine ⟨D, hB.1, hB.2.1, fun d hd => ?_⟩
  have : (some d.1, some d.2) ∈ B := by rw [hB.1]; exact List.mem_map.2 ⟨d, hd, rfl⟩
  obtain ⟨da, db, k, l, e, h2, h3, -⟩ := (he.2 _).1 this
  simp only [Prod.mk.injEq, Option.some.injEq] at e
  obtain ⟨rfl, rfl⟩ := e
  exact ⟨⟨h2.1, h2.2.1, h2.card⟩, h3.1, h3.2.1, h3.card⟩

/-- the computed matrix element -/
noncomputable def flEl (A : Fl) (ha hb : ℕ → ℕ → ℝ) (Ia Ib Iabab : ℕ → ℕ → ℕ → ℕ → ℝ) (const : ℝ) (b k : Dstring × Dstring) : ℝ :=
  match A.ci_matrixel b.1 b.2 k.1 k.2 ha hb Ia Ib Iabab const with
  | .ok x => x
  | .error _ => 0

theorem flEl_near (hc : Close w a b ha' hb' Ia' Ib' Iabab' ha hb Ia Ib Iabab) (va : ∀ p q r s, Ia p q r s = Ia q p s r) (vb : ∀ p q r s, Ib p q r s = Ib q p s r)
    {n ka kb : ℕ} (hT : n * n ≤ T) {m : ℕ} (hm : ka + kb ≤ m) (hm0 : 1 ≤ m) {const' const C : ℝ} (hC : Near (amp u g w 5) C const' const) {x y : Dstring × Dstring}
    (hx : (IsDet x.1 ∧ x.1.n = n ∧ (supp x.1).card = ka) ∧ IsDet x.2 ∧ x.2.n = n ∧ (supp x.2).card = kb)
    (hy : (IsDet y.1 ∧ y.1.n = n ∧ (supp y.1).card = ka) ∧ IsDet y.2 ∧ y.2.n = n ∧ (supp y.2).card = kb) :
    A.ci_matrixel x.1 x.2 y.1 y.2 ha' hb' Ia' Ib' Iabab' const' = .ok (flEl A ha' hb' Ia' Ib' Iabab' const' x y) ∧
    Near (amp u g w 6) (a * m + 2 * b * m ^ 2 + C + 11 * η) (flEl A ha' hb' Ia' Ib' Iabab' const' x y)
      (elt (spinHam n n ha hb Ia Ib Iabab) (psupp x) (psupp y) + if x = y then const else 0) := by
  obtain ⟨⟨a1, a2, a3⟩, a4, a5, a6⟩ := hx
  obtain ⟨⟨c1, c2, c3⟩, c4, c5, c6⟩ := hy
  obtain ⟨z, h1, h2⟩ := ci_near hA hc va vb a1 a4 c1 c4 hT a2 a5 c2 c5 (a3.trans c3.symm) (a6.trans c6.symm) (by rw [c3, c6]; exact hm) hm0 hC
  have hz : flEl A ha' hb' Ia' Ib' Iabab' const' x y = z := by rw [flEl, h1]
  rw [hz]
  exact ⟨h1, h2⟩

/-- C81: rounding errors of `H_on_vec` over a list of excitations. -/
theorem C81_H_on_vec (hc : Close w a b ha' hb' Ia' Ib' Iabab' ha hb Ia Ib Iabab) (va : ∀ p q r s, Ia p q r s = Ia q p s r) (vb : ∀ p q r s, Ib p q r s = Ib q p s r)
    {B : List Pair} {refa refb : Dstring} {P : ℕ → ℕ → Prop} (he : EnumeratesU B refa refb P) {n : ℕ} (na : refa.n = n) (nb : refb.n = n) (hT : n * n ≤ T)
    {m : ℕ} (hm : (supp refa).card + (supp refb).card = m) (hm0 : 1 ≤ m) {v : List ℝ} (hv : v.length = B.length) :
    ∃ out z, A.H_on_vec B v ha' hb' Ia' Ib' Iabab' = .ok out ∧ CI.H_on_vec B v ha hb Ia Ib Iabab = .ok z ∧ out.length = B.length ∧ z.length = B.length ∧
      ∀ i, i < B.length → |out.getD i 0 - z.getD i 0| ≤
        ((1 + w) * (1 + g) * (1 + u) ^ (7 + B.length) - 1) * ((a * m + 2 * b * m ^ 2 + 11 * η) * (v.map abs).sum + 2 * B.length * η) := by
  obtain ⟨D, hB, -, hD⟩ := enum_dets he
  rw [na, nb] at hD
  have hC : Near (amp u g w 5) 0 0 0 := Near.refl (amp_nonneg hA hc.w0 5) (by simp)
  have hlen : D.length = B.length := by rw [hB, List.length_map]
  have hget : ∀ {i : ℕ} {x : Pair}, B[i]? = some x → ∃ d, D[i]? = some d ∧ x = (some d.1, some d.2) := by
    intro i x hx
    rw [hB, List.getElem?_map] at hx
    obtain ⟨d, h1, h2⟩ := Option.map_eq_some_iff.mp hx
    exact ⟨d, h1, h2.symm⟩
  set mf := matOf D (flEl A ha' hb' Ia' Ib' Iabab' 0) with hmf
  set me := matOf D fun x y => elt (spinHam n n ha hb Ia Ib Iabab) (psupp x) (psupp y) with hme
  have hnear : ∀ i j, i < B.length → j < B.length → Near (amp u g w 6) (a * m + 2 * b * m ^ 2 + 11 * η) (mf i j) (me i j) := by
    intro i j hi hj
    rw [hmf, hme, matOf_some (List.getElem?_eq_getElem (hlen ▸ hi)) (List.getElem?_eq_getElem (hlen ▸ hj)),
      matOf_some (List.getElem?_eq_getElem (hlen ▸ hi)) (List.getElem?_eq_getElem (hlen ▸ hj))]
    have := (flEl_near hA hc va vb hT hm.le hm0 hC (hD _ (List.getElem_mem (hlen ▸ hi))) (hD _ (List.getElem_mem (hlen ▸ hj)))).2
    simpa using this
  obtain ⟨out, h1, h2, h3⟩ := near_matvec hA hc.w0 B (fun p q out => do
      let x ← get v q.1
      let (b0, b1) ← strings p.2
      let (k0, k1) ← strings q.2
      let m ← A.ci_matrixel b0 b1 k0 k1 ha' hb' Ia' Ib' Iabab' 0
      A.addAt out p.1 (A.rd (x * m))) hv mf me hnear (by
    intro i j x y hx hy out ho
    obtain ⟨dx, ex, rfl⟩ := hget hx
    obtain ⟨dy, ey, rfl⟩ := hget hy
    have hj : j < v.length := by
      by_contra hcon
      rw [hv, ← hlen] at hcon
      rw [List.getElem?_eq_none (by omega)] at ey
      simp at ey
    have hg : CI.get v j = .ok (v.getD j 0) := by simp [CI.get, hj]
    have := (flEl_near hA hc va vb hT hm.le hm0 hC (hD _ (List.mem_of_getElem? ex)) (hD _ (List.mem_of_getElem? ey))).1
    simp only [hg, bind, Except.bind, strings, this, hmf, matOf_some ex ey])
  refine ⟨out, matvec me v, h1, ?_, h2, by rw [length_matvec, hv], fun i hi => ?_⟩
  · refine C38_H_matrix hB hv ha hb Ia Ib Iabab me fun i j x y hx hy => ?_
    obtain ⟨⟨a1, a2, a3⟩, a4, a5, a6⟩ := hD _ (List.mem_of_getElem? hx)
    obtain ⟨⟨c1, c2, c3⟩, c4, c5, c6⟩ := hD _ (List.mem_of_getElem? hy)
    rw [C35_ci_matrixel ha hb Ia Ib Iabab 0 a1 a4 c1 c4 a2 a5 c2 c5 (a3.trans c3.symm) (a6.trans c6.symm) va vb, hme, matOf_some hx hy]
    simp [psupp]
  · exact h3 i hi

/-- C81: rounding errors of `gH_on_vec` over a list of determinants. -/
theorem C81_gH_on_vec {h' h : ℕ → ℕ → ℝ} {I' I : ℕ → ℕ → ℕ → ℕ → ℝ} (hw : 0 ≤ w) (kh : ∀ p q, |h' p q - h p q| ≤ w * a ∧ |h p q| ≤ a)
    (kI : ∀ p q r s, |I' p q r s - I p q r s| ≤ w * b ∧ |I p q r s| ≤ b) (sI : ∀ p q r s, I p q r s = I q p s r) {D : List Dstring} {n m : ℕ} (hT : n * n ≤ T) (hm0 : 1 ≤ m)
    (hD : ∀ d ∈ D, IsDet d ∧ d.n = n ∧ (supp d).card = m) {v : List ℝ} (hv : v.length = D.length) :
    ∃ out z, A.gH_on_vec (D.map some) v h' I' = .ok out ∧ CI.gH_on_vec (D.map some) v h I = .ok z ∧ out.length = D.length ∧ z.length = D.length ∧
      ∀ i, i < D.length → |out.getD i 0 - z.getD i 0| ≤
        ((1 + w) * (1 + g) * (1 + u) ^ (4 + D.length) - 1) * ((a * m + 2 * b * m ^ 2 + 4 * η) * (v.map abs).sum + 2 * D.length * η) := by
  classical
  have key : ∀ x ∈ D, ∀ y ∈ D, ∃ z z', CI.gci_matrixel x y h I 0 = .ok z ∧ A.gci_matrixel x y h' I' 0 = .ok z' ∧ Near (amp u g w 3) (a * m + 2 * b * m ^ 2 + 4 * η) z' z := by
    intro x hx y hy
    obtain ⟨x1, x2, x3⟩ := hD x hx
    obtain ⟨y1, y2, y3⟩ := hD y hy
    have e := C35_gci_partial (n := n) (0 : ℝ) h I x1 y1 x2 y2 (x3.trans y3.symm) sI
    obtain ⟨z', h1, h2⟩ := (rnear_gci hA x1 y1 x2.le y2.le hT x3.le y3.le hm0 (const' := 0) hw kh kI).ok e
    exact ⟨_, z', e, h1, h2⟩
  choose! m1 m2 k1 k2 k3 using key
  have hnear : ∀ i j, i < (D.map some).length → j < (D.map some).length → Near (amp u g w 3) (a * m + 2 * b * m ^ 2 + 4 * η) (matOf D m2 i j) (matOf D m1 i j) := by
    intro i j hi hj
    rw [List.length_map] at hi hj
    rw [matOf_some (List.getElem?_eq_getElem hi) (List.getElem?_eq_getElem hj), matOf_some (List.getElem?_eq_getElem hi) (List.getElem?_eq_getElem hj)]
    exact k3 _ (List.getElem_mem _) _ (List.getElem_mem _)
  obtain ⟨out, h1, h2, h3⟩ := near_matvec hA hw (D.map some) (fun p q out => do
      let x ← get v q.1
      match p.2, q.2 with
      | some b, some k =>
        let m ← A.gci_matrixel b k h' I' 0
        A.addAt out p.1 (A.rd (x * m))
      | _, _ => .error .attribute) (by simpa using hv) (matOf D m2) (matOf D m1) hnear (by
    intro i j x y hx hy out ho
    rw [List.getElem?_map] at hx hy
    obtain ⟨x, ex, rfl⟩ := Option.map_eq_some_iff.mp hx
    obtain ⟨y, ey, rfl⟩ := Option.map_eq_some_iff.mp hy
    have hj : j < v.length := by
      by_contra hcon
      rw [hv] at hcon
      rw [List.getElem?_eq_none (by omega)] at ey
      simp at ey
    have hg : CI.get v j = .ok (v.getD j 0) := by simp [CI.get, hj]
    simp only [hg, bind, Except.bind, k2 x (List.mem_of_getElem? ex) y (List.mem_of_getElem? ey), matOf_some ex ey])
  rw [List.length_map] at h2 h3
  refine ⟨out, matvec (matOf D m1) v, h1, ?_, h2, by rw [length_matvec, hv], fun i hi => ?_⟩
  · refine C38_gH_matrix rfl (by simpa using hv) h I _ fun i j x y hx hy => ?_
    rw [matOf_some hx hy]
    exact k1 _ (List.mem_of_getElem? hx) _ (List.mem_of_getElem? hy)
  · exact h3 i hi

end vectors

/-! ### scripts -/

/-- `eout, v = numpy.linalg.eigh(H)` on a machine: `eigh` reads the lower triangle of `H` and returns the eigenvalues of a symmetric matrix that differs from it by at most `ε`
in each element (`numpy.linalg.eigh` is backward stable; nothing is assumed about the eigenvectors). -/
structure FlEigh (ε : ℝ) (H : List (List ℝ)) {n : ℕ} (eout : Fin n → ℝ) (M : List (List ℝ)) (vs : Fin n → List ℝ) : Prop where
  size : H.length = n
  rows : ∀ r ∈ M, r.length = n
  eigh : Eigh M eout vs
  symm : ∀ i j, i < n → j < n → entry M i j = entry M j i
  lower : ∀ i j, i < n → j ≤ i → |entry M i j - entry H i j| ≤ ε

section scripts
variable {A : Fl} {F : Set ℝ} {T : ℕ} {u η g w a b : ℝ} (hA : A.Good F T u η g)
variable {h' h : ℕ → ℕ → ℝ} {I' I : ℕ → ℕ → ℕ → ℕ → ℝ}
include hA

theorem script (hw : 0 ≤ w) (kh : ∀ p q, |h' p q - h p q| ≤ w * a ∧ |h p q| ≤ a) (kI : ∀ p q r s, |I' p q r s - I p q r s| ≤ w * b ∧ |I p q r s| ≤ b)
    (sh : ∀ p q, h p q = h q p) (sI : ∀ p q r s, I p q r s = I q p s r) (wI : ∀ p q r s, I p q r s = I r s p q) {nmo N : ℕ} (hT : nmo * nmo ≤ T) (hN : 1 ≤ N)
    (Escf enuc : ℝ) {B : List Pair} {P : ℕ → ℕ → Prop} (he : EnumeratesU B ⟨nmo, aufbau nmo (N / 2)⟩ ⟨nmo, aufbau nmo (N / 2)⟩ P) :
    ∃ H Hf, CI.naive_matrix B h h I I I (-Escf + enuc) = .ok H ∧ A.naive_matrix B h' h' I' I' I' (A.rd (-Escf + enuc)) = .ok Hf ∧ H.length = B.length ∧
      Hf.length = B.length ∧ ∀ (n : ℕ) (e ef : Fin n → ℝ) (vs vf : Fin n → List ℝ) (ε : ℝ) (M : List (List ℝ)), Eigh H e vs → FlEigh ε Hf ef M vf → ∀ k,
        |ef k - e k| ≤ n * (ε + ((1 + w) * (1 + g) * (1 + u) ^ 6 - 1) * (a * N + 2 * b * N ^ 2 + |enuc - Escf| + 12 * η)) := by
  obtain ⟨D, hB, hDn, hD⟩ := enum_dets he
  have hc : Close w a b h' h' I' I' I' h h I I I := ⟨hw, kh, kh, kI, kI, kI⟩
  have hC : Near (amp u g w 5) (|-Escf + enuc| + η) (A.rd (-Escf + enuc)) (-Escf + enuc) :=
    ((Near.refl (amp_nonneg hA hw 0) (le_refl |-Escf + enuc|)).rd hA hw).up hA hw (by norm_num)
  have hcard : (supp (⟨nmo, aufbau nmo (N / 2)⟩ : Dstring)).card + (supp (⟨nmo, aufbau nmo (N / 2)⟩ : Dstring)).card ≤ N := by
    rw [supp_aufbau, Finset.card_range]
    have : min (N / 2) nmo ≤ N / 2 := min_le_left _ _
    omega
  set m := fun x y : Dstring × Dstring => elt (spinHam nmo nmo h h I I I) (psupp x) (psupp y) + if x = y then -Escf + enuc else 0 with hmd
  set mf := flEl A h' h' I' I' I' (A.rd (-Escf + enuc)) with hmf
  have key := fun (x : Dstring × Dstring) (hx : x ∈ D) (y : Dstring × Dstring) (hy : y ∈ D) =>
    flEl_near (n := nmo) hA hc sI sI hT hcard hN hC (hD x hx) (hD y hy)
  obtain ⟨D', hB', -, hmat⟩ := C79_matrix he h h I I I (-Escf + enuc) sI sI
  have hinj : Function.Injective fun d : Dstring × Dstring => ((some d.1, some d.2) : Pair) := by
    rintro ⟨a, b⟩ ⟨c, d⟩ e
    simpa using e
  obtain rfl : D = D' := List.map_injective_iff.mpr hinj (hB.symm.trans hB')
  have hfl : A.naive_matrix B h' h' I' I' I' (A.rd (-Escf + enuc)) = .ok (D.map fun x => D.map (mf x)) := by
    rw [Fl.naive_matrix, hB, mapM_ok (g := fun x => D.map fun y => match x with
      | (some c, some c') => mf (c, c') y
      | _ => 0), List.map_map]
    · rfl
    · intro x hx
      obtain ⟨x, hxD, rfl⟩ := List.mem_map.1 hx
      rw [mapM_ok (g := fun y => match y with
        | (some c, some c') => mf x (c, c')
        | _ => 0), List.map_map]
      · rfl
      · intro y hy
        obtain ⟨y, hyD, rfl⟩ := List.mem_map.1 hy
        exact (key x hxD y hyD).1
  refine ⟨_, _, hmat, hfl, by simp [hB], by simp [hB], fun n e ef vs vf ε M hE hF k => ?_⟩
  have hn : D.length = n := by simpa using hE.size
  refine eigh_near (H := D.map fun x => D.map (m x)) (fun r hr => ?_) hF.rows hE hF.eigh (fun i j hi hj => ?_) k
  · obtain ⟨x, -, rfl⟩ := List.mem_map.mp hr
    simp [hn]
  have hsym : ∀ i j (hi : i < D.length) (hj : j < D.length), m D[i] D[j] = m D[j] D[i] := by
    intro i j hi hj
    simp only [hmd]
    rw [spinHam, elt_ham_symm _ (fun p q => by
      rcases so_elim p with ⟨p, rfl⟩ | ⟨p, rfl⟩ <;> rcases so_elim q with ⟨q, rfl⟩ | ⟨q, rfl⟩
      exacts [sh p q, rfl, rfl, sh p q]) (spinV_herm wI wI wI)]
    congr 1
    exact if_congr eq_comm rfl rfl
  have low : ∀ i j, i < n → j ≤ i → |entry M i j - entry (D.map fun x => D.map (m x)) i j| ≤
      ε + ((1 + w) * (1 + g) * (1 + u) ^ 6 - 1) * (a * N + 2 * b * N ^ 2 + |enuc - Escf| + 12 * η) := by
    intro i j hi hj
    have hi' : i < D.length := hn ▸ hi
    have hj' : j < D.length := lt_of_le_of_lt hj hi'
    have h1 := hF.lower i j hi hj
    rw [entry_map mf hi' hj'] at h1
    rw [entry_map m hi' hj']
    have h2 := (key _ (List.getElem_mem hi') _ (List.getElem_mem hj')).2.1
    refine (abs_sub_le _ _ _).trans (add_le_add h1 (h2.trans (le_of_eq ?_)))
    rw [show -Escf + enuc = enuc - Escf by ring]
    unfold amp
    ring
  rcases le_total j i with hji | hij
  · exact low i j hi hji
  · rw [hF.symm i j hi hj, entry_map m (hn ▸ hi) (hn ▸ hj), hsym, ← entry_map m (hn ▸ hj) (hn ▸ hi)]
    exact low j i hj hij

/-- C81: every eigenvalue that examples/cisd.py computes on a machine, from integrals with relative error `w`, differs from the eigenvalue with the same number in exact
arithmetic by at most the dimension times the error of `eigh` and of the elements. -/
theorem C81_cisd (hw : 0 ≤ w) (kh : ∀ p q, |h' p q - h p q| ≤ w * a ∧ |h p q| ≤ a) (kI : ∀ p q r s, |I' p q r s - I p q r s| ≤ w * b ∧ |I p q r s| ≤ b)
    (sh : ∀ p q, h p q = h q p) (sI : ∀ p q r s, I p q r s = I q p s r) (wI : ∀ p q r s, I p q r s = I r s p q) {nmo N : ℕ} (hT : nmo * nmo ≤ T) (hN : 1 ≤ N)
    (Escf enuc : ℝ) :
    ∃ H Hf, CI.cisd_matrix nmo N h I Escf enuc = .ok H ∧ A.cisd_matrix nmo N h' I' Escf enuc = .ok Hf ∧ H.length = Hf.length ∧
      ∀ (n : ℕ) (e ef : Fin n → ℝ) (vs vf : Fin n → List ℝ) (ε : ℝ) (M : List (List ℝ)), Eigh H e vs → FlEigh ε Hf ef M vf → ∀ k,
        |ef k - e k| ≤ n * (ε + ((1 + w) * (1 + g) * (1 + u) ^ 6 - 1) * (a * N + 2 * b * N ^ 2 + |enuc - Escf| + 12 * η)) := by
  obtain ⟨B, hB, he⟩ := C33_ucisd nmo (N / 2) (N / 2)
  obtain ⟨H, Hf, h1, h2, h3, h4, h5⟩ := script hA hw kh kI sh sI wI hT hN Escf enuc he
  refine ⟨H, Hf, ?_, ?_, h3.trans h4.symm, h5⟩
  · simp only [CI.cisd_matrix, hB, bind, Except.bind]; exact h1
  · simp only [Fl.cisd_matrix, hB, bind, Except.bind]; exact h2

/-- C81: the same for examples/cis.py. -/
theorem C81_cis (hw : 0 ≤ w) (kh : ∀ p q, |h' p q - h p q| ≤ w * a ∧ |h p q| ≤ a) (kI : ∀ p q r s, |I' p q r s - I p q r s| ≤ w * b ∧ |I p q r s| ≤ b)
    (sh : ∀ p q, h p q = h q p) (sI : ∀ p q r s, I p q r s = I q p s r) (wI : ∀ p q r s, I p q r s = I r s p q) {nmo N : ℕ} (hT : nmo * nmo ≤ T) (hN : 1 ≤ N)
    (Escf enuc : ℝ) :
    ∃ H Hf, CI.cis_matrix nmo N h I Escf enuc = .ok H ∧ A.cis_matrix nmo N h' I' Escf enuc = .ok Hf ∧ H.length = Hf.length ∧
      ∀ (n : ℕ) (e ef : Fin n → ℝ) (vs vf : Fin n → List ℝ) (ε : ℝ) (M : List (List ℝ)), Eigh H e vs → FlEigh ε Hf ef M vf → ∀ k,
        |ef k - e k| ≤ n * (ε + ((1 + w) * (1 + g) * (1 + u) ^ 6 - 1) * (a * N + 2 * b * N ^ 2 + |enuc - Escf| + 12 * η)) := by
  obtain ⟨B, hB, he⟩ := C33_ucis nmo (N / 2) (N / 2) false
  obtain ⟨H, Hf, h1, h2, h3, h4, h5⟩ := script hA hw kh kI sh sI wI hT hN Escf enuc he
  refine ⟨H, Hf, ?_, ?_, h3.trans h4.symm, h5⟩
  · simp only [CI.cis_matrix, hB, bind, Except.bind]; exact h1
  · simp only [Fl.cis_matrix, hB, bind, Except.bind]; exact h2

end scripts

/-! ### examples -/

/-- fixed-point arithmetic with the digit `1 / (K * K)`: results are cut towards zero -/
noncomputable def cut (K : ℕ) : Fl where
  rd x := SignType.sign x * (⌊|x| * (K * K)⌋ / (K * K))
  ein L := (L.map List.prod).sum

theorem cut_good {K : ℕ} (hK : 0 < K) (T : ℕ) : (cut K).Good {x | ∃ z : ℤ, x = z / (K * K)} T (1 / K) (1 / K) 0 := by
  have hK0 : (0 : ℝ) < K := by exact_mod_cast hK
  have hKK : (0 : ℝ) < K * K := mul_pos hK0 hK0
  refine ⟨by positivity, by positivity, le_refl _, fun x => ?_, ?_, fun x => ?_, fun x => ?_, ⟨K * K, ?_⟩, fun L _ _ => by simp [cut]⟩
  · have h1 : |x| * (K * K) - 1 < ⌊|x| * (K * K)⌋ := Int.sub_one_lt_floor _
    have h2 : (⌊|x| * (K * K)⌋ : ℝ) ≤ |x| * (K * K) := Int.floor_le _
    have key : |(⌊|x| * (K * K)⌋ : ℝ) / (K * K) - (|x|)| ≤ 1 / K * (|x| + 1 / K) := by
      have e : 1 / (K : ℝ) * (1 / K) = 1 / (K * K) := by field_simp
      rw [abs_le, mul_add, e]
      have h3 : 0 ≤ 1 / (K : ℝ) * |x| := by positivity
      have h4 : (⌊|x| * (K * K)⌋ : ℝ) / (K * K) ≤ |x| := by rw [div_le_iff₀ hKK]; exact h2
      have h5 : |x| ≤ (⌊|x| * (K * K)⌋ : ℝ) / (K * K) + 1 / (K * K) := by rw [← add_div, le_div_iff₀ hKK]; linarith
      have h6 : 0 ≤ 1 / ((K : ℝ) * K) := by positivity
      constructor <;> linarith
    show |(SignType.sign x : ℝ) * _ - x| ≤ _
    rcases lt_trichotomy x 0 with h | rfl | h
    · rw [sign_neg h]
      rw [SignType.coe_neg_one]
      refine le_trans (le_of_eq ?_) key
      rw [← abs_neg]
      congr 1
      rw [abs_of_neg h]; ring
    · simp; positivity
    · rw [sign_pos h]
      rw [SignType.coe_one]
      refine le_trans (le_of_eq ?_) key
      rw [abs_of_pos h]; ring_nf
  · rintro x ⟨z, rfl⟩
    show (SignType.sign _ : ℝ) * _ = _
    have e : |(z : ℝ) / (K * K)| * (K * K) = ((|z| : ℤ) : ℝ) := by
      rw [abs_div, abs_of_pos hKK, div_mul_cancel₀ _ hKK.ne', Int.cast_abs]
    rw [e, Int.floor_intCast, Int.cast_abs, ← mul_div_assoc]
    congr 1
    have hs : SignType.sign ((z : ℝ) / (K * K)) = SignType.sign (z : ℝ) := by
      rw [div_eq_mul_inv, sign_mul, sign_pos (inv_pos.mpr hKK), mul_one]
    rw [hs, sign_mul_abs]
  · show ∃ z : ℤ, (SignType.sign x : ℝ) * _ = _
    refine ⟨SignType.sign x * ⌊|x| * (K * K)⌋, ?_⟩
    rw [← mul_div_assoc]
    push_cast
    rfl
  · show (SignType.sign (-x) : ℝ) * _ = -((SignType.sign x : ℝ) * _)
    rw [Left.sign_neg, abs_neg]
    push_cast
    ring
  · push_cast
    rw [div_self hKK.ne']

/-- twenty decimals: 10 orbitals, 4 electrons, integrals up to 1 with errors of `10 ^ (-9)` -/
example {braa brab keta ketb : Dstring} (d1 : IsDet braa) (d2 : IsDet brab) (d3 : IsDet keta) (d4 : IsDet ketb)
    (n1 : braa.n = 10) (n2 : brab.n = 10) (n3 : keta.n = 10) (n4 : ketb.n = 10) (ca : (supp braa).card = 2) (ck : (supp keta).card = 2)
    (cb : (supp brab).card = 2) (cl : (supp ketb).card = 2) {h h' : ℕ → ℕ → ℝ} {I I' : ℕ → ℕ → ℕ → ℕ → ℝ}
    (kh : ∀ p q, |h' p q - h p q| ≤ 1 / 10 ^ 9 * 1 ∧ |h p q| ≤ 1) (kI : ∀ p q r s, |I' p q r s - I p q r s| ≤ 1 / 10 ^ 9 * 1 ∧ |I p q r s| ≤ 1)
    (v : ∀ p q r s, I p q r s = I q p s r) :
    ∃ x, (cut (10 ^ 10)).ci_matrixel braa brab keta ketb h' h' I' I' I' 0 = .ok x ∧
      |x - elt (spinHam 10 10 h h I I I) (emb (supp braa) (supp brab)) (emb (supp keta) (supp ketb))| ≤ 1 / 10 ^ 7 := by
  obtain ⟨x, h1, h2⟩ := C81_ci_matrixel (cut_good (K := 10 ^ 10) (by norm_num) 100) ⟨by norm_num, kh, kh, kI, kI, kI⟩ v v d1 d2 d3 d4
    (n := 10) (by norm_num) n1 n2 n3 n4 (ca.trans ck.symm) (cb.trans cl.symm) (m := 4) (by rw [ck, cl]) (by norm_num) 0
  refine ⟨x, h1, ?_⟩
  simp only [ite_self, add_zero, abs_zero] at h2
  refine h2.trans ?_
  norm_num

/-- the eigenvalues of examples/cisd.py for 2 electrons in 2 orbitals, with `eigh` accurate to `10 ^ (-10)` -/
example (h : ℕ → ℕ → ℝ) (I : ℕ → ℕ → ℕ → ℕ → ℝ) (kh : ∀ p q, |h p q| ≤ 1) (kI : ∀ p q r s, |I p q r s| ≤ 1)
    (sh : ∀ p q, h p q = h q p) (sI : ∀ p q r s, I p q r s = I q p s r) (wI : ∀ p q r s, I p q r s = I r s p q) :
    ∃ H Hf, CI.cisd_matrix 2 2 h I (-1) 1 = .ok H ∧ (cut (10 ^ 10)).cisd_matrix 2 2 h I (-1) 1 = .ok Hf ∧
      ∀ (n : ℕ) (e ef : Fin n → ℝ) (vs vf : Fin n → List ℝ) (M : List (List ℝ)), Eigh H e vs → FlEigh (1 / 10 ^ 10) Hf ef M vf → ∀ k,
        |ef k - e k| ≤ n * (1 / 10 ^ 8) := by
  obtain ⟨H, Hf, h1, h2, -, h4⟩ := C81_cisd (w := 0) (a := 1) (b := 1) (h' := h) (I' := I) (cut_good (K := 10 ^ 10) (by norm_num) 4) le_rfl
    (fun p q => ⟨by simp, kh p q⟩) (fun p q r s => ⟨by simp, kI p q r s⟩) sh sI wI (nmo := 2) (N := 2) (by norm_num) (by norm_num) (-1) 1
  refine ⟨H, Hf, h1, h2, fun n e ef vs vf M hE hF k => (h4 n e ef vs vf _ M hE hF k).trans ?_⟩
  refine mul_le_mul_of_nonneg_left ?_ (Nat.cast_nonneg n)
  norm_num [abs_of_pos]

/-- an arithmetic in which 5 is not representable -/
noncomputable def noFive : Fl where
  rd x := if |x| = 5 then 6 / 5 * x else x
  ein L := (L.map List.prod).sum

theorem noFive_good (T : ℕ) : noFive.Good {x | |x| ≠ 5} T (1 / 5) 0 0 := by
  refine ⟨by norm_num, le_refl _, le_refl _, fun x => ?_, fun x hx => if_neg hx, fun x => ?_, fun x => ?_, by norm_num [abs_of_pos], fun L _ _ => by simp [noFive]⟩
  · simp only [noFive]
    split
    · rw [show 6 / 5 * x - x = 1 / 5 * x by ring, abs_mul, abs_of_pos (by norm_num : (0 : ℝ) < 1 / 5), add_zero]
    · rw [sub_self, abs_zero]; positivity
  · simp only [noFive, Set.mem_ofPred_eq]
    split
    · rename_i h
      rw [abs_mul, h]
      norm_num [abs_of_pos]
    · assumption
  · simp only [noFive, abs_neg]
    split
    · ring
    · rfl

/-- C81: elements between determinants that differ in one electron may depend on which determinant is called bra, even for real symmetric integrals that are stored without
error: `(h + J) - J` is rounded with the integrals over the electrons of the ket.  (`eigh` reads the lower triangle only.) -/
theorem C81_not_symmetric : ∃ (A : Fl) (F : Set ℝ) (h : ℕ → ℕ → ℝ) (I : ℕ → ℕ → ℕ → ℕ → ℝ) (x y : ℝ),
    (∀ T, A.Good F T (1 / 5) 0 0) ∧ SymU h h I I I ∧ (∀ p q, h p q ∈ F) ∧ (∀ p q r s, I p q r s ∈ F) ∧ x ≠ y ∧
    A.ci_matrixel ⟨2, [1, 0]⟩ ⟨2, [0, 0]⟩ ⟨2, [0, 1]⟩ ⟨2, [0, 0]⟩ h h I I I 0 = .ok x ∧
    A.ci_matrixel ⟨2, [0, 1]⟩ ⟨2, [0, 0]⟩ ⟨2, [1, 0]⟩ ⟨2, [0, 0]⟩ h h I I I 0 = .ok y := by
  refine ⟨noFive, _, fun p q => 1, fun p q r s => if p + q + r + s = 1 then 4 else 0, 1, 2, noFive_good,
    ⟨fun _ _ => rfl, fun _ _ => rfl, ?_, ?_, ?_, ?_, ?_⟩, ?_, ?_, by norm_num, ?_, ?_⟩
  iterate 2 (intro p q r s; simp only [show q + p + s + r = p + q + r + s by ring])
  iterate 3 (intro p q r s; simp only [show r + s + p + q = p + q + r + s by ring])
  · intro p q; norm_num [abs_of_pos]
  · intro p q r s
    simp only [Set.mem_ofPred_eq]
    split <;> norm_num [abs_of_pos]
  · have e1 : diff ⟨2, [1, 0]⟩ ⟨2, [0, 1]⟩ / 2 = 1 := by decide
    have e2 : diff ⟨2, [0, 0]⟩ ⟨2, [0, 0]⟩ / 2 = 0 := by decide
    have e3 : nonzero (minus (occdiff ⟨2, [1, 0]⟩ ⟨2, [0, 1]⟩)) = [1] := by decide
    have e4 : nonzero (plus (occdiff ⟨2, [1, 0]⟩ ⟨2, [0, 1]⟩)) = [0] := by decide
    have e5 : (parity [1, 0] 0 1 : ℝ) = 1 := if_pos (by decide)
    simp only [Fl.ci_matrixel, e1, e2, e3, e4, CI.get]
    norm_num [Fl.tr1, noFive, val, List.range_succ, e5, bind, Except.bind, pure, Except.pure]
  · have e1 : diff ⟨2, [0, 1]⟩ ⟨2, [1, 0]⟩ / 2 = 1 := by decide
    have e2 : diff ⟨2, [0, 0]⟩ ⟨2, [0, 0]⟩ / 2 = 0 := by decide
    have e3 : nonzero (minus (occdiff ⟨2, [0, 1]⟩ ⟨2, [1, 0]⟩)) = [0] := by decide
    have e4 : nonzero (plus (occdiff ⟨2, [0, 1]⟩ ⟨2, [1, 0]⟩)) = [1] := by decide
    have e5 : (parity [0, 1] 0 1 : ℝ) = 1 := if_pos (by decide)
    simp only [Fl.ci_matrixel, e1, e2, e3, e4, CI.get]
    norm_num [Fl.tr1, noFive, val, List.range_succ, e5, bind, Except.bind, pure, Except.pure]

/-- a double excitation in 4 orbitals, with an integral of 1 / 3 -/
example : (cut 10).ci_matrixel ⟨4, [1, 1, 0, 0]⟩ ⟨4, [1, 0, 0, 0]⟩ ⟨4, [0, 0, 1, 1]⟩ ⟨4, [1, 0, 0, 0]⟩ (fun _ _ => (0 : ℝ)) (fun _ _ => 0)
      (fun p q r s => if p + r = 2 ∧ q + s = 4 ∨ p + r = 4 ∧ q + s = 2 then 1 / 3 else 0) (fun _ _ _ _ => 0) (fun _ _ _ _ => 0) 7 =
    (cut 10).ci_matrixel ⟨4, [0, 0, 1, 1]⟩ ⟨4, [1, 0, 0, 0]⟩ ⟨4, [1, 1, 0, 0]⟩ ⟨4, [1, 0, 0, 0]⟩ (fun _ _ => (0 : ℝ)) (fun _ _ => 0)
      (fun p q r s => if p + r = 2 ∧ q + s = 4 ∨ p + r = 4 ∧ q + s = 2 then 1 / 3 else 0) (fun _ _ _ _ => 0) (fun _ _ _ _ => 0) 7 := by
  refine C81_symmetric (n := 4) (cut_good (K := 10) (by norm_num) 16)
    ⟨fun _ _ => rfl, fun _ _ => rfl, fun p q r s => if_congr (by tauto) rfl rfl, fun _ _ _ _ => rfl,
      fun p q r s => if_congr (by rw [add_comm r, add_comm s]) rfl rfl, fun _ _ _ _ => rfl, fun _ _ _ _ => rfl⟩
    ?_ ?_ ?_ ?_ rfl rfl rfl rfl ?_ ?_ ?_ 7
  iterate 4 exact ⟨by decide, by decide⟩
  all_goals decide

/-- products with vectors over all single and double excitations of 4 electrons in 5 orbitals -/
example (h : ℕ → ℕ → ℝ) (I : ℕ → ℕ → ℕ → ℕ → ℝ) (kh : ∀ p q, |h p q| ≤ 1) (kI : ∀ p q r s, |I p q r s| ≤ 1) (sI : ∀ p q r s, I p q r s = I q p s r) :
    ∃ B, ucisd_basis 5 2 2 = .ok B ∧ ∀ v : List ℝ, v.length = B.length → ∃ out z, (cut 1000).H_on_vec B v h h I I I = .ok out ∧ CI.H_on_vec B v h h I I I = .ok z ∧
      ∀ i, i < B.length → |out.getD i 0 - z.getD i 0| ≤
        ((1 + 0) * (1 + 0) * (1 + 1 / (1000 : ℕ)) ^ (7 + B.length) - 1) * ((1 * (4 : ℕ) + 2 * 1 * (4 : ℕ) ^ 2 + 11 * (1 / (1000 : ℕ))) * (v.map abs).sum + 2 * B.length * (1 / (1000 : ℕ))) := by
  obtain ⟨B, hB, he⟩ := C33_ucisd 5 2 2
  refine ⟨B, hB, fun v hv => ?_⟩
  obtain ⟨out, z, h1, h2, -, -, h5⟩ := C81_H_on_vec (w := 0) (a := 1) (b := 1) (ha' := h) (hb' := h) (Ia' := I) (Ib' := I) (Iabab' := I) (cut_good (K := 1000) (by norm_num) 25)
    ⟨le_rfl, fun p q => ⟨by simp, kh p q⟩, fun p q => ⟨by simp, kh p q⟩, fun p q r s => ⟨by simp, kI p q r s⟩, fun p q r s => ⟨by simp, kI p q r s⟩,
      fun p q r s => ⟨by simp, kI p q r s⟩⟩ sI sI he (n := 5) rfl rfl (by norm_num) (m := 4) (by decide) (by norm_num) hv
  exact ⟨out, z, h1, h2, h5⟩

end CI
