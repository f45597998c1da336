import Verif.Model.CITests
import Verif.Props.Cisd
/-!
# C83: the test of `H_on_vec`
-/
noncomputable section
namespace CI.Tests
open CI Fock

theorem basis_eq (nmo na : ℕ) : basis nmo na na = ucisd_basis nmo na na := by
  rw [basis, ucisd_basis, new_aufbau]; rfl

theorem norm_zero_iff (v : List ℝ) : norm v = 0 ↔ ∀ x ∈ v, x = 0 := by
  rw [norm, Real.sqrt_eq_zero (List.sum_nonneg (by simp only [List.mem_map]; rintro x ⟨y, -, rfl⟩; positivity))]
  induction v with
  | nil => simp
  | cons a v ih =>
    have h : 0 ≤ (v.map (· ^ 2)).sum := List.sum_nonneg (by simp only [List.mem_map]; rintro x ⟨y, -, rfl⟩; positivity)
    rw [List.map_cons, List.sum_cons, List.forall_mem_cons, ← ih, add_eq_zero_iff_of_nonneg (sq_nonneg a) h, sq_eq_zero_iff]

theorem norm_sub_self (v : List ℝ) : norm (List.zipWith (· - ·) v v) = 0 := by
  rw [norm_zero_iff]
  induction v with
  | nil => simp
  | cons a v ih => simpa using ih

/-- C83: `test_mat_on_vec_cisd` never raises, and holds for all sizes, all numbers of electrons (the same for both spins, as in the test), all draws and
all positive thresholds unless the Hamiltonian maps the vector drawn to zero: then it divides zero by zero and fails. -/
theorem C83_mat_on_vec (nmo na : ℕ) (h0 : ℕ → ℕ → ℝ) (I0 : ℕ → ℕ → ℕ → ℕ → ℝ) (v0 : ℕ → ℝ) (thresh : ℝ) (ht : 0 < thresh) :
    ∃ D : List (Dstring × Dstring), ucisd_basis nmo na na = .ok (D.map fun d => (some d.1, some d.2)) ∧
      (test_mat_on_vec_cisd nmo na na h0 I0 v0 thresh ↔
        ∃ b ∈ D, ∑ j ∈ Finset.range D.length, elt (spinHam nmo nmo (fun p q => h0 p q + h0 q p) (fun p q => h0 p q + h0 q p)
          (fun p q r s => I0 p q r s + I0 q p s r) (fun p q r s => I0 p q r s + I0 q p s r) fun p q r s => I0 p q r s + I0 q p s r)
          (psupp b) ((D.map psupp).getD j ∅) * v0 j ≠ 0) := by
  obtain ⟨B, hB, he⟩ := C33_ucisd nmo na na
  obtain ⟨D, hD, nd, hH⟩ := C79_matrix he (fun p q => h0 p q + h0 q p) (fun p q => h0 p q + h0 q p)
    (fun p q r s => I0 p q r s + I0 q p s r) (fun p q r s => I0 p q r s + I0 q p s r) (fun p q r s => I0 p q r s + I0 q p s r) 0
    (fun p q r s => add_comm _ _) (fun p q r s => add_comm _ _)
  have hl : B.length = D.length := by rw [hD, List.length_map]
  refine ⟨D, hB.trans (by rw [hD]), ?_⟩
  simp only [ite_self, add_zero] at hH
  have hv : ((List.range B.length).map v0).length = D.length := by simp [hl]
  have hr := applyRows_eq D (fun b k => elt (spinHam nmo nmo (fun p q => h0 p q + h0 q p) (fun p q => h0 p q + h0 q p)
          (fun p q r s => I0 p q r s + I0 q p s r) (fun p q r s => I0 p q r s + I0 q p s r) fun p q r s => I0 p q r s + I0 q p s r)
          (psupp b) (psupp k)) hv
  obtain ⟨D', hb⟩ := he.basis
  have hDD : D' = D := by
    have := hb.1.symm.trans hD
    exact List.map_injective_iff.mpr (fun a b h => by simpa [Prod.ext_iff] using h) this
  subst hDD
  have hN : ∀ d ∈ D', ∀ e ∈ D', (supp d.1).card = (supp e.1).card ∧ (supp d.2).card = (supp e.2).card := by
    have hm : ∀ d ∈ D', (supp d.1).card = (supp ⟨nmo, aufbau nmo na⟩).card ∧ (supp d.2).card = (supp ⟨nmo, aufbau nmo na⟩).card := by
      intro d hd
      have : (some d.1, some d.2) ∈ B := by rw [hD]; exact List.mem_map.2 ⟨d, hd, rfl⟩
      obtain ⟨da, db, k, l, e, h2, h3, -⟩ := (he.2 _).1 this
      simp only [Prod.mk.injEq, Option.some.injEq] at e
      obtain ⟨rfl, rfl⟩ := e
      exact ⟨h2.card, h3.card⟩
    exact fun d hd e he' => ⟨(hm d hd).1.trans (hm e he').1.symm, (hm d hd).2.trans (hm e he').2.symm⟩
  have ho := C38_H hb (vec := (List.range B.length).map v0) (by simp) (fun p q => h0 p q + h0 q p) (fun p q => h0 p q + h0 q p)
    (fun p q r s => I0 p q r s + I0 q p s r) (fun p q r s => I0 p q r s + I0 q p s r) (fun p q r s => I0 p q r s + I0 q p s r) hN
    (fun p q r s => add_comm _ _) (fun p q r s => add_comm _ _)
  have hM : ∀ i < D'.length, ∀ j < D'.length, matOf D' (fun b k => elt (spinHam nmo nmo (fun p q => h0 p q + h0 q p)
        (fun p q => h0 p q + h0 q p) (fun p q r s => I0 p q r s + I0 q p s r) (fun p q r s => I0 p q r s + I0 q p s r)
        fun p q r s => I0 p q r s + I0 q p s r) (psupp b) (psupp k)) i j =
      elt (spinHam nmo nmo (fun p q => h0 p q + h0 q p) (fun p q => h0 p q + h0 q p) (fun p q r s => I0 p q r s + I0 q p s r)
        (fun p q r s => I0 p q r s + I0 q p s r) fun p q r s => I0 p q r s + I0 q p s r) ((D'.map psupp).getD i ∅) ((D'.map psupp).getD j ∅) := by
    intro i hi j hj
    rw [matOf_some (List.getElem?_eq_getElem hi) (List.getElem?_eq_getElem hj)]
    simp [hi, hj]
  generalize hE : (spinHam nmo nmo (fun p q => h0 p q + h0 q p) (fun p q => h0 p q + h0 q p) (fun p q r s => I0 p q r s + I0 q p s r)
        (fun p q r s => I0 p q r s + I0 q p s r) fun p q r s => I0 p q r s + I0 q p s r) = E at *
  have hrow : matvec (matOf D' fun b k => elt E (psupp b) (psupp k)) ((List.range B.length).map v0) =
      matvec (fun k l => elt E ((D'.map psupp).getD k ∅) ((D'.map psupp).getD l ∅)) ((List.range B.length).map v0) := by
    simp only [matvec, hv]
    refine List.map_congr_left fun i hi => Finset.sum_congr rfl fun j hj => ?_
    rw [hM i (List.mem_range.mp hi) j (Finset.mem_range.mp hj)]
  rw [hrow] at hr
  simp only [test_mat_on_vec_cisd, basis_eq, hB, bind, Except.bind, pure, Except.pure, hH, hr, ho, norm_sub_self, zero_div, ht, and_true, ne_eq, norm_zero_iff,
    not_forall]
  simp only [matvec, hv]
  constructor
  · rintro ⟨x, hx, hx0⟩
    obtain ⟨i, hi, rfl⟩ := List.mem_map.mp hx
    have hi' := List.mem_range.mp hi
    refine ⟨D'[i], List.getElem_mem hi', fun h => hx0 (h ▸ Finset.sum_congr rfl fun j hj => ?_)⟩
    have := Finset.mem_range.mp hj
    simp [hi', hl, this]
  · rintro ⟨b, hb', hx0⟩
    obtain ⟨i, hi, rfl⟩ := List.getElem_of_mem hb'
    refine ⟨_, List.mem_map.mpr ⟨i, List.mem_range.mpr hi, rfl⟩, fun h => hx0 (h ▸ Finset.sum_congr rfl fun j hj => ?_)⟩
    have := Finset.mem_range.mp hj
    simp [hi, hl, this]

theorem one_el (x : ℝ) : ci_matrixel (K := ℝ) ⟨1, [1]⟩ ⟨1, [1]⟩ ⟨1, [1]⟩ ⟨1, [1]⟩ (fun _ _ => x) (fun _ _ => x) (fun _ _ _ _ => 0)
    (fun _ _ _ _ => 0) (fun _ _ _ _ => 0) 0 = .ok (x + x) := by
  simp [ci_matrixel, diff, level, tr1, coul, exch, val, pure, Except.pure]

theorem one_basis : basis 1 1 1 = .ok [(some ⟨1, [1]⟩, some ⟨1, [1]⟩)] := rfl

/-- the test holds for one orbital and one electron of either spin; it fails, on the correct functions, if all the integrals drawn are zero -/
example : test_mat_on_vec_cisd 1 1 1 (fun _ _ => 1) (fun _ _ _ _ => 0) (fun _ => 1) 1e-14 ∧
    ¬ test_mat_on_vec_cisd 1 1 1 (fun _ _ => 0) (fun _ _ _ _ => 0) (fun _ => 1) 1e-14 := by
  constructor <;>
    simp [test_mat_on_vec_cisd, one_basis, naive_matrix, H_on_vec, strings, one_el, enum, loop, CI.get, addAt, zeros, applyRows, norm, bind,
      Except.bind, pure, Except.pure]
  norm_num

end CI.Tests
end
