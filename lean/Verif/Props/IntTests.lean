import Verif.Model.IntTests
import Verif.Props.KEx
import Verif.Props.Util
import Mathlib.Algebra.CharP.Two
/-!
# C86: the tests of integrals.py hold for every molecule and solid

The tests compare integrals.py with pyscf on one molecule and a few small solids.  Here the integrals over the basis functions, the core Hamiltonian, the
orbitals and the numbers of electrons are arbitrary; the assertions of the tests then hold with any threshold, given pyscf's definitions of the Fock matrix, the energy
and the coupled-cluster integrals (Model/IntTests).
-/
set_option linter.unusedSectionVars false
set_option linter.unusedSimpArgs false
set_option linter.unusedVariables false

noncomputable section
namespace Eri.Tests
open scoped BigOperators
open Finset (range)
open CC.Num (Arr2)
variable {𝕜 : Type} [RCLike 𝕜]

/-- The integrals of two electrons are unchanged when the electrons are exchanged. -/
def EriSym (eri : ℕ → ℕ → ℕ → ℕ → 𝕜) : Prop := ∀ m n l s, eri m n l s = eri l s m n

theorem mo_sym {nao : ℕ} {eri : ℕ → ℕ → ℕ → ℕ → 𝕜} (h : EriSym eri) : Sym (mo nao eri) := by
  intro p q r s
  unfold mo
  rw [Finset.sum_congr rfl fun μ _ => Finset.sum_comm (γ := ℕ) (f := fun ν l => ∑ σ ∈ range nao, star (p μ) * q ν * star (r l) * s σ * eri μ ν l σ),
    Finset.sum_comm]
  refine Finset.sum_congr rfl fun l _ => ?_
  rw [Finset.sum_congr rfl fun μ _ => Finset.sum_comm (γ := ℕ) (f := fun ν σ => star (p μ) * q ν * star (r l) * s σ * eri μ ν l σ), Finset.sum_comm]
  refine Finset.sum_congr rfl fun σ _ => Finset.sum_congr rfl fun μ _ => Finset.sum_congr rfl fun ν _ => ?_
  rw [h μ ν l σ]; ring

/-! ### equal arrays pass -/

theorem near4_of_eq {A B : Arr 𝕜} {t : ℝ} (ht : 0 < t) (h1 : A.n1 = B.n1) (h2 : A.n2 = B.n2) (h3 : A.n3 = B.n3) (h4 : A.n4 = B.n4)
    (h : ∀ p < A.n1, ∀ q < A.n2, ∀ r < A.n3, ∀ s < A.n4, A.val p q r s = B.val p q r s) : near4 A B t := by
  refine ⟨_, by rw [Arr.sub, if_pos ⟨h1, h2, h3, h4⟩], ?_⟩
  unfold norm4
  rw [Finset.sum_eq_zero, Real.sqrt_zero]
  · exact ht
  · intro p hp
    refine Finset.sum_eq_zero fun q hq => Finset.sum_eq_zero fun r hr => Finset.sum_eq_zero fun s hs => ?_
    simp only [Finset.mem_range] at hp hq hr hs
    simp [h p hp q hq r hr s hs]

theorem near4_of_tab {α : Type} {A B : Arr 𝕜} {L1 L2 L3 L4 : List α} {f : α → α → α → α → 𝕜} {t : ℝ} (ht : 0 < t)
    (hA : Tabulates A L1 L2 L3 L4 f) (hB : Tabulates B L1 L2 L3 L4 f) : near4 A B t := by
  obtain ⟨⟨a1, a2, a3, a4⟩, a⟩ := hA
  obtain ⟨⟨b1, b2, b3, b4⟩, b⟩ := hB
  refine near4_of_eq ht (a1.trans b1.symm) (a2.trans b2.symm) (a3.trans b3.symm) (a4.trans b4.symm) fun p hp q hq r hr s hs => ?_
  rw [a1] at hp; rw [a2] at hq; rw [a3] at hr; rw [a4] at hs
  rw [a p q r s hp hq hr hs, b p q r s hp hq hr hs]

theorem near2_of_eq {A B : Arr2 𝕜} {t : ℝ} (ht : 0 < t) (h1 : A.rows = B.rows) (h2 : A.cols = B.cols)
    (h : ∀ p < A.rows, ∀ q < A.cols, A.val p q = B.val p q) : near2 A B t := by
  refine ⟨h1, h2, ?_⟩
  rw [Finset.sum_eq_zero, Real.sqrt_zero]
  · exact ht
  · intro p hp
    refine Finset.sum_eq_zero fun q hq => ?_
    simp only [Finset.mem_range] at hp hq
    simp [h p hp q hq]

/-! ### what passing means -/

/-- C86: a comparison of matrices in these tests passes only if every element is within the threshold, and passes if all are within the threshold divided by the
square root of the number of elements. -/
theorem C86_near2 {A B : Arr2 𝕜} {t : ℝ} : (near2 A B t → ∀ p < A.rows, ∀ q < A.cols, ‖A.val p q - B.val p q‖ < t) ∧
    (A.rows = B.rows → A.cols = B.cols → ∀ e, 0 ≤ e → (∀ p < A.rows, ∀ q < A.cols, ‖A.val p q - B.val p q‖ ≤ e) →
      Real.sqrt (A.rows * A.cols) * e < t → near2 A B t) := by
  constructor
  · rintro ⟨-, -, h⟩ p hp q hq
    refine lt_of_le_of_lt (Real.le_sqrt_of_sq_le ?_) h
    exact (Finset.single_le_sum (f := fun q => ‖A.val p q - B.val p q‖ ^ 2) (fun _ _ => sq_nonneg _) (Finset.mem_range.2 hq)).trans
      (Finset.single_le_sum (f := fun p => ∑ q ∈ range A.cols, ‖A.val p q - B.val p q‖ ^ 2)
        (fun _ _ => Finset.sum_nonneg fun _ _ => sq_nonneg _) (Finset.mem_range.2 hp))
  · intro h1 h2 e he h ht
    refine ⟨h1, h2, lt_of_le_of_lt (Real.sqrt_le_iff.2 ⟨by positivity, ?_⟩) ht⟩
    rw [mul_pow, Real.sq_sqrt (by positivity)]
    calc ∑ p ∈ range A.rows, ∑ q ∈ range A.cols, ‖A.val p q - B.val p q‖ ^ 2
        ≤ ∑ p ∈ range A.rows, ∑ q ∈ range A.cols, e ^ 2 := Finset.sum_le_sum fun p hp => Finset.sum_le_sum fun q hq =>
          pow_le_pow_left₀ (norm_nonneg _) (h p (Finset.mem_range.1 hp) q (Finset.mem_range.1 hq)) 2
      _ = A.rows * A.cols * e ^ 2 := by simp only [Finset.sum_const, Finset.card_range, nsmul_eq_mul]; ring

/-- C86: the same for arrays with four axes. -/
theorem C86_near4 {A B : Arr 𝕜} {t : ℝ} :
    (near4 A B t → ∀ p < A.n1, ∀ q < A.n2, ∀ r < A.n3, ∀ s < A.n4, ‖A.val p q r s - B.val p q r s‖ < t) ∧
    (A.n1 = B.n1 → A.n2 = B.n2 → A.n3 = B.n3 → A.n4 = B.n4 → ∀ e, 0 ≤ e →
      (∀ p < A.n1, ∀ q < A.n2, ∀ r < A.n3, ∀ s < A.n4, ‖A.val p q r s - B.val p q r s‖ ≤ e) →
      Real.sqrt (A.n1 * A.n2 * A.n3 * A.n4) * e < t → near4 A B t) := by
  constructor
  · rintro ⟨C, hC, h⟩ p hp q hq r hr s hs
    rw [Arr.sub] at hC
    split_ifs at hC
    cases hC
    refine lt_of_le_of_lt (Real.le_sqrt_of_sq_le ?_) h
    exact (Finset.single_le_sum (f := fun s => ‖A.val p q r s - B.val p q r s‖ ^ 2) (fun _ _ => sq_nonneg _) (Finset.mem_range.2 hs)).trans
      ((Finset.single_le_sum (f := fun r => ∑ s ∈ range A.n4, ‖A.val p q r s - B.val p q r s‖ ^ 2)
        (fun _ _ => Finset.sum_nonneg fun _ _ => sq_nonneg _) (Finset.mem_range.2 hr)).trans
      ((Finset.single_le_sum (f := fun q => ∑ r ∈ range A.n3, ∑ s ∈ range A.n4, ‖A.val p q r s - B.val p q r s‖ ^ 2)
        (fun _ _ => Finset.sum_nonneg fun _ _ => Finset.sum_nonneg fun _ _ => sq_nonneg _) (Finset.mem_range.2 hq)).trans
      (Finset.single_le_sum (f := fun p => ∑ q ∈ range A.n2, ∑ r ∈ range A.n3, ∑ s ∈ range A.n4, ‖A.val p q r s - B.val p q r s‖ ^ 2)
        (fun _ _ => Finset.sum_nonneg fun _ _ => Finset.sum_nonneg fun _ _ => Finset.sum_nonneg fun _ _ => sq_nonneg _) (Finset.mem_range.2 hp))))
  · intro h1 h2 h3 h4 e he h ht
    refine ⟨_, by rw [Arr.sub, if_pos ⟨h1, h2, h3, h4⟩], lt_of_le_of_lt (Real.sqrt_le_iff.2 ⟨by positivity, ?_⟩) ht⟩
    rw [mul_pow, Real.sq_sqrt (by positivity)]
    calc ∑ p ∈ range A.n1, ∑ q ∈ range A.n2, ∑ r ∈ range A.n3, ∑ s ∈ range A.n4, ‖A.val p q r s - B.val p q r s‖ ^ 2
        ≤ ∑ p ∈ range A.n1, ∑ q ∈ range A.n2, ∑ r ∈ range A.n3, ∑ s ∈ range A.n4, e ^ 2 :=
          Finset.sum_le_sum fun p hp => Finset.sum_le_sum fun q hq => Finset.sum_le_sum fun r hr => Finset.sum_le_sum fun s hs =>
          pow_le_pow_left₀ (norm_nonneg _) (h p (Finset.mem_range.1 hp) q (Finset.mem_range.1 hq) r (Finset.mem_range.1 hr) s (Finset.mem_range.1 hs)) 2
      _ = A.n1 * A.n2 * A.n3 * A.n4 * e ^ 2 := by simp only [Finset.sum_const, Finset.card_range, nsmul_eq_mul]; ring

/-- A difference of 3 in both elements of a row passes with threshold 5 and not with threshold 3. -/
example : near2 (𝕜 := ℝ) ⟨1, 2, fun _ _ => 3⟩ ⟨1, 2, fun _ _ => 0⟩ 5 ∧ ¬ near2 (𝕜 := ℝ) ⟨1, 2, fun _ _ => 3⟩ ⟨1, 2, fun _ _ => 0⟩ 3 := by
  refine ⟨C86_near2.2 rfl rfl 3 (by norm_num) (by simp) ?_, fun h => ?_⟩
  · change Real.sqrt (((1 : ℕ) : ℝ) * ((2 : ℕ) : ℝ)) * 3 < 5
    have : Real.sqrt (((1 : ℕ) : ℝ) * ((2 : ℕ) : ℝ)) < 5 / 3 := (Real.sqrt_lt' (by norm_num)).2 (by norm_num)
    exact lt_of_lt_of_eq (mul_lt_mul_of_pos_right this (by norm_num)) (by norm_num)
  · have := C86_near2.1 h 0 (by norm_num) 0 (by norm_num)
    norm_num at this

theorem tab_ao2mo {g : Form (Orb 𝕜) 𝕜} (o1 o2 o3 o4 : List (Orb 𝕜)) : Tabulates (ao2mo g o1 o2 o3 o4) o1 o2 o3 o4 g := by
  refine ⟨⟨rfl, rfl, rfl, rfl⟩, fun p q r s hp hq hr hs => ?_⟩
  simp [ao2mo, hp, hq, hr, hs]

/-! ### `test_phys`, `test_sol_phys`, `test_u` -/

theorem col_ok {mos : List (Orb 𝕜)} {i : ℕ} (h : i < mos.length) : ∃ c, col mos i = .ok [c] := ⟨mos[i], by simp [col, h]⟩

/-- C86: `test_phys` holds for any molecule with two orbitals of either spin, `test_sol_phys` for any solid with four orbitals. -/
theorem C86_test_phys (g : Form (Orb 𝕜) 𝕜) (solid : Bool) (moa mob : List (Orb 𝕜)) (ha : (if solid then 4 else 2) ≤ moa.length)
    (hb : solid = false → 2 ≤ mob.length) {thresh : ℝ} (ht : 0 < thresh) : test_phys g solid moa mob thresh := by
  have two : 2 ≤ moa.length := by cases solid <;> simp at ha <;> omega
  obtain ⟨c1, e1⟩ := col_ok (mos := moa) (i := 0) (by omega)
  obtain ⟨c2, e2⟩ := col_ok (mos := moa) (i := 1) (by omega)
  have e3 : ∃ c3, (if solid then col moa 2 else col mob 0) = .ok [c3] := by
    cases solid
    · exact col_ok (by have := hb rfl; omega)
    · exact col_ok (by simp at ha; omega)
  have e4 : ∃ c4, (if solid then col moa 3 else col mob 1) = .ok [c4] := by
    cases solid
    · exact col_ok (by have := hb rfl; omega)
    · exact col_ok (by simp at ha; omega)
  obtain ⟨c3, e3⟩ := e3
  obtain ⟨c4, e4⟩ := e4
  obtain ⟨A, eA, hA⟩ := C39_get_chem g [c1] [c3] [c2] [c4] true
  obtain ⟨B, eB, hB⟩ := C39_get_phys g [c1] [c2] [c3] [c4] true
  have hA' := hA.t0213
  have fin : ‖A.t0213.val 0 0 0 0 - B.val 0 0 0 0‖ < thresh := by
    rw [hA'.2 0 0 0 0 (by simp) (by simp) (by simp) (by simp), hB.2 0 0 0 0 (by simp) (by simp) (by simp) (by simp)]
    simpa using ht
  unfold test_phys
  cases solid
  all_goals
    simp only [Bool.false_eq_true, if_true, if_false] at e3 e4
    simp only [e1, e2, e3, e4, eA, eB, bind, Except.bind, pure, Except.pure, Bool.false_eq_true, if_true, if_false]
    exact fin

/-- C86: `test_u` holds for any molecule. -/
theorem C86_test_u {g : Form (Orb 𝕜) 𝕜} (hg : Sym g) (moa mob : List (Orb 𝕜)) {thresh : ℝ} (ht : 0 < thresh) : test_u g moa mob thresh := by
  obtain ⟨A, eA, hA⟩ := C39_get_chemu g moa moa moa moa mob mob mob mob true
  obtain ⟨B, eB, hB⟩ := C39_get_chemu_all hg moa mob true
  unfold test_u
  rw [eA, eB]
  exact near4_of_tab ht hA hB

/-! ### Fock matrices -/

section fock
variable (nao : ℕ) (eri : ℕ → ℕ → ℕ → ℕ → 𝕜)

theorem vj_add (D E : ℕ → ℕ → 𝕜) (m n : ℕ) : vj nao eri (fun m n => D m n + E m n) m n = vj nao eri D m n + vj nao eri E m n := by
  simp only [vj, mul_add, Finset.sum_add_distrib]

theorem vk_add (D E : ℕ → ℕ → 𝕜) (m n : ℕ) : vk nao eri (fun m n => D m n + E m n) m n = vk nao eri D m n + vk nao eri E m n := by
  simp only [vk, mul_add, Finset.sum_add_distrib]

theorem vj_smul (c : 𝕜) (D : ℕ → ℕ → 𝕜) (m n : ℕ) : vj nao eri (fun m n => c * D m n) m n = c * vj nao eri D m n := by
  simp only [vj, Finset.mul_sum]
  exact Finset.sum_congr rfl fun l _ => Finset.sum_congr rfl fun s _ => by ring

theorem vk_smul (c : 𝕜) (D : ℕ → ℕ → 𝕜) (m n : ℕ) : vk nao eri (fun m n => c * D m n) m n = c * vk nao eri D m n := by
  simp only [vk, Finset.mul_sum]
  exact Finset.sum_congr rfl fun l _ => Finset.sum_congr rfl fun s _ => by ring

theorem dm_cons (c : Orb 𝕜) (l : List (Orb 𝕜)) : dm (c :: l) = fun m n => c m * star (c n) + dm l m n := by
  funext m n; simp [dm]

/-- matrix element of an operator given over basis functions -/
def el (a b : Orb 𝕜) (v : ℕ → ℕ → 𝕜) : 𝕜 := ∑ m ∈ range nao, ∑ n ∈ range nao, star (a m) * v m n * b n

theorem el_add (a b : Orb 𝕜) (v w : ℕ → ℕ → 𝕜) : el nao a b (fun m n => v m n + w m n) = el nao a b v + el nao a b w := by
  simp only [el, mul_add, add_mul, Finset.sum_add_distrib]

theorem el_sub (a b : Orb 𝕜) (v w : ℕ → ℕ → 𝕜) : el nao a b (fun m n => v m n - w m n) = el nao a b v - el nao a b w := by
  simp only [el, mul_sub, sub_mul, Finset.sum_sub_distrib]

/-- The Coulomb matrix over orbitals. -/
theorem sum_J (a b : Orb 𝕜) (occ : List (Orb 𝕜)) : (occ.map fun c => mo nao eri a b c c).sum = el nao a b (vj nao eri (dm occ)) := by
  induction occ with
  | nil => simp [el, vj, dm]
  | cons c l ih =>
    have e : vj nao eri (dm (c :: l)) = fun m n => vj nao eri (fun m n => c m * star (c n)) m n + vj nao eri (dm l) m n := by
      rw [dm_cons]; funext m n; exact vj_add ..
    rw [List.map_cons, List.sum_cons, ih, e, el_add]
    congr 1
    unfold mo el vj
    refine Finset.sum_congr rfl fun m _ => Finset.sum_congr rfl fun n _ => ?_
    simp only [Finset.mul_sum, Finset.sum_mul]
    exact Finset.sum_congr rfl fun l _ => Finset.sum_congr rfl fun s _ => by ring

/-- The exchange matrix over orbitals. -/
theorem sum_X (a b : Orb 𝕜) (occ : List (Orb 𝕜)) : (occ.map fun c => mo nao eri a c c b).sum = el nao a b (vk nao eri (dm occ)) := by
  induction occ with
  | nil => simp [el, vk, dm]
  | cons c l ih =>
    have e : vk nao eri (dm (c :: l)) = fun m n => vk nao eri (fun m n => c m * star (c n)) m n + vk nao eri (dm l) m n := by
      rw [dm_cons]; funext m n; exact vk_add ..
    rw [List.map_cons, List.sum_cons, ih, e, el_add]
    congr 1
    unfold mo el vk
    refine Finset.sum_congr rfl fun m _ => ?_
    simp only [Finset.mul_sum, Finset.sum_mul]
    rw [Finset.sum_congr rfl fun n _ => Finset.sum_comm, Finset.sum_comm]
    exact Finset.sum_congr rfl fun s _ => Finset.sum_congr rfl fun n _ => Finset.sum_congr rfl fun l _ => by ring

end fock

theorem sum_take (L : List (Orb 𝕜)) (k : ℕ) (f : Orb 𝕜 → 𝕜) :
    ∑ i ∈ range L.length, (if (i : ℤ) < (k : ℤ) then f (L.getD i default) else 0) = ((L.take k).map f).sum := by
  induction L generalizing k with
  | nil => simp
  | cons a L ih =>
    rw [List.length_cons, Finset.sum_range_succ']
    cases k with
    | zero =>
      rw [Finset.sum_eq_zero fun i _ => if_neg (by push_cast; omega)]; simp
    | succ k =>
      have : ∀ i : ℕ, ((((i + 1 : ℕ) : ℤ)) < (((k + 1 : ℕ)) : ℤ)) = ((i : ℤ) < (k : ℤ)) := fun i => by push_cast; simp
      simp only [this, List.getD_cons_succ, ih k]
      simp [add_comm]

/-- The contraction of the antisymmetrised spin-orbital integrals with a diagonal density, `⟨PQ||RQ⟩` summed over occupied `Q`. -/
theorem contract_ok (swap : Bool) {g : Form (Orb 𝕜) 𝕜} {moa mob : List (Orb 𝕜)} (hl : mob.length = moa.length) {na nb : ℕ} {A : Arr 𝕜}
    (hA : Tabulates A (sorb moa mob) (sorb moa mob) (sorb moa mob) (sorb moa mob) (physA g)) {p : Arr2 𝕜}
    (hp : block_diag ⟨moa.length, moa.length, fun i j => if i = j ∧ (i : ℤ) < (na : ℤ) then 1 else 0⟩
      ⟨moa.length, moa.length, fun i j => if i = j ∧ (i : ℤ) < (nb : ℤ) then 1 else 0⟩ = .ok p) :
    ∃ J, contract swap A p = .ok J ∧ J.rows = (sorb moa mob).length ∧ J.cols = (sorb moa mob).length ∧
      ∀ P R (hP : P < (sorb moa mob).length) (hR : R < (sorb moa mob).length), J.val P R =
        ((moa.take na).map fun c => physA g (sorb moa mob)[P] (true, c) (sorb moa mob)[R] (true, c)).sum
        + ((mob.take nb).map fun c => physA g (sorb moa mob)[P] (false, c) (sorb moa mob)[R] (false, c)).sum := by
  obtain ⟨M, eM, r, c, h1, h2, h3, h4⟩ := CC.Num.C25_block_diag (K := 𝕜)
    ⟨moa.length, moa.length, fun i j => if i = j ∧ (i : ℤ) < (na : ℤ) then 1 else 0⟩
    ⟨moa.length, moa.length, fun i j => if i = j ∧ (i : ℤ) < (nb : ℤ) then 1 else 0⟩
  rw [block_diag, eM] at hp
  cases hp
  simp only at r c h1 h2 h3 h4
  have hn : (sorb moa mob).length = moa.length + moa.length := by rw [length_sorb, hl]
  have hn' : moa.length + moa.length = (sorb moa mob).length := hn.symm
  unfold contract
  have d : A.n2 = (if swap then p.cols else p.rows) ∧ A.n4 = (if swap then p.rows else p.cols) := by
    rw [hA.1.2.1, hA.1.2.2.2, r, c, hn]; simp
  rw [if_pos d]
  refine ⟨_, rfl, hA.1.1, hA.1.2.2.1, fun P R hP hR => ?_⟩
  simp only [hA.1.2.1, hA.1.2.2.2, hn]
  -- the density is diagonal
  have lo : ∀ Q < moa.length, ∀ S < moa.length + moa.length,
      (if swap then p.val S Q else p.val Q S) = if S = Q then (if (Q : ℤ) < (na : ℤ) then 1 else 0) else 0 := by
    intro Q hQ S hS
    by_cases c : S < moa.length
    · rw [h1 Q hQ S c, h1 S c Q hQ]
      by_cases e : S = Q
      · subst e; simp
      · simp [e, Ne.symm e]
    · obtain ⟨j, rfl⟩ := Nat.exists_eq_add_of_le (Nat.le_of_not_lt c)
      rw [h3 Q hQ j (by omega), h4 j (by omega) Q hQ, ite_self, if_neg (by omega)]
  have hi : ∀ Q < moa.length, ∀ S < moa.length + moa.length,
      (if swap then p.val S (moa.length + Q) else p.val (moa.length + Q) S) = if S = moa.length + Q then (if (Q : ℤ) < (nb : ℤ) then 1 else 0) else 0 := by
    intro Q hQ S hS
    by_cases c : S < moa.length
    · rw [h3 S c Q hQ, h4 Q hQ S c, ite_self, if_neg (by omega)]
    · obtain ⟨j, rfl⟩ := Nat.exists_eq_add_of_le (Nat.le_of_not_lt c)
      rw [h2 Q hQ j (by omega), h2 j (by omega) Q hQ]
      by_cases e : j = Q
      · subst e; simp
      · simp [e, Ne.symm e]
  rw [Finset.sum_range_add]
  rw [← sum_take moa na (fun c => physA g (sorb moa mob)[P] (true, c) (sorb moa mob)[R] (true, c)),
    ← sum_take mob nb (fun c => physA g (sorb moa mob)[P] (false, c) (sorb moa mob)[R] (false, c)), hl]
  congr 1
  · refine Finset.sum_congr rfl fun Q hQ => ?_
    rw [Finset.mem_range] at hQ
    rw [Finset.sum_congr rfl fun S hS => by rw [lo Q hQ S (Finset.mem_range.1 hS)]]
    simp only [mul_ite, mul_one, mul_zero]
    rw [Finset.sum_ite_eq' , if_pos (Finset.mem_range.2 (by omega))]
    have hQ' : Q < (sorb moa mob).length := by omega
    rw [hA.2 P Q R Q hP hQ' hR hQ', sorb_lt hQ hQ']
  · refine Finset.sum_congr rfl fun Q hQ => ?_
    rw [Finset.mem_range] at hQ
    rw [Finset.sum_congr rfl fun S hS => by rw [hi Q hQ S (Finset.mem_range.1 hS)]]
    simp only [mul_ite, mul_one, mul_zero]
    rw [Finset.sum_ite_eq' , if_pos (Finset.mem_range.2 (by omega))]
    have hQ' : moa.length + Q < (sorb moa mob).length := by omega
    rw [hA.2 P _ R _ hP hQ' hR hQ', sorb_ge (by omega) hQ', Nat.add_sub_cancel_left]

/-- `⟨PQ||RQ⟩` summed over occupied `Q` is the two-electron part of the Fock matrix. -/
theorem jk_eq (nao : ℕ) (eri : ℕ → ℕ → ℕ → ℕ → 𝕜) (la lb : List (Orb 𝕜)) (P R : SOrb (Orb 𝕜)) :
    (la.map fun c => physA (mo nao eri) P (true, c) R (true, c)).sum + (lb.map fun c => physA (mo nao eri) P (false, c) R (false, c)).sum
      = if P.1 = R.1 then el nao P.2 R.2 (vj nao eri (fun m n => dm la m n + dm lb m n))
          - el nao P.2 R.2 (vk nao eri (dm (if P.1 then la else lb))) else 0 := by
  have e : vj nao eri (fun m n => dm la m n + dm lb m n) = fun m n => vj nao eri (dm la) m n + vj nao eri (dm lb) m n := by
    funext m n; exact vj_add ..
  rw [e, el_add, ← sum_J, ← sum_J, ← sum_X]
  obtain ⟨σ, a⟩ := P
  obtain ⟨τ, b⟩ := R
  have sub : ∀ (l : List (Orb 𝕜)) (f k : Orb 𝕜 → 𝕜), (l.map fun c => f c - k c).sum = (l.map f).sum - (l.map k).sum := by
    intro l f k
    induction l with
    | nil => simp
    | cons c l ih => simp only [List.map_cons, List.sum_cons, ih]; ring
  simp only [physA, phys, chem]
  cases σ <;> cases τ <;> simp [sub] <;> ring

theorem diagOnes_ok {n : ℕ} {k : ℕ} (h : k ≤ n) :
    diagOnes (𝕜 := 𝕜) n (k : ℤ) = .ok ⟨n, n, fun i j => if i = j ∧ (i : ℤ) < (k : ℤ) then 1 else 0⟩ := by
  rw [diagOnes, if_neg]; omega

/-- The part common to the tests of Fock matrices. -/
theorem fock_core (swap : Bool) (nao : ℕ) {eri : ℕ → ℕ → ℕ → ℕ → 𝕜} (hs : EriSym eri) {moa mob : List (Orb 𝕜)} (hl : mob.length = moa.length) {na nb : ℕ}
    (hna : na ≤ moa.length) (hnb : nb ≤ moa.length) {va vb : ℕ → ℕ → 𝕜}
    (hva : ∀ m n, va m n = vj nao eri (fun m n => dm (moa.take na) m n + dm (mob.take nb) m n) m n - vk nao eri (dm (moa.take na)) m n)
    (hvb : ∀ m n, vb m n = vj nao eri (fun m n => dm (moa.take na) m n + dm (mob.take nb) m n) m n - vk nao eri (dm (mob.take nb)) m n) :
    ∃ vtot JK, (do
      let pmoa ← diagOnes moa.length (na : ℤ)
      let pmob ← diagOnes moa.length (nb : ℤ)
      let p ← block_diag pmoa pmob
      let eri ← get_physu_all (mo nao eri) moa mob true
      let JK ← contract swap eri p
      let vtot ← block_diag (toMO nao moa va) (toMO nao mob vb)
      return (vtot, JK) : R (Arr2 𝕜 × Arr2 𝕜)) = .ok (vtot, JK) ∧ vtot.rows = JK.rows ∧ vtot.cols = JK.cols ∧
      ∀ P < vtot.rows, ∀ R < vtot.cols, vtot.val P R = JK.val P R := by
  obtain ⟨A, eA, hA⟩ := C39_get_physu_all (mo_sym (nao := nao) hs) moa mob true
  obtain ⟨p, ep, -⟩ := CC.Num.C25_block_diag (K := 𝕜)
    ⟨moa.length, moa.length, fun i j => if i = j ∧ (i : ℤ) < (na : ℤ) then 1 else 0⟩
    ⟨moa.length, moa.length, fun i j => if i = j ∧ (i : ℤ) < (nb : ℤ) then 1 else 0⟩
  have ep' : block_diag (𝕜 := 𝕜) ⟨moa.length, moa.length, fun i j => if i = j ∧ (i : ℤ) < (na : ℤ) then 1 else 0⟩
    ⟨moa.length, moa.length, fun i j => if i = j ∧ (i : ℤ) < (nb : ℤ) then 1 else 0⟩ = .ok p := by rw [block_diag, ep]
  obtain ⟨J, eJ, jr, jc, hJ⟩ := contract_ok swap hl (by simpa using hA) ep'
  obtain ⟨M, eM, r, c, h1, h2, h3, h4⟩ := CC.Num.C25_block_diag (toMO nao moa va) (toMO nao mob vb)
  have eM' : block_diag (toMO nao moa va) (toMO nao mob vb) = .ok M := by rw [block_diag, eM]
  refine ⟨M, J, ?_, ?_, ?_, ?_⟩
  · simp only [diagOnes_ok hna, diagOnes_ok hnb, bind, Except.bind, ep', eA, eJ, eM', pure, Except.pure]
  · rw [r, jr, length_sorb]; rfl
  · rw [c, jc, length_sorb]; rfl
  intro P hP R hR
  rw [r] at hP
  rw [c] at hR
  change P < moa.length + mob.length at hP
  change R < moa.length + mob.length at hR
  simp only [toMO] at h1 h2 h3 h4
  have hP' : P < (sorb moa mob).length := by rw [length_sorb]; exact hP
  have hR' : R < (sorb moa mob).length := by rw [length_sorb]; exact hR
  rw [hJ P R hP' hR', jk_eq]
  have dflt : (default : Orb 𝕜) = fun _ => 0 := rfl
  have eva : ∀ a b : Orb 𝕜, (∑ m ∈ range nao, ∑ n ∈ range nao, star (a m) * va m n * b n)
      = el nao a b (vj nao eri (fun m n => dm (moa.take na) m n + dm (mob.take nb) m n)) - el nao a b (vk nao eri (dm (moa.take na))) := by
    intro a b; rw [← el_sub]; unfold el; simp only [hva]
  have evb : ∀ a b : Orb 𝕜, (∑ m ∈ range nao, ∑ n ∈ range nao, star (a m) * vb m n * b n)
      = el nao a b (vj nao eri (fun m n => dm (moa.take na) m n + dm (mob.take nb) m n)) - el nao a b (vk nao eri (dm (mob.take nb))) := by
    intro a b; rw [← el_sub]; unfold el; simp only [hvb]
  by_cases c1 : P < moa.length <;> by_cases c2 : R < moa.length
  · rw [h1 P c1 R c2, sorb_lt c1 hP', sorb_lt c2 hR', eva, dflt]; simp
  · obtain ⟨j, rfl⟩ := Nat.exists_eq_add_of_le (Nat.le_of_not_lt c2)
    rw [h3 P c1 j (by omega), sorb_lt c1 hP', sorb_ge c2 hR']; simp
  · obtain ⟨j, rfl⟩ := Nat.exists_eq_add_of_le (Nat.le_of_not_lt c1)
    rw [h4 j (by omega) R c2, sorb_ge c1 hP', sorb_lt c2 hR']; simp
  · obtain ⟨i, rfl⟩ := Nat.exists_eq_add_of_le (Nat.le_of_not_lt c1)
    obtain ⟨j, rfl⟩ := Nat.exists_eq_add_of_le (Nat.le_of_not_lt c2)
    rw [h2 i (by omega) j (by omega), sorb_ge c1 hP', sorb_ge c2 hR', Nat.add_sub_cancel_left, Nat.add_sub_cancel_left, evb, dflt]; simp

/-- C86: the number of alpha electrons used in the tests is pyscf's exactly for `spin ≤ 1`. -/
theorem C86_na {nelectron spin : ℕ} (h : spin ≤ nelectron) (par : nelectron % 2 = spin % 2) :
    nelectron / 2 + spin = (nelec nelectron spin).1 ↔ spin ≤ 1 := by
  simp only [nelec]; omega

/-- C86: `test_fock` holds for any molecule with at most one unpaired electron. -/
theorem C86_test_fock (nao : ℕ) {eri : ℕ → ℕ → ℕ → ℕ → 𝕜} (hs : EriSym eri) (h1 : ℕ → ℕ → 𝕜) {moa mob : List (Orb 𝕜)} (hl : mob.length = moa.length)
    {nelectron spin : ℕ} (h : spin ≤ nelectron) (par : nelectron % 2 = spin % 2) (one : spin ≤ 1) (fit : (nelec nelectron spin).1 ≤ moa.length)
    {thresh : ℝ} (ht : 0 < thresh) : test_fock nao eri h1 moa mob nelectron spin thresh := by
  have ea : ((nelectron : ℤ) / 2 + spin) = (((nelec nelectron spin).1 : ℕ) : ℤ) := by rw [← (C86_na h par).2 one]; push_cast; rfl
  have eb : (nelectron : ℤ) - (((nelec nelectron spin).1 : ℕ) : ℤ) = (((nelec nelectron spin).2 : ℕ) : ℤ) := by simp only [nelec]; omega
  have hnb : (nelec nelectron spin).2 ≤ moa.length := le_trans (by simp only [nelec]; omega) fit
  obtain ⟨vtot, JK, e, r, c, hv⟩ := fock_core false nao hs hl (na := (nelec nelectron spin).1) (nb := (nelec nelectron spin).2) fit hnb
    (va := fun m n => (uhf_fock nao eri h1 (moa.take (nelec nelectron spin).1) (mob.take (nelec nelectron spin).2)).1 m n - h1 m n)
    (vb := fun m n => (uhf_fock nao eri h1 (moa.take (nelec nelectron spin).1) (mob.take (nelec nelectron spin).2)).2 m n - h1 m n)
    (fun m n => by simp only [uhf_fock]; ring) (fun m n => by simp only [uhf_fock]; ring)
  unfold test_fock
  simp only [ea, eb]
  rw [e]
  exact near2_of_eq ht r c hv

/-- C86: with more unpaired electrons `test_fock` need not work: if `nelectron // 2 + spin` exceeds the number of electrons, it raises an exception. -/
theorem C86_test_fock_raises (nao : ℕ) (eri : ℕ → ℕ → ℕ → ℕ → 𝕜) (h1 : ℕ → ℕ → 𝕜) (moa mob : List (Orb 𝕜)) {nelectron spin : ℕ}
    (h : nelectron < nelectron / 2 + spin) (thresh : ℝ) : ¬ test_fock nao eri h1 moa mob nelectron spin thresh := by
  unfold test_fock
  have eb : diagOnes (𝕜 := 𝕜) moa.length ((nelectron : ℤ) - (nelectron / 2 + spin)) = .error .value := by
    rw [diagOnes, if_pos]; left; omega
  simp only [eb]
  by_cases c : ((nelectron : ℤ) / 2 + spin < 0 ∨ (moa.length : ℤ) < (nelectron : ℤ) / 2 + spin)
  · simp only [diagOnes, if_pos c, bind, Except.bind, not_false_eq_true]
  · simp only [diagOnes, if_neg c, bind, Except.bind, not_false_eq_true]

/-- C86: `test_fock_sol` and `test_fock_sol_k` hold for any closed-shell solid; the exchanged indices in the second do not matter. -/
theorem C86_test_fock_sol (swap : Bool) (nao : ℕ) {eri : ℕ → ℕ → ℕ → ℕ → 𝕜} (hs : EriSym eri) (h1 : ℕ → ℕ → 𝕜) (mos : List (Orb 𝕜))
    {nocc : ℕ} (fit : nocc ≤ mos.length) {thresh : ℝ} (ht : 0 < thresh) : test_fock_sol swap nao eri h1 mos (2 * nocc) 0 thresh := by
  have e0 : 2 * nocc / 2 = nocc := by omega
  have ea : (((2 * nocc : ℕ) : ℤ) / 2 + ((0 : ℕ) : ℤ)) = (nocc : ℤ) := by push_cast; omega
  have eb : ((2 * nocc : ℕ) : ℤ) - (nocc : ℤ) = (nocc : ℤ) := by push_cast; omega
  have two : ∀ m n, rhf_fock nao eri h1 (mos.take nocc) m n - h1 m n
      = vj nao eri (fun m n => dm (mos.take nocc) m n + dm (mos.take nocc) m n) m n - vk nao eri (dm (mos.take nocc)) m n := by
    intro m n
    simp only [rhf_fock]
    rw [vj_add, vj_smul, vk_smul]; ring
  obtain ⟨vtot, JK, e, r, c, hv⟩ := fock_core swap nao hs rfl (na := nocc) (nb := nocc) fit fit
    (va := fun m n => rhf_fock nao eri h1 (mos.take nocc) m n - h1 m n)
    (vb := fun m n => rhf_fock nao eri h1 (mos.take nocc) m n - h1 m n) two two
  unfold test_fock_sol
  simp only [e0, ea, eb]
  rw [e]
  exact near2_of_eq ht r c hv

/-! ### integrals of coupled-cluster codes -/

/-- C86: `test_eri_sol_k` holds for any solid. -/
theorem C86_test_eri_sol_k (mf : MF (Orb 𝕜) 𝕜) (o v : List (Orb 𝕜)) {thresh : ℝ} (ht : 0 < thresh) : test_eri_sol_k mf o v thresh := by
  obtain ⟨A, eA, hA⟩ := C39_get_phys_gen mf o o o o false
  obtain ⟨B, eB, hB⟩ := C39_get_chem mf.form o o v v false
  unfold test_eri_sol_k
  simp only [eA, eB]
  exact ⟨near4_of_tab ht (tab_ao2mo ..) (hA.t0213.congr fun p q r s => by simp), near4_of_tab ht (tab_ao2mo ..) (hB.congr fun p q r s => by simp)⟩

theorem tab_scale {α : Type} {A : Arr 𝕜} {L1 L2 L3 L4 : List α} {f : α → α → α → α → 𝕜} (c : 𝕜) (h : Tabulates A L1 L2 L3 L4 f) :
    Tabulates (scale c A) L1 L2 L3 L4 fun p q r s => c * f p q r s :=
  ⟨h.1, fun p q r s hp hq hr hs => by simp only [scale]; rw [h.2 p q r s hp hq hr hs]⟩

theorem tab_div {α : Type} {A : Arr 𝕜} {L1 L2 L3 L4 : List α} {f : α → α → α → α → 𝕜} (c : 𝕜) (h : Tabulates A L1 L2 L3 L4 f) :
    Tabulates (A.div c) L1 L2 L3 L4 fun p q r s => f p q r s / c :=
  ⟨h.1, fun p q r s hp hq hr hs => by simp only [Arr.div]; rw [h.2 p q r s hp hq hr hs]⟩

/-- C86: `test_eri_sol_kpts` holds for any k-point mean field and any four k-points that conserve momentum; in the test they are 0, 1, 0, 1. -/
theorem C86_test_eri_sol_kpts {G : Type} [AddCommGroup G] {kmf : KMF (Orb 𝕜) 𝕜} {κ : ℕ → G} (h : Conserves kmf κ) {k1 k2 k3 k4 : ℕ} (h1 : k1 < kmf.nk)
    (h2 : k2 < kmf.nk) (h3 : k3 < kmf.nk) (h4 : k4 < kmf.nk) (hk : κ k1 + κ k2 = κ k3 + κ k4) (o1 o2 o3 o4 v3 v4 : List (Orb 𝕜)) {thresh : ℝ} (ht : 0 < thresh) :
    test_eri_sol_kpts kmf k1 k2 k3 k4 o1 o2 o3 o4 v3 v4 thresh := by
  have e4 : kmf.kconserv k1 k3 k2 = k4 := ((h.iff h1 h3 h2 h4).2 hk).symm
  obtain ⟨A, eA, hA⟩ := C41_get_chem_solk h h1 h3 h2 h4 o1 o3 o2 o4 false
  obtain ⟨B, eB, hB⟩ := C41_get_phys_solk h h1 h2 h3 h4 o1 o2 o3 o4 false
  obtain ⟨C, eC, hC⟩ := C41_get_chem_solk h h1 h3 h2 h4 o1 v3 o2 v4 false
  unfold test_eri_sol_kpts
  simp only [eA, eB, eC, eris_k, e4]
  refine ⟨near4_of_tab ht (tab_div _ (tab_ao2mo ..).t0213) ((tab_scale _ hA).t0213.congr fun p q r s => ?_),
    near4_of_tab ht (tab_div _ (tab_ao2mo ..).t0213) ((tab_scale _ hB).congr fun p q r s => ?_),
    near4_of_tab ht (tab_div _ (tab_ao2mo ..).t0213) ((tab_scale _ hC).t0213.congr fun p q r s => ?_)⟩ <;>
  · simp only [if_pos hk, Bool.false_eq_true, if_false]; ring

/-! ### the energy of a k-point mean field -/

/-- The scripts' energy as sums of integrals over occupied orbitals. -/
theorem kscf_sum {V K G : Type} [Field K] [CharZero K] [Inhabited V] [AddCommGroup G] {kmf : KMF V K} {κ : ℕ → G} (h : Conserves kmf κ)
    (hm : ∀ k < kmf.nk, (kmf.mo_coeff k).length = kmf.nmo) (phys : Bool) {nocc : ℕ} (ho : nocc ≤ kmf.nmo) (h1 : ℕ → ℕ → ℕ → K) (enuc : K) :
    kscf kmf phys nocc h1 enuc = .ok (enuc + ∑ k ∈ range kmf.nk, 2 * (∑ i ∈ range nocc, h1 k i i) / kmf.nk
      + ∑ k ∈ range kmf.nk, ∑ l ∈ range kmf.nk, (2 * (∑ i ∈ range nocc, ∑ j ∈ range nocc,
          kmf.form k k l l ((kmf.mo_coeff k).getD i default) ((kmf.mo_coeff k).getD i default) ((kmf.mo_coeff l).getD j default) ((kmf.mo_coeff l).getD j default)) / kmf.nk / kmf.nk
        - (∑ i ∈ range nocc, ∑ j ∈ range nocc,
          kmf.form k l l k ((kmf.mo_coeff k).getD i default) ((kmf.mo_coeff l).getD j default) ((kmf.mo_coeff l).getD j default) ((kmf.mo_coeff k).getD i default)) / kmf.nk / kmf.nk)) := by
  have eo : ∀ k (hk : k < kmf.nk) i (hi : i < nocc), (kmf.mo_coeff k)[i]'(by rw [hm k hk]; omega) = (kmf.mo_coeff k).getD i default := by
    intro k hk i hi
    rw [List.getD_eq_getElem _ _ (by rw [hm k hk]; omega)]
  obtain ⟨H, eq, hH⟩ := C41_get_solk_integrals h hm (!phys)
  unfold kscf
  rw [eq]
  change Except.ok _ = Except.ok _
  congr 1
  have body : ∀ kp : ℕ, (fun (E : K) (kq : ℕ) =>
      (if phys = true then E + 2 * (∑ i ∈ range nocc, ∑ j ∈ range nocc, ((H kp kq kp).div kmf.nk).val i j i j) / kmf.nk
        else E + 2 * (∑ i ∈ range nocc, ∑ j ∈ range nocc, ((H kp kp kq).div kmf.nk).val i i j j) / kmf.nk)
      - (∑ i ∈ range nocc, ∑ j ∈ range nocc, ((H kp kq kq).div kmf.nk).val i j j i) / kmf.nk)
      = fun E kq => E + (2 * (∑ i ∈ range nocc, ∑ j ∈ range nocc,
          (if phys then (H kp kq kp).val i j i j else (H kp kp kq).val i i j j)) / kmf.nk / kmf.nk
        - (∑ i ∈ range nocc, ∑ j ∈ range nocc, (H kp kq kq).val i j j i) / kmf.nk / kmf.nk) := by
    intro kp
    funext E kq
    cases phys <;> simp only [Arr.div, Bool.false_eq_true, if_true, if_false, ← Finset.sum_div] <;> ring
  simp only [body, foldl_add]
  congr 1
  refine Finset.sum_congr rfl fun k hk => Finset.sum_congr rfl fun l hl => ?_
  rw [Finset.mem_range] at hk hl
  congr 1
  · congr 3
    refine Finset.sum_congr rfl fun i hi => Finset.sum_congr rfl fun j hj => ?_
    rw [Finset.mem_range] at hi hj
    cases phys
    · have := (hH k hk k hk l hl l hl (by simp)).2 i i j j (by rw [hm k hk]; omega) (by rw [hm k hk]; omega)
        (by rw [hm l hl]; omega) (by rw [hm l hl]; omega)
      rw [if_neg (by simp), this]
      simp only [eo k hk i hi, eo l hl j hj, Bool.not_false, if_true]
    · have := (hH k hk l hl k hk l hl (by simp)).2 i j i j (by rw [hm k hk]; omega) (by rw [hm l hl]; omega)
        (by rw [hm k hk]; omega) (by rw [hm l hl]; omega)
      rw [if_pos rfl, this]
      simp only [eo k hk i hi, eo l hl j hj, Bool.not_true, Bool.false_eq_true, if_false]
  · congr 2
    refine Finset.sum_congr rfl fun i hi => Finset.sum_congr rfl fun j hj => ?_
    rw [Finset.mem_range] at hi hj
    have := (hH k hk l hl l hl k hk (by cases phys <;> simp [add_comm])).2 i j j i (by rw [hm k hk]; omega) (by rw [hm l hl]; omega)
      (by rw [hm l hl]; omega) (by rw [hm k hk]; omega)
    rw [this]
    simp only [eo k hk i hi, eo l hl j hj, ite_self]

theorem sum_take' (L : List (Orb 𝕜)) {k : ℕ} (h : k ≤ L.length) (f : Orb 𝕜 → 𝕜) :
    ((L.take k).map f).sum = ∑ i ∈ range k, f (L.getD i default) := by
  rw [← sum_take L k f, ← Finset.sum_filter]
  congr 1
  ext i
  simp only [Finset.mem_filter, Finset.mem_range, Nat.cast_lt]
  omega

/-- a trace with the density of occupied orbitals -/
theorem trace_dm (nao : ℕ) (v : ℕ → ℕ → 𝕜) (occ : List (Orb 𝕜)) :
    ∑ m ∈ range nao, ∑ n ∈ range nao, v m n * dm occ n m = (occ.map fun c => el nao c c v).sum := by
  induction occ with
  | nil => simp [dm]
  | cons c l ih =>
    simp only [dm_cons, mul_add, Finset.sum_add_distrib, ih, List.map_cons, List.sum_cons]
    congr 1
    unfold el
    exact Finset.sum_congr rfl fun m _ => Finset.sum_congr rfl fun n _ => by ring

theorem el_smul (nao : ℕ) (a b : Orb 𝕜) (c : 𝕜) (v : ℕ → ℕ → 𝕜) : el nao a b (fun m n => c * v m n) = c * el nao a b v := by
  simp only [el, Finset.mul_sum]
  exact Finset.sum_congr rfl fun m _ => Finset.sum_congr rfl fun n _ => by ring

theorem el_sum (nao nk : ℕ) (a b : Orb 𝕜) (v : ℕ → ℕ → ℕ → 𝕜) : el nao a b (fun m n => ∑ l ∈ range nk, v l m n) = ∑ l ∈ range nk, el nao a b (v l) := by
  simp only [el, Finset.mul_sum, Finset.sum_mul]
  rw [Finset.sum_comm]
  rw [Finset.sum_congr rfl fun n _ => Finset.sum_congr rfl fun m _ => rfl]
  rw [Finset.sum_comm (s := range nk)]
  rw [Finset.sum_comm]
  exact Finset.sum_congr rfl fun m _ => by rw [Finset.sum_comm]

/-- C86: `test_integrals_kpts` holds for any restricted k-point mean field, in both orders of the integrals. -/
theorem C86_test_integrals_kpts {G : Type} [AddCommGroup G] {kmf : KMF (Orb 𝕜) 𝕜} {κ : ℕ → G} (h : Conserves kmf κ)
    (hm : ∀ k < kmf.nk, (kmf.mo_coeff k).length = kmf.nmo) {nao nocc : ℕ} (ho : nocc ≤ kmf.nmo) {eri : ℕ → ℕ → ℕ → ℕ → ℕ → ℕ → ℕ → ℕ → 𝕜}
    (hf : ∀ k1 k2 k3 k4, kmf.form k1 k2 k3 k4 = mo nao (eri k1 k2 k3 k4)) (hcore : ℕ → ℕ → ℕ → 𝕜) (enuc : 𝕜) {thresh : ℝ} (ht : 0 < thresh) :
    test_integrals_kpts kmf nao nocc hcore enuc (krhf_energy kmf.nk nao nocc eri hcore kmf.mo_coeff enuc) thresh := by
  unfold test_integrals_kpts
  rw [kscf_sum h hm false ho, kscf_sum h hm true ho]
  change _ ∧ _
  rw [and_self]
  refine lt_of_eq_of_lt ?_ ht
  rw [norm_eq_zero, sub_eq_zero]
  simp only [krhf_energy, hf]
  have eD : ∀ k m n, (hcore k m n + ((∑ l ∈ range kmf.nk, vj nao (eri k k l l) (fun m n => 2 * dm ((kmf.mo_coeff l).take nocc) m n) m n) / kmf.nk
        - (∑ l ∈ range kmf.nk, vk nao (eri k l l k) (fun m n => 2 * dm ((kmf.mo_coeff l).take nocc) m n) m n) / kmf.nk / 2) / 2)
      * (2 * dm ((kmf.mo_coeff k).take nocc) n m)
      = (2 * hcore k m n + ∑ l ∈ range kmf.nk, (2 / kmf.nk * vj nao (eri k k l l) (dm ((kmf.mo_coeff l).take nocc)) m n
        - 1 / kmf.nk * vk nao (eri k l l k) (dm ((kmf.mo_coeff l).take nocc)) m n)) * dm ((kmf.mo_coeff k).take nocc) n m := by
    intro k m n
    simp only [vj_smul, vk_smul, Finset.sum_sub_distrib, ← Finset.mul_sum]
    ring
  simp only [eD, trace_dm, el_add, el_sum, el_sub, el_smul]
  rw [add_assoc, ← Finset.sum_add_distrib, Finset.sum_div]
  congr 1
  refine Finset.sum_congr rfl fun k hk => ?_
  rw [Finset.mem_range] at hk
  rw [sum_take' _ (by rw [hm k hk]; exact ho)]
  simp only [← sum_J, ← sum_X]
  rw [Finset.sum_add_distrib, add_div]
  congr 1
  · rw [← Finset.mul_sum]
    congr 2
    refine Finset.sum_congr rfl fun i hi => ?_
    unfold solk_h1 el
    rw [Finset.sum_comm]
    refine Finset.sum_congr rfl fun m _ => ?_
    rw [Finset.sum_mul]
    rfl
  · rw [Finset.sum_comm, Finset.sum_div]
    refine Finset.sum_congr rfl fun l hl => ?_
    rw [Finset.mem_range] at hl
    have hle : nocc ≤ (kmf.mo_coeff l).length := by rw [hm l hl]; exact ho
    simp only [sum_take' _ hle]
    rw [Finset.sum_sub_distrib, ← Finset.mul_sum, ← Finset.mul_sum]
    ring

/-! ### the hypotheses can be met -/

/-- two basis functions with a symmetric table of integrals -/
def eriEx : ℕ → ℕ → ℕ → ℕ → ℝ := fun m n l s => 1 / (1 + m + n + l + s)

theorem eriEx_sym : EriSym eriEx := fun m n l s => by unfold eriEx; congr 1; ring

/-- two orbitals that mix the basis functions -/
def mosEx : List (Orb ℝ) := [fun m => if m = 0 then 3 / 5 else 4 / 5, fun m => if m = 0 then 4 / 5 else -3 / 5]

/-- Three electrons, one unpaired. -/
example : test_fock 2 eriEx (fun m n => m + n) mosEx mosEx 3 1 1e-12 :=
  C86_test_fock 2 eriEx_sym _ rfl (by norm_num) (by norm_num) le_rfl (by simp [nelec, mosEx]) (by norm_num)

/-- The integrals in this case are not all zero. -/
example : mo 2 eriEx (mosEx.getD 0 default) (mosEx.getD 0 default) (mosEx.getD 0 default) (mosEx.getD 0 default) ≠ 0 := by
  simp [mo, mosEx, eriEx, Finset.sum_range_succ]
  norm_num

/-- Two unpaired electrons: the test raises an exception although pyscf has two alpha electrons and no beta electron. -/
example : nelec 2 2 = (2, 0) ∧ ¬ test_fock 2 eriEx (fun m n => m + n) mosEx mosEx 2 2 1e-12 :=
  ⟨rfl, C86_test_fock_raises 2 _ _ _ _ (by norm_num) _⟩

example : test_fock_sol true 2 eriEx (fun m n => m + n) mosEx 2 0 1e-12 := C86_test_fock_sol true 2 eriEx_sym _ _ (nocc := 1) (by simp [mosEx]) (by norm_num)

example : test_u (mo 2 eriEx) mosEx mosEx 1e-12 ∧ test_phys (mo 2 eriEx) false mosEx mosEx 1e-12 :=
  ⟨C86_test_u (mo_sym eriEx_sym) _ _ (by norm_num), C86_test_phys _ _ _ _ (by simp [mosEx]) (fun _ => by simp [mosEx]) (by norm_num)⟩

/-- two k-points -/
def kmfEx : KMF (Orb ℝ) ℝ where
  nk := 2
  kconserv k1 k2 k3 := (k1 + k2 + k3) % 2
  form _ _ _ _ := mo 2 eriEx
  mo_coeff _ := mosEx
  nmo := 2

theorem kmfEx_conserves : Conserves kmfEx (fun k => (k : ZMod 2)) := by
  refine ⟨?_, ?_, ?_⟩
  · intro k hk l hl
    change k < 2 at hk
    change l < 2 at hl
    interval_cases k <;> interval_cases l <;> simp
  · intro k1 _ k2 _ k3 _
    exact Nat.mod_lt _ (by norm_num)
  · intro k1 _ k2 _ k3 _
    change (((k1 + k2 + k3) % 2 : ℕ) : ZMod 2) = k1 - k2 + k3
    rw [ZMod.natCast_mod]
    push_cast
    rw [CharTwo.sub_eq_add]

example : test_eri_sol_kpts kmfEx 0 1 0 1 [mosEx.getD 0 default] [mosEx.getD 0 default] [mosEx.getD 0 default] [mosEx.getD 0 default]
    [mosEx.getD 1 default] [mosEx.getD 1 default] 1e-12 :=
  C86_test_eri_sol_kpts kmfEx_conserves (by norm_num [kmfEx]) (by norm_num [kmfEx]) (by norm_num [kmfEx]) (by norm_num [kmfEx]) (by simp) _ _ _ _ _ _ (by norm_num)

example : test_integrals_kpts kmfEx 2 1 (fun _ m n => m + n) 3 (krhf_energy 2 2 1 (fun _ _ _ _ => eriEx) (fun _ m n => m + n) (fun _ => mosEx) 3) 1e-12 :=
  C86_test_integrals_kpts kmfEx_conserves (fun _ _ => rfl) (by norm_num [kmfEx]) (fun _ _ _ _ => rfl) _ _ (by norm_num)

example (mf : MF (Orb ℝ) ℝ) : test_eri_sol_k mf (mosEx.take 1) (mosEx.drop 1) 1e-12 := C86_test_eri_sol_k mf _ _ (by norm_num)

end Eri.Tests
end
