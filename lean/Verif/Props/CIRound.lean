import Verif.Model.CIRound
import Verif.Props.CIVar

/-! # C81: rounding errors of the CI matrix elements (`/repo/cqcpy/ci_utils.py`, examples/cis.py, examples/cisd.py) -/

namespace CI

open Fock

/-- A machine arithmetic.  `F` are its numbers.  The result of `+ - *` has relative error at most `u`, apart from underflow (`u * η`), and is
exact if it is a number of the machine.  The sum of at most `N` terms, each a number times zeros and ones, has an error of at most `g` times the sum of the
absolute values (`g` is about `N * u`, or smaller, for every order of summation). -/
structure Fl.Good (A : Fl) (F : Set ℝ) (N : ℕ) (u η g : ℝ) : Prop where
  u0 : 0 ≤ u
  η0 : 0 ≤ η
  g0 : 0 ≤ g
  rd_err : ∀ x, |A.rd x - x| ≤ u * (|x| + η)
  rd_id : ∀ x ∈ F, A.rd x = x
  rd_mem : ∀ x, A.rd x ∈ F
  rd_neg : ∀ x, A.rd (-x) = -A.rd x
  one_mem : (1 : ℝ) ∈ F
  ein_err : ∀ L : List (List ℝ), L.length ≤ N → (∀ t ∈ L, ∀ x ∈ t.tail, x = 0 ∨ x = 1) →
    |A.ein L - (L.map List.prod).sum| ≤ g * (L.map fun t => |t.prod|).sum

/-- `x` approximates `y`, whose absolute value is at most `S`, with an error of at most `e * S` -/
def Near (e S x y : ℝ) : Prop := |x - y| ≤ e * S ∧ |y| ≤ S

theorem Near.nonneg {e S x y : ℝ} (h : Near e S x y) : 0 ≤ S := (abs_nonneg _).trans h.2

theorem Near.mono {e e' S S' x y : ℝ} (h : Near e S x y) (he : 0 ≤ e) (hee : e ≤ e') (hS : S ≤ S') : Near e' S' x y :=
  ⟨h.1.trans (mul_le_mul hee hS h.nonneg (he.trans hee)), h.2.trans hS⟩

theorem Near.add {e S S' x x' y y' : ℝ} (h : Near e S x y) (h' : Near e S' x' y') : Near e (S + S') (x + x') (y + y') := by
  refine ⟨?_, (abs_add_le _ _).trans (add_le_add h.2 h'.2)⟩
  rw [add_sub_add_comm, mul_add]
  exact (abs_add_le _ _).trans (add_le_add h.1 h'.1)

theorem Near.neg {e S x y : ℝ} (h : Near e S x y) : Near e S (-x) (-y) := by
  refine ⟨?_, by rw [abs_neg]; exact h.2⟩
  rw [← neg_sub', abs_neg]; exact h.1

theorem Near.sub {e S S' x x' y y' : ℝ} (h : Near e S x y) (h' : Near e S' x' y') : Near e (S + S') (x - x') (y - y') := by
  rw [sub_eq_add_neg, sub_eq_add_neg]; exact h.add h'.neg

theorem Near.smul {e S x y : ℝ} (c : ℝ) (h : Near e S x y) : Near e (|c| * S) (c * x) (c * y) := by
  refine ⟨?_, by rw [abs_mul]; exact mul_le_mul_of_nonneg_left h.2 (abs_nonneg _)⟩
  rw [← mul_sub, abs_mul, mul_left_comm]; exact mul_le_mul_of_nonneg_left h.1 (abs_nonneg _)

theorem Near.half {e S x y : ℝ} (h : Near e S x y) : Near e (1 / 2 * S) (1 / 2 * x) (1 / 2 * y) := by
  have := h.smul (1 / 2); rwa [abs_of_pos (by norm_num : (0 : ℝ) < 1 / 2)] at this

/-- an exact number -/
theorem Near.refl {e S x : ℝ} (he : 0 ≤ e) (h : |x| ≤ S) : Near e S x x :=
  ⟨by rw [sub_self, abs_zero]; exact mul_nonneg he ((abs_nonneg _).trans h), h⟩

/-- the relative error after a sum of products and `k` more operations, if the data have the error `w` -/
def amp (u g w : ℝ) (k : ℕ) : ℝ := (1 + w) * (1 + g) * (1 + u) ^ k - 1

section
variable {A : Fl} {F : Set ℝ} {N : ℕ} {u η g w : ℝ} (hA : A.Good F N u η g) (hw : 0 ≤ w)
include hA hw

theorem amp_nonneg (k : ℕ) : 0 ≤ amp u g w k := by
  have h1 : (1 : ℝ) ≤ (1 + u) ^ k := one_le_pow₀ (by linarith [hA.u0])
  have h2 := hA.g0
  have h3 : 1 ≤ (1 + w) * (1 + g) := by nlinarith
  unfold amp
  nlinarith

omit hA hw in
theorem amp_succ (k : ℕ) : amp u g w (k + 1) = amp u g w k + u * (1 + amp u g w k) := by unfold amp; ring

theorem amp_le {k l : ℕ} (h : k ≤ l) : amp u g w k ≤ amp u g w l := by
  have := pow_le_pow_right₀ (show (1 : ℝ) ≤ 1 + u by linarith [hA.u0]) h
  have h2 := hA.g0
  have h3 : 1 ≤ (1 + w) * (1 + g) := by nlinarith
  unfold amp
  nlinarith

theorem w_le (k : ℕ) : w ≤ amp u g w k := by
  refine le_trans ?_ (amp_le hA hw (Nat.zero_le k))
  have h2 := hA.g0
  unfold amp
  nlinarith

theorem Near.rd {k : ℕ} {S x y : ℝ} (h : Near (amp u g w k) S x y) : Near (amp u g w (k + 1)) (S + η) (A.rd x) y := by
  have h0 := amp_nonneg hA hw k
  have hS := h.nonneg
  have hu := hA.u0
  have hη := hA.η0
  refine ⟨?_, by linarith [h.2]⟩
  have h1 : |x| ≤ (1 + amp u g w k) * S := by
    have : |x| ≤ |x - y| + |y| := by simpa using abs_add_le (x - y) y
    linarith [h.1, h.2]
  have h2 : |A.rd x - y| ≤ |A.rd x - x| + |x - y| := abs_sub_le _ _ _
  have h3 := hA.rd_err x
  have h4 : u * (|x| + η) ≤ u * ((1 + amp u g w k) * S + η) := mul_le_mul_of_nonneg_left (by linarith) hu
  rw [amp_succ]
  nlinarith [mul_nonneg h0 hη, mul_nonneg hu hη, mul_nonneg (mul_nonneg hu h0) hη, h.1]

theorem Near.up {k l : ℕ} {S x y : ℝ} (h : Near (amp u g w k) S x y) (hkl : k ≤ l) : Near (amp u g w l) S x y :=
  h.mono (amp_nonneg hA hw k) (amp_le hA hw hkl) le_rfl

theorem Near.data (k : ℕ) {S x y : ℝ} (h : Near w S x y) : Near (amp u g w k) S x y := h.mono hw (w_le hA hw k) le_rfl

end

/-! ### sums over occupied orbitals -/

theorem val_cases {d : Dstring} (hd : IsDet d) (i : ℕ) : (val d.occ i : ℝ) = 0 ∨ (val d.occ i : ℝ) = 1 := by
  unfold val
  by_cases h : i < d.occ.length
  · have := hd.2 _ (List.getElem_mem h)
    rw [List.getD_eq_getElem _ _ h]
    rcases this with h | h <;> simp [h]
  · left; rw [List.getD_eq_default _ _ (by omega)]; simp

theorem val_nonneg {d : Dstring} (hd : IsDet d) (i : ℕ) : 0 ≤ (val d.occ i : ℝ) := by rcases val_cases hd i with h | h <;> simp [h]

theorem sum_val_occ {d : Dstring} (hd : IsDet d) : ∑ i ∈ Finset.range d.occ.length, (val d.occ i : ℝ) = (supp d).card := by
  rw [Finset.card_eq_sum_ones, supp, Finset.sum_filter, ← hd.1]
  push_cast
  refine Finset.sum_congr rfl fun i hi => ?_
  have hi' : i < d.occ.length := by rw [← hd.1]; exact Finset.mem_range.mp hi
  unfold val
  rw [List.getD_eq_getElem _ _ hi']
  rcases hd.2 _ (List.getElem_mem hi') with h | h <;> simp [h]

theorem sum_flatMap_map {α β : Type} (l : List α) (m : List β) (f : α → β → ℝ) :
    (l.flatMap fun i => m.map fun j => f i j).sum = (l.map fun i => (m.map fun j => f i j).sum).sum := by
  induction l with
  | nil => rfl
  | cons a l ih => simp [ih]

theorem sum_range_list (n : ℕ) (f : ℕ → ℝ) : ((List.range n).map f).sum = ∑ i ∈ Finset.range n, f i := by
  rw [Finset.sum_range]; rw [← List.sum_ofFn, List.ofFn_eq_map, ← List.map_coe_finRange_eq_range, List.map_map]; rfl

theorem abs_list_sum_le (L : List (List ℝ)) : |(L.map List.prod).sum| ≤ (L.map fun t => |t.prod|).sum := by
  induction L with
  | nil => simp
  | cons t L ih => simpa using (abs_add_le _ _).trans (by linarith)

section
variable {A : Fl} {F : Set ℝ} {N : ℕ} {u η g w : ℝ} (hA : A.Good F N u η g) (hw : 0 ≤ w)
include hA hw

/-- a sum of products of data with zeros and ones -/
theorem near_ein {α : Type} (l : List α) (f' f : α → ℝ) (c : α → List ℝ) (hl : l.length ≤ N) {b : ℝ} (hf : ∀ i ∈ l, Near w b (f' i) (f i))
    (hc : ∀ i ∈ l, ∀ x ∈ c i, x = 0 ∨ x = 1) :
    Near (amp u g w 0) (b * (l.map fun i => (c i).prod).sum) (A.ein (l.map fun i => f' i :: c i)) (l.map fun i => f i * (c i).prod).sum := by
  have c0 : ∀ i ∈ l, 0 ≤ (c i).prod := fun i hi => List.prod_nonneg fun x hx => by rcases hc i hi x hx with h | h <;> simp [h]
  have e1 := hA.ein_err (l.map fun i => f' i :: c i) (by simpa using hl) (by
    simp only [List.mem_map]
    rintro t ⟨i, hi, rfl⟩ x hx
    exact hc i hi x hx)
  simp only [List.map_map, Function.comp_def, List.prod_cons] at e1
  clear hl
  have key : |(l.map fun i => f' i * (c i).prod).sum - (l.map fun i => f i * (c i).prod).sum| ≤ w * (b * (l.map fun i => (c i).prod).sum) ∧
      (l.map fun i => |f' i * (c i).prod|).sum ≤ (1 + w) * (b * (l.map fun i => (c i).prod).sum) ∧
      |(l.map fun i => f i * (c i).prod).sum| ≤ b * (l.map fun i => (c i).prod).sum := by
    clear e1
    induction l with
    | nil => simp
    | cons i l ih =>
      obtain ⟨i1, i2, i3⟩ := ih (fun j hj => hf j (by simp [hj])) (fun j hj => hc j (by simp [hj])) (fun j hj => c0 j (by simp [hj]))
      have hi := hf i (by simp)
      have ci := c0 i (by simp)
      have b0 := hi.nonneg
      simp only [List.map_cons, List.sum_cons]
      generalize (c i).prod = z at *
      have h1 : |f' i * z - f i * z| ≤ w * (b * z) := by
        rw [← sub_mul, abs_mul, abs_of_nonneg ci, ← mul_assoc]; exact mul_le_mul_of_nonneg_right hi.1 ci
      have h2 : |f i * z| ≤ b * z := by rw [abs_mul, abs_of_nonneg ci]; exact mul_le_mul_of_nonneg_right hi.2 ci
      have h3 : |f' i * z| ≤ |f' i * z - f i * z| + |f i * z| := by simpa using abs_add_le (f' i * z - f i * z) (f i * z)
      refine ⟨?_, by linarith, (abs_add_le _ _).trans (by linarith)⟩
      rw [add_sub_add_comm]
      exact (abs_add_le _ _).trans (by linarith)
  obtain ⟨k1, k2, k3⟩ := key
  refine ⟨(abs_sub_le _ _ _).trans ((add_le_add e1 k1).trans ?_), k3⟩
  have := mul_le_mul_of_nonneg_left k2 hA.g0
  unfold amp
  linarith

theorem near_tr1 {d : Dstring} (hd : IsDet d) (hN : d.n ≤ N) {M' M : ℕ → ℕ → ℝ} {b : ℝ} (hM : ∀ i, Near w b (M' i i) (M i i)) :
    Near (amp u g w 0) (b * (supp d).card) (A.tr1 M' d.occ) (tr1 M d.occ) := by
  have := near_ein hA hw (List.range d.occ.length) (fun i => M' i i) (fun i => M i i) (fun i => [val d.occ i]) (by simpa [← hd.1] using hN)
    (fun i _ => hM i) (fun i _ x hx => by rw [List.mem_singleton.mp hx]; exact val_cases hd i)
  simp only [List.prod_singleton, sum_range_list, sum_val_occ hd] at this
  exact this

theorem near_pairs {d d' : Dstring} (hd : IsDet d) (hd' : IsDet d') (hN : d.n * d'.n ≤ N) {M' M : ℕ → ℕ → ℝ} {b : ℝ} (hM : ∀ i j, Near w b (M' i j) (M i j)) :
    Near (amp u g w 0) (b * ((supp d).card * (supp d').card))
      (A.ein ((List.range d.occ.length).flatMap fun i => (List.range d'.occ.length).map fun j => [M' i j, val d.occ i, val d'.occ j]))
      (∑ i ∈ Finset.range d.occ.length, ∑ j ∈ Finset.range d'.occ.length, M i j * val d.occ i * val d'.occ j) := by
  have := near_ein hA hw ((List.range d.occ.length).flatMap fun i => (List.range d'.occ.length).map fun j => (i, j)) (fun p => M' p.1 p.2) (fun p => M p.1 p.2)
    (fun p => [val d.occ p.1, val d'.occ p.2]) (by simpa [← hd.1, ← hd'.1] using hN) (fun p _ => hM p.1 p.2) (fun p _ x hx => by
      simp only [List.mem_cons, List.not_mem_nil, or_false] at hx
      rcases hx with rfl | rfl
      exacts [val_cases hd _, val_cases hd' _])
  simp only [List.map_flatMap, List.map_map, Function.comp_def, sum_flatMap_map, sum_range_list, List.prod_cons, List.prod_nil, mul_one, ← mul_assoc] at this
  rw [← Finset.sum_mul_sum, sum_val_occ hd, sum_val_occ hd'] at this
  exact this

theorem near_coul {d d' : Dstring} (hd : IsDet d) (hd' : IsDet d') (hN : d.n * d'.n ≤ N) {M' M : ℕ → ℕ → ℕ → ℕ → ℝ} {b : ℝ}
    (hM : ∀ i j k l, Near w b (M' i j k l) (M i j k l)) :
    Near (amp u g w 0) (b * ((supp d).card * (supp d').card)) (A.coul M' d.occ d'.occ) (coul M d.occ d'.occ) :=
  near_pairs hA hw hd hd' hN fun i j => hM i j i j

theorem near_exch {d d' : Dstring} (hd : IsDet d) (hd' : IsDet d') (hN : d.n * d'.n ≤ N) {M' M : ℕ → ℕ → ℕ → ℕ → ℝ} {b : ℝ}
    (hM : ∀ i j k l, Near w b (M' i j k l) (M i j k l)) :
    Near (amp u g w 0) (b * ((supp d).card * (supp d').card)) (A.exch M' d.occ d'.occ) (exch M d.occ d'.occ) :=
  near_pairs hA hw hd hd' hN fun i j => hM i j j i

/-- the energy of the electrons of one spin -/
theorem near_energy {d : Dstring} (hd : IsDet d) (hN : d.n ≤ N) (hN' : d.n * d.n ≤ N) {h' h : ℕ → ℕ → ℝ} {I' I : ℕ → ℕ → ℕ → ℕ → ℝ} {a b : ℝ}
    (hh : ∀ i j, Near w a (h' i j) (h i j)) (hI : ∀ i j k l, Near w b (I' i j k l) (I i j k l)) :
    Near (amp u g w 3) (a * (supp d).card + b * ((supp d).card * (supp d).card) + 4 * η)
      (A.rd (A.rd (A.tr1 h' d.occ + A.rd (1 / 2 * A.coul I' d.occ d.occ)) - A.rd (1 / 2 * A.exch I' d.occ d.occ)))
      (tr1 h d.occ + 1 / 2 * coul I d.occ d.occ - 1 / 2 * exch I d.occ d.occ) := by
  have h1 := near_tr1 hA hw hd hN fun i => hh i i
  have h2 := (near_coul hA hw hd hd hN' hI).half.rd hA hw
  have h3 := (near_exch hA hw hd hd hN' hI).half.rd hA hw
  have h4 := ((h1.up hA hw (Nat.zero_le 1)).add h2).rd hA hw
  have h5 := (h4.sub (h3.up hA hw (Nat.le_succ 1))).rd hA hw
  refine h5.mono (amp_nonneg hA hw _) le_rfl (le_of_eq ?_)
  ring

end

/-- both computations fail in the same way, or both succeed with a small difference -/
def RNear (e S : ℝ) : R ℝ → R ℝ → Prop
  | .ok x, .ok y => Near e S x y
  | .error a, .error b => a = b
  | _, _ => False

theorem parity_cases (b : List ℤ) (i j : ℕ) : (parity b i j : ℝ) = 1 ∨ (parity b i j : ℝ) = -1 := by
  unfold parity; split_ifs <;> simp

theorem Near.sign {e S x y s : ℝ} (hs : s = 1 ∨ s = -1) (h : Near e S x y) : Near e S (s * x) (s * y) := by
  rcases hs with rfl | rfl
  · simpa using h
  · simpa using h.neg

section
variable {A : Fl} {F : Set ℝ} {N : ℕ} {u η g : ℝ} (hA : A.Good F N u η g)
include hA

theorem Fl.Good.rd_one : A.rd 1 = 1 := hA.rd_id 1 hA.one_mem
theorem Fl.Good.rd_neg_one : A.rd (-1) = -1 := by rw [hA.rd_neg, hA.rd_one]
theorem Fl.Good.rd_zero : A.rd 0 = 0 := by have := hA.rd_neg 0; rw [neg_zero] at this; linarith

theorem Fl.Good.rd_sign {s : ℝ} (hs : s = 1 ∨ s = -1) : A.rd s = s := by
  rcases hs with rfl | rfl
  exacts [hA.rd_one, hA.rd_neg_one]

theorem Fl.Good.rd_sign_mul {s x : ℝ} (hs : s = 1 ∨ s = -1) : A.rd (s * x) = s * A.rd x := by
  rcases hs with rfl | rfl <;> simp [hA.rd_neg]

theorem Fl.Good.rd_rd (x : ℝ) : A.rd (A.rd x) = A.rd x := hA.rd_id _ (hA.rd_mem x)

omit hA in
theorem mul_sign {s t : ℝ} (hs : s = 1 ∨ s = -1) (ht : t = 1 ∨ t = -1) : s * t = 1 ∨ s * t = -1 := by
  rcases hs with rfl | rfl <;> rcases ht with rfl | rfl <;> simp

end

section
variable {A : Fl} {F : Set ℝ} {N : ℕ} {u η g w : ℝ} (hA : A.Good F N u η g) (hw : 0 ≤ w)
include hA hw

theorem near_single {d d' : Dstring} (hd : IsDet d) (hd' : IsDet d') (hN : d.n ≤ N) (hN' : d'.n ≤ N) {x' x s a b : ℝ} (hs : s = 1 ∨ s = -1) (hx : Near w a x' x)
    {M1' M2' M3' M1 M2 M3 : ℕ → ℕ → ℝ} (h1 : ∀ i, Near w b (M1' i i) (M1 i i)) (h2 : ∀ i, Near w b (M2' i i) (M2 i i)) (h3 : ∀ i, Near w b (M3' i i) (M3 i i)) :
    Near (amp u g w 4) (a + b * (2 * (supp d).card + (supp d').card) + 4 * η)
      (A.rd (s * A.rd (A.rd (A.rd (A.rd (0 + x') + A.tr1 M1' d.occ) - A.tr1 M2' d.occ) + A.tr1 M3' d'.occ)))
      (s * (x + tr1 M1 d.occ - tr1 M2 d.occ + tr1 M3 d'.occ)) := by
  rw [hA.rd_sign_mul hs, hA.rd_rd, zero_add]
  have e0 := (Near.data hA hw 0 hx).rd hA hw
  have e1 := (e0.add ((near_tr1 hA hw hd hN h1).up hA hw (Nat.zero_le _))).rd hA hw
  have e2 := (e1.sub ((near_tr1 hA hw hd hN h2).up hA hw (Nat.zero_le _))).rd hA hw
  have e3 := (e2.add ((near_tr1 hA hw hd' hN' h3).up hA hw (Nat.zero_le _))).rd hA hw
  exact Near.sign hs (e3.mono (amp_nonneg hA hw _) le_rfl (le_of_eq (by ring)))

theorem near_gsingle {d : Dstring} (hd : IsDet d) (hN : d.n ≤ N) {x' x s a b : ℝ} (hs : s = 1 ∨ s = -1) (hx : Near w a x' x)
    {M1' M2' M1 M2 : ℕ → ℕ → ℝ} (h1 : ∀ i, Near w b (M1' i i) (M1 i i)) (h2 : ∀ i, Near w b (M2' i i) (M2 i i)) :
    Near (amp u g w 3) (a + b * (2 * (supp d).card) + 3 * η)
      (A.rd (s * A.rd (A.rd (A.rd (0 + x') + A.tr1 M1' d.occ) - A.tr1 M2' d.occ))) (s * (x + tr1 M1 d.occ - tr1 M2 d.occ)) := by
  rw [hA.rd_sign_mul hs, hA.rd_rd, zero_add]
  have e0 := (Near.data hA hw 0 hx).rd hA hw
  have e1 := (e0.add ((near_tr1 hA hw hd hN h1).up hA hw (Nat.zero_le _))).rd hA hw
  have e2 := (e1.sub ((near_tr1 hA hw hd hN h2).up hA hw (Nat.zero_le _))).rd hA hw
  exact Near.sign hs (e2.mono (amp_nonneg hA hw _) le_rfl (le_of_eq (by ring)))

theorem near_double {x' y' x y s t b : ℝ} (hs : s = 1 ∨ s = -1) (ht : t = 1 ∨ t = -1) (hx : Near w b x' x) (hy : Near w b y' y) :
    Near (amp u g w 1) (2 * b + η) (A.rd (A.rd (s * t) * A.rd (x' - y'))) (s * t * (x - y)) := by
  rw [hA.rd_sign (mul_sign hs ht), hA.rd_sign_mul (mul_sign hs ht), hA.rd_rd]
  exact Near.sign (mul_sign hs ht) ((((Near.data hA hw 0 hx).sub (Near.data hA hw 0 hy)).rd hA hw).mono (amp_nonneg hA hw _) le_rfl (by linarith))

theorem near_ab {x' x s t b : ℝ} (hs : s = 1 ∨ s = -1) (ht : t = 1 ∨ t = -1) (hx : Near w b x' x) :
    Near (amp u g w 1) (b + η) (A.rd (A.rd (s * t) * x')) (s * t * x) := by
  rw [hA.rd_sign (mul_sign hs ht), hA.rd_sign_mul (mul_sign hs ht)]
  exact Near.sign (mul_sign hs ht) ((Near.data hA hw 0 hx).rd hA hw)

end

/-- The integrals `ha' ...` approximate `ha ...` to `w` times bounds `a` and `b` of the one- and two-electron integrals. -/
structure Close (w a b : ℝ) (ha' hb' : ℕ → ℕ → ℝ) (Ia' Ib' Iabab' : ℕ → ℕ → ℕ → ℕ → ℝ) (ha hb : ℕ → ℕ → ℝ) (Ia Ib Iabab : ℕ → ℕ → ℕ → ℕ → ℝ) : Prop where
  w0 : 0 ≤ w
  ha : ∀ p q, |ha' p q - ha p q| ≤ w * a ∧ |ha p q| ≤ a
  hb : ∀ p q, |hb' p q - hb p q| ≤ w * a ∧ |hb p q| ≤ a
  Ia : ∀ p q r s, |Ia' p q r s - Ia p q r s| ≤ w * b ∧ |Ia p q r s| ≤ b
  Ib : ∀ p q r s, |Ib' p q r s - Ib p q r s| ≤ w * b ∧ |Ib p q r s| ≤ b
  Iabab : ∀ p q r s, |Iabab' p q r s - Iabab p q r s| ≤ w * b ∧ |Iabab p q r s| ≤ b

section
variable {A : Fl} {F : Set ℝ} {N : ℕ} {u η g w : ℝ} (hA : A.Good F N u η g)
include hA

theorem rnear_ci {braa brab keta ketb : Dstring} (h1 : IsDet braa) (h2 : IsDet brab) (h3 : IsDet keta) (h4 : IsDet ketb) {n : ℕ}
    (n1 : braa.n ≤ n) (n2 : brab.n ≤ n) (n3 : keta.n ≤ n) (n4 : ketb.n ≤ n) (hN : n * n ≤ N) {m : ℕ} (c1 : (supp braa).card + (supp brab).card ≤ m)
    (c2 : (supp keta).card + (supp ketb).card ≤ m) (hm : 1 ≤ m)
    {ha' hb' ha hb : ℕ → ℕ → ℝ} {Ia' Ib' Iabab' Ia Ib Iabab : ℕ → ℕ → ℕ → ℕ → ℝ} {const' const a b C : ℝ}
    (hcl : Close w a b ha' hb' Ia' Ib' Iabab' ha hb Ia Ib Iabab) (hC : Near (amp u g w 5) C const' const) :
    RNear (amp u g w 6) (a * m + 2 * b * m ^ 2 + C + 11 * η)
      (A.ci_matrixel braa brab keta ketb ha' hb' Ia' Ib' Iabab' const') (ci_matrixel braa brab keta ketb ha hb Ia Ib Iabab const) := by
  obtain ⟨hw, ka, kb, kIa, kIb, kI⟩ := hcl
  have hb0 : 0 ≤ b := (abs_nonneg _).trans (kI 0 0 0 0).2
  have ha0 : 0 ≤ a := (abs_nonneg _).trans (ka 0 0).2
  have hη := hA.η0
  have hc := hC.nonneg
  have hm' : (1 : ℝ) ≤ m := by exact_mod_cast hm
  have p := fun k => amp_nonneg hA hw k
  have q : ∀ {x y : ℕ}, x ≤ n → y ≤ n → x * y ≤ N := fun hx hy => (Nat.mul_le_mul hx hy).trans hN
  have q' : ∀ {x : ℕ}, x ≤ n → x ≤ N := fun {x} hx => by
    rcases Nat.eq_zero_or_pos n with h0 | h0
    · omega
    · nlinarith
  have c1' : ((supp braa).card : ℝ) + (supp brab).card ≤ m := by exact_mod_cast c1
  have c2' : ((supp keta).card : ℝ) + (supp ketb).card ≤ m := by exact_mod_cast c2
  have z1 : (0 : ℝ) ≤ (supp braa).card := Nat.cast_nonneg _
  have z2 : (0 : ℝ) ≤ (supp brab).card := Nat.cast_nonneg _
  have z3 : (0 : ℝ) ≤ (supp keta).card := Nat.cast_nonneg _
  have z4 : (0 : ℝ) ≤ (supp ketb).card := Nat.cast_nonneg _
  have sq : (m : ℝ) ≤ m ^ 2 := by nlinarith
  have sing : ∀ {x y : ℝ}, 0 ≤ x → 0 ≤ y → x + y ≤ m → a + b * (2 * x + y) + 4 * η ≤ a * m + 2 * b * m ^ 2 + C + 11 * η := by
    intro x y hx hy hxy
    have : b * (2 * x + y) ≤ b * (2 * m ^ 2) := mul_le_mul_of_nonneg_left (by linarith) hb0
    nlinarith
  have dbl : 2 * b + η ≤ a * m + 2 * b * m ^ 2 + C + 11 * η := by nlinarith
  have sab : b + η ≤ a * m + 2 * b * m ^ 2 + C + 11 * η := by linarith
  unfold Fl.ci_matrixel ci_matrixel
  simp only
  split_ifs with d1 d2 d3 d4 d5 d6
  · have e1 := near_energy hA hw h1 (q' n1) (q n1 n1) ka kIa
    have e2 := near_energy hA hw h2 (q' n2) (q n2 n2) kb kIb
    have e3 := near_coul hA hw h1 h2 (q n1 n2) kI
    have e4 := ((((e1.add e2).rd hA hw).add (e3.up hA hw (Nat.zero_le _))).rd hA hw)
    have e5 := (e4.add hC).rd hA hw
    refine e5.mono (p _) le_rfl ?_
    generalize ((supp braa).card : ℝ) = x at *
    generalize ((supp brab).card : ℝ) = y at *
    have i1 : a * x + a * y ≤ a * m := by nlinarith
    have i2 : x * x + y * y + x * y ≤ 2 * m ^ 2 := by nlinarith
    have i3 : b * (x * x + y * y + x * y) ≤ b * (2 * m ^ 2) := mul_le_mul_of_nonneg_left i2 hb0
    nlinarith
  · cases hO : get (nonzero (minus (occdiff braa keta))) 0 with
    | error e => exact rfl
    | ok o =>
      cases hV : get (nonzero (plus (occdiff braa keta))) 0 with
      | error e => exact rfl
      | ok v =>
        refine Near.mono ?_ (p 4) (amp_le hA hw (by norm_num)) (sing z3 z4 c2')
        exact near_single hA hw h3 h4 (q' n3) (q' n4) (parity_cases _ _ _) (ka v o) (fun i => kIa v i o i) (fun i => kIa v i i o) (fun i => kI v i o i)
  · cases hO : get (nonzero (minus (occdiff brab ketb))) 0 with
    | error e => exact rfl
    | ok o =>
      cases hV : get (nonzero (plus (occdiff brab ketb))) 0 with
      | error e => exact rfl
      | ok v =>
        refine Near.mono ?_ (p 4) (amp_le hA hw (by norm_num)) (sing z4 z3 (by linarith))
        exact near_single hA hw h4 h3 (q' n4) (q' n3) (parity_cases _ _ _) (kb v o) (fun i => kIb v i o i) (fun i => kIb v i i o) (fun i => kI i v i o)
  · cases hO : get (nonzero (minus (occdiff braa keta))) 0 with
    | error e => exact rfl
    | ok o =>
      cases hV : get (nonzero (plus (occdiff braa keta))) 0 with
      | error e => exact rfl
      | ok v =>
        cases hO' : get (nonzero (minus (occdiff brab ketb))) 0 with
        | error e => exact rfl
        | ok o' =>
          cases hV' : get (nonzero (plus (occdiff brab ketb))) 0 with
          | error e => exact rfl
          | ok v' =>
            exact (near_ab hA hw (parity_cases _ _ _) (parity_cases _ _ _) (kI v v' o o')).mono (p _) (amp_le hA hw (by norm_num)) sab
  · cases hO : unpack2 (nonzero (minus (occdiff braa keta))) with
    | error e => exact rfl
    | ok o =>
      cases hV : unpack2 (nonzero (plus (occdiff braa keta))) with
      | error e => exact rfl
      | ok v =>
        obtain ⟨o1, o2⟩ := o
        obtain ⟨v1, v2⟩ := v
        simp only [bind, Except.bind, pure, Except.pure]
        split_ifs
        · refine Near.mono ?_ (p 1) (amp_le hA hw (by norm_num)) dbl
          exact near_double hA hw (by rcases parity_cases braa.occ (min o1 v1) (max o1 v1) with h | h <;> simp [h]) (parity_cases _ _ _) (kIa v1 v2 o1 o2) (kIa v1 v2 o2 o1)
        · exact (near_double hA hw (parity_cases _ _ _) (parity_cases _ _ _) (kIa v1 v2 o1 o2) (kIa v1 v2 o2 o1)).mono (p 1) (amp_le hA hw (by norm_num)) dbl
  · cases hO : unpack2 (nonzero (minus (occdiff brab ketb))) with
    | error e => exact rfl
    | ok o =>
      cases hV : unpack2 (nonzero (plus (occdiff brab ketb))) with
      | error e => exact rfl
      | ok v =>
        obtain ⟨o1, o2⟩ := o
        obtain ⟨v1, v2⟩ := v
        simp only [bind, Except.bind, pure, Except.pure]
        split_ifs
        · refine Near.mono ?_ (p 1) (amp_le hA hw (by norm_num)) dbl
          exact near_double hA hw (by rcases parity_cases brab.occ (min o1 v1) (max o1 v1) with h | h <;> simp [h]) (parity_cases _ _ _) (kIb v1 v2 o1 o2) (kIb v1 v2 o2 o1)
        · exact (near_double hA hw (parity_cases _ _ _) (parity_cases _ _ _) (kIb v1 v2 o1 o2) (kIb v1 v2 o2 o1)).mono (p 1) (amp_le hA hw (by norm_num)) dbl
  · refine Near.refl (p 6) ?_
    rw [abs_zero]
    positivity

theorem rnear_gci {bra ket : Dstring} (h1 : IsDet bra) (h2 : IsDet ket) {n : ℕ} (n1 : bra.n ≤ n) (n2 : ket.n ≤ n) (hN : n * n ≤ N) {m : ℕ}
    (c1 : (supp bra).card ≤ m) (c2 : (supp ket).card ≤ m) (hm : 1 ≤ m) {h' h : ℕ → ℕ → ℝ} {I' I : ℕ → ℕ → ℕ → ℕ → ℝ} {const' const a b : ℝ}
    (hw : 0 ≤ w) (kh : ∀ p q, Near w a (h' p q) (h p q)) (kI : ∀ p q r s, Near w b (I' p q r s) (I p q r s)) :
    RNear (amp u g w 3) (a * m + 2 * b * m ^ 2 + 4 * η) (A.gci_matrixel bra ket h' I' const') (gci_matrixel bra ket h I const) := by
  have hb0 : 0 ≤ b := (kI 0 0 0 0).nonneg
  have ha0 : 0 ≤ a := (kh 0 0).nonneg
  have hη := hA.η0
  have hm' : (1 : ℝ) ≤ m := by exact_mod_cast hm
  have p := fun k => amp_nonneg hA hw k
  have q' : ∀ {x : ℕ}, x ≤ n → x ≤ N := fun {x} hx => by
    rcases Nat.eq_zero_or_pos n with h0 | h0
    · omega
    · nlinarith
  have c1' : ((supp bra).card : ℝ) ≤ m := by exact_mod_cast c1
  have c2' : ((supp ket).card : ℝ) ≤ m := by exact_mod_cast c2
  have z1 : (0 : ℝ) ≤ (supp bra).card := Nat.cast_nonneg _
  have z2 : (0 : ℝ) ≤ (supp ket).card := Nat.cast_nonneg _
  have sq : (m : ℝ) ≤ m ^ 2 := by nlinarith
  have dbl : 2 * b + η ≤ a * m + 2 * b * m ^ 2 + 4 * η := by nlinarith
  unfold Fl.gci_matrixel gci_matrixel
  simp only
  split_ifs with d1 d2 d3
  · refine Near.mono (near_energy hA hw h1 (q' n1) ((Nat.mul_le_mul n1 n1).trans hN) kh kI) (p 3) le_rfl ?_
    generalize ((supp bra).card : ℝ) = x at *
    have i1 : a * x ≤ a * m := mul_le_mul_of_nonneg_left c1' ha0
    have i2 : x * x ≤ 2 * m ^ 2 := by nlinarith
    have i3 : b * (x * x) ≤ b * (2 * m ^ 2) := mul_le_mul_of_nonneg_left i2 hb0
    linarith
  · cases hO : get (nonzero (minus (occdiff bra ket))) 0 with
    | error e => exact rfl
    | ok o =>
      cases hV : get (nonzero (plus (occdiff bra ket))) 0 with
      | error e => exact rfl
      | ok v =>
        have i1 : b * (2 * ((supp ket).card : ℝ)) ≤ b * (2 * m ^ 2) := mul_le_mul_of_nonneg_left (by linarith) hb0
        refine Near.mono (S := a + b * (2 * (supp ket).card) + 3 * η) ?_ (p 3) le_rfl (by nlinarith)
        exact near_gsingle hA hw h2 (q' n2) (parity_cases _ _ _) (kh v o) (fun i => kI v i o i) (fun i => kI v i i o)
  · cases hO : unpack2 (nonzero (minus (occdiff bra ket))) with
    | error e => exact rfl
    | ok o =>
      cases hV : unpack2 (nonzero (plus (occdiff bra ket))) with
      | error e => exact rfl
      | ok v =>
        obtain ⟨o1, o2⟩ := o
        obtain ⟨v1, v2⟩ := v
        exact (near_double hA hw (parity_cases _ _ _) (parity_cases _ _ _) (kI v1 v2 o1 o2) (kI v1 v2 o2 o1)).mono (p 1) (amp_le hA hw (by norm_num)) dbl
  · refine Near.refl (p 3) ?_
    rw [abs_zero]
    positivity

theorem ci_rounded {braa brab keta ketb : Dstring} (hd : ¬(diff braa keta / 2 = 0 ∧ diff brab ketb / 2 = 0))
    (hd' : ¬(diff braa keta / 2 = 1 ∧ diff brab ketb / 2 = 0)) (hd'' : ¬(diff braa keta / 2 = 0 ∧ diff brab ketb / 2 = 1))
    (ha hb : ℕ → ℕ → ℝ) (Ia Ib Iabab : ℕ → ℕ → ℕ → ℕ → ℝ) (const : ℝ) :
    A.ci_matrixel braa brab keta ketb ha hb Ia Ib Iabab const = (ci_matrixel braa brab keta ketb ha hb Ia Ib Iabab const).map A.rd := by
  unfold Fl.ci_matrixel ci_matrixel
  simp only
  rw [if_neg hd, if_neg hd, if_neg hd', if_neg hd', if_neg hd'', if_neg hd'']
  split_ifs with d4 d5 d6
  · cases hO : get (nonzero (minus (occdiff braa keta))) 0 with
    | error e => exact rfl
    | ok o =>
      cases hV : get (nonzero (plus (occdiff braa keta))) 0 with
      | error e => exact rfl
      | ok v =>
        cases hO' : get (nonzero (minus (occdiff brab ketb))) 0 with
        | error e => exact rfl
        | ok o' =>
          cases hV' : get (nonzero (plus (occdiff brab ketb))) 0 with
          | error e => exact rfl
          | ok v' =>
            simp only [bind, Except.bind, pure, Except.pure, Except.map]
            rw [hA.rd_sign (mul_sign (parity_cases _ _ _) (parity_cases _ _ _))]
  · cases hO : unpack2 (nonzero (minus (occdiff braa keta))) with
    | error e => exact rfl
    | ok o =>
      cases hV : unpack2 (nonzero (plus (occdiff braa keta))) with
      | error e => exact rfl
      | ok v =>
        obtain ⟨o1, o2⟩ := o
        obtain ⟨v1, v2⟩ := v
        simp only [bind, Except.bind, pure, Except.pure, Except.map]
        have hs : ∀ i j k l, -(parity braa.occ i j : ℝ) * parity braa.occ k l = 1 ∨ -(parity braa.occ i j : ℝ) * parity braa.occ k l = -1 := by
          intro i j k l
          rcases parity_cases braa.occ i j with h | h <;> rcases parity_cases braa.occ k l with h' | h' <;> simp [h, h']
        split_ifs
        · rw [hA.rd_sign (hs _ _ _ _), hA.rd_sign_mul (hs _ _ _ _), hA.rd_rd, hA.rd_sign_mul (hs _ _ _ _)]
        · have := mul_sign (parity_cases braa.occ (min o1 v1) (max o1 v1)) (parity_cases braa.occ (min o2 v2) (max o2 v2))
          rw [hA.rd_sign this, hA.rd_sign_mul this, hA.rd_rd, hA.rd_sign_mul this]
  · cases hO : unpack2 (nonzero (minus (occdiff brab ketb))) with
    | error e => exact rfl
    | ok o =>
      cases hV : unpack2 (nonzero (plus (occdiff brab ketb))) with
      | error e => exact rfl
      | ok v =>
        obtain ⟨o1, o2⟩ := o
        obtain ⟨v1, v2⟩ := v
        simp only [bind, Except.bind, pure, Except.pure, Except.map]
        have hs : ∀ i j k l, -(parity brab.occ i j : ℝ) * parity brab.occ k l = 1 ∨ -(parity brab.occ i j : ℝ) * parity brab.occ k l = -1 := by
          intro i j k l
          rcases parity_cases brab.occ i j with h | h <;> rcases parity_cases brab.occ k l with h' | h' <;> simp [h, h']
        split_ifs
        · rw [hA.rd_sign (hs _ _ _ _), hA.rd_sign_mul (hs _ _ _ _), hA.rd_rd, hA.rd_sign_mul (hs _ _ _ _)]
        · have := mul_sign (parity_cases brab.occ (min o1 v1) (max o1 v1)) (parity_cases brab.occ (min o2 v2) (max o2 v2))
          rw [hA.rd_sign this, hA.rd_sign_mul this, hA.rd_rd, hA.rd_sign_mul this]
  · change Except.ok (0 : ℝ) = Except.ok (A.rd 0)
    rw [hA.rd_zero]

end

/-! ### sums over the basis -/

theorem loop_modify {α : Type} (i : ℕ) (f : α → ℝ → ℝ) (step : α → List ℝ → R (List ℝ)) {L : ℕ} (l : List α)
    (h : ∀ p ∈ l, ∀ out : List ℝ, out.length = L → step p out = .ok (out.modify i (f p))) (out : List ℝ) (ho : out.length = L) :
    loop l step out = .ok (out.modify i fun y => l.foldl (fun y p => f p y) y) := by
  induction l generalizing out with
  | nil => rw [loop]; simp only [List.foldl_nil]; congr 1; exact (List.modify_id i out).symm
  | cons p l ih =>
    rw [loop, h p (by simp) out ho]
    change loop l step (out.modify i (f p)) = _
    rw [ih (fun q hq => h q (by simp [hq])) _ (by rw [List.length_modify, ho])]
    congr 1
    apply List.ext_getElem (by simp)
    intro k h1 h2
    simp only [List.getElem_modify, List.foldl_cons]
    split_ifs <;> rfl

theorem loop_rows {α : Type} (f : ℕ → α → ℝ → ℝ) (step : ℕ × α → List ℝ → R (List ℝ)) {L : ℕ} (l : List α) (s : ℕ)
    (h : ∀ i b, l[i]? = some b → ∀ out : List ℝ, out.length = L → step (s + i, b) out = .ok (out.modify (s + i) (f (s + i) b)))
    (out : List ℝ) (ho : out.length = L) :
    ∃ res, loop ((l.zipIdx s).map fun p => (p.2, p.1)) step out = .ok res ∧ res.length = L ∧
      (∀ k, k < s → res[k]? = out[k]?) ∧ ∀ i b, l[i]? = some b → res[s + i]? = (out[s + i]?).map (f (s + i) b) := by
  induction l generalizing out s with
  | nil => exact ⟨out, rfl, ho, fun _ _ => rfl, by simp⟩
  | cons b l ih =>
    have h0 := h 0 b (by simp) out ho
    obtain ⟨res, h1, h2, h3, h4⟩ := ih (s + 1) (fun i b' hi out ho => by
      have := h (i + 1) b' (by simpa using hi) out ho
      rwa [show s + (i + 1) = s + 1 + i by omega] at this) (out.modify (s + 0) (f (s + 0) b)) (by rw [List.length_modify, ho])
    refine ⟨res, ?_, h2, fun k hk => ?_, ?_⟩
    · rw [List.zipIdx_cons, List.map_cons, loop]
      rw [show (s, b) = (s + 0, b) by simp, h0]
      exact h1
    · rw [h3 k (by omega), List.getElem?_modify]
      simp [show s ≠ k by omega]
    · rintro (_ | i) b' hi
      · simp only [List.getElem?_cons_zero, Option.some.injEq] at hi
        subst hi
        rw [h3 (s + 0) (by omega), List.getElem?_modify]
        simp
      · rw [show s + (i + 1) = s + 1 + i by omega, h4 i b' (by simpa using hi), List.getElem?_modify]
        simp [show s ≠ s + 1 + i by omega]

section
variable {A : Fl} {F : Set ℝ} {N : ℕ} {u η g w : ℝ} (hA : A.Good F N u η g) (hw : 0 ≤ w)
include hA hw

theorem near_fold {α : Type} (l : List α) (t' t S : α → ℝ) {k k' : ℕ} (hk : k ≤ k') (h : ∀ p ∈ l, Near (amp u g w k) (S p) (t' p) (t p)) {y' y S0 : ℝ}
    (h0 : Near (amp u g w k') S0 y' y) :
    Near (amp u g w (k' + l.length)) (S0 + (l.map S).sum + l.length * η) (l.foldl (fun y p => A.rd (y + t' p)) y') (y + (l.map t).sum) := by
  induction l generalizing y' y S0 k' with
  | nil => simpa using h0
  | cons p l ih =>
    have h1 := (h0.add ((h p (by simp)).up hA hw hk)).rd hA hw
    have := ih (by omega) (fun q hq => h q (by simp [hq])) h1
    simp only [List.foldl_cons, List.map_cons, List.sum_cons, List.length_cons]
    rw [show k' + (l.length + 1) = k' + 1 + l.length by omega]
    convert this using 1
    · push_cast; ring
    · ring

/-- a matrix times a vector -/
theorem near_matvec {α : Type} (B : List α) (step : ℕ × α → ℕ × α → List ℝ → R (List ℝ)) {vec : List ℝ} (hv : vec.length = B.length) (m' m : ℕ → ℕ → ℝ) {k : ℕ}
    {S : ℝ} (hm : ∀ i j, i < B.length → j < B.length → Near (amp u g w k) S (m' i j) (m i j))
    (hs : ∀ i j b c, B[i]? = some b → B[j]? = some c → ∀ out : List ℝ, out.length = B.length →
      step (i, b) (j, c) out = A.addAt out i (A.rd (vec.getD j 0 * m' i j))) :
    ∃ out, loop (enum B) (fun p out => loop (enum B) (step p) out) (zeros vec) = .ok out ∧ out.length = B.length ∧
      ∀ i, i < B.length → |out.getD i 0 - (matvec m vec).getD i 0| ≤ amp u g w (k + 1 + B.length) * (S * (vec.map abs).sum + 2 * B.length * η) := by
  have hB : ∀ {i : ℕ} {b : α}, B[i]? = some b → i < B.length := fun {i b} hi => by
    by_contra hc; rw [List.getElem?_eq_none (by omega)] at hi; simp at hi
  have hmem : ∀ p ∈ enum B, B[p.1]? = some p.2 := by
    intro p hp
    obtain ⟨q, hq, rfl⟩ := List.mem_map.mp hp
    exact List.mem_zipIdx_iff_getElem?.mp hq
  obtain ⟨out, h1, h2, -, h3⟩ := loop_rows (L := B.length)
    (fun i _ y => (enum B).foldl (fun y p => A.rd (y + A.rd (vec.getD p.1 0 * m' i p.1))) y) (fun p out => loop (enum B) (step p) out) B 0 (fun i b hi out ho => by
      rw [zero_add]
      refine loop_modify i (fun p y => A.rd (y + A.rd (vec.getD p.1 0 * m' i p.1))) (step (i, b)) (L := B.length) (enum B) (fun p hp out ho => ?_) out ho
      have hi' : i < B.length := hB hi
      rw [show p = (p.1, p.2) from rfl, hs i p.1 b p.2 hi (hmem p hp) out ho, Fl.addAt, if_pos (by omega)]) (zeros vec) (by simp [zeros, hv])
  refine ⟨out, h1, h2, fun i hi => ?_⟩
  have h4 := h3 i B[i] (by simp [hi])
  rw [zero_add] at h4
  have hz : (zeros vec)[i]? = some 0 := by simp [zeros, hv, hi]
  rw [hz] at h4
  have e1 : out.getD i 0 = (enum B).foldl (fun y p => A.rd (y + A.rd (vec.getD p.1 0 * m' i p.1))) 0 := by
    rw [List.getD_eq_getElem?_getD, h4]; rfl
  have nf := near_fold hA hw (enum B) (fun p => A.rd (vec.getD p.1 0 * m' i p.1)) (fun p => vec.getD p.1 0 * m i p.1) (fun p => |vec.getD p.1 0| * S + η)
    (le_refl (k + 1)) (fun p hp => ((hm i p.1 hi (hB (hmem p hp))).smul (vec.getD p.1 0)).rd hA hw)
    (Near.refl (S := 0) (amp_nonneg hA hw (k + 1)) (by simp : |(0 : ℝ)| ≤ 0))
  have el : (enum B).length = B.length := by simp [enum]
  have esum : ∀ f : ℕ → ℝ, ((enum B).map fun p => f p.1).sum = ∑ j ∈ Finset.range B.length, f j := by
    intro f
    rw [← sum_range_list]
    congr 1
    apply List.ext_getElem (by simp [enum])
    intro j h5 h6
    simp [enum]
  have e2 : ((enum B).map fun p => |vec.getD p.1 0| * S + η).sum = S * (vec.map abs).sum + B.length * η := by
    rw [esum fun j => |vec.getD j 0| * S + η, Finset.sum_add_distrib, Finset.sum_const, Finset.card_range, nsmul_eq_mul, ← Finset.sum_mul, mul_comm S]
    congr 2
    rw [← sum_range_list, ← hv]
    congr 1
    apply List.ext_getElem (by simp)
    intro j h5 h6
    have : j < vec.length := by simpa using h6
    simp [this]
  have e3 : ((enum B).map fun p => vec.getD p.1 0 * m i p.1).sum = (matvec m vec).getD i 0 := by
    rw [esum fun j => vec.getD j 0 * m i j]
    have hi' : i < vec.length := by omega
    simp only [matvec]
    rw [List.getD_eq_getElem _ _ (by simpa using hi')]
    simp [hv, mul_comm]
  rw [e2, e3, el, ← e1, zero_add, zero_add] at nf
  refine nf.1.trans (le_of_eq ?_)
  congr 1; ring

end

end CI
