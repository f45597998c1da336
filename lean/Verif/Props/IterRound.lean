import Verif.Props.RoundCC
import Verif.Props.Iterate
/-!
# C94: the iteration of the amplitudes in rounded arithmetic
-/

namespace Heap
open Prog CC
variable {n : ℕ → ℕ} {K : Type} [RCLike K]

/-- A stable routine on arrays. -/
theorem Stable.nrun {f : Fun} {ds es : List (Desc n K)} (h : Stable f ds es) (hl : ds.length = f.params.length) (re : K → K) (hre : ∀ x y, ‖re x - re y‖ ≤ ‖x - y‖)
    {η : ℝ} (hη : 0 ≤ η) {G : List (List ℝ) → ℝ} (hG : GMono G) {c : ℝ} (hc : 0 ≤ c) :
    ∃ C, 0 ≤ C ∧ ∀ u, 0 ≤ u → u ≤ 1 → ∀ (A : Rounding K u η G) (bs : List (Arr K)), List.Forall₂ (NearIs (c * u)) ds bs →
      ∃ ys, f.nrun (rounded A true re) bs = .ok ys ∧ List.Forall₂ (NearIs (C * u)) es ys := by
  obtain ⟨C, hC, h1⟩ := h re hre η hη G hG c hc
  refine ⟨C, hC, fun u u0 u1 A bs hb => ?_⟩
  have e : ((List.range bs.length).map fun l => ((l, []) : Ref)).map
      (fun r => seen ((rounded A true re).total ⟨false, [], fun _ => 0⟩ fun _ a _ => a) r.2 ((bs[r.1]?).getD ⟨false, [], fun _ => 0⟩)) = bs := by
    refine List.ext_getElem (by simp) fun i i1 i2 => ?_
    simp [seen, List.getElem?_eq_getElem i2]
  obtain ⟨rs, M', r1, -, -, -, -, r2⟩ := h1 u u0 u1 A ⟨false, [], fun _ => 0⟩ (fun _ a _ => a) ⟨bs.length, fun l => (bs[l]?).getD ⟨false, [], fun _ => 0⟩⟩
    ((List.range bs.length).map fun l => (l, [])) (by rw [List.length_map, List.length_range, ← hb.length_eq, hl]) (by simp) (by rw [e]; exact hb)
  rw [e] at r1
  exact ⟨_, r1, r2⟩

/-- One step of the iteration in rounded arithmetic: the residuals `r1`, `r2` are what the routine returns for the amplitudes `a`, the quotients by the denominators
`d1`, `d2` are rounded, and so is the difference. -/
def RStep {u η : ℝ} {G : List (List ℝ) → ℝ} (A : Rounding K u η G) (re : K → K) (f : Fun) (ins : List (Arr K)) (d1 d2 : Arr K) (a b : Arr K × Arr K) : Prop :=
  ∃ r1 r2, f.nrun (rounded A true re) (ins ++ [a.1, a.2]) = .ok [r1, r2] ∧
    (b.1.cx = a.1.cx ∧ b.1.shape = a.1.shape ∧ ∀ idx, List.Forall₂ (· < ·) idx a.1.shape →
      ∃ q, ‖q - r1.val idx / d1.val idx‖ ≤ u * (‖r1.val idx / d1.val idx‖ + η) ∧ b.1.val idx = A.op .sub (a.1.val idx) q) ∧
    (b.2.cx = a.2.cx ∧ b.2.shape = a.2.shape ∧ ∀ idx, List.Forall₂ (· < ·) idx a.2.shape →
      ∃ q, ‖q - r2.val idx / d2.val idx‖ ≤ u * (‖r2.val idx / d2.val idx‖ + η) ∧ b.2.val idx = A.op .sub (a.2.val idx) q)

section numbers

theorem div_close {u w C : ℝ} {d D r R : K} (hD : D ≠ 0) (hw : w * u ≤ ‖D‖ / 2) (hd : ‖d - D‖ ≤ w * u) (hr : ‖r - R‖ ≤ C * u) :
    ‖r / d - R / D‖ ≤ (2 * C / ‖D‖ + 2 * ‖R‖ * w / ‖D‖ ^ 2) * u := by
  have pD : 0 < ‖D‖ := norm_pos_iff.2 hD
  have hd2 : ‖D‖ / 2 ≤ ‖d‖ := by
    have := norm_sub_norm_le D d
    rw [norm_sub_rev] at this
    linarith
  have pd : 0 < ‖d‖ := by linarith
  have d0 : d ≠ 0 := norm_pos_iff.1 pd
  have e : r / d - R / D = (r - R) / d + R * (D - d) / (d * D) := by field_simp; ring
  have n1 : ‖(r - R) / d‖ ≤ 2 * C / ‖D‖ * u := by
    rw [norm_div, div_le_iff₀ pd]
    have : 0 ≤ C * u := (norm_nonneg _).trans hr
    calc ‖r - R‖ ≤ C * u := hr
      _ = 2 * C / ‖D‖ * u * (‖D‖ / 2) := by field_simp
      _ ≤ 2 * C / ‖D‖ * u * ‖d‖ := mul_le_mul_of_nonneg_left hd2 (by rw [show 2 * C / ‖D‖ * u = 2 * (C * u) / ‖D‖ by ring]; positivity)
  have n2 : ‖R * (D - d) / (d * D)‖ ≤ 2 * ‖R‖ * w / ‖D‖ ^ 2 * u := by
    rw [norm_div, norm_mul, norm_mul, div_le_iff₀ (by positivity), norm_sub_rev]
    have : 0 ≤ w * u := (norm_nonneg _).trans hd
    calc ‖R‖ * ‖d - D‖ ≤ ‖R‖ * (w * u) := mul_le_mul_of_nonneg_left hd (norm_nonneg _)
      _ = 2 * ‖R‖ * w / ‖D‖ ^ 2 * u * ((‖D‖ / 2) * ‖D‖) := by field_simp
      _ ≤ 2 * ‖R‖ * w / ‖D‖ ^ 2 * u * (‖d‖ * ‖D‖) := mul_le_mul_of_nonneg_left (mul_le_mul_of_nonneg_right hd2 pD.le)
          (by rw [show 2 * ‖R‖ * w / ‖D‖ ^ 2 * u = 2 * ‖R‖ * (w * u) / ‖D‖ ^ 2 by ring]; positivity)
  rw [e, add_mul]
  exact (norm_add_le _ _).trans (add_le_add n1 n2)

/-- the constant of a step -/
noncomputable def stepC (η w c C : ℝ) (x R D : K) : ℝ :=
  let E := 2 * C / ‖D‖ + 2 * ‖R‖ * w / ‖D‖ ^ 2
  let Q := E + (‖R / D‖ + E + η)
  c + Q + (‖x‖ + c + ‖R / D‖ + Q + η)

theorem step_close {u η w c C : ℝ} {G : List (List ℝ) → ℝ} (A : Rounding K u η G) (u0 : 0 ≤ u) (u1 : u ≤ 1) (hη : 0 ≤ η) (hw0 : 0 ≤ w) (hc : 0 ≤ c) (hC : 0 ≤ C)
    {x X r R d D q : K} (hD : D ≠ 0) (hw : w * u ≤ ‖D‖ / 2)
    (hd : ‖d - D‖ ≤ w * u) (hr : ‖r - R‖ ≤ C * u) (hx : ‖x - X‖ ≤ c * u) (hq : ‖q - r / d‖ ≤ u * (‖r / d‖ + η)) :
    ‖A.op .sub x q - (X - R / D)‖ ≤ stepC η w c C X R D * u ∧ 0 ≤ stepC η w c C X R D := by
  have h1 := div_close hD hw hd hr
  have pD : 0 < ‖D‖ := norm_pos_iff.2 hD
  simp only [stepC]
  have hE : 0 ≤ 2 * C / ‖D‖ + 2 * ‖R‖ * w / ‖D‖ ^ 2 := by positivity
  generalize 2 * C / ‖D‖ + 2 * ‖R‖ * w / ‖D‖ ^ 2 = E at *
  have s1 : ‖r / d‖ ≤ ‖R / D‖ + E := by
    have := norm_sub_norm_le (r / d) (R / D)
    have := mul_le_of_le_one_right hE u1
    linarith
  have h2 : ‖q - R / D‖ ≤ (E + (‖R / D‖ + E + η)) * u := by
    have t : ‖q - R / D‖ ≤ ‖q - r / d‖ + ‖r / d - R / D‖ := by
      refine le_trans (le_of_eq ?_) (norm_add_le _ _); congr 1; ring
    have := mul_le_mul_of_nonneg_left (add_le_add_left s1 η) u0
    linarith
  have hQ : 0 ≤ E + (‖R / D‖ + E + η) := by positivity
  generalize E + (‖R / D‖ + E + η) = Q at *
  have o := A.op_err .sub x q
  simp only [opVal] at o
  have t : ‖A.op .sub x q - (X - R / D)‖ ≤ ‖A.op .sub x q - (x - q)‖ + (‖x - X‖ + ‖q - R / D‖) := by
    rw [show A.op .sub x q - (X - R / D) = (A.op .sub x q - (x - q)) + ((x - X) - (q - R / D)) by ring]
    exact (norm_add_le _ _).trans (add_le_add le_rfl (norm_sub_le _ _))
  have s2 : ‖x - q‖ ≤ ‖X‖ + c + ‖R / D‖ + Q := by
    have a1 := norm_sub_norm_le x X
    have a2 := norm_sub_norm_le q (R / D)
    have a3 := norm_sub_le x q
    have := mul_le_of_le_one_right hc u1
    have := mul_le_of_le_one_right hQ u1
    linarith
  have := mul_le_mul_of_nonneg_left (add_le_add_left s2 η) u0
  exact ⟨by nlinarith, by positivity⟩

/-- Finitely many numbers other than zero are bounded away from zero. -/
theorem gap {ι : Type} [Fintype ι] (D : ι → K) (h : ∀ x, D x ≠ 0) : ∃ δ : ℝ, 0 < δ ∧ ∀ x, δ ≤ ‖D x‖ := by
  have p : 0 ≤ ∑ x, 1 / ‖D x‖ := Finset.sum_nonneg fun _ _ => by positivity
  refine ⟨1 / (∑ x, 1 / ‖D x‖ + 1), by positivity, fun x => ?_⟩
  have q : 0 < ‖D x‖ := norm_pos_iff.2 (h x)
  have := Finset.single_le_sum (f := fun x => 1 / ‖D x‖) (fun _ _ => by positivity) (Finset.mem_univ x)
  rw [div_le_iff₀ (by positivity)]
  calc (1 : ℝ) = ‖D x‖ * (1 / ‖D x‖) := by field_simp
    _ ≤ ‖D x‖ * (∑ x, 1 / ‖D x‖ + 1) := mul_le_mul_of_nonneg_left (by linarith) q.le

end numbers

section arrays

theorem nearIs_two {ε : ℝ} {t : Bool} {k l : ℕ} {T : Fin (n k) → Fin (n l) → K} {b : Arr K} :
    NearIs ε (.two t k l T) b ↔ b.cx = t ∧ b.shape = [n k, n l] ∧ ∀ (p : Fin (n k)) (q : Fin (n l)), ‖b.val [p.1, q.1] - T p q‖ ≤ ε := by
  refine and_congr_right fun _ => and_congr_right fun hs => ⟨fun h p q => ?_, fun h idx hi => ?_⟩
  · have := h [p, q] (by rw [hs]; simp)
    simpa [Cur.get] using this
  · rw [hs] at hi
    obtain ⟨x, _, hx, hi', rfl⟩ := List.forall₂_cons_right_iff.1 hi
    obtain ⟨y, _, hy, hi'', rfl⟩ := List.forall₂_cons_right_iff.1 hi'
    obtain rfl := List.forall₂_nil_right_iff.1 hi''
    simpa [Cur.get, hx, hy] using h ⟨x, hx⟩ ⟨y, hy⟩

theorem nearIs_four {ε : ℝ} {t : Bool} {k l p q : ℕ} {T : Fin (n k) → Fin (n l) → Fin (n p) → Fin (n q) → K} {b : Arr K} :
    NearIs ε (.four t k l p q T) b ↔ b.cx = t ∧ b.shape = [n k, n l, n p, n q] ∧
      ∀ (x : Fin (n k)) (y : Fin (n l)) (z : Fin (n p)) (w : Fin (n q)), ‖b.val [x.1, y.1, z.1, w.1] - T x y z w‖ ≤ ε := by
  refine and_congr_right fun _ => and_congr_right fun hs => ⟨fun h x y z w => ?_, fun h idx hi => ?_⟩
  · have := h [x, y, z, w] (by rw [hs]; simp)
    simpa [Cur.get] using this
  · rw [hs] at hi
    obtain ⟨x, _, hx, h1, rfl⟩ := List.forall₂_cons_right_iff.1 hi
    obtain ⟨y, _, hy, h2, rfl⟩ := List.forall₂_cons_right_iff.1 h1
    obtain ⟨z, _, hz, h3, rfl⟩ := List.forall₂_cons_right_iff.1 h2
    obtain ⟨w, _, hw, h4, rfl⟩ := List.forall₂_cons_right_iff.1 h3
    obtain rfl := List.forall₂_nil_right_iff.1 h4
    simpa [Cur.get, hx, hy, hz, hw] using h ⟨x, hx⟩ ⟨y, hy⟩ ⟨z, hz⟩ ⟨w, hw⟩

theorem NearIs.mono {ε ε' : ℝ} (h : ε ≤ ε') {d : Desc n K} {b : Arr K} (hb : NearIs ε d b) : NearIs ε' d b :=
  ⟨hb.1, hb.2.1, fun idx hi => (hb.2.2 idx hi).trans h⟩

/-- The denominators, wrong by at most `ε`. -/
def NearDen (ε : ℝ) (eo : Fin (n 0) → K) (ev : Fin (n 1) → K) (d1 d2 : Arr K) : Prop :=
  (∀ a i, ‖d1.val [(a : Fin (n 1)).1, (i : Fin (n 0)).1] - (ev a - eo i)‖ ≤ ε) ∧
    ∀ a b i j, ‖d2.val [(a : Fin (n 1)).1, (b : Fin (n 1)).1, (i : Fin (n 0)).1, (j : Fin (n 0)).1] - (ev a + ev b - eo i - eo j)‖ ≤ ε

/-- Amplitudes wrong by at most `ε`. -/
def NearAmp (ε : ℝ) (t : Bool) (T : Amp K (Fin (n 0)) (Fin (n 1))) (x : Arr K × Arr K) : Prop :=
  NearIs ε (.two t 1 0 T.1) x.1 ∧ NearIs ε (.four t 1 1 0 0 T.2) x.2

/-- Iterating any routine that is stable along the exact iteration. -/
theorem iterate_round (f : Fun) (ds : List (Desc n K)) (t : Bool) (eo : Fin (n 0) → K) (ev : Fin (n 1) → K)
    (g1 : ∀ a i, ev a - eo i ≠ 0) (g2 : ∀ a b i j, ev a + ev b - eo i - eo j ≠ 0)
    (T R : ℕ → Amp K (Fin (n 0)) (Fin (n 1)))
    (hT : ∀ k, T (k + 1) = (fun a i => (T k).1 a i - (R k).1 a i / (ev a - eo i),
      fun a b i j => (T k).2 a b i j - (R k).2 a b i j / (ev a + ev b - eo i - eo j)))
    (hS : ∀ k, Stable f (ds ++ [.two t 1 0 (T k).1, .four t 1 1 0 0 (T k).2]) [.two t 1 0 (R k).1, .four t 1 1 0 0 (R k).2])
    (hl : ds.length + 2 = f.params.length)
    (re : K → K) (hre : ∀ x y, ‖re x - re y‖ ≤ ‖x - y‖) {η : ℝ} (hη : 0 ≤ η) {G : List (List ℝ) → ℝ} (hG : GMono G) {c : ℝ} (hc : 0 ≤ c) (k : ℕ) :
    ∃ C u₀ : ℝ, 0 ≤ C ∧ 0 < u₀ ∧ u₀ ≤ 1 ∧ ∀ u, 0 ≤ u → u ≤ u₀ → ∀ (A : Rounding K u η G) (ins : List (Arr K)) (d1 d2 : Arr K) (x : ℕ → Arr K × Arr K),
      List.Forall₂ (NearIs (c * u)) ds ins → NearDen (c * u) eo ev d1 d2 → NearAmp (c * u) t (T 0) (x 0) →
      (∀ j < k, RStep A re f ins d1 d2 (x j) (x (j + 1))) →
      NearAmp (C * u) t (T k) (x k) ∧ ∃ r1 r2, f.nrun (rounded A true re) (ins ++ [(x k).1, (x k).2]) = .ok [r1, r2] ∧ NearAmp (C * u) t (R k) (r1, r2) := by
  have residual : ∀ k, (∃ C u₀ : ℝ, 0 ≤ C ∧ 0 < u₀ ∧ u₀ ≤ 1 ∧ ∀ u, 0 ≤ u → u ≤ u₀ → ∀ (A : Rounding K u η G) (ins : List (Arr K)) (d1 d2 : Arr K) (x : ℕ → Arr K × Arr K),
      List.Forall₂ (NearIs (c * u)) ds ins → NearDen (c * u) eo ev d1 d2 → NearAmp (c * u) t (T 0) (x 0) →
      (∀ j < k, RStep A re f ins d1 d2 (x j) (x (j + 1))) → NearAmp (C * u) t (T k) (x k)) →
      ∃ C u₀ : ℝ, 0 ≤ C ∧ 0 < u₀ ∧ u₀ ≤ 1 ∧ ∀ u, 0 ≤ u → u ≤ u₀ → ∀ (A : Rounding K u η G) (ins : List (Arr K)) (d1 d2 : Arr K) (x : ℕ → Arr K × Arr K),
      List.Forall₂ (NearIs (c * u)) ds ins → NearDen (c * u) eo ev d1 d2 → NearAmp (c * u) t (T 0) (x 0) →
      (∀ j < k, RStep A re f ins d1 d2 (x j) (x (j + 1))) →
      NearAmp (C * u) t (T k) (x k) ∧ ∃ r1 r2, f.nrun (rounded A true re) (ins ++ [(x k).1, (x k).2]) = .ok [r1, r2] ∧ NearAmp (C * u) t (R k) (r1, r2) := by
    rintro k ⟨C, u₀, hC, hu, hu1, h⟩
    obtain ⟨C', hC', h'⟩ := (hS k).nrun (by simpa using hl) re hre hη hG (c := max c C) (hc.trans (le_max_left _ _))
    refine ⟨max C C', u₀, hC.trans (le_max_left _ _), hu, hu1, fun u u0 uu A ins d1 d2 x hi hd h0 hs => ?_⟩
    have hk := h u u0 uu A ins d1 d2 x hi hd h0 hs
    have m : ∀ {a b : ℝ}, a ≤ b → a * u ≤ b * u := fun h => mul_le_mul_of_nonneg_right h u0
    obtain ⟨ys, e, hy⟩ := h' u u0 (uu.trans hu1) A (ins ++ [(x k).1, (x k).2]) (List.rel_append (hi.imp fun _ _ h => h.mono (m (le_max_left _ _)))
      (.cons (hk.1.mono (m (le_max_right _ _))) (.cons (hk.2.mono (m (le_max_right _ _))) .nil)))
    obtain ⟨r1, _, q1, hy1, rfl⟩ := List.forall₂_cons_left_iff.1 hy
    obtain ⟨r2, _, q2, hy2, rfl⟩ := List.forall₂_cons_left_iff.1 hy1
    obtain rfl := List.forall₂_nil_left_iff.1 hy2
    exact ⟨⟨hk.1.mono (m (le_max_left _ _)), hk.2.mono (m (le_max_left _ _))⟩, r1, r2, e, q1.mono (m (le_max_right _ _)), q2.mono (m (le_max_right _ _))⟩
  refine residual k ?_
  induction k with
  | zero => exact ⟨c, 1, hc, one_pos, le_rfl, fun u u0 u1 A ins d1 d2 x hi hd h0 hs => h0⟩
  | succ k ih =>
    obtain ⟨C, u₀, hC, hu, hu1, h⟩ := residual k ih
    obtain ⟨δ1, p1, l1⟩ := gap (fun x : Fin (n 1) × Fin (n 0) => ev x.1 - eo x.2) fun x => g1 _ _
    obtain ⟨δ2, p2, l2⟩ := gap (fun x : (Fin (n 1) × Fin (n 1)) × Fin (n 0) × Fin (n 0) => ev x.1.1 + ev x.1.2 - eo x.2.1 - eo x.2.2) fun x => g2 _ _ _ _
    let s1 : Fin (n 1) × Fin (n 0) → ℝ := fun y => stepC η c C C ((T k).1 y.1 y.2) ((R k).1 y.1 y.2) (ev y.1 - eo y.2)
    let s2 : (Fin (n 1) × Fin (n 1)) × Fin (n 0) × Fin (n 0) → ℝ := fun y =>
      stepC η c C C ((T k).2 y.1.1 y.1.2 y.2.1 y.2.2) ((R k).2 y.1.1 y.1.2 y.2.1 y.2.2) (ev y.1.1 + ev y.1.2 - eo y.2.1 - eo y.2.2)
    have n1 : ∀ y, 0 ≤ s1 y := fun y => by simp only [s1, stepC]; positivity
    have n2 : ∀ y, 0 ≤ s2 y := fun y => by simp only [s2, stepC]; positivity
    have t1 : 0 ≤ ∑ y, s1 y := Finset.sum_nonneg fun y _ => n1 y
    have t2 : 0 ≤ ∑ y, s2 y := Finset.sum_nonneg fun y _ => n2 y
    refine ⟨∑ y, s1 y + ∑ y, s2 y, min u₀ (min δ1 δ2 / (2 * (c + 1))), add_nonneg t1 t2, lt_min hu (by positivity), (min_le_left _ _).trans hu1, ?_⟩
    intro u u0 uu A ins d1 d2 x hi hd h0 hs
    have uu₀ := uu.trans (min_le_left _ _)
    have cu : c * u ≤ min δ1 δ2 / 2 := by
      have := mul_le_mul_of_nonneg_left (uu.trans (min_le_right _ _)) (by positivity : 0 ≤ c + 1)
      rw [show (c + 1) * (min δ1 δ2 / (2 * (c + 1))) = min δ1 δ2 / 2 by field_simp] at this
      nlinarith
    obtain ⟨hk, r1, r2, e, hr⟩ := h u u0 uu₀ A ins d1 d2 x hi hd h0 fun j hj => hs j (hj.trans (Nat.lt_succ_self k))
    obtain ⟨r1', r2', e', b1, b2⟩ := hs k (Nat.lt_succ_self k)
    rw [e] at e'
    simp only [Except.ok.injEq, List.cons.injEq, and_true] at e'
    obtain ⟨rfl, rfl⟩ := e'
    obtain ⟨k1, k2⟩ := hk
    obtain ⟨q1, q2⟩ := hr
    rw [nearIs_two] at k1 q1
    rw [nearIs_four] at k2 q2
    have m : ∀ {a b : ℝ}, a ≤ b → a * u ≤ b * u := fun h => mul_le_mul_of_nonneg_right h u0
    rw [hT]
    refine ⟨nearIs_two.2 ⟨b1.1.trans k1.1, b1.2.1.trans k1.2.1, fun a i => ?_⟩, nearIs_four.2 ⟨b2.1.trans k2.1, b2.2.1.trans k2.2.1, fun a b i j => ?_⟩⟩
    · obtain ⟨q, h1, h2⟩ := b1.2.2 [(a : ℕ), (i : ℕ)] (by rw [k1.2.1]; simp)
      rw [h2]
      refine ((step_close A u0 (uu₀.trans hu1) hη hc hC hC (g1 a i) (cu.trans ?_) (hd.1 a i) (q1.2.2 a i) (k1.2.2 a i) h1).1).trans (m ?_)
      · exact div_le_div_of_nonneg_right ((min_le_left _ _).trans (l1 (a, i))) (by norm_num)
      · exact (Finset.single_le_sum (f := s1) (fun y _ => n1 y) (Finset.mem_univ (a, i))).trans (le_add_of_nonneg_right t2)
    · obtain ⟨q, h1, h2⟩ := b2.2.2 [(a : ℕ), (b : ℕ), (i : ℕ), (j : ℕ)] (by rw [k2.2.1]; simp)
      rw [h2]
      refine ((step_close A u0 (uu₀.trans hu1) hη hc hC hC (g2 a b i j) (cu.trans ?_) (hd.2 a b i j) (q2.2.2 a b i j) (k2.2.2 a b i j) h1).1).trans (m ?_)
      · exact div_le_div_of_nonneg_right ((min_le_right _ _).trans (l2 ((a, b), i, j))) (by norm_num)
      · exact (Finset.single_le_sum (f := s2) (fun y _ => n2 y) (Finset.mem_univ ((a, b), i, j))).trans (le_add_of_nonneg_left t1)

end arrays

section routines
variable (re : K → K) (hre : ∀ x y, ‖re x - re y‖ ≤ ‖x - y‖) {η : ℝ} (hη : 0 ≤ η) {G : List (List ℝ) → ℝ} (hG : GMono G) {c : ℝ} (hc : 0 ≤ c)
  (t : Bool) (F : OneE (Fin (n 0)) (Fin (n 1)) K) (I : TwoE (Fin (n 0)) (Fin (n 1)) K) (eo : Fin (n 0) → K) (ev : Fin (n 1) → K)
  (g1 : ∀ a i, ev a - eo i ≠ 0) (g2 : ∀ a b i j, ev a + ev b - eo i - eo j ≠ 0)
include hre hη hG hc g1 g2

/-- The Fock matrix and the integrals, as `ccsd_simple` and `ccsd_stanton` read them. -/
abbrev ham : List (Desc n K) :=
  [.two t 0 0 F.oo, .two t 0 1 F.ov, .two t 1 0 F.vo, .two t 1 1 F.vv, .four t 0 0 0 0 I.oooo, .four t 0 0 0 1 I.ooov, .four t 0 0 1 1 I.oovv, .four t 1 0 0 0 I.vooo,
    .four t 1 0 1 0 I.vovo, .four t 1 0 1 1 I.vovv, .four t 1 1 0 0 I.vvoo, .four t 1 1 1 0 I.vvvo, .four t 1 1 1 1 I.vvvv]

/-- C94: `k` updates with the residuals of `ccsd_simple`, in any rounded arithmetic of small unit roundoff `u`, with integrals, denominators and first amplitudes wrong by
at most `c * u`: no call raises, and the amplitudes and the residuals differ from those of exact arithmetic by at most `C * u`.  The constants depend on the exact
data and on `k` only. -/
theorem C94_simple (T₀ : Amp K (Fin (n 0)) (Fin (n 1))) (k : ℕ) :
    ∃ C u₀ : ℝ, 0 ≤ C ∧ 0 < u₀ ∧ u₀ ≤ 1 ∧ ∀ u, 0 ≤ u → u ≤ u₀ → ∀ (A : Rounding K u η G) (ins : List (Arr K)) (d1 d2 : Arr K) (x : ℕ → Arr K × Arr K),
      List.Forall₂ (NearIs (c * u)) (ham t F I) ins → NearDen (c * u) eo ev d1 d2 → NearAmp (c * u) t T₀ (x 0) →
      (∀ j < k, RStep A re Prog.ccsd_simple ins d1 d2 (x j) (x (j + 1))) →
      NearAmp (C * u) t ((update F I eo ev)^[k] T₀) (x k) ∧
        ∃ r1 r2, Prog.ccsd_simple.nrun (rounded A true re) (ins ++ [(x k).1, (x k).2]) = .ok [r1, r2] ∧
          NearAmp (C * u) t (CC.ccsd_simple F I ((update F I eo ev)^[k] T₀).1 ((update F I eo ev)^[k] T₀).2) (r1, r2) :=
  iterate_round Prog.ccsd_simple (ham t F I) t eo ev g1 g2 (fun k => (update F I eo ev)^[k] T₀)
    (fun k => CC.ccsd_simple F I ((update F I eo ev)^[k] T₀).1 ((update F I eo ev)^[k] T₀).2)
    (fun k => by rw [Function.iterate_succ_apply']; rfl) (fun _ => C60_ccsd_simple id F I _ _) rfl re hre hη hG hc k

/-- C94: the updates can be carried out, whatever the arithmetic. -/
theorem C94_runs (T₀ : Amp K (Fin (n 0)) (Fin (n 1))) (k : ℕ) :
    ∃ u₀ : ℝ, 0 < u₀ ∧ ∀ u, 0 ≤ u → u ≤ u₀ → ∀ (A : Rounding K u η G) (ins : List (Arr K)) (d1 d2 : Arr K) (x₀ : Arr K × Arr K),
      List.Forall₂ (NearIs (c * u)) (ham t F I) ins → NearDen (c * u) eo ev d1 d2 → NearAmp (c * u) t T₀ x₀ →
      ∃ x : ℕ → Arr K × Arr K, x 0 = x₀ ∧ ∀ j < k, RStep A re Prog.ccsd_simple ins d1 d2 (x j) (x (j + 1)) := by
  induction k with
  | zero => exact ⟨1, one_pos, fun u _ _ A ins d1 d2 x₀ _ _ _ => ⟨fun _ => x₀, rfl, nofun⟩⟩
  | succ k ih =>
    obtain ⟨u₁, h1, h⟩ := ih
    obtain ⟨C, u₂, -, h2, -, h'⟩ := C94_simple re hre hη hG hc t F I eo ev g1 g2 T₀ k
    refine ⟨min u₁ u₂, lt_min h1 h2, fun u u0 uu A ins d1 d2 x₀ hi hd h0 => ?_⟩
    obtain ⟨x, rfl, hx⟩ := h u u0 (uu.trans (min_le_left _ _)) A ins d1 d2 x₀ hi hd h0
    obtain ⟨-, r1, r2, e, -⟩ := h' u u0 (uu.trans (min_le_right _ _)) A ins d1 d2 x hi hd h0 hx
    refine ⟨fun j => if j ≤ k then x j else
      (⟨(x k).1.cx, (x k).1.shape, fun idx => A.op .sub ((x k).1.val idx) (r1.val idx / d1.val idx)⟩,
       ⟨(x k).2.cx, (x k).2.shape, fun idx => A.op .sub ((x k).2.val idx) (r2.val idx / d2.val idx)⟩), if_pos (Nat.zero_le k), fun j hj => ?_⟩
    have z : ∀ y : K, ‖y - y‖ ≤ u * (‖y‖ + η) := fun y => by rw [sub_self, norm_zero]; positivity
    rcases Nat.lt_succ_iff_lt_or_eq.1 hj with hj | rfl
    · simp only [hj.le, Nat.succ_le_of_lt hj, if_true]
      exact hx j hj
    · simp only [le_refl, if_true, Nat.not_succ_le_self, if_false]
      exact ⟨r1, r2, e, ⟨rfl, rfl, fun idx _ => ⟨_, z _, rfl⟩⟩, rfl, rfl, fun idx _ => ⟨_, z _, rfl⟩⟩

/-- C94: the same for `ccsd_stanton`, from antisymmetric amplitudes. -/
theorem C94_stanton (hI : AntiI I) (T₀ : Amp K (Fin (n 0)) (Fin (n 1))) (h0 : Anti T₀.2) (k : ℕ) :
    ∃ C u₀ : ℝ, 0 ≤ C ∧ 0 < u₀ ∧ u₀ ≤ 1 ∧ ∀ u, 0 ≤ u → u ≤ u₀ → ∀ (A : Rounding K u η G) (ins : List (Arr K)) (d1 d2 : Arr K) (x : ℕ → Arr K × Arr K),
      List.Forall₂ (NearIs (c * u)) (ham t F I) ins → NearDen (c * u) eo ev d1 d2 → NearAmp (c * u) t T₀ (x 0) →
      (∀ j < k, RStep A re Prog.ccsd_stanton ins d1 d2 (x j) (x (j + 1))) →
      NearAmp (C * u) t ((update F I eo ev)^[k] T₀) (x k) ∧
        ∃ r1 r2, Prog.ccsd_stanton.nrun (rounded A true re) (ins ++ [(x k).1, (x k).2]) = .ok [r1, r2] ∧
          NearAmp (C * u) t (CC.ccsd_simple F I ((update F I eo ev)^[k] T₀).1 ((update F I eo ev)^[k] T₀).2) (r1, r2) := by
  have hA : ∀ k, Anti ((update F I eo ev)^[k] T₀).2 := by
    intro k
    induction k with
    | zero => exact h0
    | succ k ih => rw [Function.iterate_succ_apply']; exact update_anti F I hI eo ev ih
  refine iterate_round Prog.ccsd_stanton (ham t F I) t eo ev g1 g2 (fun k => (update F I eo ev)^[k] T₀)
    (fun k => CC.ccsd_simple F I ((update F I eo ev)^[k] T₀).1 ((update F I eo ev)^[k] T₀).2)
    (fun k => by rw [Function.iterate_succ_apply']; rfl) (fun k => ?_) rfl re hre hη hG hc k
  have := C60_ccsd_stanton (i := t) (t := t) id F I ((update F I eo ev)^[k] T₀).1 ((update F I eo ev)^[k] T₀).2
  rw [C01_ccsd_stanton_eq_simple F I hI _ _ (hA k)] at this
  exact this

/-- C94: the energies printed after `k` updates. -/
theorem C94_energy (T₀ : Amp K (Fin (n 0)) (Fin (n 1))) (k : ℕ) :
    ∃ C u₀ : ℝ, 0 ≤ C ∧ 0 < u₀ ∧ u₀ ≤ 1 ∧ ∀ u, 0 ≤ u → u ≤ u₀ → ∀ (A : Rounding K u η G) (ins : List (Arr K)) (d1 d2 fov oovv : Arr K) (x : ℕ → Arr K × Arr K),
      List.Forall₂ (NearIs (c * u)) (ham t F I) ins → NearDen (c * u) eo ev d1 d2 → NearAmp (c * u) t T₀ (x 0) →
      (∀ j < k, RStep A re Prog.ccsd_simple ins d1 d2 (x j) (x (j + 1))) →
      NearIs (c * u) (.two t 0 1 F.ov) fov → NearIs (c * u) (.four t 0 0 1 1 I.oovv) oovv →
      ∃ e, Prog.cc_energy.nrun (rounded A true re) [(x k).1, (x k).2, fov, oovv] = .ok [e] ∧
        ‖e.val [] - CC.cc_energy ((update F I eo ev)^[k] T₀).1 ((update F I eo ev)^[k] T₀).2 F.ov I.oovv‖ ≤ C * u := by
  obtain ⟨C, u₀, hC, hu, hu1, h⟩ := C94_simple re hre hη hG hc t F I eo ev g1 g2 T₀ k
  obtain ⟨C', hC', h'⟩ := (C60_cc_energy (i := t) (t := t) ((update F I eo ev)^[k] T₀).1 ((update F I eo ev)^[k] T₀).2 F.ov I.oovv).nrun rfl re hre hη hG
    (c := max c C) (hc.trans (le_max_left _ _))
  refine ⟨C', u₀, hC', hu, hu1, fun u u0 uu A ins d1 d2 fov oovv x hi hd h0 hs h1 h2 => ?_⟩
  obtain ⟨hk, -⟩ := h u u0 uu A ins d1 d2 x hi hd h0 hs
  have m : ∀ {a b : ℝ}, a ≤ b → a * u ≤ b * u := fun h => mul_le_mul_of_nonneg_right h u0
  obtain ⟨ys, e, hy⟩ := h' u u0 (uu.trans hu1) A _ (.cons (hk.1.mono (m (le_max_right _ _))) (.cons (hk.2.mono (m (le_max_right _ _)))
    (.cons (h1.mono (m (le_max_left _ _))) (.cons (h2.mono (m (le_max_left _ _))) .nil))))
  obtain ⟨y, _, q, hy1, rfl⟩ := List.forall₂_cons_left_iff.1 hy
  obtain rfl := List.forall₂_nil_left_iff.1 hy1
  exact ⟨y, e, by simpa [Cur.get] using q.2.2 [] (by rw [q.2.1]; exact .nil)⟩

end routines

/-- C94: for a weak perturbation any accuracy can be reached: given `ε` there is a number of updates after which, for all sufficiently small roundoffs, the rounded
amplitudes are within `ε` of the solution of the CCSD equations. -/
theorem C94_converges (re : K → K) (hre : ∀ x y, ‖re x - re y‖ ≤ ‖x - y‖) {η : ℝ} (hη : 0 ≤ η) {G : List (List ℝ) → ℝ} (hG : GMono G) {c : ℝ} (hc : 0 ≤ c)
    (t : Bool) (f : OneE (Fin (n 0)) (Fin (n 1)) K) (I : TwoE (Fin (n 0)) (Fin (n 1)) K) (hI : AntiI I) (eo : Fin (n 0) → K) (ev : Fin (n 1) → K)
    (g1 : ∀ a i, ev a - eo i ≠ 0) (g2 : ∀ a b i j, ev a + ev b - eo i - eo j ≠ 0) (r : ℝ) (hr : 0 < r) :
    ∃ z₀ : ℝ, 0 < z₀ ∧ ∀ z : K, ‖z‖ ≤ z₀ → ∃ T : Amp K (Fin (n 0)) (Fin (n 1)), Anti T.2 ∧ ‖T‖ ≤ r ∧
      CC.ccsd_simple ((diagF eo ev).addMul z f) (I.mul z) T.1 T.2 = (fun _ _ => 0, fun _ _ _ _ => 0) ∧
      ∀ T₀ : Amp K (Fin (n 0)) (Fin (n 1)), Anti T₀.2 → ‖T₀‖ ≤ r → ∀ ε > 0, ∃ (k : ℕ) (u₀ : ℝ), 0 < u₀ ∧
        ∀ u, 0 ≤ u → u ≤ u₀ → ∀ (A : Rounding K u η G) (ins : List (Arr K)) (d1 d2 : Arr K) (x : ℕ → Arr K × Arr K),
          List.Forall₂ (NearIs (c * u)) (ham t ((diagF eo ev).addMul z f) (I.mul z)) ins → NearDen (c * u) eo ev d1 d2 → NearAmp (c * u) t T₀ (x 0) →
          (∀ j < k, RStep A re Prog.ccsd_simple ins d1 d2 (x j) (x (j + 1))) → NearAmp ε t T (x k) := by
  obtain ⟨z₀, hz, h⟩ := C66_converges eo ev f I hI g1 g2 r hr
  refine ⟨z₀, hz, fun z hzz => ?_⟩
  obtain ⟨T, hA, hn, hsol, -, hcv⟩ := h z hzz
  refine ⟨T, hA, hn, hsol, fun T₀ a0 n0 ε hε => ?_⟩
  obtain ⟨k, hk⟩ := exists_pow_lt_of_lt_one (show 0 < ε / 2 / (‖T₀ - T‖ + 1) by positivity) (by norm_num : (1 / 2 : ℝ) < 1)
  have hd : ‖(update ((diagF eo ev).addMul z f) (I.mul z) eo ev)^[k] T₀ - T‖ ≤ ε / 2 := by
    refine (hcv T₀ a0 n0 k).trans ?_
    have h1 := (lt_div_iff₀ (by positivity)).1 hk
    have := norm_nonneg (T₀ - T)
    have : (0 : ℝ) < (1 / 2) ^ k := by positivity
    nlinarith
  obtain ⟨C, u₀, hC, hu, hu1, hx⟩ := C94_simple re hre hη hG hc t ((diagF eo ev).addMul z f) (I.mul z) eo ev g1 g2 T₀ k
  refine ⟨k, min u₀ (ε / 2 / (C + 1)), lt_min hu (by positivity), fun u u0 uu A ins d1 d2 x hi hde h0 hs => ?_⟩
  obtain ⟨⟨q1, q2⟩, -⟩ := hx u u0 (uu.trans (min_le_left _ _)) A ins d1 d2 x hi hde h0 hs
  have cu : C * u ≤ ε / 2 := by
    have := mul_le_mul_of_nonneg_left (uu.trans (min_le_right _ _)) (by positivity : 0 ≤ C + 1)
    rw [show (C + 1) * (ε / 2 / (C + 1)) = ε / 2 by field_simp] at this
    nlinarith
  rw [nearIs_two] at q1
  rw [nearIs_four] at q2
  generalize (update ((diagF eo ev).addMul z f) (I.mul z) eo ev)^[k] T₀ = X at *
  refine ⟨nearIs_two.2 ⟨q1.1, q1.2.1, fun a i => ?_⟩, nearIs_four.2 ⟨q2.1, q2.2.1, fun a b i j => ?_⟩⟩
  · have h1 := q1.2.2 a i
    have h2 : ‖X.1 a i - T.1 a i‖ ≤ ‖X - T‖ := ((norm_le_pi_norm ((X - T).1 a) i).trans (norm_le_pi_norm (X - T).1 a)).trans (norm_fst_le (X - T))
    have h3 := norm_sub_le_norm_sub_add_norm_sub ((x k).1.val [a.1, i.1]) (X.1 a i) (T.1 a i)
    linarith
  · have h1 := q2.2.2 a b i j
    have h2 : ‖X.2 a b i j - T.2 a b i j‖ ≤ ‖X - T‖ :=
      ((((norm_le_pi_norm ((X - T).2 a b i) j).trans (norm_le_pi_norm ((X - T).2 a b) i)).trans (norm_le_pi_norm ((X - T).2 a) b)).trans
        (norm_le_pi_norm (X - T).2 a)).trans (norm_snd_le (X - T))
    have h3 := norm_sub_le_norm_sub_add_norm_sub ((x k).2.val [a.1, b.1, i.1, j.1]) (X.2 a b i j) (T.2 a b i j)
    linarith

/-- Ten updates in an arithmetic that really rounds: two occupied orbitals of energy -1, three virtual ones of energy 1, any integrals. -/
example (F : OneE (Fin 2) (Fin 3) ℝ) (I : TwoE (Fin 2) (Fin 3) ℝ) :
    ∃ C u₀ : ℝ, 0 < u₀ ∧ ∀ (u : ℝ) (h0 : 0 ≤ u) (h1 : u ≤ 1), u ≤ u₀ → (inflate h0 h1 : Rounding ℝ u 0 (szSum 0)).op .add 1 1 = 2 + 2 * u ∧
      ∃ x : ℕ → Arr ℝ × Arr ℝ, (∀ j < 10, RStep (inflate h0 h1) id Prog.ccsd_simple ((ham (n := fun k => k + 2) false F I).map Desc.arr)
          ⟨false, [3, 2], fun _ => 2⟩ ⟨false, [3, 3, 2, 2], fun _ => 4⟩ (x j) (x (j + 1))) ∧
        NearAmp (n := fun k => k + 2) (C * u) false ((update F I (fun _ => -1) fun _ => 1)^[10] 0) (x 10) := by
  have g1 : ∀ (a : Fin 3) (i : Fin 2), (fun _ => 1 : Fin 3 → ℝ) a - (fun _ => -1 : Fin 2 → ℝ) i ≠ 0 := fun _ _ => by norm_num
  have g2 : ∀ (a b : Fin 3) (i j : Fin 2), (fun _ => 1 : Fin 3 → ℝ) a + (fun _ => 1 : Fin 3 → ℝ) b - (fun _ => -1 : Fin 2 → ℝ) i - (fun _ => -1 : Fin 2 → ℝ) j ≠ 0 :=
    fun _ _ _ _ => by norm_num
  obtain ⟨u₁, p1, h⟩ := C94_runs (n := fun k => k + 2) id (fun _ _ => le_rfl) le_rfl (sz_mono le_rfl) (c := 0) le_rfl false F I _ _ g1 g2 0 10
  obtain ⟨C, u₂, -, p2, -, h'⟩ := C94_simple (n := fun k => k + 2) id (fun _ _ => le_rfl) le_rfl (sz_mono le_rfl) (c := 0) le_rfl false F I _ _ g1 g2 0 10
  refine ⟨C, min u₁ u₂, lt_min p1 p2, fun u h0 h1 hu => ⟨by simp [inflate, ltr, opVal]; ring, ?_⟩⟩
  have near : ∀ d : Desc (fun k => k + 2) ℝ, NearIs (0 * u) d d.arr := fun d => ⟨rfl, rfl, fun idx _ => by rw [zero_mul, Desc.arr, sub_self, norm_zero]⟩
  have hi : List.Forall₂ (NearIs (0 * u)) (ham (n := fun k => k + 2) false F I) ((ham (n := fun k => k + 2) false F I).map Desc.arr) := by
    rw [List.forall₂_map_right_iff]
    exact List.forall₂_same.2 fun d _ => near d
  have hd : NearDen (n := fun k => k + 2) (0 * u) (fun _ => -1) (fun _ => 1) (⟨false, [3, 2], fun _ => 2⟩ : Arr ℝ) ⟨false, [3, 3, 2, 2], fun _ => 4⟩ :=
    ⟨fun _ _ => by norm_num, fun _ _ _ _ => by norm_num⟩
  obtain ⟨x, hx0, hx⟩ := h u h0 (hu.trans (min_le_left _ _)) (inflate h0 h1) _ _ _
    ((Desc.two (n := fun k => k + 2) false 1 0 fun _ _ => 0).arr, (Desc.four (n := fun k => k + 2) false 1 1 0 0 fun _ _ _ _ => 0).arr) hi hd ⟨near _, near _⟩
  exact ⟨x, hx, (h' u h0 (hu.trans (min_le_right _ _)) (inflate h0 h1) _ _ _ x hi hd (by rw [hx0]; exact ⟨near _, near _⟩) hx).1⟩

end Heap
