import Verif.Props.RoundUni
import Verif.Props.IterRound
import Verif.Props.IterAnti
import Verif.Props.Binary
/-!
# C96: the accuracy that the iteration attains in rounded arithmetic, uniformly in the number of updates
-/

namespace Heap
open Prog CC
variable {n : ℕ → ℕ} {K : Type} [RCLike K]

/-- An element type, a shape and a bound of the elements. -/
def DescBound (M : ℝ) (s : Bool × List ℕ) (d : Desc n K) : Prop :=
  d.cx = s.1 ∧ d.ten.shape.map n = s.2 ∧ ∀ idx, List.Forall₂ (· < ·) idx s.2 → ‖Cur.get d.ten.shape d.ten.val idx‖ ≤ M

/-- C60: one constant for all arguments of given element types and shapes with elements bounded by `M`. -/
theorem C60_uniform_routine {ι : Type} (f : Fun) (ds es : ι → List (Desc n K)) (h : ∀ i, Computes f (ds i) (es i)) (hl : ∀ i, (ds i).length = f.params.length)
    (ss : List (Bool × List ℕ)) {M : ℝ} (hs : ∀ i, List.Forall₂ (DescBound M) ss (ds i))
    (re : K → K) (hre : ∀ x y, ‖re x - re y‖ ≤ ‖x - y‖) {η : ℝ} (hη : 0 ≤ η) {G : List (List ℝ) → ℝ} (hG : GMono G) {c : ℝ} (hc : 0 ≤ c) :
    ∃ C, 0 ≤ C ∧ ∀ i u, 0 ≤ u → u ≤ 1 → ∀ (A : Rounding K u η G) (bs : List (Arr K)), List.Forall₂ (NearIs (c * u)) (ds i) bs →
      ∃ ys, f.nrun (rounded A true re) bs = .ok ys ∧ List.Forall₂ (NearIs (C * u)) (es i) ys := by
  obtain ⟨C, hC, hb⟩ := C60_uniform f true hre ss (M := M) hη hG hc
  refine ⟨C, hC, fun i u u0 u1 A bs hbs => ?_⟩
  obtain ⟨Mm, args, h1, h2, h3⟩ := exists_args ((numpy true re).total ⟨false, [], fun _ => 0⟩ fun _ a _ => a) (ds i)
  obtain ⟨rs, M', h4, -, -, -, -, h5⟩ := h i re ⟨false, [], fun _ => 0⟩ (fun _ a _ => a) Mm args (h1.trans (hl i)) h2 h3
  have bd : List.Forall₂ (BoundedBy M) ss (args.map fun r => seen ((numpy true re).total ⟨false, [], fun _ => 0⟩ fun _ a _ => a) r.2 (Mm.heap r.1)) := by
    refine List.forall₂_iff_get.mpr ⟨by rw [(hs i).length_eq, h3.length_eq], fun k k1 k2 => ?_⟩
    have e1 := (List.forall₂_iff_get.mp h3).2 k (by rw [h3.length_eq]; exact k2) k2
    have e2 := (List.forall₂_iff_get.mp (hs i)).2 k k1 (by rw [h3.length_eq]; exact k2)
    refine ⟨e1.1.trans e2.1, e1.2.1.trans e2.2.1, fun idx hi => ?_⟩
    rw [e1.2.2 idx (by rw [e1.2.1, e2.2.1]; exact hi)]
    exact e2.2.2 idx hi
  have near : List.Forall₂ (Near (c * u)) (args.map fun r => seen ((numpy true re).total ⟨false, [], fun _ => 0⟩ fun _ a _ => a) r.2 (Mm.heap r.1)) bs := by
    refine List.forall₂_iff_get.mpr ⟨by rw [← h3.length_eq, ← hbs.length_eq], fun i i1 i2 => ?_⟩
    have e1 := (List.forall₂_iff_get.mp h3).2 i (by rw [h3.length_eq]; exact i1) i1
    have e2 := (List.forall₂_iff_get.mp hbs).2 i (by rw [hbs.length_eq]; exact i2) i2
    refine ⟨e2.1.trans e1.1.symm, e2.2.1.trans e1.2.1.symm, fun idx hi => ?_⟩
    rw [e1.2.2 idx hi]
    refine e2.2.2 idx ?_
    rw [e2.2.1, ← e1.2.1]; exact hi
  obtain ⟨ys, hy, hys⟩ := hb _ _ bd h4 u u0 u1 A _ near
  refine ⟨ys, hy, List.forall₂_iff_get.mpr ⟨by rw [h5.length_eq, hys.length_eq], fun i i1 i2 => ?_⟩⟩
  have e1 := (List.forall₂_iff_get.mp h5).2 i i1 (by rw [← h5.length_eq]; exact i1)
  have e2 := (List.forall₂_iff_get.mp hys).2 i (by rw [← h5.length_eq]; exact i1) i2
  refine ⟨e2.1.trans e1.1, e2.2.1.trans e1.2.1, fun idx hi => ?_⟩
  have hi' := hi
  rw [e2.2.1] at hi'
  rw [← e1.2.2 idx hi']
  exact e2.2.2 idx hi'

/-! ### one update -/

/-- The amplitudes in two arrays. -/
def ampOf (x : Arr K × Arr K) : Amp K (Fin (n 0)) (Fin (n 1)) := (fun a i => x.1.val [a.1, i.1], fun a b i j => x.2.val [a.1, b.1, i.1, j.1])

/-- Two arrays of the element type and shapes of amplitudes. -/
def Typed (n : ℕ → ℕ) (t : Bool) (x : Arr K × Arr K) : Prop := (x.1.cx = t ∧ x.1.shape = [n 1, n 0]) ∧ x.2.cx = t ∧ x.2.shape = [n 1, n 1, n 0, n 0]

theorem norm2_le {O V : Type} [Fintype O] [Fintype V] [DecidableEq O] [DecidableEq V] {X : V → O → K} {c : ℝ} (hc : 0 ≤ c) (h : ∀ a i, ‖X a i‖ ≤ c) : ‖X‖ ≤ c :=
  (pi_norm_le_iff_of_nonneg hc).2 fun a => (pi_norm_le_iff_of_nonneg hc).2 (h a)

theorem le_norm2 {O V : Type} [Fintype O] [Fintype V] [DecidableEq O] [DecidableEq V] (X : V → O → K) (a : V) (i : O) : ‖X a i‖ ≤ ‖X‖ := (norm_le_pi_norm (X a) i).trans (norm_le_pi_norm X a)

theorem amp_le {O V : Type} [Fintype O] [Fintype V] [DecidableEq O] [DecidableEq V] {X : Amp K O V} {c : ℝ} (hc : 0 ≤ c) (h1 : ∀ a i, ‖X.1 a i‖ ≤ c) (h2 : ∀ a b i j, ‖X.2 a b i j‖ ≤ c) : ‖X‖ ≤ c :=
  max_le (norm2_le hc h1) (norm4_le hc h2)

theorem le_amp1 {O V : Type} [Fintype O] [Fintype V] [DecidableEq O] [DecidableEq V] (X : Amp K O V) (a : V) (i : O) : ‖X.1 a i‖ ≤ ‖X‖ := (le_norm2 X.1 a i).trans (norm_fst_le X)
theorem le_amp2 {O V : Type} [Fintype O] [Fintype V] [DecidableEq O] [DecidableEq V] (X : Amp K O V) (a b : V) (i j : O) : ‖X.2 a b i j‖ ≤ ‖X‖ := (le_norm4 X.2 a b i j).trans (norm_snd_le X)

theorem nearAmp_iff {ε : ℝ} (hε : 0 ≤ ε) {t : Bool} {X : Amp K (Fin (n 0)) (Fin (n 1))} {x : Arr K × Arr K} :
    NearAmp ε t X x ↔ Typed n t x ∧ ‖ampOf x - X‖ ≤ ε := by
  unfold NearAmp Typed
  rw [nearIs_two, nearIs_four]
  constructor
  · rintro ⟨⟨a1, a2, a3⟩, b1, b2, b3⟩
    exact ⟨⟨⟨a1, a2⟩, b1, b2⟩, amp_le hε a3 b3⟩
  · rintro ⟨⟨⟨a1, a2⟩, b1, b2⟩, h⟩
    exact ⟨⟨a1, a2, fun a i => (le_amp1 (ampOf x - X) a i).trans h⟩, b1, b2, fun a b i j => (le_amp2 (ampOf x - X) a b i j).trans h⟩

theorem stepC_mono {η w c C r N δ : ℝ} (hw : 0 ≤ w) (hC : 0 ≤ C) (hδ : 0 < δ) {x R D : K} (hx : ‖x‖ ≤ r) (hR : ‖R‖ ≤ N) (hD : δ ≤ ‖D‖) :
    stepC η w c C x R D ≤ stepC η w c C r N δ := by
  have r0 := (norm_nonneg _).trans hx
  have N0 := (norm_nonneg _).trans hR
  have D0 := hδ.trans_le hD
  have q : ‖R / D‖ ≤ N / δ := by rw [norm_div]; exact div_le_div₀ N0 hR hδ hD
  have e1 : 2 * C / ‖D‖ ≤ 2 * C / δ := div_le_div_of_nonneg_left (by positivity) hδ hD
  have e2 : 2 * ‖R‖ * w / ‖D‖ ^ 2 ≤ 2 * N * w / δ ^ 2 := div_le_div₀ (by positivity) (by gcongr) (by positivity) (by gcongr)
  simp only [stepC]
  rw [show ‖(N / δ : ℝ)‖ = N / δ from abs_of_nonneg (by positivity), show ‖(r : ℝ)‖ = r from abs_of_nonneg r0, show ‖(N : ℝ)‖ = N from abs_of_nonneg N0,
    show ‖(δ : ℝ)‖ = δ from abs_of_nonneg hδ.le]
  linarith

/-- One exact update with residuals `R`. -/
def stepBy (R : Amp K (Fin (n 0)) (Fin (n 1)) → Amp K (Fin (n 0)) (Fin (n 1))) (eo : Fin (n 0) → K) (ev : Fin (n 1) → K) (X : Amp K (Fin (n 0)) (Fin (n 1))) :
    Amp K (Fin (n 0)) (Fin (n 1)) :=
  (fun a i => X.1 a i - (R X).1 a i / (ev a - eo i), fun a b i j => X.2 a b i j - (R X).2 a b i j / (ev a + ev b - eo i - eo j))

theorem DescBound.mono {M M' : ℝ} (h : M ≤ M') {s : Bool × List ℕ} {d : Desc n K} (hd : DescBound M s d) : DescBound M' s d :=
  ⟨hd.1, hd.2.1, fun idx hi => (hd.2.2 idx hi).trans h⟩

theorem desc_bounds (ds : List (Desc n K)) (r : ℝ) : ∃ M : ℝ, r ≤ M ∧ List.Forall₂ (DescBound M) (ds.map fun d => (d.cx, d.ten.shape.map n)) ds := by
  induction ds with
  | nil => exact ⟨r, le_rfl, .nil⟩
  | cons d ds ih =>
    obtain ⟨M, h1, h2⟩ := ih
    obtain ⟨B, -, hB⟩ := bound_idx (d.ten.shape.map n) fun idx => ‖Cur.get d.ten.shape d.ten.val idx‖
    exact ⟨max M B, h1.trans (le_max_left _ _), .cons (DescBound.mono (le_max_right _ _) ⟨rfl, rfl, hB⟩) (h2.imp fun _ _ h => h.mono (le_max_left _ _))⟩

section step
variable (f : Fun) (ds : List (Desc n K)) (t : Bool) (eo : Fin (n 0) → K) (ev : Fin (n 1) → K)
    (R : Amp K (Fin (n 0)) (Fin (n 1)) → Amp K (Fin (n 0)) (Fin (n 1)))
    (S : Amp K (Fin (n 0)) (Fin (n 1)) → Prop)
    (hS : ∀ X, S X → Computes f (ds ++ [.two t 1 0 X.1, .four t 1 1 0 0 X.2]) [.two t 1 0 (R X).1, .four t 1 1 0 0 (R X).2])
    (hl : ds.length + 2 = f.params.length)
    (re : K → K) (hre : ∀ x y, ‖re x - re y‖ ≤ ‖x - y‖) {η : ℝ} (hη : 0 ≤ η) {G : List (List ℝ) → ℝ} (hG : GMono G) {c : ℝ} (hc : 0 ≤ c)
include hS hl hre hη hG hc

/-- The residuals of all amplitudes in a ball. -/
theorem res_round (r : ℝ) : ∃ C : ℝ, 0 ≤ C ∧ ∀ u, 0 ≤ u → u ≤ 1 → ∀ (A : Rounding K u η G) (ins : List (Arr K)),
    List.Forall₂ (NearIs (c * u)) ds ins → ∀ x : Arr K × Arr K, Typed n t x → S (ampOf x) → ‖(ampOf x : Amp K (Fin (n 0)) (Fin (n 1)))‖ ≤ r →
      ∃ r1 r2, f.nrun (rounded A true re) (ins ++ [x.1, x.2]) = .ok [r1, r2] ∧ NearAmp (C * u) t (R (ampOf x)) (r1, r2) := by
  obtain ⟨M, hM, hb⟩ := desc_bounds ds r
  obtain ⟨C, hC, h⟩ := C60_uniform_routine (ι := {X : Amp K (Fin (n 0)) (Fin (n 1)) // S X ∧ ‖X‖ ≤ r}) f
    (fun X => ds ++ [.two t 1 0 X.1.1, .four t 1 1 0 0 X.1.2]) (fun X => [.two t 1 0 (R X.1).1, .four t 1 1 0 0 (R X.1).2])
    (fun X => hS X.1 X.2.1) (fun X => by simpa using hl) (ds.map (fun d => (d.cx, d.ten.shape.map n)) ++ [(t, [n 1, n 0]), (t, [n 1, n 1, n 0, n 0])]) (M := M)
    (fun X => List.rel_append hb (.cons ⟨rfl, rfl, fun idx hi => by
      obtain ⟨x, _, hx, hi', rfl⟩ := List.forall₂_cons_right_iff.1 hi
      obtain ⟨y, _, hy, hi'', rfl⟩ := List.forall₂_cons_right_iff.1 hi'
      obtain rfl := List.forall₂_nil_right_iff.1 hi''
      simpa [Cur.get, hx, hy] using ((le_amp1 X.1 ⟨x, hx⟩ ⟨y, hy⟩).trans X.2.2).trans hM⟩
      (.cons ⟨rfl, rfl, fun idx hi => by
        obtain ⟨x, _, hx, h1, rfl⟩ := List.forall₂_cons_right_iff.1 hi
        obtain ⟨y, _, hy, h2, rfl⟩ := List.forall₂_cons_right_iff.1 h1
        obtain ⟨z, _, hz, h3, rfl⟩ := List.forall₂_cons_right_iff.1 h2
        obtain ⟨w, _, hw, h4, rfl⟩ := List.forall₂_cons_right_iff.1 h3
        obtain rfl := List.forall₂_nil_right_iff.1 h4
        simpa [Cur.get, hx, hy, hz, hw] using ((le_amp2 X.1 ⟨x, hx⟩ ⟨y, hy⟩ ⟨z, hz⟩ ⟨w, hw⟩).trans X.2.2).trans hM⟩ .nil)))
    re hre hη hG hc
  refine ⟨C, hC, fun u u0 u1 A ins hi x hx hSx hr => ?_⟩
  have n0 : NearAmp (c * u) t (ampOf x) x := (nearAmp_iff (by positivity)).2 ⟨hx, by rw [sub_self, norm_zero]; positivity⟩
  obtain ⟨ys, e, hy⟩ := h ⟨ampOf x, hSx, hr⟩ u u0 u1 A (ins ++ [x.1, x.2]) (List.rel_append hi (.cons n0.1 (.cons n0.2 .nil)))
  obtain ⟨r1, _, q1, hy1, rfl⟩ := List.forall₂_cons_left_iff.1 hy
  obtain ⟨r2, _, q2, hy2, rfl⟩ := List.forall₂_cons_left_iff.1 hy1
  obtain rfl := List.forall₂_nil_left_iff.1 hy2
  exact ⟨r1, r2, e, q1, q2⟩

end step

/-- One step of the iteration in rounded arithmetic, with residuals from any routine (`RStep` of C94 is the case of a routine whose last arguments are the amplitudes). -/
def RStepBy {u η : ℝ} {G : List (List ℝ) → ℝ} (A : Rounding K u η G) (run : Arr K × Arr K → Except Err (List (Arr K))) (d1 d2 : Arr K) (a b : Arr K × Arr K) : Prop :=
  ∃ r1 r2, run a = .ok [r1, r2] ∧
    (b.1.cx = a.1.cx ∧ b.1.shape = a.1.shape ∧ ∀ idx, List.Forall₂ (· < ·) idx a.1.shape →
      ∃ q, ‖q - r1.val idx / d1.val idx‖ ≤ u * (‖r1.val idx / d1.val idx‖ + η) ∧ b.1.val idx = A.op .sub (a.1.val idx) q) ∧
    (b.2.cx = a.2.cx ∧ b.2.shape = a.2.shape ∧ ∀ idx, List.Forall₂ (· < ·) idx a.2.shape →
      ∃ q, ‖q - r2.val idx / d2.val idx‖ ≤ u * (‖r2.val idx / d2.val idx‖ + η) ∧ b.2.val idx = A.op .sub (a.2.val idx) q)

theorem rstep_by {u η : ℝ} {G : List (List ℝ) → ℝ} (A : Rounding K u η G) (re : K → K) (f : Fun) (ins : List (Arr K)) (d1 d2 : Arr K) (a b : Arr K × Arr K) :
    RStep A re f ins d1 d2 a b ↔ RStepBy A (fun x => f.nrun (rounded A true re) (ins ++ [x.1, x.2])) d1 d2 a b := Iff.rfl

/-- What a routine returns for amplitudes in a ball. -/
def Good (ε : ℝ) (t : Bool) (R : Amp K (Fin (n 0)) (Fin (n 1)) → Amp K (Fin (n 0)) (Fin (n 1))) (S : Amp K (Fin (n 0)) (Fin (n 1)) → Prop) (r : ℝ)
    (run : Arr K × Arr K → Except Err (List (Arr K))) : Prop :=
  ∀ x : Arr K × Arr K, Typed n t x → S (ampOf x) → ‖(ampOf x : Amp K (Fin (n 0)) (Fin (n 1)))‖ ≤ r →
    ∃ r1 r2, run x = .ok [r1, r2] ∧ NearAmp ε t (R (ampOf x)) (r1, r2)

/-- One update of all amplitudes in a ball. -/
theorem step_round (t : Bool) (eo : Fin (n 0) → K) (ev : Fin (n 1) → K) (R : Amp K (Fin (n 0)) (Fin (n 1)) → Amp K (Fin (n 0)) (Fin (n 1)))
    (S : Amp K (Fin (n 0)) (Fin (n 1)) → Prop) {η : ℝ} (hη : 0 ≤ η) {G : List (List ℝ) → ℝ} {c : ℝ} (hc : 0 ≤ c)
    (g1 : ∀ a i, ev a - eo i ≠ 0) (g2 : ∀ a b i j, ev a + ev b - eo i - eo j ≠ 0)
    (r N : ℝ) (hN : ∀ X, S X → ‖X‖ ≤ r → ‖R X‖ ≤ N) {C : ℝ} (hC : 0 ≤ C) : ∃ C' u₀ : ℝ, 0 ≤ C' ∧ 0 < u₀ ∧ u₀ ≤ 1 ∧ ∀ u, 0 ≤ u → u ≤ u₀ → ∀ (A : Rounding K u η G)
    (run : Arr K × Arr K → Except Err (List (Arr K))) (d1 d2 : Arr K), Good (n := n) (C * u) t R S r run → NearDen (c * u) eo ev d1 d2 →
      ∀ x : Arr K × Arr K, Typed n t x → S (ampOf x) → ‖(ampOf x : Amp K (Fin (n 0)) (Fin (n 1)))‖ ≤ r →
        (∃ b, RStepBy A run d1 d2 x b) ∧ ∀ b, RStepBy A run d1 d2 x b → NearAmp (C' * u) t (stepBy R eo ev (ampOf x)) b := by
  obtain ⟨δ1, p1, l1⟩ := gap (fun x : Fin (n 1) × Fin (n 0) => ev x.1 - eo x.2) fun x => g1 _ _
  obtain ⟨δ2, p2, l2⟩ := gap (fun x : (Fin (n 1) × Fin (n 1)) × Fin (n 0) × Fin (n 0) => ev x.1.1 + ev x.1.2 - eo x.2.1 - eo x.2.2) fun x => g2 _ _ _ _
  have pd : 0 < min δ1 δ2 := lt_min p1 p2
  refine ⟨|stepC η c c C r N (min δ1 δ2)|, min 1 (min δ1 δ2 / (2 * (c + 1))), abs_nonneg _, lt_min one_pos (by positivity), min_le_left _ _, ?_⟩
  intro u u0 uu A run d1 d2 hg hd x hx hSx hr
  have u1 := uu.trans (min_le_left _ _)
  have cu : c * u ≤ min δ1 δ2 / 2 := by
    have := mul_le_mul_of_nonneg_left (uu.trans (min_le_right _ _)) (by positivity : 0 ≤ c + 1)
    rw [show (c + 1) * (min δ1 δ2 / (2 * (c + 1))) = min δ1 δ2 / 2 by field_simp] at this
    nlinarith
  obtain ⟨r1, r2, e, hr'⟩ := hg x hx hSx hr
  have z : ∀ y : K, ‖y - y‖ ≤ u * (‖y‖ + η) := fun y => by rw [sub_self, norm_zero]; positivity
  refine ⟨⟨(⟨x.1.cx, x.1.shape, fun idx => A.op .sub (x.1.val idx) (r1.val idx / d1.val idx)⟩,
    ⟨x.2.cx, x.2.shape, fun idx => A.op .sub (x.2.val idx) (r2.val idx / d2.val idx)⟩),
    r1, r2, e, ⟨rfl, rfl, fun idx _ => ⟨_, z _, rfl⟩⟩, rfl, rfl, fun idx _ => ⟨_, z _, rfl⟩⟩, ?_⟩
  rintro b ⟨r1', r2', e', b1, b2⟩
  rw [e] at e'
  simp only [Except.ok.injEq, List.cons.injEq, and_true] at e'
  obtain ⟨rfl, rfl⟩ := e'
  obtain ⟨q1, q2⟩ := hr'
  rw [nearIs_two] at q1
  rw [nearIs_four] at q2
  have hRn := hN _ hSx hr
  have le : ∀ {y : ℝ}, y ≤ stepC η c c C r N (min δ1 δ2) → y * u ≤ |stepC η c c C r N (min δ1 δ2)| * u :=
    fun h => mul_le_mul_of_nonneg_right (h.trans (le_abs_self _)) u0
  have zz : ∀ y : K, ‖y - y‖ ≤ c * u := fun y => by rw [sub_self, norm_zero]; positivity
  refine ⟨nearIs_two.2 ⟨b1.1.trans hx.1.1, b1.2.1.trans hx.1.2, fun a i => ?_⟩, nearIs_four.2 ⟨b2.1.trans hx.2.1, b2.2.1.trans hx.2.2, fun a b i j => ?_⟩⟩
  · obtain ⟨q, h1, h2⟩ := b1.2.2 [(a : ℕ), (i : ℕ)] (by rw [hx.1.2]; simp)
    rw [h2]
    have hl1 := (min_le_left δ1 δ2).trans (l1 (a, i))
    refine ((step_close A u0 u1 hη hc hc hC (g1 a i) (cu.trans ?_) (hd.1 a i) (q1.2.2 a i) (zz _) h1).1).trans (le ?_)
    · exact div_le_div_of_nonneg_right hl1 (by norm_num)
    · exact stepC_mono hc hC pd ((le_amp1 (ampOf x) a i).trans hr) ((le_amp1 _ a i).trans hRn) hl1
  · obtain ⟨q, h1, h2⟩ := b2.2.2 [(a : ℕ), (b : ℕ), (i : ℕ), (j : ℕ)] (by rw [hx.2.2]; simp)
    rw [h2]
    have hl2 := (min_le_right δ1 δ2).trans (l2 ((a, b), i, j))
    refine ((step_close A u0 u1 hη hc hc hC (g2 a b i j) (cu.trans ?_) (hd.2 a b i j) (q2.2.2 a b i j) (zz _) h1).1).trans (le ?_)
    · exact div_le_div_of_nonneg_right hl2 (by norm_num)
    · exact stepC_mono hc hC pd ((le_amp2 (ampOf x) a b i j).trans hr) ((le_amp2 _ a b i j).trans hRn) hl2

/-! ### antisymmetrising -/

/-- Changing signs commutes with the operations, as in IEEE arithmetic. -/
structure SignSym {u η : ℝ} {G : List (List ℝ) → ℝ} (A : Rounding K u η G) : Prop where
  swap : ∀ x y, A.op .sub y x = -A.op .sub x y
  sub : ∀ x y, A.op .sub (-x) (-y) = -A.op .sub x y
  mul : ∀ x y, A.op .mul x (-y) = -A.op .mul x y

/-- The doubles are antisymmetrised: `s = t - t.transpose((1, 0, 2, 3))`, `t = 0.25*(s - s.transpose((0, 1, 3, 2)))`. -/
def Cleaned {u η : ℝ} {G : List (List ℝ) → ℝ} (A : Rounding K u η G) (b y : Arr K × Arr K) : Prop :=
  y.1 = b.1 ∧ y.2.cx = b.2.cx ∧ y.2.shape = b.2.shape ∧ ∀ p q r s : ℕ, List.Forall₂ (· < ·) [p, q, r, s] b.2.shape →
    y.2.val [p, q, r, s] = A.op .mul (1 / 4) (A.op .sub (A.op .sub (b.2.val [p, q, r, s]) (b.2.val [q, p, r, s])) (A.op .sub (b.2.val [p, q, s, r]) (b.2.val [q, p, s, r])))

theorem antiP_norm {O V : Type} [Fintype O] [Fintype V] [DecidableEq O] [DecidableEq V] (X : Amp K O V) : ‖antiP X‖ ≤ ‖X‖ := by
  refine amp_le (norm_nonneg _) (fun a i => le_amp1 X a i) fun a b i j => ?_
  have h1 := le_amp2 X a b i j
  have h2 := le_amp2 X b a i j
  have h3 := le_amp2 X a b j i
  have h4 := le_amp2 X b a j i
  have q : ∀ x y z w : K, ‖(x - y - z + w) / 4‖ ≤ (‖x‖ + ‖y‖ + ‖z‖ + ‖w‖) / 4 := fun x y z w => by
    rw [norm_div, show ‖(4 : K)‖ = 4 by simp]
    refine div_le_div_of_nonneg_right ?_ (by norm_num)
    have := norm_add_le (x - y - z) w
    have := norm_sub_le (x - y) z
    have := norm_sub_le x y
    linarith
  have e : (antiP X).2 a b i j = (X.2 a b i j - X.2 b a i j - X.2 a b j i + X.2 b a j i) / 4 := by simp only [antiP]; ring
  rw [e]
  have := q (X.2 a b i j) (X.2 b a i j) (X.2 a b j i) (X.2 b a j i)
  linarith

theorem antiP_close {O V : Type} [Fintype O] [Fintype V] [DecidableEq O] [DecidableEq V] {T : Amp K O V} (hT : Anti T.2) (X : Amp K O V) : ‖antiP X - T‖ ≤ ‖X - T‖ := by
  have e : antiP X - T = antiP (X - T) := by
    have : antiP (X - T) = antiP X - antiP T := by
      refine Prod.ext rfl ?_
      funext a b i j
      simp only [antiP, Prod.snd_sub, Pi.sub_apply]
      ring
    rw [this, antiP_of_anti hT]
  rw [e]
  exact antiP_norm _

theorem clean_num {u η B : ℝ} {G : List (List ℝ) → ℝ} (A : Rounding K u η G) (u0 : 0 ≤ u) (u1 : u ≤ 1) (hη : 0 ≤ η) {x y z w : K}
    (hx : ‖x‖ ≤ B) (hy : ‖y‖ ≤ B) (hz : ‖z‖ ≤ B) (hw : ‖w‖ ≤ B) :
    ‖A.op .mul (1 / 4) (A.op .sub (A.op .sub x y) (A.op .sub z w)) - (x - y - z + w) / 4‖ ≤ (7 * B + 4 * η) * u := by
  have B0 := (norm_nonneg _).trans hx
  have o1 := A.op_err .sub x y
  have o2 := A.op_err .sub z w
  simp only [opVal] at o1 o2
  have n1 := norm_sub_le x y
  have n2 := norm_sub_le z w
  have e1 : ‖A.op .sub x y - (x - y)‖ ≤ (2 * B + η) * u := by nlinarith
  have e2 : ‖A.op .sub z w - (z - w)‖ ≤ (2 * B + η) * u := by nlinarith
  generalize A.op .sub x y = p at *
  generalize A.op .sub z w = r at *
  have o3 := A.op_err .sub p r
  simp only [opVal] at o3
  have bu : (2 * B + η) * u ≤ 2 * B + η := mul_le_of_le_one_right (by positivity) u1
  have e3 : ‖p - r - (x - y - (z - w))‖ ≤ 2 * ((2 * B + η) * u) := by
    rw [show p - r - (x - y - (z - w)) = (p - (x - y)) - (r - (z - w)) by ring]
    have := norm_sub_le (p - (x - y)) (r - (z - w))
    linarith
  have n3 : ‖x - y - (z - w)‖ ≤ 4 * B := by
    have := norm_sub_le (x - y) (z - w)
    linarith
  have n4 : ‖p - r‖ ≤ 4 * B + 2 * (2 * B + η) := by
    have := norm_sub_norm_le (p - r) (x - y - (z - w))
    linarith
  have e4 : ‖A.op .sub p r - (x - y - (z - w))‖ ≤ (12 * B + 5 * η) * u := by
    have := norm_sub_le_norm_sub_add_norm_sub (A.op .sub p r) (p - r) (x - y - (z - w))
    nlinarith
  generalize A.op .sub p r = s at *
  have o5 := A.op_err .mul (1 / 4) s
  simp only [opVal] at o5
  have q4 : ‖(1 / 4 : K)‖ = 1 / 4 := by simp
  have bu' : (12 * B + 5 * η) * u ≤ 12 * B + 5 * η := mul_le_of_le_one_right (by positivity) u1
  have n5 : ‖s‖ ≤ 4 * B + (12 * B + 5 * η) := by
    have := norm_sub_norm_le s (x - y - (z - w))
    linarith
  rw [norm_mul, q4] at o5
  have e5 : ‖1 / 4 * s - (x - y - z + w) / 4‖ ≤ 1 / 4 * ((12 * B + 5 * η) * u) := by
    rw [show 1 / 4 * s - (x - y - z + w) / 4 = 1 / 4 * (s - (x - y - (z - w))) by ring, norm_mul, q4]
    linarith
  have := norm_sub_le_norm_sub_add_norm_sub (A.op .mul (1 / 4) s) (1 / 4 * s) ((x - y - z + w) / 4)
  have t1 : u * (1 / 4 * ‖s‖ + η) ≤ (1 / 4 * (4 * B + (12 * B + 5 * η)) + η) * u := by nlinarith
  have t2 : 0 ≤ η * u := by positivity
  nlinarith

/-- C96: antisymmetrising in rounded arithmetic leaves doubles that are antisymmetric without any error. -/
theorem C96_cleaned {u η B : ℝ} {G : List (List ℝ) → ℝ} (A : Rounding K u η G) (hA : SignSym A) (u0 : 0 ≤ u) (u1 : u ≤ 1) (hη : 0 ≤ η) {t : Bool} {b y : Arr K × Arr K}
    (hb : Typed n t b) (hB : ‖(ampOf b : Amp K (Fin (n 0)) (Fin (n 1)))‖ ≤ B) (h : Cleaned A b y) :
    Typed n t y ∧ Anti (ampOf y : Amp K (Fin (n 0)) (Fin (n 1))).2 ∧ ‖ampOf y - antiP (ampOf b : Amp K (Fin (n 0)) (Fin (n 1)))‖ ≤ (7 * B + 4 * η) * u := by
  obtain ⟨h1, h2, h3, h4⟩ := h
  have B0 := (norm_nonneg _).trans hB
  have v : ∀ (p q : Fin (n 1)) (r s : Fin (n 0)), y.2.val [p.1, q.1, r.1, s.1] = _ := fun p q r s => h4 p.1 q.1 r.1 s.1 (by rw [hb.2.2]; simp)
  refine ⟨⟨by rw [h1]; exact hb.1, h2.trans hb.2.1, h3.trans hb.2.2⟩, ⟨fun p q r s => ?_, fun p q r s => ?_⟩, ?_⟩
  · simp only [ampOf]
    rw [v p q r s, v q p r s, ← hA.mul, ← hA.sub, ← hA.swap, ← hA.swap]
  · simp only [ampOf]
    rw [v p q r s, v p q s r, ← hA.mul, ← hA.swap]
  · refine amp_le (by positivity) (fun a i => ?_) fun p q r s => ?_
    · change ‖y.1.val [a.1, i.1] - b.1.val [a.1, i.1]‖ ≤ _
      rw [h1, sub_self, norm_zero]
      positivity
    · have e : (ampOf y - antiP (ampOf b : Amp K (Fin (n 0)) (Fin (n 1)))).2 p q r s = y.2.val [p.1, q.1, r.1, s.1] -
          (b.2.val [p.1, q.1, r.1, s.1] - b.2.val [q.1, p.1, r.1, s.1] - b.2.val [p.1, q.1, s.1, r.1] + b.2.val [q.1, p.1, s.1, r.1]) / 4 := by
        simp only [antiP, ampOf, Prod.snd_sub, Pi.sub_apply]; ring
      rw [e, v]
      exact clean_num A u0 u1 hη ((le_amp2 (ampOf b) p q r s).trans hB) ((le_amp2 (ampOf b) q p r s).trans hB) ((le_amp2 (ampOf b) p q s r).trans hB)
        ((le_amp2 (ampOf b) q p s r).trans hB)

/-- One update in rounded arithmetic followed by antisymmetrising. -/
def AStep {u η : ℝ} {G : List (List ℝ) → ℝ} (A : Rounding K u η G) (re : K → K) (f : Fun) (ins : List (Arr K)) (d1 d2 : Arr K) (x y : Arr K × Arr K) : Prop :=
  ∃ b, RStep A re f ins d1 d2 x b ∧ Cleaned A b y

/-- The same with residuals from any routine. -/
def AStepBy {u η : ℝ} {G : List (List ℝ) → ℝ} (A : Rounding K u η G) (run : Arr K × Arr K → Except Err (List (Arr K))) (d1 d2 : Arr K) (x y : Arr K × Arr K) : Prop :=
  ∃ b, RStepBy A run d1 d2 x b ∧ Cleaned A b y

/-! ### all updates -/

/-- What a way of restoring the symmetry of amplitudes has to do: amplitudes with the symmetry, within `E * u` of a projection `P`. -/
def CleanOK (E B u : ℝ) (t : Bool) (Sy : Amp K (Fin (n 0)) (Fin (n 1)) → Prop) (P : Amp K (Fin (n 0)) (Fin (n 1)) → Amp K (Fin (n 0)) (Fin (n 1)))
    (Cl : Arr K × Arr K → Arr K × Arr K → Prop) : Prop :=
  ∀ b, Typed n t b → ‖(ampOf b : Amp K (Fin (n 0)) (Fin (n 1)))‖ ≤ B → (∃ y, Cl b y) ∧ ∀ y, Cl b y → Typed n t y ∧ Sy (ampOf y) ∧ ‖ampOf y - P (ampOf b)‖ ≤ E * u

section attain
variable (t : Bool) (eo : Fin (n 0) → K) (ev : Fin (n 1) → K)
    (R : Amp K (Fin (n 0)) (Fin (n 1)) → Amp K (Fin (n 0)) (Fin (n 1)))
    {η : ℝ} (hη : 0 ≤ η) {G : List (List ℝ) → ℝ} {c : ℝ} (hc : 0 ≤ c)
    (g1 : ∀ a i, ev a - eo i ≠ 0) (g2 : ∀ a b i j, ev a + ev b - eo i - eo j ≠ 0)
    (Sy : Amp K (Fin (n 0)) (Fin (n 1)) → Prop) (P : Amp K (Fin (n 0)) (Fin (n 1)) → Amp K (Fin (n 0)) (Fin (n 1)))
    (T : Amp K (Fin (n 0)) (Fin (n 1))) (hP : ∀ X, ‖P X - T‖ ≤ ‖X - T‖) (δ q : ℝ) (hδ : 0 < δ) (q0 : 0 ≤ q) (q1 : q < 1)
    (contr : ∀ X, Sy X → ‖X - T‖ ≤ δ → ‖stepBy R eo ev X - T‖ ≤ q * ‖X - T‖) {Cr : ℝ} (hCr : 0 ≤ Cr)
include g1 g2 q1 contr

theorem res_bound : ∃ D : ℝ, 0 < D ∧ ∀ X, Sy X → ‖X - T‖ ≤ δ → ‖R X‖ ≤ D * ‖X - T‖ ∧ ‖X - T‖ ≤ D * ‖R X‖ := by
  obtain ⟨N, hN, i1, i2⟩ := inv_bound eo ev
  let s1 : Fin (n 1) × Fin (n 0) → ℝ := fun y => ‖ev y.1 - eo y.2‖
  let s2 : (Fin (n 1) × Fin (n 1)) × Fin (n 0) × Fin (n 0) → ℝ := fun y => ‖ev y.1.1 + ev y.1.2 - eo y.2.1 - eo y.2.2‖
  have p1 : 0 ≤ ∑ y, s1 y := Finset.sum_nonneg fun y _ => norm_nonneg _
  have p2 : 0 ≤ ∑ y, s2 y := Finset.sum_nonneg fun y _ => norm_nonneg _
  have l1 : ∀ a i, ‖ev a - eo i‖ ≤ ∑ y, s1 y + ∑ y, s2 y := fun a i =>
    (Finset.single_le_sum (f := s1) (fun y _ => norm_nonneg _) (Finset.mem_univ (a, i))).trans (le_add_of_nonneg_right p2)
  have l2 : ∀ a b i j, ‖ev a + ev b - eo i - eo j‖ ≤ ∑ y, s1 y + ∑ y, s2 y := fun a b i j =>
    (Finset.single_le_sum (f := s2) (fun y _ => norm_nonneg _) (Finset.mem_univ ((a, b), i, j))).trans (le_add_of_nonneg_left p1)
  have pS : 0 ≤ ∑ y, s1 y + ∑ y, s2 y := add_nonneg p1 p2
  generalize ∑ y, s1 y + ∑ y, s2 y = S at *
  have q1' : 0 < 1 - q := sub_pos.2 q1
  refine ⟨2 * S + N / (1 - q), by positivity, fun X hX hd => ?_⟩
  have hc := contr X hX hd
  have h0 := norm_nonneg (X - T)
  have hr := norm_nonneg (R X)
  constructor
  · have m : ‖X - stepBy R eo ev X‖ ≤ 2 * ‖X - T‖ := by
      have := norm_sub_le (X - T) (stepBy R eo ev X - T)
      rw [show X - T - (stepBy R eo ev X - T) = X - stepBy R eo ev X by abel] at this
      nlinarith
    have : ‖R X‖ ≤ S * (2 * ‖X - T‖) := by
      refine amp_le (by positivity) (fun a i => ?_) fun a b i j => ?_
      · have e : (R X).1 a i = (ev a - eo i) * (X - stepBy R eo ev X).1 a i := by
          simp only [stepBy, Prod.fst_sub, Pi.sub_apply]
          field_simp [g1 a i]
          ring
        rw [e, norm_mul]
        exact mul_le_mul (l1 a i) ((le_amp1 _ a i).trans m) (norm_nonneg _) pS
      · have e : (R X).2 a b i j = (ev a + ev b - eo i - eo j) * (X - stepBy R eo ev X).2 a b i j := by
          simp only [stepBy, Prod.snd_sub, Pi.sub_apply]
          field_simp [g2 a b i j]
          ring
        rw [e, norm_mul]
        exact mul_le_mul (l2 a b i j) ((le_amp2 _ a b i j).trans m) (norm_nonneg _) pS
    have : 0 ≤ N / (1 - q) * ‖X - T‖ := by positivity
    linarith
  · have m : ‖X - stepBy R eo ev X‖ ≤ N * ‖R X‖ := by
      refine amp_le (by positivity) (fun a i => ?_) fun a b i j => ?_
      · have e : (X - stepBy R eo ev X).1 a i = (ev a - eo i)⁻¹ * (R X).1 a i := by
          simp only [stepBy, Prod.fst_sub, Pi.sub_apply]
          ring
        rw [e, norm_mul]
        exact mul_le_mul (i1 a i) (le_amp1 _ a i) (norm_nonneg _) hN.le
      · have e : (X - stepBy R eo ev X).2 a b i j = (ev a + ev b - eo i - eo j)⁻¹ * (R X).2 a b i j := by
          simp only [stepBy, Prod.snd_sub, Pi.sub_apply]
          ring
        rw [e, norm_mul]
        exact mul_le_mul (i2 a b i j) (le_amp2 _ a b i j) (norm_nonneg _) hN.le
    have t : ‖X - T‖ ≤ ‖X - stepBy R eo ev X‖ + ‖stepBy R eo ev X - T‖ := norm_sub_le_norm_sub_add_norm_sub _ _ _
    have k : (1 - q) * ‖X - T‖ ≤ N * ‖R X‖ := by linarith
    have : ‖X - T‖ ≤ N / (1 - q) * ‖R X‖ := by
      rw [div_mul_eq_mul_div, le_div_iff₀ q1']
      linarith
    have : 0 ≤ 2 * S * ‖R X‖ := by positivity
    linarith

include hη hc hP hδ q0 hCr

/-- All updates, with any way of restoring the symmetry. -/
theorem attainBy (Ec : ℝ → ℝ) (hEc : ∀ B, 0 ≤ B → 0 ≤ Ec B) : ∃ C u₀ : ℝ, 0 ≤ C ∧ 0 < u₀ ∧ u₀ ≤ 1 ∧ ∀ u, 0 ≤ u → u ≤ u₀ → ∀ (A : Rounding K u η G)
    (run : Arr K × Arr K → Except Err (List (Arr K))) (Cl : Arr K × Arr K → Arr K × Arr K → Prop) (d1 d2 : Arr K) (x : ℕ → Arr K × Arr K),
      (∀ B, 0 ≤ B → CleanOK (n := n) (Ec B) B u t Sy P Cl) → Good (n := n) (Cr * u) t R Sy (‖T‖ + δ) run → NearDen (c * u) eo ev d1 d2 →
      Typed n t (x 0) → Sy (ampOf (x 0)) → ‖ampOf (x 0) - T‖ ≤ δ →
      ∀ k, (∀ j < k, ∃ b, RStepBy A run d1 d2 (x j) b ∧ Cl b (x (j + 1))) →
        Typed n t (x k) ∧ Sy (ampOf (x k)) ∧ ‖ampOf (x k) - T‖ ≤ δ ∧
        ‖ampOf (x k) - T‖ ≤ q ^ k * ‖ampOf (x 0) - T‖ + C * u ∧ ∃ y b, RStepBy A run d1 d2 (x k) b ∧ Cl b y := by
  obtain ⟨D, hD, hR⟩ := res_bound eo ev R g1 g2 Sy T δ q q1 contr
  obtain ⟨Cs, us, hCs, hus, hus1, hs⟩ := step_round (G := G) t eo ev R (fun X => Sy X ∧ ‖X - T‖ ≤ δ) hη hc g1 g2 (‖T‖ + δ) (D * δ)
    (fun X h _ => ((hR X h.1 h.2).1).trans (mul_le_mul_of_nonneg_left h.2 hD.le)) hCr
  have q1' : 0 < 1 - q := sub_pos.2 q1
  have T0 := norm_nonneg T
  set B := ‖T‖ + δ + Cs with hB
  have B0 : 0 ≤ B := by positivity
  set E := Ec B + Cs with hE
  have E0 : 0 ≤ E := add_nonneg (hEc B B0) hCs
  refine ⟨E / (1 - q), min us ((1 - q) * δ / (E + 1)), by positivity, lt_min hus (by positivity), (min_le_left _ _).trans hus1, ?_⟩
  intro u u0 uu A run Cl d1 d2 x hcl hg hd t0 a0 n0
  have uus := uu.trans (min_le_left _ _)
  have u1 := uus.trans hus1
  have Eu : E * u ≤ (1 - q) * δ := by
    have := mul_le_mul_of_nonneg_left (uu.trans (min_le_right _ _)) (by positivity : 0 ≤ E + 1)
    rw [show (E + 1) * ((1 - q) * δ / (E + 1)) = (1 - q) * δ by field_simp] at this
    nlinarith
  have hi : Good (n := n) (Cr * u) t R (fun X => Sy X ∧ ‖X - T‖ ≤ δ) (‖T‖ + δ) run := fun x hx hs hr => hg x hx hs.1 hr
  have ball : ∀ X : Amp K (Fin (n 0)) (Fin (n 1)), ‖X - T‖ ≤ δ → ‖X‖ ≤ ‖T‖ + δ := fun X h => by
    have := norm_sub_norm_le X T
    linarith
  have one : ∀ x y : Arr K × Arr K, Typed n t x → Sy (ampOf x) → ‖ampOf x - T‖ ≤ δ → (∃ b, RStepBy A run d1 d2 x b ∧ Cl b y) →
      Typed n t y ∧ Sy (ampOf y) ∧ ‖ampOf y - T‖ ≤ q * ‖ampOf x - T‖ + E * u := by
    rintro x y ht ha hn ⟨b, hb, hy⟩
    have h1 := (hs u u0 uus A run d1 d2 hi hd x ht ⟨ha, hn⟩ (ball _ hn)).2 b hb
    obtain ⟨tb, h2⟩ := (nearAmp_iff (by positivity)).1 h1
    have h3 := contr _ ha hn
    have h4 : ‖ampOf b - T‖ ≤ Cs * u + q * ‖ampOf x - T‖ := by
      have := norm_sub_le_norm_sub_add_norm_sub (ampOf b) (stepBy R eo ev (ampOf x)) T
      linarith
    have h5 : ‖(ampOf b : Amp K (Fin (n 0)) (Fin (n 1)))‖ ≤ B := by
      have := norm_sub_norm_le (ampOf b) T
      have : Cs * u ≤ Cs := mul_le_of_le_one_right hCs u1
      have : q * ‖ampOf x - T‖ ≤ δ := by nlinarith [norm_nonneg (ampOf x - T)]
      linarith
    obtain ⟨ty, ay, hy'⟩ := (hcl B B0 b tb h5).2 y hy
    refine ⟨ty, ay, ?_⟩
    have h6 := hP (ampOf b)
    have h7 := norm_sub_le_norm_sub_add_norm_sub (ampOf y) (P (ampOf b)) T
    rw [hE, add_mul]
    linarith
  intro k
  have main : (∀ j < k, ∃ b, RStepBy A run d1 d2 (x j) b ∧ Cl b (x (j + 1))) → Typed n t (x k) ∧ Sy (ampOf (x k)) ∧ ‖ampOf (x k) - T‖ ≤ δ ∧
        ‖ampOf (x k) - T‖ ≤ q ^ k * ‖ampOf (x 0) - T‖ + E / (1 - q) * u := by
    induction k with
    | zero =>
      intro _
      refine ⟨t0, a0, n0, ?_⟩
      rw [pow_zero, one_mul]
      exact le_add_of_nonneg_right (by positivity)
    | succ k ih =>
      intro hk
      obtain ⟨i1, i2, i3, i4⟩ := ih fun j hj => hk j (hj.trans (Nat.lt_succ_self k))
      obtain ⟨o1, o2, o3⟩ := one _ _ i1 i2 i3 (hk k (Nat.lt_succ_self k))
      refine ⟨o1, o2, ?_, ?_⟩
      · have := mul_le_mul_of_nonneg_left i3 q0
        linarith
      · have h := mul_le_mul_of_nonneg_left i4 q0
        have e : q * (E / (1 - q) * u) + E * u = E / (1 - q) * u := by field_simp; ring
        rw [pow_succ']
        linarith
  intro hk
  obtain ⟨m1, m2, m3, m4⟩ := main hk
  refine ⟨m1, m2, m3, m4, ?_⟩
  obtain ⟨h1, h2⟩ := hs u u0 uus A run d1 d2 hi hd (x k) m1 ⟨m2, m3⟩ (ball _ m3)
  obtain ⟨b, hb⟩ := h1
  obtain ⟨tb, -⟩ := (nearAmp_iff (by positivity)).1 (h2 b hb)
  obtain ⟨y, hy⟩ := (hcl _ (norm_nonneg _) b tb le_rfl).1
  exact ⟨y, b, hb, hy⟩

omit hη hc hP hδ q0 in
/-- The residuals that are returned and the error of the amplitudes bound each other. -/
theorem stop : ∃ C : ℝ, 0 < C ∧ ∀ u, 0 ≤ u → u ≤ 1 → ∀ run : Arr K × Arr K → Except Err (List (Arr K)),
    Good (n := n) (Cr * u) t R Sy (‖T‖ + δ) run → ∀ x : Arr K × Arr K, Typed n t x → Sy (ampOf x) → ‖ampOf x - T‖ ≤ δ →
      ∃ r1 r2, run x = .ok [r1, r2] ∧ Typed n t (r1, r2) ∧
        ‖(ampOf (r1, r2) : Amp K (Fin (n 0)) (Fin (n 1)))‖ ≤ C * (‖ampOf x - T‖ + u) ∧
        ‖ampOf x - T‖ ≤ C * (‖(ampOf (r1, r2) : Amp K (Fin (n 0)) (Fin (n 1)))‖ + u) := by
  obtain ⟨D, hD, hR⟩ := res_bound eo ev R g1 g2 Sy T δ q q1 contr
  refine ⟨D + Cr + D * Cr, by positivity, fun u u0 u1 run hg x hx ha hn => ?_⟩
  obtain ⟨r1, r2, e, hr⟩ := hg x hx ha (by have := norm_sub_norm_le (ampOf x) T; linarith)
  obtain ⟨tr, hr'⟩ := (nearAmp_iff (by positivity)).1 hr
  obtain ⟨b1, b2⟩ := hR _ ha hn
  refine ⟨r1, r2, e, tr, ?_, ?_⟩
  · have := norm_sub_norm_le (ampOf (r1, r2)) (R (ampOf x))
    have h0 := norm_nonneg (ampOf x - T)
    have : 0 ≤ Cr * ‖ampOf x - T‖ := by positivity
    have : 0 ≤ D * u := by positivity
    have : 0 ≤ D * Cr * (‖ampOf x - T‖ + u) := by positivity
    linarith
  · have h1 := norm_sub_norm_le (R (ampOf x)) (ampOf (r1, r2))
    rw [norm_sub_rev] at h1
    have h0 := norm_nonneg (ampOf (r1, r2) : Amp K (Fin (n 0)) (Fin (n 1)))
    have h2 := mul_le_mul_of_nonneg_left (show ‖R (ampOf x)‖ ≤ ‖(ampOf (r1, r2) : Amp K (Fin (n 0)) (Fin (n 1)))‖ + Cr * u by linarith) hD.le
    have : 0 ≤ Cr * ‖(ampOf (r1, r2) : Amp K (Fin (n 0)) (Fin (n 1)))‖ := by positivity
    have : 0 ≤ D * Cr * ‖(ampOf (r1, r2) : Amp K (Fin (n 0)) (Fin (n 1)))‖ := by positivity
    have : 0 ≤ (D + Cr) * u := by positivity
    linarith

end attain

/-- All updates, with antisymmetrised doubles. -/
theorem attain (t : Bool) (eo : Fin (n 0) → K) (ev : Fin (n 1) → K) (R : Amp K (Fin (n 0)) (Fin (n 1)) → Amp K (Fin (n 0)) (Fin (n 1)))
    {η : ℝ} (hη : 0 ≤ η) {G : List (List ℝ) → ℝ} {c : ℝ} (hc : 0 ≤ c) (g1 : ∀ a i, ev a - eo i ≠ 0) (g2 : ∀ a b i j, ev a + ev b - eo i - eo j ≠ 0)
    (T : Amp K (Fin (n 0)) (Fin (n 1))) (hT : Anti T.2) (δ q : ℝ) (hδ : 0 < δ) (q0 : 0 ≤ q) (q1 : q < 1)
    (contr : ∀ X, Anti X.2 → ‖X - T‖ ≤ δ → ‖stepBy R eo ev X - T‖ ≤ q * ‖X - T‖) {Cr : ℝ} (hCr : 0 ≤ Cr) :
    ∃ C u₀ : ℝ, 0 ≤ C ∧ 0 < u₀ ∧ u₀ ≤ 1 ∧ ∀ u, 0 ≤ u → u ≤ u₀ → ∀ (A : Rounding K u η G), SignSym A →
    ∀ (run : Arr K × Arr K → Except Err (List (Arr K))) (d1 d2 : Arr K) (x : ℕ → Arr K × Arr K),
      Good (n := n) (Cr * u) t R (fun X => Anti X.2) (‖T‖ + δ) run → NearDen (c * u) eo ev d1 d2 →
      Typed n t (x 0) → Anti (ampOf (x 0) : Amp K (Fin (n 0)) (Fin (n 1))).2 → ‖ampOf (x 0) - T‖ ≤ δ →
      ∀ k, (∀ j < k, AStepBy A run d1 d2 (x j) (x (j + 1))) →
        Typed n t (x k) ∧ Anti (ampOf (x k) : Amp K (Fin (n 0)) (Fin (n 1))).2 ∧ ‖ampOf (x k) - T‖ ≤ δ ∧
        ‖ampOf (x k) - T‖ ≤ q ^ k * ‖ampOf (x 0) - T‖ + C * u ∧ ∃ y, AStepBy A run d1 d2 (x k) y := by
  obtain ⟨C, u₀, h1, h2, h3, h⟩ := attainBy (G := G) t eo ev R hη hc g1 g2 (fun X => Anti X.2) antiP T (antiP_close hT) δ q hδ q0 q1 contr hCr (fun B => 7 * B + 4 * η)
    fun B hB => by positivity
  refine ⟨C, u₀, h1, h2, h3, fun u u0 uu A hA run d1 d2 x => h u u0 uu A run (Cleaned A) d1 d2 x fun B hB b tb hb => ⟨?_, fun y hy => C96_cleaned A hA u0 (uu.trans h3) hη tb hb hy⟩⟩
  exact ⟨(b.1, ⟨b.2.cx, b.2.shape, fun idx => A.op .mul (1 / 4) (A.op .sub (A.op .sub (b.2.val idx) (b.2.val [idx.getD 1 0, idx.getD 0 0, idx.getD 2 0, idx.getD 3 0]))
    (A.op .sub (b.2.val [idx.getD 0 0, idx.getD 1 0, idx.getD 3 0, idx.getD 2 0]) (b.2.val [idx.getD 1 0, idx.getD 0 0, idx.getD 3 0, idx.getD 2 0])))⟩),
    rfl, rfl, rfl, fun p q r s _ => rfl⟩

/-- The energy changes by at most a constant times the change of the amplitudes, on a ball. -/
theorem energy_lip (fov : Fin (n 0) → Fin (n 1) → K) (oovv : Fin (n 0) → Fin (n 0) → Fin (n 1) → Fin (n 1) → K) (r : ℝ) : ∃ L : ℝ, 0 ≤ L ∧
    ∀ X Y : Amp K (Fin (n 0)) (Fin (n 1)), ‖X‖ ≤ r → ‖Y‖ ≤ r → ‖CC.cc_energy X.1 X.2 fov oovv - CC.cc_energy Y.1 Y.2 fov oovv‖ ≤ L * ‖X - Y‖ := by
  have h : ContDiff K 1 fun X : Amp K (Fin (n 0)) (Fin (n 1)) => CC.cc_energy X.1 X.2 fov oovv := by
    unfold CC.cc_energy CC.cc_energy_d CC.cc_energy_s1 CC.cc_energy_s2
    dsimp only
    fun_prop
  let : NormedSpace ℝ (Amp K (Fin (n 0)) (Fin (n 1))) := NormedSpace.restrictScalars ℝ K _
  have : ProperSpace (Amp K (Fin (n 0)) (Fin (n 1))) := FiniteDimensional.proper_rclike K _
  obtain ⟨M, hM⟩ := (isCompact_closedBall (0 : Amp K (Fin (n 0)) (Fin (n 1))) r).exists_bound_of_continuousOn (h.continuous_fderiv one_ne_zero).continuousOn
  refine ⟨|M|, abs_nonneg _, fun X Y hX hY => ?_⟩
  have := (convex_closedBall (0 : Amp K (Fin (n 0)) (Fin (n 1))) r).norm_image_sub_le_of_norm_fderiv_le (𝕜 := K) (C := M)
    (fun z _ => h.differentiable one_ne_zero z) hM (show Y ∈ _ by simpa using hY) (show X ∈ _ by simpa using hX)
  exact this.trans (mul_le_mul_of_nonneg_right (le_abs_self _) (norm_nonneg _))

/-- C96: the energies.  For all amplitudes in a ball the rounded energy differs from that of the amplitudes `T` by at most a constant times the error of the amplitudes
and the roundoff. -/
theorem C96_energy (re : K → K) (hre : ∀ x y, ‖re x - re y‖ ≤ ‖x - y‖) {η : ℝ} (hη : 0 ≤ η) {G : List (List ℝ) → ℝ} (hG : GMono G) {c : ℝ} (hc : 0 ≤ c)
    (t : Bool) (fov : Fin (n 0) → Fin (n 1) → K) (oovv : Fin (n 0) → Fin (n 0) → Fin (n 1) → Fin (n 1) → K) (T : Amp K (Fin (n 0)) (Fin (n 1))) (δ : ℝ) (hδ : 0 ≤ δ) :
    ∃ C : ℝ, 0 ≤ C ∧ ∀ u, 0 ≤ u → u ≤ 1 → ∀ (A : Rounding K u η G) (f' v' : Arr K), NearIs (c * u) (.two t 0 1 fov) f' → NearIs (c * u) (.four t 0 0 1 1 oovv) v' →
      ∀ x : Arr K × Arr K, Typed n t x → ‖ampOf x - T‖ ≤ δ → ∃ e, Prog.cc_energy.nrun (rounded A true re) [x.1, x.2, f', v'] = .ok [e] ∧
        ‖e.val [] - CC.cc_energy T.1 T.2 fov oovv‖ ≤ C * (‖ampOf x - T‖ + u) := by
  obtain ⟨M, hM, hb⟩ := desc_bounds [Desc.two t 0 1 fov, Desc.four t 0 0 1 1 oovv] (‖T‖ + δ)
  obtain ⟨L, hL, hlip⟩ := energy_lip fov oovv (‖T‖ + δ)
  obtain ⟨C, hC, h⟩ := C60_uniform_routine (ι := {X : Amp K (Fin (n 0)) (Fin (n 1)) // ‖X‖ ≤ ‖T‖ + δ}) Prog.cc_energy
    (fun X => [.two t 1 0 X.1.1, .four t 1 1 0 0 X.1.2, .two t 0 1 fov, .four t 0 0 1 1 oovv]) (fun X => [.num t (CC.cc_energy X.1.1 X.1.2 fov oovv)])
    (fun X => by simpa using C53_cc_energy (i := t) (t := t) X.1.1 X.1.2 fov oovv) (fun X => rfl)
    ([(t, [n 1, n 0]), (t, [n 1, n 1, n 0, n 0])] ++ [Desc.two t 0 1 fov, Desc.four t 0 0 1 1 oovv].map fun d => (d.cx, d.ten.shape.map n)) (M := M)
    (fun X => .cons ⟨rfl, rfl, fun idx hi => by
      obtain ⟨x, _, hx, hi', rfl⟩ := List.forall₂_cons_right_iff.1 hi
      obtain ⟨y, _, hy, hi'', rfl⟩ := List.forall₂_cons_right_iff.1 hi'
      obtain rfl := List.forall₂_nil_right_iff.1 hi''
      simpa [Cur.get, hx, hy] using ((le_amp1 X.1 ⟨x, hx⟩ ⟨y, hy⟩).trans X.2).trans hM⟩
      (.cons ⟨rfl, rfl, fun idx hi => by
        obtain ⟨x, _, hx, h1, rfl⟩ := List.forall₂_cons_right_iff.1 hi
        obtain ⟨y, _, hy, h2, rfl⟩ := List.forall₂_cons_right_iff.1 h1
        obtain ⟨z, _, hz, h3, rfl⟩ := List.forall₂_cons_right_iff.1 h2
        obtain ⟨w, _, hw, h4, rfl⟩ := List.forall₂_cons_right_iff.1 h3
        obtain rfl := List.forall₂_nil_right_iff.1 h4
        simpa [Cur.get, hx, hy, hz, hw] using ((le_amp2 X.1 ⟨x, hx⟩ ⟨y, hy⟩ ⟨z, hz⟩ ⟨w, hw⟩).trans X.2).trans hM⟩ hb))
    re hre hη hG hc
  refine ⟨L + C, by positivity, fun u u0 u1 A f' v' hf hv x hx hn => ?_⟩
  have hr : ‖(ampOf x : Amp K (Fin (n 0)) (Fin (n 1)))‖ ≤ ‖T‖ + δ := by have := norm_sub_norm_le (ampOf x) T; linarith
  have n0 : NearAmp (c * u) t (ampOf x) x := (nearAmp_iff (by positivity)).2 ⟨hx, by rw [sub_self, norm_zero]; positivity⟩
  obtain ⟨ys, e, hy⟩ := h ⟨ampOf x, hr⟩ u u0 u1 A [x.1, x.2, f', v'] (.cons n0.1 (.cons n0.2 (.cons hf (.cons hv .nil))))
  obtain ⟨y, _, q, hy1, rfl⟩ := List.forall₂_cons_left_iff.1 hy
  obtain rfl := List.forall₂_nil_left_iff.1 hy1
  refine ⟨y, e, ?_⟩
  have h1 : ‖y.val [] - CC.cc_energy (ampOf x).1 (ampOf x).2 fov oovv‖ ≤ C * u := by simpa [Cur.get] using q.2.2 [] (by rw [q.2.1]; exact .nil)
  have h2 := hlip (ampOf x) T hr (le_add_of_nonneg_right hδ)
  have h3 := norm_sub_le_norm_sub_add_norm_sub (y.val []) (CC.cc_energy (ampOf x).1 (ampOf x).2 fov oovv) (CC.cc_energy T.1 T.2 fov oovv)
  have : 0 ≤ C * ‖ampOf x - T‖ := by positivity
  have : 0 ≤ L * u := by positivity
  linarith

/-- Arrays of ones, for one occupied and two virtual orbitals, any `u` and an arithmetic that rounds. -/
example : ∃ C : ℝ, ∀ (u : ℝ) (h0 : 0 ≤ u) (h1 : u ≤ 1), ∃ e, Prog.cc_energy.nrun (rounded (inflate h0 h1 : Rounding ℝ u 0 (szSum 0)) true id)
    [⟨false, [2, 1], fun _ => 1⟩, ⟨false, [2, 2, 1, 1], fun _ => 1⟩, ⟨false, [1, 2], fun _ => 1⟩, ⟨false, [1, 1, 2, 2], fun _ => 1⟩] = .ok [e] ∧
      ‖e.val [] - CC.cc_energy (K := ℝ) (O := Fin 1) (V := Fin 2) (fun _ _ => 0) (fun _ _ _ _ => 0) (fun _ _ => 1) fun _ _ _ _ => 1‖ ≤ C * (1 + u) := by
  obtain ⟨C, hC, h⟩ := C96_energy (n := fun k => k + 1) id (fun _ _ => le_rfl) le_rfl (sz_mono le_rfl) (c := 0) le_rfl false (fun _ _ => (1 : ℝ)) (fun _ _ _ _ => 1) 0 1 zero_le_one
  refine ⟨C, fun u h0 h1 => ?_⟩
  have hn : ‖(ampOf (n := fun k => k + 1) (⟨false, [2, 1], fun _ => (1 : ℝ)⟩, ⟨false, [2, 2, 1, 1], fun _ => 1⟩) : Amp ℝ (Fin 1) (Fin 2)) - 0‖ ≤ 1 := by
    rw [sub_zero]
    exact amp_le zero_le_one (fun a i => by simp [ampOf]) fun a b i j => by simp [ampOf]
  obtain ⟨e, he, hb⟩ := h u h0 h1 (inflate h0 h1) ⟨false, [1, 2], fun _ => 1⟩ ⟨false, [1, 1, 2, 2], fun _ => 1⟩ (nearIs_two.2 ⟨rfl, rfl, fun p q => by simp⟩)
    (nearIs_four.2 ⟨rfl, rfl, fun p q r s => by simp⟩) (_, _) ⟨⟨rfl, rfl⟩, rfl, rfl⟩ hn
  exact ⟨e, he, hb.trans (mul_le_mul_of_nonneg_left (by linarith) hC)⟩

/-! ### the routines -/

section routines
variable (re : K → K) (hre : ∀ x y, ‖re x - re y‖ ≤ ‖x - y‖) {η : ℝ} (hη : 0 ≤ η) {G : List (List ℝ) → ℝ} (hG : GMono G) {c : ℝ} (hc : 0 ≤ c)
  (t : Bool) (F : OneE (Fin (n 0)) (Fin (n 1)) K) (I : TwoE (Fin (n 0)) (Fin (n 1)) K) (hI : AntiI I) (eo : Fin (n 0) → K) (ev : Fin (n 1) → K)
  (g1 : ∀ a i, ev a - eo i ≠ 0) (g2 : ∀ a b i j, ev a + ev b - eo i - eo j ≠ 0)
  (T : Amp K (Fin (n 0)) (Fin (n 1))) (hT : Anti T.2) (δ q : ℝ) (hδ : 0 < δ) (q0 : 0 ≤ q) (q1 : q < 1)
  (contr : ∀ X, Anti X.2 → ‖X - T‖ ≤ δ → ‖update F I eo ev X - T‖ ≤ q * ‖X - T‖)

/-- The routines that return the CCSD residuals of antisymmetric amplitudes. -/
def Residuals (f : Fun) : Prop := f = Prog.ccsd_simple ∨ f = Prog.ccsd_stanton

include hI in
theorem residuals_compute {f : Fun} (hf : Residuals f) (X : Amp K (Fin (n 0)) (Fin (n 1))) (hX : Anti X.2) :
    Computes f (ham t F I ++ [.two t 1 0 X.1, .four t 1 1 0 0 X.2])
      [.two t 1 0 (CC.ccsd_simple F I X.1 X.2).1, .four t 1 1 0 0 (CC.ccsd_simple F I X.1 X.2).2] ∧ (ham t F I).length + 2 = f.params.length := by
  rcases hf with rfl | rfl
  · exact ⟨C53_ccsd_simple id F I X.1 X.2, rfl⟩
  · have := C53_ccsd_stanton (i := t) (t := t) id F I X.1 X.2
    rw [C01_ccsd_stanton_eq_simple F I hI _ _ hX] at this
    exact ⟨this, rfl⟩

include hre hη hG hc hI g1 g2 hT hδ q0 q1 contr

/-- C96: the accuracy attained.  Suppose that exact updates of antisymmetric amplitudes at most `δ` from `T` come closer to `T` by the factor `q < 1` at least.  In any
rounded arithmetic of small unit roundoff `u`, with integrals and denominators wrong by at most `c * u`, and with the doubles antisymmetrised after every update: no
call raises, the doubles stay exactly antisymmetric, and after any number `k` of updates the error is at most `q ^ k` times the first one and `C * u`.  The constant does
not depend on `k`. -/
theorem C96_attains {f : Fun} (hf : Residuals f) :
    ∃ C u₀ : ℝ, 0 ≤ C ∧ 0 < u₀ ∧ u₀ ≤ 1 ∧ ∀ u, 0 ≤ u → u ≤ u₀ → ∀ (A : Rounding K u η G), SignSym A → ∀ (ins : List (Arr K)) (d1 d2 : Arr K)
    (x : ℕ → Arr K × Arr K), List.Forall₂ (NearIs (c * u)) (ham t F I) ins → NearDen (c * u) eo ev d1 d2 →
      Typed n t (x 0) → Anti (ampOf (x 0) : Amp K (Fin (n 0)) (Fin (n 1))).2 → ‖ampOf (x 0) - T‖ ≤ δ →
      ∀ k, (∀ j < k, AStep A re f ins d1 d2 (x j) (x (j + 1))) →
        Typed n t (x k) ∧ Anti (ampOf (x k) : Amp K (Fin (n 0)) (Fin (n 1))).2 ∧ ‖ampOf (x k) - T‖ ≤ δ ∧
        ‖ampOf (x k) - T‖ ≤ q ^ k * ‖ampOf (x 0) - T‖ + C * u ∧ ∃ y, AStep A re f ins d1 d2 (x k) y :=
  let ⟨_, hCr, hr⟩ := res_round f (ham t F I) t (fun X => CC.ccsd_simple F I X.1 X.2) (fun X => Anti X.2) (fun X hX => (residuals_compute t F I hI hf X hX).1)
    (residuals_compute t F I hI hf T hT).2 re hre hη hG hc (‖T‖ + δ)
  let ⟨C, u₀, h1, h2, h3, h⟩ := attain (G := G) t eo ev (fun X => CC.ccsd_simple F I X.1 X.2) hη hc g1 g2 T hT δ q hδ q0 q1 contr hCr
  ⟨C, u₀, h1, h2, h3, fun u u0 uu A hA ins d1 d2 x hi hd => h u u0 uu A hA _ d1 d2 x (hr u u0 (uu.trans h3) A ins hi) hd⟩

omit hδ q0 in
/-- C96: the residuals that the routine returns and the error of the amplitudes bound each other, up to the roundoff. -/
theorem C96_residual {f : Fun} (hf : Residuals f) :
    ∃ C : ℝ, 0 < C ∧ ∀ u, 0 ≤ u → u ≤ 1 → ∀ (A : Rounding K u η G) (ins : List (Arr K)),
    List.Forall₂ (NearIs (c * u)) (ham t F I) ins → ∀ x : Arr K × Arr K, Typed n t x → Anti (ampOf x : Amp K (Fin (n 0)) (Fin (n 1))).2 → ‖ampOf x - T‖ ≤ δ →
      ∃ r1 r2, f.nrun (rounded A true re) (ins ++ [x.1, x.2]) = .ok [r1, r2] ∧ Typed n t (r1, r2) ∧
        ‖(ampOf (r1, r2) : Amp K (Fin (n 0)) (Fin (n 1)))‖ ≤ C * (‖ampOf x - T‖ + u) ∧
        ‖ampOf x - T‖ ≤ C * (‖(ampOf (r1, r2) : Amp K (Fin (n 0)) (Fin (n 1)))‖ + u) :=
  let ⟨_, hCr, hr⟩ := res_round f (ham t F I) t (fun X => CC.ccsd_simple F I X.1 X.2) (fun X => Anti X.2) (fun X hX => (residuals_compute t F I hI hf X hX).1)
    (residuals_compute t F I hI hf T hT).2 re hre hη hG hc (‖T‖ + δ)
  let ⟨C, h1, h⟩ := stop t eo ev (fun X => CC.ccsd_simple F I X.1 X.2) g1 g2 (fun X => Anti X.2) T δ q q1 contr hCr
  ⟨C, h1, fun u u0 u1 A ins hi x => h u u0 u1 _ (hr u u0 u1 A ins hi) x⟩

/-- C96: stopping when all residuals returned are at most `τ`.  There are constants such that for every tolerance `τ ≥ C * u`, `τ > 0`, the test is passed after a number of
updates that depends on `τ` only, and after any number of updates the amplitudes that pass the test are within `C * τ` of the solution. -/
theorem C96_stops {f : Fun} (hf : Residuals f) : ∃ C u₀ : ℝ, 0 < C ∧ 0 < u₀ ∧ ∀ τ, 0 < τ → ∃ N : ℕ, ∀ u, 0 ≤ u → u ≤ u₀ → C * u ≤ τ →
    ∀ (A : Rounding K u η G), SignSym A → ∀ (ins : List (Arr K)) (d1 d2 : Arr K)
    (x : ℕ → Arr K × Arr K), List.Forall₂ (NearIs (c * u)) (ham t F I) ins → NearDen (c * u) eo ev d1 d2 →
      Typed n t (x 0) → Anti (ampOf (x 0) : Amp K (Fin (n 0)) (Fin (n 1))).2 → ‖ampOf (x 0) - T‖ ≤ δ →
      ∀ k, (∀ j < k, AStep A re f ins d1 d2 (x j) (x (j + 1))) →
        ∃ r1 r2, f.nrun (rounded A true re) (ins ++ [(x k).1, (x k).2]) = .ok [r1, r2] ∧
          (N ≤ k → ‖(ampOf (r1, r2) : Amp K (Fin (n 0)) (Fin (n 1)))‖ ≤ τ) ∧
          (‖(ampOf (r1, r2) : Amp K (Fin (n 0)) (Fin (n 1)))‖ ≤ τ → ‖ampOf (x k) - T‖ ≤ C * τ) := by
  obtain ⟨C, u₀, hC, hu, hu1, h⟩ := C96_attains re hre hη hG hc t F I hI eo ev g1 g2 T hT δ q hδ q0 q1 contr hf
  obtain ⟨D, hD, h'⟩ := C96_residual re hre hη hG hc t F I hI eo ev g1 g2 T hT δ q q1 contr hf
  refine ⟨2 * D * (C + 1) + 2 * D + 1, u₀, by positivity, hu, fun τ hτ => ?_⟩
  obtain ⟨N, hN⟩ := exists_pow_lt_of_lt_one (show 0 < τ / (2 * D * δ) by positivity) q1
  refine ⟨N, fun u u0 uu hCu A hA ins d1 d2 x hi hd t0 a0 n0 k hk => ?_⟩
  obtain ⟨m1, m2, m3, m4, -⟩ := h u u0 uu A hA ins d1 d2 x hi hd t0 a0 n0 k hk
  obtain ⟨r1, r2, e, -, b1, b2⟩ := h' u u0 (uu.trans hu1) A ins hi (x k) m1 m2 m3
  have w1 : 2 * D * (C + 1) * u ≤ τ := by nlinarith [mul_nonneg hD.le u0]
  have w2 : u ≤ τ := by nlinarith [mul_nonneg (mul_nonneg hD.le (by positivity : 0 ≤ C + 1)) u0, mul_nonneg hD.le u0]
  refine ⟨r1, r2, e, fun hNk => b1.trans ?_, fun ht => b2.trans ?_⟩
  · have p1 : q ^ k * ‖ampOf (x 0) - T‖ ≤ q ^ N * δ :=
      mul_le_mul (pow_le_pow_of_le_one q0 q1.le hNk) n0 (norm_nonneg _) (pow_nonneg q0 _)
    have p2 : q ^ N * δ ≤ τ / (2 * D) := by
      have := mul_le_mul_of_nonneg_right hN.le hδ.le
      rwa [show τ / (2 * D * δ) * δ = τ / (2 * D) by field_simp] at this
    have p3 : D * (‖ampOf (x k) - T‖ + u) ≤ D * (τ / (2 * D) + (C + 1) * u) := mul_le_mul_of_nonneg_left (by linarith) hD.le
    rw [show D * (τ / (2 * D) + (C + 1) * u) = τ / 2 + D * (C + 1) * u by field_simp] at p3
    linarith
  · have : D * (‖(ampOf (r1, r2) : Amp K (Fin (n 0)) (Fin (n 1)))‖ + u) ≤ D * (2 * τ) := mul_le_mul_of_nonneg_left (by linarith) hD.le
    have : 0 ≤ 2 * D * (C + 1) * τ := by positivity
    linarith

end routines

/-- C96: near a solution at which the derivative of the update contracts antisymmetric changes (as in C66), the roundoff is attained. -/
theorem C96_local (re : K → K) (hre : ∀ x y, ‖re x - re y‖ ≤ ‖x - y‖) {η : ℝ} (hη : 0 ≤ η) {G : List (List ℝ) → ℝ} (hG : GMono G) {c : ℝ} (hc : 0 ≤ c)
    (t : Bool) (F : OneE (Fin (n 0)) (Fin (n 1)) K) (I : TwoE (Fin (n 0)) (Fin (n 1)) K) (hI : AntiI I) (eo : Fin (n 0) → K) (ev : Fin (n 1) → K)
    (g1 : ∀ a i, ev a - eo i ≠ 0) (g2 : ∀ a b i j, ev a + ev b - eo i - eo j ≠ 0) (T : Amp K (Fin (n 0)) (Fin (n 1))) (hT : Anti T.2)
    (sol : CC.ccsd_simple F I T.1 T.2 = (fun _ _ => 0, fun _ _ _ _ => 0)) (J : Amp K (Fin (n 0)) (Fin (n 1)) → Amp K (Fin (n 0)) (Fin (n 1)))
    (hJ : ∀ X : Amp K (Fin (n 0)) (Fin (n 1)), Anti X.2 →
      HasDerivAt (fun s : K => CC.ccsd_simple F I (fun a i => T.1 a i + s * X.1 a i) (fun a b i j => T.2 a b i j + s * X.2 a b i j)) (J X) 0)
    (ρ : ℝ) (hρ : ρ < 1)
    (contr : ∀ X : Amp K (Fin (n 0)) (Fin (n 1)), Anti X.2 →
      ‖((fun a i => X.1 a i - (J X).1 a i / (ev a - eo i), fun a b i j => X.2 a b i j - (J X).2 a b i j / (ev a + ev b - eo i - eo j)) : Amp K (Fin (n 0)) (Fin (n 1)))‖ ≤ ρ * ‖X‖)
    (σ : ℝ) (hσ : ρ < σ) (hσ1 : σ < 1) (hσ0 : 0 ≤ σ) {f : Fun} (hf : Residuals f) :
    ∃ δ C u₀ : ℝ, 0 < δ ∧ 0 ≤ C ∧ 0 < u₀ ∧ ∀ u, 0 ≤ u → u ≤ u₀ → ∀ (A : Rounding K u η G), SignSym A → ∀ (ins : List (Arr K)) (d1 d2 : Arr K)
    (x : ℕ → Arr K × Arr K), List.Forall₂ (NearIs (c * u)) (ham t F I) ins → NearDen (c * u) eo ev d1 d2 →
      Typed n t (x 0) → Anti (ampOf (x 0) : Amp K (Fin (n 0)) (Fin (n 1))).2 → ‖ampOf (x 0) - T‖ ≤ δ →
      ∀ k, (∀ j < k, AStep A re f ins d1 d2 (x j) (x (j + 1))) → ‖ampOf (x k) - T‖ ≤ σ ^ k * ‖ampOf (x 0) - T‖ + C * u := by
  obtain ⟨δ, hδ, h⟩ := C66_local F I hI eo ev T hT sol J hJ ρ hρ contr σ hσ hσ1 hσ0
  obtain ⟨C, u₀, hC, hu, -, h'⟩ := C96_attains re hre hη hG hc t F I hI eo ev g1 g2 T hT δ σ hδ hσ0 hσ1
    (fun X hX hd => by simpa using h X hX hd 1) hf
  exact ⟨δ, C, u₀, hδ, hC, hu, fun u u0 uu A hA ins d1 d2 x hi hd t0 a0 n0 k hk => (h' u u0 uu A hA ins d1 d2 x hi hd t0 a0 n0 k hk).2.2.2.1⟩

/-- C96: for a weak perturbation, from every antisymmetric start in a ball. -/
theorem C96_weak (re : K → K) (hre : ∀ x y, ‖re x - re y‖ ≤ ‖x - y‖) {η : ℝ} (hη : 0 ≤ η) {G : List (List ℝ) → ℝ} (hG : GMono G) {c : ℝ} (hc : 0 ≤ c)
    (t : Bool) (f : OneE (Fin (n 0)) (Fin (n 1)) K) (I : TwoE (Fin (n 0)) (Fin (n 1)) K) (hI : AntiI I) (eo : Fin (n 0) → K) (ev : Fin (n 1) → K)
    (g1 : ∀ a i, ev a - eo i ≠ 0) (g2 : ∀ a b i j, ev a + ev b - eo i - eo j ≠ 0) (r : ℝ) (hr : 0 < r) {g : Fun} (hg : Residuals g) :
    ∃ z₀ : ℝ, 0 < z₀ ∧ ∀ z : K, ‖z‖ ≤ z₀ → ∃ T : Amp K (Fin (n 0)) (Fin (n 1)), Anti T.2 ∧ ‖T‖ ≤ r ∧
      CC.ccsd_simple ((diagF eo ev).addMul z f) (I.mul z) T.1 T.2 = (fun _ _ => 0, fun _ _ _ _ => 0) ∧
      ∃ C u₀ : ℝ, 0 ≤ C ∧ 0 < u₀ ∧ ∀ u, 0 ≤ u → u ≤ u₀ → ∀ (A : Rounding K u η G), SignSym A → ∀ (ins : List (Arr K)) (d1 d2 : Arr K)
        (x : ℕ → Arr K × Arr K), List.Forall₂ (NearIs (c * u)) (ham t ((diagF eo ev).addMul z f) (I.mul z)) ins → NearDen (c * u) eo ev d1 d2 →
        Typed n t (x 0) → Anti (ampOf (x 0) : Amp K (Fin (n 0)) (Fin (n 1))).2 → ‖(ampOf (x 0) : Amp K (Fin (n 0)) (Fin (n 1)))‖ ≤ r →
        ∀ k, (∀ j < k, AStep A re g ins d1 d2 (x j) (x (j + 1))) →
          ‖ampOf (x k) - T‖ ≤ (1 / 2) ^ k * ‖ampOf (x 0) - T‖ + C * u ∧ ∃ y, AStep A re g ins d1 d2 (x k) y := by
  obtain ⟨z₁, hz1, h1⟩ := C66_converges eo ev f I hI g1 g2 r hr
  obtain ⟨z₂, hz2, h2⟩ := C66_converges eo ev f I hI g1 g2 (3 * r) (by positivity)
  refine ⟨min z₁ z₂, lt_min hz1 hz2, fun z hz => ?_⟩
  obtain ⟨T, hA, hn, hsol, -, -⟩ := h1 z (hz.trans (min_le_left _ _))
  obtain ⟨T', -, -, -, huniq, hcv⟩ := h2 z (hz.trans (min_le_right _ _))
  obtain rfl := huniq T hA (by linarith) hsol
  obtain ⟨C, u₀, hC, hu, -, h'⟩ := C96_attains re hre hη hG hc t ((diagF eo ev).addMul z f) (I.mul z) (TwoE.mul_anti hI z) eo ev g1 g2 T hA (2 * r) (1 / 2)
    (by positivity) (by norm_num) (by norm_num)
    (fun X hX hd => by
      have := hcv X hX (by have := norm_sub_norm_le X T; linarith) 1
      simpa using this) hg
  refine ⟨T, hA, hn, hsol, C, u₀, hC, hu, fun u u0 uu A hA' ins d1 d2 x hi hd t0 a0 n0 k hk => ?_⟩
  obtain ⟨-, -, -, m4, m5⟩ := h' u u0 uu A hA' ins d1 d2 x hi hd t0 a0 (by have := norm_sub_le (ampOf (x 0)) T; linarith) k hk
  exact ⟨m4, m5⟩

/-! ### arithmetics -/

/-- C96: rounding to the nearest binary number, ties to even, commutes with signs. -/
theorem C96_binary (p : ℕ) (emin : ℤ) : SignSym (binaryReal p emin) where
  swap x y := by
    change Binary.rd p emin (y - x) = -Binary.rd p emin (x - y)
    rw [← Binary.rd_neg]
    congr 1
    ring
  sub x y := by
    change Binary.rd p emin (-x - -y) = -Binary.rd p emin (x - y)
    rw [← Binary.rd_neg]
    congr 1
    ring
  mul x y := by
    change Binary.rd p emin (x * -y) = -Binary.rd p emin (x * y)
    rw [← Binary.rd_neg]
    congr 1
    ring

/-- Chains of any length, when every chain can be continued. -/
theorem chains {X : Type} {P : X → X → Prop} {x₀ : X} (h : ∀ (k : ℕ) (x : ℕ → X), x 0 = x₀ → (∀ j < k, P (x j) (x (j + 1))) → ∃ y, P (x k) y) (k : ℕ) :
    ∃ x : ℕ → X, x 0 = x₀ ∧ ∀ j < k, P (x j) (x (j + 1)) := by
  induction k with
  | zero => exact ⟨fun _ => x₀, rfl, nofun⟩
  | succ k ih =>
    obtain ⟨x, h0, hx⟩ := ih
    obtain ⟨y, hy⟩ := h k x h0 hx
    refine ⟨fun j => if j ≤ k then x j else y, by simpa using h0, fun j hj => ?_⟩
    rcases Nat.lt_succ_iff_lt_or_eq.1 hj with hj | rfl
    · simp only [hj.le, Nat.succ_le_of_lt hj, if_true]
      exact hx j hj
    · simpa using hy

/-- C96: binary floating-point numbers.  The constant depends neither on the number `k` of updates nor on the number `p` of bits; `e0` is the exponent of the smallest
number with `p` significant bits, and `p₀` is a number of bits that is sufficient. -/
theorem C96_binary_weak (t : Bool) (f : OneE (Fin (n 0)) (Fin (n 1)) ℝ) (I : TwoE (Fin (n 0)) (Fin (n 1)) ℝ) (hI : AntiI I) (eo : Fin (n 0) → ℝ) (ev : Fin (n 1) → ℝ)
    (g1 : ∀ a i, ev a - eo i ≠ 0) (g2 : ∀ a b i j, ev a + ev b - eo i - eo j ≠ 0) (r : ℝ) (hr : 0 < r) {g : Fun} (hg : Residuals g) (e0 : ℤ) :
    ∃ z₀ : ℝ, 0 < z₀ ∧ ∀ z : ℝ, |z| ≤ z₀ → ∃ T : Amp ℝ (Fin (n 0)) (Fin (n 1)), Anti T.2 ∧ ‖T‖ ≤ r ∧
      CC.ccsd_simple ((diagF eo ev).addMul z f) (I.mul z) T.1 T.2 = (fun _ _ => 0, fun _ _ _ _ => 0) ∧
      ∃ (C : ℝ) (p₀ : ℕ), 0 ≤ C ∧ ∀ p, p₀ ≤ p → ∀ (ins : List (Arr ℝ)) (d1 d2 : Arr ℝ) (x₀ : Arr ℝ × Arr ℝ),
        List.Forall₂ (NearIs ((1 / 2) ^ p)) (ham t ((diagF eo ev).addMul z f) (I.mul z)) ins → NearDen ((1 / 2) ^ p) eo ev d1 d2 →
        Typed n t x₀ → Anti (ampOf x₀ : Amp ℝ (Fin (n 0)) (Fin (n 1))).2 → ‖(ampOf x₀ : Amp ℝ (Fin (n 0)) (Fin (n 1)))‖ ≤ r →
        (∀ k, ∃ x : ℕ → Arr ℝ × Arr ℝ, x 0 = x₀ ∧ ∀ j < k, AStep (binaryReal p (e0 + 1 - p)) id g ins d1 d2 (x j) (x (j + 1))) ∧
        ∀ (x : ℕ → Arr ℝ × Arr ℝ) (k : ℕ), x 0 = x₀ → (∀ j < k, AStep (binaryReal p (e0 + 1 - p)) id g ins d1 d2 (x j) (x (j + 1))) →
          ‖ampOf (x k) - T‖ ≤ (1 / 2) ^ k * ‖ampOf x₀ - T‖ + C * (1 / 2) ^ p := by
  obtain ⟨z₀, hz, h⟩ := C96_weak (K := ℝ) id (fun _ _ => le_rfl) (Binary.two_pos e0).le (sz_mono (Binary.two_pos e0).le) (c := 1) zero_le_one t f I hI eo ev g1 g2 r hr hg
  refine ⟨z₀, hz, fun z hzz => ?_⟩
  obtain ⟨T, hA, hn, hsol, C, u₀, hC, hu, h'⟩ := h z hzz
  obtain ⟨p₀, hp⟩ := exists_pow_lt_of_lt_one hu (by norm_num : (1 / 2 : ℝ) < 1)
  refine ⟨T, hA, hn, hsol, C, p₀, hC, fun p hpp ins d1 d2 x₀ hi hd ht ha hr0 => ?_⟩
  have pu : ((1 : ℝ) / 2) ^ p ≤ u₀ := (pow_le_pow_of_le_one (by norm_num) (by norm_num) hpp).trans hp.le
  have e : e0 + 1 - p + (p : ℤ) - 1 = e0 := by ring
  have key : ∀ (η : ℝ) (A : Rounding ℝ ((1 / 2) ^ p) η (szSum η)), η = 2 ^ e0 → SignSym A → ∀ (x : ℕ → Arr ℝ × Arr ℝ) (k : ℕ), x 0 = x₀ →
      (∀ j < k, AStep A id g ins d1 d2 (x j) (x (j + 1))) →
      ‖ampOf (x k) - T‖ ≤ (1 / 2) ^ k * ‖ampOf x₀ - T‖ + C * (1 / 2) ^ p ∧ ∃ y, AStep A id g ins d1 d2 (x k) y := by
    intro η A hη hS x k h0 hx
    subst hη
    subst h0
    exact h' ((1 / 2) ^ p) (by positivity) pu A hS ins d1 d2 x (by rwa [one_mul]) (by rwa [one_mul]) ht ha hr0 k hx
  have key' := key _ (binaryReal p (e0 + 1 - p)) (by rw [e]) (C96_binary _ _)
  exact ⟨chains fun k x h0 hx => (key' x k h0 hx).2, fun x k h0 hx => (key' x k h0 hx).1⟩

theorem inflate_sign {u : ℝ} (h0 : 0 ≤ u) (h1 : u ≤ 1) : SignSym (inflate h0 h1 : Rounding K u 0 (szSum 0)) where
  swap x y := by simp only [inflate, ltr, opVal]; ring
  sub x y := by simp only [inflate, ltr, opVal]; ring
  mul x y := by simp only [inflate, ltr, opVal]; ring

/-- Two occupied orbitals of energy -1, three virtual ones of energy 1, and any antisymmetric integrals that are weak enough: runs of any length in an arithmetic that really
rounds, from amplitudes zero. -/
example (f : OneE (Fin 2) (Fin 3) ℝ) (I : TwoE (Fin 2) (Fin 3) ℝ) (hI : AntiI I) : ∃ z₀ : ℝ, 0 < z₀ ∧ ∀ z : ℝ, |z| ≤ z₀ →
    ∃ (T : Amp ℝ (Fin 2) (Fin 3)) (C u₀ : ℝ), 0 < u₀ ∧ CC.ccsd_simple ((diagF (fun _ => -1) fun _ => 1).addMul z f) (I.mul z) T.1 T.2 = (fun _ _ => 0, fun _ _ _ _ => 0) ∧
      ∀ (u : ℝ) (h0 : 0 ≤ u) (h1 : u ≤ 1), u ≤ u₀ → (inflate h0 h1 : Rounding ℝ u 0 (szSum 0)).op .add 1 1 = 2 + 2 * u ∧ ∀ k,
      ∃ x : ℕ → Arr ℝ × Arr ℝ, (∀ j < k, AStep (inflate h0 h1) id Prog.ccsd_stanton
          ((ham (n := fun k => k + 2) false ((diagF (fun _ => -1) fun _ => 1).addMul z f) (I.mul z)).map Desc.arr)
          ⟨false, [3, 2], fun _ => 2⟩ ⟨false, [3, 3, 2, 2], fun _ => 4⟩ (x j) (x (j + 1))) ∧
        ‖ampOf (n := fun k => k + 2) (x k) - T‖ ≤ (1 / 2) ^ k + C * u := by
  obtain ⟨z₀, hz, h⟩ := C96_weak (n := fun k => k + 2) id (fun _ _ => le_rfl) le_rfl (sz_mono le_rfl) (c := 0) le_rfl false f I hI (fun _ => (-1 : ℝ)) (fun _ => 1)
    (fun _ _ => by norm_num) (fun _ _ _ _ => by norm_num) 1 one_pos (.inr rfl : Residuals Prog.ccsd_stanton)
  refine ⟨z₀, hz, fun z hzz => ?_⟩
  obtain ⟨T, hA, hn, hsol, C, u₀, hC, hu, h'⟩ := h z hzz
  refine ⟨T, C, u₀, hu, hsol, fun u h0 h1 uu => ⟨by simp [inflate, ltr, opVal]; ring, fun k => ?_⟩⟩
  have near : ∀ d : Desc (fun k => k + 2) ℝ, NearIs (0 * u) d d.arr := fun d => ⟨rfl, rfl, fun idx _ => by rw [zero_mul, Desc.arr, sub_self, norm_zero]⟩
  have hi : List.Forall₂ (NearIs (0 * u)) (ham (n := fun k => k + 2) false ((diagF (fun _ => -1) fun _ => 1).addMul z f) (I.mul z))
      ((ham (n := fun k => k + 2) false ((diagF (fun _ => -1) fun _ => 1).addMul z f) (I.mul z)).map Desc.arr) := by
    rw [List.forall₂_map_right_iff]
    exact List.forall₂_same.2 fun d _ => near d
  have hd : NearDen (n := fun k => k + 2) (0 * u) (fun _ => -1) (fun _ => 1) (⟨false, [3, 2], fun _ => 2⟩ : Arr ℝ) ⟨false, [3, 3, 2, 2], fun _ => 4⟩ :=
    ⟨fun _ _ => by norm_num, fun _ _ _ _ => by norm_num⟩
  let x₀ : Arr ℝ × Arr ℝ := (⟨false, [3, 2], fun _ => 0⟩, ⟨false, [3, 3, 2, 2], fun _ => 0⟩)
  have z0 : ampOf (n := fun k => k + 2) x₀ = 0 := rfl
  have key := fun (x : ℕ → Arr ℝ × Arr ℝ) (hx : x 0 = x₀) => h' u h0 uu (inflate h0 h1) (inflate_sign h0 h1) _ _ _ x hi hd (by rw [hx]; exact ⟨⟨rfl, rfl⟩, rfl, rfl⟩)
    (by rw [hx]; constructor <;> intro a b i j <;> simp [ampOf, x₀]) (by rw [hx]; exact (norm_le_zero_iff.2 z0).trans zero_le_one)
  obtain ⟨x, hx0, hx⟩ := chains (fun k x hx0 hx => (key x hx0 k hx).2) k
  refine ⟨x, hx, (key x hx0 k hx).1.trans ?_⟩
  have : ‖ampOf (n := fun k => k + 2) (x 0) - T‖ ≤ 1 := by
    rw [hx0, show ampOf (n := fun k => k + 2) x₀ = 0 from z0, zero_sub, norm_neg]
    exact hn
  have := mul_le_of_le_one_right (by positivity : (0 : ℝ) ≤ (1 / 2) ^ k) this
  linarith

end Heap
