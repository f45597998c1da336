import Verif.Props.IterGen
import Verif.Props.IterateU
import Verif.Props.NumU
/-!
# C99: the accuracy that the unrestricted iterations attain in rounded arithmetic
-/

namespace Heap
open Prog CC
variable {n : ℕ → ℕ} {K : Type} [RCLike K]
set_option synthInstance.maxSize 100000
set_option synthInstance.maxHeartbeats 400000

theorem idx_two {k l : ℕ} {p : List ℕ → Prop} : (∀ idx, List.Forall₂ (· < ·) idx [k, l] → p idx) ↔ ∀ (x : Fin k) (y : Fin l), p [x.1, y.1] := by
  refine ⟨fun h x y => h _ (by simp), fun h idx hi => ?_⟩
  obtain ⟨x, _, hx, hi', rfl⟩ := List.forall₂_cons_right_iff.1 hi
  obtain ⟨y, _, hy, hi'', rfl⟩ := List.forall₂_cons_right_iff.1 hi'
  obtain rfl := List.forall₂_nil_right_iff.1 hi''
  exact h ⟨x, hx⟩ ⟨y, hy⟩

theorem idx_four {k l r s : ℕ} {p : List ℕ → Prop} :
    (∀ idx, List.Forall₂ (· < ·) idx [k, l, r, s] → p idx) ↔ ∀ (x : Fin k) (y : Fin l) (z : Fin r) (w : Fin s), p [x.1, y.1, z.1, w.1] := by
  refine ⟨fun h x y z w => h _ (by simp), fun h idx hi => ?_⟩
  obtain ⟨x, _, hx, h1, rfl⟩ := List.forall₂_cons_right_iff.1 hi
  obtain ⟨y, _, hy, h2, rfl⟩ := List.forall₂_cons_right_iff.1 h1
  obtain ⟨z, _, hz, h3, rfl⟩ := List.forall₂_cons_right_iff.1 h2
  obtain ⟨w, _, hw, h4, rfl⟩ := List.forall₂_cons_right_iff.1 h3
  obtain rfl := List.forall₂_nil_right_iff.1 h4
  exact h ⟨x, hx⟩ ⟨y, hy⟩ ⟨z, hz⟩ ⟨w, hw⟩

theorem at_two {t : Bool} {k l : ℕ} (X : Fin (n k) → Fin (n l) → K) (x : Fin (n k)) (y : Fin (n l)) : (Desc.two t k l X).at [x.1, y.1] = X x y := by
  simp [Desc.at, Cur.get]

theorem at_four {t : Bool} {k l r s : ℕ} (X : Fin (n k) → Fin (n l) → Fin (n r) → Fin (n s) → K) (x : Fin (n k)) (y : Fin (n l)) (z : Fin (n r)) (w : Fin (n s)) :
    (Desc.four t k l r s X).at [x.1, y.1, z.1, w.1] = X x y z w := by
  simp [Desc.at, Cur.get]

/-! ### five arrays -/

/-- The five tensors of unrestricted amplitudes. -/
def uDe (t : Bool) (va oa vb ob : ℕ) (X : UAmp K (Fin (n oa)) (Fin (n va)) (Fin (n ob)) (Fin (n vb))) : Fin 5 → Desc n K
  | 0 => .two t va oa X.1.1
  | 1 => .two t vb ob X.1.2
  | 2 => .four t va va oa oa X.2.1
  | 3 => .four t va vb oa ob X.2.2.1
  | 4 => .four t vb vb ob ob X.2.2.2

/-- Their shapes. -/
def uSh (n : ℕ → ℕ) (va oa vb ob : ℕ) : Fin 5 → List ℕ
  | 0 => [n va, n oa]
  | 1 => [n vb, n ob]
  | 2 => [n va, n va, n oa, n oa]
  | 3 => [n va, n vb, n oa, n ob]
  | 4 => [n vb, n vb, n ob, n ob]

/-- The amplitudes in five arrays. -/
def uRd (va oa vb ob : ℕ) (x : Fin 5 → Arr K) : UAmp K (Fin (n oa)) (Fin (n va)) (Fin (n ob)) (Fin (n vb)) :=
  ((fun a i => (x 0).val [a.1, i.1], fun a i => (x 1).val [a.1, i.1]),
    (fun a b i j => (x 2).val [a.1, b.1, i.1, j.1], fun a b i j => (x 3).val [a.1, b.1, i.1, j.1], fun a b i j => (x 4).val [a.1, b.1, i.1, j.1]))

theorem uSh_all {va oa vb ob : ℕ} {p : Fin 5 → List ℕ → Prop} : (∀ i idx, List.Forall₂ (· < ·) idx (uSh n va oa vb ob i) → p i idx) ↔
    (∀ (a : Fin (n va)) (i : Fin (n oa)), p 0 [a.1, i.1]) ∧ (∀ (a : Fin (n vb)) (i : Fin (n ob)), p 1 [a.1, i.1]) ∧
    (∀ (a b : Fin (n va)) (i j : Fin (n oa)), p 2 [a.1, b.1, i.1, j.1]) ∧ (∀ (a : Fin (n va)) (b : Fin (n vb)) (i : Fin (n oa)) (j : Fin (n ob)), p 3 [a.1, b.1, i.1, j.1]) ∧
    ∀ (a b : Fin (n vb)) (i j : Fin (n ob)), p 4 [a.1, b.1, i.1, j.1] := by
  constructor
  · intro h
    exact ⟨idx_two.1 (h 0), idx_two.1 (h 1), idx_four.1 (h 2), idx_four.1 (h 3), idx_four.1 (h 4)⟩
  · rintro ⟨h0, h1, h2, h3, h4⟩ i
    match i with
    | 0 => exact idx_two.2 h0
    | 1 => exact idx_two.2 h1
    | 2 => exact idx_four.2 h2
    | 3 => exact idx_four.2 h3
    | 4 => exact idx_four.2 h4

theorem u_le {Oa Va Ob Vb : Type} [Fintype Oa] [Fintype Va] [Fintype Ob] [Fintype Vb] {X : UAmp K Oa Va Ob Vb} {c : ℝ} (hc : 0 ≤ c)
    (h0 : ∀ a i, ‖X.1.1 a i‖ ≤ c) (h1 : ∀ a i, ‖X.1.2 a i‖ ≤ c) (h2 : ∀ a b i j, ‖X.2.1 a b i j‖ ≤ c) (h3 : ∀ a b i j, ‖X.2.2.1 a b i j‖ ≤ c)
    (h4 : ∀ a b i j, ‖X.2.2.2 a b i j‖ ≤ c) : ‖X‖ ≤ c := by
  have two : ∀ {A B : Type} [Fintype A] [Fintype B] (Y : A → B → K), (∀ a b, ‖Y a b‖ ≤ c) → ‖Y‖ ≤ c := fun Y h =>
    (pi_norm_le_iff_of_nonneg hc).2 fun a => (pi_norm_le_iff_of_nonneg hc).2 (h a)
  have four : ∀ {A B C D : Type} [Fintype A] [Fintype B] [Fintype C] [Fintype D] (Y : A → B → C → D → K), (∀ a b i j, ‖Y a b i j‖ ≤ c) → ‖Y‖ ≤ c := fun Y h =>
    (pi_norm_le_iff_of_nonneg hc).2 fun a => (pi_norm_le_iff_of_nonneg hc).2 fun b => (pi_norm_le_iff_of_nonneg hc).2 fun i => (pi_norm_le_iff_of_nonneg hc).2 (h a b i)
  exact max_le (max_le (two _ h0) (two _ h1)) (max_le (four _ h2) (max_le (four _ h3) (four _ h4)))

theorem le_u {Oa Va Ob Vb : Type} [Fintype Oa] [Fintype Va] [Fintype Ob] [Fintype Vb] (X : UAmp K Oa Va Ob Vb) :
    (∀ a i, ‖X.1.1 a i‖ ≤ ‖X‖) ∧ (∀ a i, ‖X.1.2 a i‖ ≤ ‖X‖) ∧ (∀ a b i j, ‖X.2.1 a b i j‖ ≤ ‖X‖) ∧ (∀ a b i j, ‖X.2.2.1 a b i j‖ ≤ ‖X‖) ∧
    ∀ a b i j, ‖X.2.2.2 a b i j‖ ≤ ‖X‖ := by
  have two : ∀ {A B : Type} [Fintype A] [Fintype B] (Y : A → B → K) a b, ‖Y a b‖ ≤ ‖Y‖ := fun Y a b => (norm_le_pi_norm (Y a) b).trans (norm_le_pi_norm Y a)
  have four : ∀ {A B C D : Type} [Fintype A] [Fintype B] [Fintype C] [Fintype D] (Y : A → B → C → D → K) a b i j, ‖Y a b i j‖ ≤ ‖Y‖ := fun Y a b i j =>
    (norm_le_pi_norm (Y a b i) j).trans ((norm_le_pi_norm (Y a b) i).trans ((norm_le_pi_norm (Y a) b).trans (norm_le_pi_norm Y a)))
  have e1 := norm_fst_le X
  have e2 := norm_snd_le X
  exact ⟨fun a i => (two _ a i).trans ((norm_fst_le X.1).trans e1), fun a i => (two _ a i).trans ((norm_snd_le X.1).trans e1),
    fun a b i j => (four _ a b i j).trans ((norm_fst_le X.2).trans e2), fun a b i j => (four _ a b i j).trans ((norm_fst_le X.2.2).trans ((norm_snd_le X.2).trans e2)),
    fun a b i j => (four _ a b i j).trans ((norm_snd_le X.2.2).trans ((norm_snd_le X.2).trans e2))⟩

/-- Unrestricted amplitudes in five arrays: `va`, `oa`, `vb`, `ob` number the spaces. -/
def uC (t : Bool) (va oa vb ob : ℕ) : Coords n K (UAmp K (Fin (n oa)) (Fin (n va)) (Fin (n ob)) (Fin (n vb))) 5 t where
  de i X := uDe t va oa vb ob X i
  sh := uSh n va oa vb ob
  rd := uRd va oa vb ob
  cx i X := by match i with | 0 | 1 | 2 | 3 | 4 => rfl
  shape i X := by match i with | 0 | 1 | 2 | 3 | 4 => rfl
  le X c hc h := by
    obtain ⟨h0, h1, h2, h3, h4⟩ := uSh_all.1 h
    refine u_le hc (fun a i => ?_) (fun a i => ?_) (fun a b i j => ?_) (fun a b i j => ?_) (fun a b i j => ?_)
    · have := h0 a i; rwa [uDe, at_two] at this
    · have := h1 a i; rwa [uDe, at_two] at this
    · have := h2 a b i j; rwa [uDe, at_four] at this
    · have := h3 a b i j; rwa [uDe, at_four] at this
    · have := h4 a b i j; rwa [uDe, at_four] at this
  ge X := by
    obtain ⟨h0, h1, h2, h3, h4⟩ := le_u X
    refine uSh_all.2 ⟨fun a i => ?_, fun a i => ?_, fun a b i j => ?_, fun a b i j => ?_, fun a b i j => ?_⟩
    · rw [uDe, at_two]; exact h0 a i
    · rw [uDe, at_two]; exact h1 a i
    · rw [uDe, at_four]; exact h2 a b i j
    · rw [uDe, at_four]; exact h3 a b i j
    · rw [uDe, at_four]; exact h4 a b i j
  sub X Y := by
    refine uSh_all.2 ⟨fun a i => ?_, fun a i => ?_, fun a b i j => ?_, fun a b i j => ?_, fun a b i j => ?_⟩ <;> simp only [uDe, at_two, at_four] <;> rfl
  read x := by
    refine uSh_all.2 ⟨fun a i => ?_, fun a i => ?_, fun a b i j => ?_, fun a b i j => ?_, fun a b i j => ?_⟩ <;> simp only [uDe, at_two, at_four, uRd]

/-- Amplitudes `(T1a, T1b)`, `(T2aa, T2ab, T2bb)` in five arrays; the spaces are numbered like in C53. -/
abbrev uV (n : ℕ → ℕ) (K : Type) [RCLike K] (t : Bool) := uC (n := n) (K := K) t 1 0 3 2

/-- Multipliers in five arrays. -/
abbrev uW (n : ℕ → ℕ) (K : Type) [RCLike K] (t : Bool) := uC (n := n) (K := K) t 0 1 2 3

/-- The orbital energy differences, in the order of the amplitudes. -/
def uden {Oa Va Ob Vb : Type} (eoa : Oa → K) (eva : Va → K) (eob : Ob → K) (evb : Vb → K) : UAmp K Oa Va Ob Vb :=
  ((fun a i => eva a - eoa i, fun a i => evb a - eob i),
    (fun a b i j => eva a + eva b - eoa i - eoa j, fun a b i j => eva a + evb b - eoa i - eob j, fun a b i j => evb a + evb b - eob i - eob j))

/-- The same in the order of the multipliers. -/
def udenL {Oa Va Ob Vb : Type} (eoa : Oa → K) (eva : Va → K) (eob : Ob → K) (evb : Vb → K) : UAmp K Va Oa Vb Ob :=
  ((fun i a => eva a - eoa i, fun i a => evb a - eob i),
    (fun i j a b => eva a + eva b - eoa i - eoa j, fun i j a b => eva a + evb b - eoa i - eob j, fun i j a b => evb a + evb b - eob i - eob j))

/-! ### antisymmetrising -/

/-- An array is antisymmetrised: `s = t - t.transpose((1, 0, 2, 3))`, `t = 0.25*(s - s.transpose((0, 1, 3, 2)))`. -/
def AntiOf {u η : ℝ} {G : List (List ℝ) → ℝ} (A : Rounding K u η G) (b y : Arr K) : Prop :=
  y.cx = b.cx ∧ y.shape = b.shape ∧ ∀ p q r s : ℕ, List.Forall₂ (· < ·) [p, q, r, s] b.shape →
    y.val [p, q, r, s] = A.op .mul (1 / 4) (A.op .sub (A.op .sub (b.val [p, q, r, s]) (b.val [q, p, r, s])) (A.op .sub (b.val [p, q, s, r]) (b.val [q, p, s, r])))

/-- The doubles of equal spins are antisymmetrised, the other arrays are kept. -/
def UCleaned {u η : ℝ} {G : List (List ℝ) → ℝ} (A : Rounding K u η G) (b y : Fin 5 → Arr K) : Prop :=
  y 0 = b 0 ∧ y 1 = b 1 ∧ AntiOf A (b 2) (y 2) ∧ y 3 = b 3 ∧ AntiOf A (b 4) (y 4)

/-- The projection on doubles that are antisymmetric for equal spins. -/
def uantiP {Oa Va Ob Vb : Type} (X : UAmp K Oa Va Ob Vb) : UAmp K Oa Va Ob Vb := (X.1, ((antiP (X.1.1, X.2.1)).2, X.2.2.1, (antiP (X.1.2, X.2.2.2)).2))

theorem antiP_at {O V : Type} (s : V → O → K) (d : V → V → O → O → K) (a b : V) (i j : O) :
    (antiP (s, d)).2 a b i j = (d a b i j - d b a i j - d a b j i + d b a j i) / 4 := by simp only [antiP]; ring

theorem quarter {x y z w : K} {B : ℝ} (hx : ‖x‖ ≤ B) (hy : ‖y‖ ≤ B) (hz : ‖z‖ ≤ B) (hw : ‖w‖ ≤ B) : ‖(x - y - z + w) / 4‖ ≤ B := by
  rw [norm_div, show ‖(4 : K)‖ = 4 by simp]
  have := norm_add_le (x - y - z) w
  have := norm_sub_le (x - y) z
  have := norm_sub_le x y
  linarith

theorem uantiP_norm {Oa Va Ob Vb : Type} [Fintype Oa] [Fintype Va] [Fintype Ob] [Fintype Vb] (X : UAmp K Oa Va Ob Vb) : ‖uantiP X‖ ≤ ‖X‖ := by
  obtain ⟨h0, h1, h2, h3, h4⟩ := le_u X
  refine u_le (norm_nonneg _) h0 h1 (fun a b i j => ?_) h3 fun a b i j => ?_
  · simp only [uantiP, antiP_at]
    exact quarter (h2 ..) (h2 ..) (h2 ..) (h2 ..)
  · simp only [uantiP, antiP_at]
    exact quarter (h4 ..) (h4 ..) (h4 ..) (h4 ..)

theorem uantiP_close {Oa Va Ob Vb : Type} [Fintype Oa] [Fintype Va] [Fintype Ob] [Fintype Vb] {T : UAmp K Oa Va Ob Vb} (hT : UAnti T) (X : UAmp K Oa Va Ob Vb) :
    ‖uantiP X - T‖ ≤ ‖X - T‖ := by
  have e : uantiP X - T = uantiP (X - T) := by
    have : uantiP (X - T) = uantiP X - uantiP T := by
      refine Prod.ext rfl (Prod.ext ?_ (Prod.ext rfl ?_)) <;> funext a b i j <;> simp only [uantiP, antiP_at, Prod.snd_sub, Prod.fst_sub, Pi.sub_apply] <;> ring
    have eT : uantiP T = T := by
      refine Prod.ext rfl (Prod.ext ?_ (Prod.ext rfl ?_))
      · have := congrArg Prod.snd (antiP_of_anti (y := (T.1.1, T.2.1)) hT.1)
        exact this
      · have := congrArg Prod.snd (antiP_of_anti (y := (T.1.2, T.2.2.2)) hT.2)
        exact this
    rw [this, eT]
  rw [e]
  exact uantiP_norm _

theorem antiOf_ok {u η B : ℝ} {G : List (List ℝ) → ℝ} (A : Rounding K u η G) (hA : SignSym A) (u0 : 0 ≤ u) (u1 : u ≤ 1) (hη : 0 ≤ η) {N M : ℕ} {b y : Arr K}
    (hs : b.shape = [N, N, M, M]) (hB : ∀ (p q : Fin N) (r s : Fin M), ‖b.val [p.1, q.1, r.1, s.1]‖ ≤ B) (h : AntiOf A b y) :
    Anti (fun (p q : Fin N) (r s : Fin M) => y.val [p.1, q.1, r.1, s.1]) ∧ ∀ (p q : Fin N) (r s : Fin M), ‖y.val [p.1, q.1, r.1, s.1] -
      (b.val [p.1, q.1, r.1, s.1] - b.val [q.1, p.1, r.1, s.1] - b.val [p.1, q.1, s.1, r.1] + b.val [q.1, p.1, s.1, r.1]) / 4‖ ≤ (7 * B + 4 * η) * u := by
  have v : ∀ (p q : Fin N) (r s : Fin M), y.val [p.1, q.1, r.1, s.1] = _ := fun p q r s => h.2.2 p.1 q.1 r.1 s.1 (by rw [hs]; simp)
  refine ⟨⟨fun p q r s => ?_, fun p q r s => ?_⟩, fun p q r s => ?_⟩
  · rw [v p q r s, v q p r s, ← hA.mul, ← hA.sub, ← hA.swap, ← hA.swap]
  · rw [v p q r s, v p q s r, ← hA.mul, ← hA.swap]
  · rw [v]
    exact clean_num A u0 u1 hη (hB ..) (hB ..) (hB ..) (hB ..)

theorem antiOf_exists {u η : ℝ} {G : List (List ℝ) → ℝ} (A : Rounding K u η G) (b : Arr K) : ∃ y, AntiOf A b y :=
  ⟨⟨b.cx, b.shape, fun idx => A.op .mul (1 / 4) (A.op .sub (A.op .sub (b.val idx) (b.val [idx.getD 1 0, idx.getD 0 0, idx.getD 2 0, idx.getD 3 0]))
    (A.op .sub (b.val [idx.getD 0 0, idx.getD 1 0, idx.getD 3 0, idx.getD 2 0]) (b.val [idx.getD 1 0, idx.getD 0 0, idx.getD 3 0, idx.getD 2 0])))⟩,
    rfl, rfl, fun p q r s _ => rfl⟩

/-- C99: antisymmetrising the doubles of equal spins in rounded arithmetic leaves them antisymmetric without any error, and close to the exact projection. -/
theorem C99_cleaned {u η : ℝ} {G : List (List ℝ) → ℝ} (A : Rounding K u η G) (hA : SignSym A) (u0 : 0 ≤ u) (u1 : u ≤ 1) (hη : 0 ≤ η) {t : Bool} {va oa vb ob : ℕ} (B : ℝ) :
    (uC (n := n) (K := K) t va oa vb ob).Clean (7 * B + 4 * η) B u UAnti uantiP (UCleaned A) := by
  intro b tb hB
  have B0 := (norm_nonneg _).trans hB
  have E0 : 0 ≤ (7 * B + 4 * η) * u := by positivity
  obtain ⟨-, -, h2, -, h4⟩ := le_u ((uC (n := n) (K := K) t va oa vb ob).rd b)
  refine ⟨?_, fun y hy => ?_⟩
  · obtain ⟨y2, hy2⟩ := antiOf_exists A (b 2)
    obtain ⟨y4, hy4⟩ := antiOf_exists A (b 4)
    exact ⟨fun | 0 => b 0 | 1 => b 1 | 2 => y2 | 3 => b 3 | 4 => y4, rfl, rfl, hy2, rfl, hy4⟩
  · obtain ⟨e0, e1, e2, e3, e4⟩ := hy
    obtain ⟨a2, n2⟩ := antiOf_ok A hA u0 u1 hη (tb 2).2 (fun p q r s => (h2 p q r s).trans hB) e2
    obtain ⟨a4, n4⟩ := antiOf_ok A hA u0 u1 hη (tb 4).2 (fun p q r s => (h4 p q r s).trans hB) e4
    refine ⟨fun i => ?_, ⟨a2, a4⟩, ?_⟩
    · match i with
      | 0 => rw [e0]; exact tb 0
      | 1 => rw [e1]; exact tb 1
      | 2 => exact ⟨e2.1.trans (tb 2).1, e2.2.1.trans (tb 2).2⟩
      | 3 => rw [e3]; exact tb 3
      | 4 => exact ⟨e4.1.trans (tb 4).1, e4.2.1.trans (tb 4).2⟩
    · refine u_le E0 (fun a i => ?_) (fun a i => ?_) (fun a b i j => ?_) (fun a b' i j => ?_) (fun a b i j => ?_)
      · change ‖(y 0).val [a.1, i.1] - (b 0).val [a.1, i.1]‖ ≤ _
        rw [e0, sub_self, norm_zero]; exact E0
      · change ‖(y 1).val [a.1, i.1] - (b 1).val [a.1, i.1]‖ ≤ _
        rw [e1, sub_self, norm_zero]; exact E0
      · simp only [Prod.snd_sub, Prod.fst_sub, Pi.sub_apply, uantiP, antiP_at]
        exact n2 a b i j
      · change ‖(y 3).val [a.1, b'.1, i.1, j.1] - (b 3).val [a.1, b'.1, i.1, j.1]‖ ≤ _
        rw [e3, sub_self, norm_zero]; exact E0
      · simp only [Prod.snd_sub, Prod.fst_sub, Pi.sub_apply, uantiP, antiP_at]
        exact n4 a b i j

/-! ### the iterations -/

/-- The integrals that `uccsd_stanton` takes. -/
def uham (t : Bool) (Fa : OneE (Fin (n 0)) (Fin (n 1)) K) (Fb : OneE (Fin (n 2)) (Fin (n 3)) K) (Ia : TwoE (Fin (n 0)) (Fin (n 1)) K) (Ib : TwoE (Fin (n 2)) (Fin (n 3)) K)
    (J : TwoEFull (Fin (n 0)) (Fin (n 1)) (Fin (n 2)) (Fin (n 3)) K) : List (Desc n K) :=
  [.two t 0 0 Fa.oo, .two t 0 1 Fa.ov, .two t 1 0 Fa.vo, .two t 1 1 Fa.vv, .two t 2 2 Fb.oo, .two t 2 3 Fb.ov, .two t 3 2 Fb.vo, .two t 3 3 Fb.vv,
    .four t 0 0 0 0 Ia.oooo, .four t 0 0 0 1 Ia.ooov, .four t 0 0 1 1 Ia.oovv, .four t 1 0 0 0 Ia.vooo, .four t 1 0 1 0 Ia.vovo,
    .four t 1 0 1 1 Ia.vovv, .four t 1 1 0 0 Ia.vvoo, .four t 1 1 1 0 Ia.vvvo, .four t 1 1 1 1 Ia.vvvv, .four t 2 2 2 2 Ib.oooo,
    .four t 2 2 2 3 Ib.ooov, .four t 2 2 3 3 Ib.oovv, .four t 3 2 2 2 Ib.vooo, .four t 3 2 3 2 Ib.vovo, .four t 3 2 3 3 Ib.vovv,
    .four t 3 3 2 2 Ib.vvoo, .four t 3 3 3 2 Ib.vvvo, .four t 3 3 3 3 Ib.vvvv, .four t 0 2 0 2 J.oooo, .four t 0 2 0 3 J.ooov, .four t 0 2 1 2 J.oovo,
    .four t 0 2 1 3 J.oovv, .four t 0 3 0 2 J.ovoo, .four t 0 3 0 3 J.ovov, .four t 0 3 1 2 J.ovvo, .four t 0 3 1 3 J.ovvv, .four t 1 2 0 2 J.vooo,
    .four t 1 2 0 3 J.voov, .four t 1 2 1 2 J.vovo, .four t 1 2 1 3 J.vovv, .four t 1 3 0 2 J.vvoo, .four t 1 3 0 3 J.vvov, .four t 1 3 1 2 J.vvvo,
    .four t 1 3 1 3 J.vvvv]

/-- The integrals that `uccsd_lambda_opt` takes. -/
def uhamL (t : Bool) (Fa : OneE (Fin (n 0)) (Fin (n 1)) K) (Fb : OneE (Fin (n 2)) (Fin (n 3)) K) (Ia : TwoE (Fin (n 0)) (Fin (n 1)) K) (Ib : TwoE (Fin (n 2)) (Fin (n 3)) K)
    (J : TwoEFull (Fin (n 0)) (Fin (n 1)) (Fin (n 2)) (Fin (n 3)) K) : List (Desc n K) :=
  [.two t 0 0 Fa.oo, .two t 0 1 Fa.ov, .two t 1 1 Fa.vv, .two t 2 2 Fb.oo, .two t 2 3 Fb.ov, .two t 3 3 Fb.vv, .four t 0 0 0 0 Ia.oooo,
    .four t 0 0 0 1 Ia.ooov, .four t 0 0 1 1 Ia.oovv, .four t 1 0 0 0 Ia.vooo, .four t 1 0 1 0 Ia.vovo, .four t 1 0 1 1 Ia.vovv,
    .four t 1 1 1 0 Ia.vvvo, .four t 1 1 1 1 Ia.vvvv, .four t 2 2 2 2 Ib.oooo, .four t 2 2 2 3 Ib.ooov, .four t 2 2 3 3 Ib.oovv,
    .four t 3 2 2 2 Ib.vooo, .four t 3 2 3 2 Ib.vovo, .four t 3 2 3 3 Ib.vovv, .four t 3 3 3 2 Ib.vvvo, .four t 3 3 3 3 Ib.vvvv,
    .four t 0 2 0 2 J.oooo, .four t 0 2 0 3 J.ooov, .four t 0 2 1 2 J.oovo, .four t 0 2 1 3 J.oovv, .four t 0 3 0 2 J.ovoo, .four t 0 3 0 3 J.ovov,
    .four t 0 3 1 2 J.ovvo, .four t 0 3 1 3 J.ovvv, .four t 1 2 0 2 J.vooo, .four t 1 2 0 3 J.voov, .four t 1 2 1 2 J.vovo, .four t 1 2 1 3 J.vovv,
    .four t 1 3 0 3 J.vvov, .four t 1 3 1 2 J.vvvo, .four t 1 3 1 3 J.vvvv]

/-- One update of the amplitudes: a call of `uccsd_stanton`, the update of the five arrays, and antisymmetrising the doubles of equal spins. -/
def UStep {u η : ℝ} {G : List (List ℝ) → ℝ} (A : Rounding K u η G) (re : K → K) (ins : List (Arr K)) (d x y : Fin 5 → Arr K) : Prop :=
  ∃ b, Coords.Step A (fun w => Prog.uccsd_stanton.nrun (rounded A true re) (ins ++ List.ofFn w)) d x b ∧ UCleaned A b y

/-- One update of the multipliers for the amplitudes in `w`, with `uccsd_lambda_opt`. -/
def ULStep {u η : ℝ} {G : List (List ℝ) → ℝ} (A : Rounding K u η G) (re : K → K) (ins : List (Arr K)) (w d x y : Fin 5 → Arr K) : Prop :=
  ∃ b, Coords.Step A (fun v => Prog.uccsd_lambda_opt.nrun (rounded A true re) (ins ++ List.ofFn v ++ List.ofFn w)) d x b ∧ UCleaned A b y

section routines
variable (re : K → K) (hre : ∀ x y, ‖re x - re y‖ ≤ ‖x - y‖) {η : ℝ} (hη : 0 ≤ η) {G : List (List ℝ) → ℝ} (hG : GMono G) {c : ℝ} (hc : 0 ≤ c)
  (t : Bool) (Fa : OneE (Fin (n 0)) (Fin (n 1)) K) (Fb : OneE (Fin (n 2)) (Fin (n 3)) K) (Ia : TwoE (Fin (n 0)) (Fin (n 1)) K) (Ib : TwoE (Fin (n 2)) (Fin (n 3)) K)
  (J : TwoEFull (Fin (n 0)) (Fin (n 1)) (Fin (n 2)) (Fin (n 3)) K)
include hre hη hG hc

theorem ures_round (r : ℝ) : ∃ C : ℝ, 0 ≤ C ∧ ∀ u, 0 ≤ u → u ≤ 1 → ∀ (A : Rounding K u η G) (ins : List (Arr K)), List.Forall₂ (NearIs (c * u)) (uham t Fa Fb Ia Ib J) ins →
    (uV n K t).Good (C * u) (fun X => CC.uccsd_stanton Fa Fb Ia Ib J X.1 X.2) (fun _ => True) r fun w => Prog.uccsd_stanton.nrun (rounded A true re) (ins ++ List.ofFn w) := by
  obtain ⟨C, hC, h⟩ := (uV n K t).res_round re hre hη hG hc Prog.uccsd_stanton (uham t Fa Fb Ia Ib J) [] (fun X => CC.uccsd_stanton Fa Fb Ia Ib J X.1 X.2) (fun _ => True)
    (fun X _ => by
      rw [List.append_nil]
      exact C53_uccsd_stanton (i := t) (t := t) id Fa Fb Ia Ib J X.1 X.2) rfl r
  refine ⟨C, hC, fun u u0 u1 A ins hi => ?_⟩
  have := h u u0 u1 A ins [] hi .nil
  simpa only [List.append_nil] using this

theorem uresL_round (T : UAmp K (Fin (n 0)) (Fin (n 1)) (Fin (n 2)) (Fin (n 3))) (r : ℝ) :
    ∃ C : ℝ, 0 ≤ C ∧ ∀ u, 0 ≤ u → u ≤ 1 → ∀ (A : Rounding K u η G) (ins : List (Arr K)) (w : Fin 5 → Arr K), List.Forall₂ (NearIs (c * u)) (uhamL t Fa Fb Ia Ib J) ins →
    (∀ i, NearIs (c * u) ((uV n K t).de i T) (w i)) →
    (uW n K t).Good (C * u) (fun X => CC.uccsd_lambda_opt Fa Fb Ia Ib J X.1 X.2 T.1 T.2) (fun _ => True) r
      fun v => Prog.uccsd_lambda_opt.nrun (rounded A true re) (ins ++ List.ofFn v ++ List.ofFn w) := by
  obtain ⟨C, hC, h⟩ := (uW n K t).res_round re hre hη hG hc Prog.uccsd_lambda_opt (uhamL t Fa Fb Ia Ib J) (List.ofFn fun i => (uV n K t).de i T)
    (fun X => CC.uccsd_lambda_opt Fa Fb Ia Ib J X.1 X.2 T.1 T.2) (fun _ => True)
    (fun X _ => C53_uccsd_lambda_opt (i := t) (t := t) (l := t) id id Fa Fb Ia Ib J X.1 X.2 T.1 T.2) rfl r
  exact ⟨C, hC, fun u u0 u1 A ins w hi hw => h u u0 u1 A ins _ hi ((uV n K t).near_list hw)⟩

variable (eoa : Fin (n 0) → K) (eva : Fin (n 1) → K) (eob : Fin (n 2) → K) (evb : Fin (n 3) → K) (g : UGap eoa eva eob evb)
  (T : UAmp K (Fin (n 0)) (Fin (n 1)) (Fin (n 2)) (Fin (n 3))) (L : UAmp K (Fin (n 1)) (Fin (n 0)) (Fin (n 3)) (Fin (n 2)))
  (δ q : ℝ) (q1 : q < 1)

omit hre hη hG hc in
theorem uden_ne (g : UGap eoa eva eob evb) : ∀ i idx, List.Forall₂ (· < ·) idx ((uV n K t).sh i) → ((uV n K t).de i (uden eoa eva eob evb)).at idx ≠ 0 := by
  refine uSh_all.2 ⟨fun a i => ?_, fun a i => ?_, fun a b i j => ?_, fun a b i j => ?_, fun a b i j => ?_⟩ <;> simp only [uC, uDe, at_two, at_four, uden]
  exacts [g.a a i, g.b a i, g.aa a b i j, g.ab a b i j, g.bb a b i j]

omit hre hη hG hc in
theorem udenL_ne (g : UGap eoa eva eob evb) : ∀ i idx, List.Forall₂ (· < ·) idx ((uW n K t).sh i) → ((uW n K t).de i (udenL eoa eva eob evb)).at idx ≠ 0 := by
  refine uSh_all.2 ⟨fun a i => ?_, fun a i => ?_, fun a b i j => ?_, fun a b i j => ?_, fun a b i j => ?_⟩ <;> simp only [uC, uDe, at_two, at_four, udenL]
  exacts [g.a i a, g.b i a, g.aa i j a b, g.ab i j a b, g.bb i j a b]

omit hre hη hG hc in
theorem uupdate_at (X : UAmp K (Fin (n 0)) (Fin (n 1)) (Fin (n 2)) (Fin (n 3))) : ∀ i idx, List.Forall₂ (· < ·) idx ((uV n K t).sh i) →
    ((uV n K t).de i (uupdate Fa Fb Ia Ib J eoa eva eob evb X)).at idx =
      ((uV n K t).de i X).at idx - ((uV n K t).de i (CC.uccsd_stanton Fa Fb Ia Ib J X.1 X.2)).at idx / ((uV n K t).de i (uden eoa eva eob evb)).at idx := by
  refine uSh_all.2 ⟨fun a i => ?_, fun a i => ?_, fun a b i j => ?_, fun a b i j => ?_, fun a b i j => ?_⟩ <;>
    simp only [uC, uDe, at_two, at_four, uden, uupdate]

omit hre hη hG hc in
theorem uupdateL_at (X : UAmp K (Fin (n 1)) (Fin (n 0)) (Fin (n 3)) (Fin (n 2))) : ∀ i idx, List.Forall₂ (· < ·) idx ((uW n K t).sh i) →
    ((uW n K t).de i (uupdateL Fa Fb Ia Ib J eoa eva eob evb T X)).at idx =
      ((uW n K t).de i X).at idx - ((uW n K t).de i (CC.uccsd_lambda_opt Fa Fb Ia Ib J X.1 X.2 T.1 T.2)).at idx / ((uW n K t).de i (udenL eoa eva eob evb)).at idx := by
  refine uSh_all.2 ⟨fun a i => ?_, fun a i => ?_, fun a b i j => ?_, fun a b i j => ?_, fun a b i j => ?_⟩ <;>
    simp only [uC, uDe, at_two, at_four, udenL, uupdateL]

include g q1

/-- C99: the accuracy attained.  Suppose that exact updates of amplitudes at most `δ` from `T`, antisymmetric for equal spins, come closer to `T` by the factor `q < 1`
at least.  In any rounded arithmetic of small unit roundoff `u`, with integrals and denominators wrong by at most `c * u`, and with the doubles of equal spins
antisymmetrised after every update: no call raises, these doubles stay exactly antisymmetric, and after any number `k` of updates the error is at most `q ^ k` times the
first one and `C * u`. -/
theorem C99_attains (hT : UAnti T) (hδ : 0 < δ) (q0 : 0 ≤ q) (contr : ∀ X, UAnti X → ‖X - T‖ ≤ δ → ‖uupdate Fa Fb Ia Ib J eoa eva eob evb X - T‖ ≤ q * ‖X - T‖) :
    ∃ C u₀ : ℝ, 0 ≤ C ∧ 0 < u₀ ∧ u₀ ≤ 1 ∧ ∀ u, 0 ≤ u → u ≤ u₀ → ∀ (A : Rounding K u η G), SignSym A → ∀ (ins : List (Arr K)) (d : Fin 5 → Arr K)
    (x : ℕ → Fin 5 → Arr K), List.Forall₂ (NearIs (c * u)) (uham t Fa Fb Ia Ib J) ins → (uV n K t).NearDen (c * u) (uden eoa eva eob evb) d →
      (uV n K t).Ty (x 0) → UAnti ((uV n K t).rd (x 0)) → ‖(uV n K t).rd (x 0) - T‖ ≤ δ →
      ∀ k, (∀ j < k, UStep A re ins d (x j) (x (j + 1))) →
        (uV n K t).Ty (x k) ∧ UAnti ((uV n K t).rd (x k)) ∧ ‖(uV n K t).rd (x k) - T‖ ≤ δ ∧
        ‖(uV n K t).rd (x k) - T‖ ≤ q ^ k * ‖(uV n K t).rd (x 0) - T‖ + C * u ∧ ∃ y, UStep A re ins d (x k) y := by
  obtain ⟨Cr, hCr, hr⟩ := ures_round re hre hη hG hc t Fa Fb Ia Ib J (‖T‖ + δ)
  obtain ⟨C, u₀, h1, h2, h3, h⟩ := (uV n K t).attain (G := G) (uden eoa eva eob evb) (uden_ne t eoa eva eob evb g) (fun X => CC.uccsd_stanton Fa Fb Ia Ib J X.1 X.2)
    (uupdate Fa Fb Ia Ib J eoa eva eob evb) (uupdate_at t Fa Fb Ia Ib J eoa eva eob evb) UAnti T δ q q1 contr uantiP (uantiP_close hT) hδ q0 hη hc hCr
    (fun B => 7 * B + 4 * η) fun B hB => by positivity
  exact ⟨C, u₀, h1, h2, h3, fun u u0 uu A hA ins d x hi => h u u0 uu A _ (UCleaned A) d x (fun B _ => C99_cleaned A hA u0 (uu.trans h3) hη B)
    fun x hx _ hn => hr u u0 (uu.trans h3) A ins hi x hx trivial hn⟩

/-- C99: the residuals that `uccsd_stanton` returns and the error of the amplitudes bound each other, up to the roundoff. -/
theorem C99_residual (contr : ∀ X, UAnti X → ‖X - T‖ ≤ δ → ‖uupdate Fa Fb Ia Ib J eoa eva eob evb X - T‖ ≤ q * ‖X - T‖) :
    ∃ C : ℝ, 0 < C ∧ ∀ u, 0 ≤ u → u ≤ 1 → ∀ (A : Rounding K u η G) (ins : List (Arr K)), List.Forall₂ (NearIs (c * u)) (uham t Fa Fb Ia Ib J) ins →
    ∀ x, (uV n K t).Ty x → UAnti ((uV n K t).rd x) → ‖(uV n K t).rd x - T‖ ≤ δ →
      ∃ r : Fin 5 → Arr K, Prog.uccsd_stanton.nrun (rounded A true re) (ins ++ List.ofFn x) = .ok (List.ofFn r) ∧ (uV n K t).Ty r ∧
        ‖(uV n K t).rd r‖ ≤ C * (‖(uV n K t).rd x - T‖ + u) ∧ ‖(uV n K t).rd x - T‖ ≤ C * (‖(uV n K t).rd r‖ + u) := by
  obtain ⟨Cr, hCr, hr⟩ := ures_round re hre hη hG hc t Fa Fb Ia Ib J (‖T‖ + δ)
  obtain ⟨C, h1, h⟩ := (uV n K t).stop (uden eoa eva eob evb) (uden_ne t eoa eva eob evb g) (fun X => CC.uccsd_stanton Fa Fb Ia Ib J X.1 X.2)
    (uupdate Fa Fb Ia Ib J eoa eva eob evb) (uupdate_at t Fa Fb Ia Ib J eoa eva eob evb) UAnti T δ q q1 contr hCr
  exact ⟨C, h1, fun u u0 u1 A ins hi => h u u0 u1 _ fun x hx _ hn => hr u u0 u1 A ins hi x hx trivial hn⟩

/-- C99: the multipliers, iterated with `uccsd_lambda_opt` for amplitudes wrong by at most `c * u`. -/
theorem C99_lambda_attains (hL : UAnti L) (hδ : 0 < δ) (q0 : 0 ≤ q)
    (contr : ∀ X, UAnti X → ‖X - L‖ ≤ δ → ‖uupdateL Fa Fb Ia Ib J eoa eva eob evb T X - L‖ ≤ q * ‖X - L‖) :
    ∃ C u₀ : ℝ, 0 ≤ C ∧ 0 < u₀ ∧ u₀ ≤ 1 ∧ ∀ u, 0 ≤ u → u ≤ u₀ → ∀ (A : Rounding K u η G), SignSym A → ∀ (ins : List (Arr K)) (w d : Fin 5 → Arr K)
    (x : ℕ → Fin 5 → Arr K), List.Forall₂ (NearIs (c * u)) (uhamL t Fa Fb Ia Ib J) ins → (∀ i, NearIs (c * u) ((uV n K t).de i T) (w i)) →
      (uW n K t).NearDen (c * u) (udenL eoa eva eob evb) d →
      (uW n K t).Ty (x 0) → UAnti ((uW n K t).rd (x 0)) → ‖(uW n K t).rd (x 0) - L‖ ≤ δ →
      ∀ k, (∀ j < k, ULStep A re ins w d (x j) (x (j + 1))) →
        (uW n K t).Ty (x k) ∧ UAnti ((uW n K t).rd (x k)) ∧ ‖(uW n K t).rd (x k) - L‖ ≤ δ ∧
        ‖(uW n K t).rd (x k) - L‖ ≤ q ^ k * ‖(uW n K t).rd (x 0) - L‖ + C * u ∧ ∃ y, ULStep A re ins w d (x k) y := by
  obtain ⟨Cr, hCr, hr⟩ := uresL_round re hre hη hG hc t Fa Fb Ia Ib J T (‖L‖ + δ)
  obtain ⟨C, u₀, h1, h2, h3, h⟩ := (uW n K t).attain (G := G) (udenL eoa eva eob evb) (udenL_ne t eoa eva eob evb g)
    (fun X => CC.uccsd_lambda_opt Fa Fb Ia Ib J X.1 X.2 T.1 T.2) (uupdateL Fa Fb Ia Ib J eoa eva eob evb T) (uupdateL_at t Fa Fb Ia Ib J eoa eva eob evb T)
    UAnti L δ q q1 contr uantiP (uantiP_close hL) hδ q0 hη hc hCr (fun B => 7 * B + 4 * η) fun B hB => by positivity
  exact ⟨C, u₀, h1, h2, h3, fun u u0 uu A hA ins w d x hi hw => h u u0 uu A _ (UCleaned A) d x (fun B _ => C99_cleaned A hA u0 (uu.trans h3) hη B)
    fun x hx _ hn => hr u u0 (uu.trans h3) A ins w hi hw x hx trivial hn⟩

/-- C99: a whole calculation: amplitudes, multipliers for them, and any routine that is called with both. -/
theorem C99_pipeline (hT : UAnti T) (hL : UAnti L) (δ' : ℝ) (hδ : 0 < δ) (hδ' : 0 < δ') (q0 : 0 ≤ q)
    (contr : ∀ X, UAnti X → ‖X - T‖ ≤ δ → ‖uupdate Fa Fb Ia Ib J eoa eva eob evb X - T‖ ≤ q * ‖X - T‖)
    (contrL : ∀ X, UAnti X → ‖X - L‖ ≤ δ' → ‖uupdateL Fa Fb Ia Ib J eoa eva eob evb T X - L‖ ≤ q * ‖X - L‖)
    {h : Fun} {ds es : List (Desc n K)} (hh : Computes h ds es) (hp : ds.length = h.params.length) :
    ∃ C u₀ : ℝ, 0 ≤ C ∧ 0 < u₀ ∧ u₀ ≤ 1 ∧ ∀ u, 0 < u → u ≤ u₀ → ∃ N : ℕ, ∀ (A : Rounding K u η G), SignSym A → ∀ (ins insL : List (Arr K)) (d x₀ e y₀ : Fin 5 → Arr K),
      List.Forall₂ (NearIs (c * u)) (uham t Fa Fb Ia Ib J) ins → List.Forall₂ (NearIs (c * u)) (uhamL t Fa Fb Ia Ib J) insL →
      (uV n K t).NearDen (c * u) (uden eoa eva eob evb) d → (uW n K t).NearDen (c * u) (udenL eoa eva eob evb) e →
      (uV n K t).Ty x₀ → UAnti ((uV n K t).rd x₀) → ‖(uV n K t).rd x₀ - T‖ ≤ δ → (uW n K t).Ty y₀ → UAnti ((uW n K t).rd y₀) → ‖(uW n K t).rd y₀ - L‖ ≤ δ' →
      (∀ k l, N ≤ k → ∃ x y : ℕ → Fin 5 → Arr K, x 0 = x₀ ∧ y 0 = y₀ ∧ (∀ j < k, UStep A re ins d (x j) (x (j + 1))) ∧
        ∀ j < l, ULStep A re insL (x k) e (y j) (y (j + 1))) ∧
      ∀ (x y : ℕ → Fin 5 → Arr K) (k l : ℕ), x 0 = x₀ → y 0 = y₀ → N ≤ k → N ≤ l →
        (∀ j < k, UStep A re ins d (x j) (x (j + 1))) → (∀ j < l, ULStep A re insL (x k) e (y j) (y (j + 1))) →
        ‖(uV n K t).rd (x k) - T‖ ≤ C * u ∧ ‖(uW n K t).rd (y l) - L‖ ≤ C * u ∧
        ∀ bs, List.Forall₂ ((uV n K t).Arg (uW n K t) (c * u) T L (x k) (y l)) ds bs →
          ∃ rs, h.nrun (rounded A true re) bs = .ok rs ∧ List.Forall₂ (NearIs (C * u)) es rs :=
  Coords.pipeline (uV n K t) (uW n K t) re hre hη hG hc (uham t Fa Fb Ia Ib J) (uhamL t Fa Fb Ia Ib J) (uden eoa eva eob evb) T (udenL eoa eva eob evb) L δ δ' q hδ hδ' q0 q1
    UAnti UAnti SignSym (fun A => UStep A re) (fun A => ULStep A re)
    (C99_attains re hre hη hG hc t Fa Fb Ia Ib J eoa eva eob evb g T δ q q1 hT hδ q0 contr)
    (fun _ hc' => C99_lambda_attains re hre hη hG hc' t Fa Fb Ia Ib J eoa eva eob evb g T L δ' q q1 hL hδ' q0 contrL) hh hp

end routines

/-- C99: a whole calculation for a weak perturbation, from amplitudes and multipliers in a ball. -/
theorem C99_weak (re : K → K) (hre : ∀ x y, ‖re x - re y‖ ≤ ‖x - y‖) {η : ℝ} (hη : 0 ≤ η) {G : List (List ℝ) → ℝ} (hG : GMono G) {c : ℝ} (hc : 0 ≤ c)
    (t : Bool) (fa : OneE (Fin (n 0)) (Fin (n 1)) K) (fb : OneE (Fin (n 2)) (Fin (n 3)) K) (Ia : TwoE (Fin (n 0)) (Fin (n 1)) K) (Ib : TwoE (Fin (n 2)) (Fin (n 3)) K)
    (J : TwoEFull (Fin (n 0)) (Fin (n 1)) (Fin (n 2)) (Fin (n 3)) K) (hIa : AntiI Ia) (hIb : AntiI Ib)
    (eoa : Fin (n 0) → K) (eva : Fin (n 1) → K) (eob : Fin (n 2) → K) (evb : Fin (n 3) → K) (g : UGap eoa eva eob evb) (r : ℝ) (hr : 0 < r) :
    ∃ z₀ : ℝ, 0 < z₀ ∧ ∀ z : K, ‖z‖ ≤ z₀ → ∃ (T : UAmp K (Fin (n 0)) (Fin (n 1)) (Fin (n 2)) (Fin (n 3))) (L : UAmp K (Fin (n 1)) (Fin (n 0)) (Fin (n 3)) (Fin (n 2))),
      UAnti T ∧ UAnti L ∧ ‖T‖ ≤ r ∧
      CC.uccsd_stanton ((diagF eoa eva).addMul z fa) ((diagF eob evb).addMul z fb) (Ia.mul z) (Ib.mul z) (J.mul z) T.1 T.2 = 0 ∧
      (CC.uccsd_lambda_opt ((diagF eoa eva).addMul z fa) ((diagF eob evb).addMul z fb) (Ia.mul z) (Ib.mul z) (J.mul z) L.1 L.2 T.1 T.2
        : UAmp K (Fin (n 1)) (Fin (n 0)) (Fin (n 3)) (Fin (n 2))) = 0 ∧
      ∀ (h : Fun) (ds es : List (Desc n K)), Computes h ds es → ds.length = h.params.length →
      ∃ C u₀ : ℝ, 0 ≤ C ∧ 0 < u₀ ∧ u₀ ≤ 1 ∧ ∀ u, 0 < u → u ≤ u₀ → ∃ N : ℕ, ∀ (A : Rounding K u η G), SignSym A → ∀ (ins insL : List (Arr K)) (d x₀ e y₀ : Fin 5 → Arr K),
        List.Forall₂ (NearIs (c * u)) (uham t ((diagF eoa eva).addMul z fa) ((diagF eob evb).addMul z fb) (Ia.mul z) (Ib.mul z) (J.mul z)) ins →
        List.Forall₂ (NearIs (c * u)) (uhamL t ((diagF eoa eva).addMul z fa) ((diagF eob evb).addMul z fb) (Ia.mul z) (Ib.mul z) (J.mul z)) insL →
        (uV n K t).NearDen (c * u) (uden eoa eva eob evb) d → (uW n K t).NearDen (c * u) (udenL eoa eva eob evb) e →
        (uV n K t).Ty x₀ → UAnti ((uV n K t).rd x₀) → ‖(uV n K t).rd x₀‖ ≤ r → (uW n K t).Ty y₀ → UAnti ((uW n K t).rd y₀) → ‖(uW n K t).rd y₀‖ ≤ r →
        (∀ k l, N ≤ k → ∃ x y : ℕ → Fin 5 → Arr K, x 0 = x₀ ∧ y 0 = y₀ ∧ (∀ j < k, UStep A re ins d (x j) (x (j + 1))) ∧
          ∀ j < l, ULStep A re insL (x k) e (y j) (y (j + 1))) ∧
        ∀ (x y : ℕ → Fin 5 → Arr K) (k l : ℕ), x 0 = x₀ → y 0 = y₀ → N ≤ k → N ≤ l →
          (∀ j < k, UStep A re ins d (x j) (x (j + 1))) → (∀ j < l, ULStep A re insL (x k) e (y j) (y (j + 1))) →
          ‖(uV n K t).rd (x k) - T‖ ≤ C * u ∧ ‖(uW n K t).rd (y l) - L‖ ≤ C * u ∧
          ∀ bs, List.Forall₂ ((uV n K t).Arg (uW n K t) (c * u) T L (x k) (y l)) ds bs →
            ∃ rs, h.nrun (rounded A true re) bs = .ok rs ∧ List.Forall₂ (NearIs (C * u)) es rs := by
  obtain ⟨z₁, hz1, h1⟩ := C73_uccsd_converges eoa eva eob evb g fa fb Ia Ib J hIa hIb r hr
  obtain ⟨z₂, hz2, h2⟩ := C73_uccsd_lambda_converges eoa eva eob evb g fa fb Ia Ib J hIa hIb r
  obtain ⟨z₃, hz3, h3⟩ := C73_uccsd_converges eoa eva eob evb g fa fb Ia Ib J hIa hIb (3 * r) (by positivity)
  refine ⟨min z₁ (min z₂ z₃), lt_min hz1 (lt_min hz2 hz3), fun z hz => ?_⟩
  obtain ⟨T, hA, hA', hn, hsol, -, -⟩ := h1 z (hz.trans (min_le_left _ _))
  obtain ⟨T', -, -, -, -, huniq, hcv⟩ := h3 z (hz.trans ((min_le_right _ _).trans (min_le_right _ _)))
  obtain rfl := huniq T hA hA' (by linarith) hsol
  obtain ⟨L, hL, hL', hLs, hLc⟩ := h2 z (hz.trans ((min_le_right _ _).trans (min_le_left _ _))) T hA hA' hn
  refine ⟨T, L, ⟨hA, hA'⟩, ⟨hL, hL'⟩, hn, hsol, (hLs L hL hL').2 rfl, fun h ds es hh hp => ?_⟩
  obtain ⟨C, u₀, hC, hu, hu1, h'⟩ := C99_pipeline re hre hη hG hc t ((diagF eoa eva).addMul z fa) ((diagF eob evb).addMul z fb) (Ia.mul z) (Ib.mul z) (J.mul z) eoa eva eob evb g T L
    (2 * r) (1 / 2) (by norm_num) ⟨hA, hA'⟩ ⟨hL, hL'⟩ (r + ‖L‖) (by positivity) (by positivity) (by norm_num)
    (fun X hX hd => by
      have := hcv X hX.1 hX.2 (by have := norm_sub_norm_le X T; linarith) 1
      simpa using this)
    (fun X hX _ => by simpa using hLc X hX.1 hX.2 1) hh hp
  refine ⟨C, u₀, hC, hu, hu1, fun u u0 uu => ?_⟩
  obtain ⟨N, hN⟩ := h' u u0 uu
  exact ⟨N, fun A hA' ins insL d x₀ e y₀ hi hiL hd he tx ax nx ty ay ny =>
    hN A hA' ins insL d x₀ e y₀ hi hiL hd he tx ax (by have := norm_sub_le ((uV n K t).rd x₀) T; linarith) ty ay (by have := norm_sub_le ((uW n K t).rd y₀) L; linarith)⟩

/-- Two electrons of spin alpha and one of spin beta, with three and two virtual orbitals, occupied orbitals of energy -1 and virtual ones of energy 1, any integrals
that are weak enough, an arithmetic that really rounds: amplitudes and multipliers from zero, and the occupied blocks of the one-particle density matrix. -/
example (fa : OneE (Fin 2) (Fin 3) ℝ) (fb : OneE (Fin 1) (Fin 2) ℝ) (Ia : TwoE (Fin 2) (Fin 3) ℝ) (Ib : TwoE (Fin 1) (Fin 2) ℝ) (J : TwoEFull (Fin 2) (Fin 3) (Fin 1) (Fin 2) ℝ)
    (hIa : AntiI Ia) (hIb : AntiI Ib) : ∃ z₀ : ℝ, 0 < z₀ ∧ ∀ z : ℝ, |z| ≤ z₀ →
    ∃ (T : UAmp ℝ (Fin 2) (Fin 3) (Fin 1) (Fin 2)) (L : UAmp ℝ (Fin 3) (Fin 2) (Fin 2) (Fin 1)) (C u₀ : ℝ), 0 < u₀ ∧
      CC.uccsd_stanton ((diagF (fun _ => -1) fun _ => 1).addMul z fa) ((diagF (fun _ => -1) fun _ => 1).addMul z fb) (Ia.mul z) (Ib.mul z) (J.mul z) T.1 T.2 = 0 ∧
      (CC.uccsd_lambda_opt ((diagF (fun _ => -1) fun _ => 1).addMul z fa) ((diagF (fun _ => -1) fun _ => 1).addMul z fb) (Ia.mul z) (Ib.mul z) (J.mul z) L.1 L.2 T.1 T.2
        : UAmp ℝ (Fin 3) (Fin 2) (Fin 2) (Fin 1)) = 0 ∧
      ∀ (u : ℝ) (h0 : 0 < u) (h1 : u ≤ 1), u ≤ u₀ → ∃ x y : Fin 5 → Arr ℝ, ∃ da db : Arr ℝ,
        Prog.uccsd_1rdm_ji.nrun (rounded (inflate h0.le h1 : Rounding ℝ u 0 (szSum 0)) true id) (List.ofFn x ++ List.ofFn y) = .ok [da, db] ∧
        (∀ i j : Fin 2, |da.val [i.1, j.1] - (CC.uccsd_1rdm_ji T.1.1 T.1.2 T.2.1 T.2.2.1 T.2.2.2 L.1.1 L.1.2 L.2.1 L.2.2.1 L.2.2.2).1 i j| ≤ C * u) ∧
        ∀ i j : Fin 1, |db.val [i.1, j.1] - (CC.uccsd_1rdm_ji T.1.1 T.1.2 T.2.1 T.2.2.1 T.2.2.2 L.1.1 L.1.2 L.2.1 L.2.2.1 L.2.2.2).2 i j| ≤ C * u := by
  let n : ℕ → ℕ := fun | 0 => 2 | 1 => 3 | 2 => 1 | _ => 2
  obtain ⟨z₀, hz, h⟩ := C99_weak (n := n) id (fun _ _ => le_rfl) le_rfl (sz_mono le_rfl) (c := 0) le_rfl false fa fb Ia Ib J hIa hIb (fun _ => (-1 : ℝ)) (fun _ => 1)
    (fun _ => (-1 : ℝ)) (fun _ => 1)
    ⟨fun _ _ => by norm_num, fun _ _ => by norm_num, fun _ _ _ _ => by norm_num, fun _ _ _ _ => by norm_num, fun _ _ _ _ => by norm_num⟩ 1 one_pos
  refine ⟨z₀, hz, fun z hzz => ?_⟩
  obtain ⟨T, L, hA, hL, hn, hsol, hsolL, h'⟩ := h z hzz
  obtain ⟨C, u₀, hC, hu, hu1, h''⟩ := h' Prog.uccsd_1rdm_ji _ _
    (C53_uccsd_1rdm_ji (n := n) (l := false) (t := false) T.1.1 T.1.2 T.2.1 T.2.2.1 T.2.2.2 L.1.1 L.1.2 L.2.1 L.2.2.1 L.2.2.2) rfl
  refine ⟨T, L, C, u₀, hu, hsol, hsolL, fun u h0 h1 uu => ?_⟩
  obtain ⟨N, hN⟩ := h'' u h0 uu
  have near : ∀ d : Desc n ℝ, NearIs (0 * u) d d.arr := fun d => ⟨rfl, rfl, fun idx _ => by rw [zero_mul, Desc.arr, sub_self, norm_zero]⟩
  have hi : ∀ ds : List (Desc n ℝ), List.Forall₂ (NearIs (0 * u)) ds (ds.map Desc.arr) := fun ds => by
    rw [List.forall₂_map_right_iff]
    exact List.forall₂_same.2 fun d _ => near d
  have typed : ∀ va oa vb ob, ∃ x : Fin 5 → Arr ℝ, (uC (n := n) (K := ℝ) false va oa vb ob).Ty x ∧ (uC (n := n) (K := ℝ) false va oa vb ob).rd x = 0 := fun va oa vb ob =>
    ⟨fun i => ⟨false, uSh n va oa vb ob i, fun _ => 0⟩, fun i => ⟨rfl, rfl⟩, rfl⟩
  have dens : ∀ va oa vb ob (D : UAmp ℝ (Fin (n oa)) (Fin (n va)) (Fin (n ob)) (Fin (n vb))), ∃ d : Fin 5 → Arr ℝ, (uC (n := n) (K := ℝ) false va oa vb ob).NearDen (0 * u) D d :=
    fun va oa vb ob D => ⟨fun i => ⟨false, [], ((uC (n := n) (K := ℝ) false va oa vb ob).de i D).at⟩, fun i idx _ => by simp⟩
  obtain ⟨x₀, tx, rx⟩ := typed 1 0 3 2
  obtain ⟨y₀, ty, ry⟩ := typed 0 1 2 3
  obtain ⟨d, hd⟩ := dens 1 0 3 2 (uden (fun _ => (-1 : ℝ)) (fun _ => 1) (fun _ => (-1 : ℝ)) fun _ => 1)
  obtain ⟨e, he⟩ := dens 0 1 2 3 (udenL (fun _ => (-1 : ℝ)) (fun _ => 1) (fun _ => (-1 : ℝ)) fun _ => 1)
  obtain ⟨e1, e2⟩ := hN (inflate h0.le h1) (inflate_sign h0.le h1) _ _ d x₀ e y₀ (hi _) (hi _) hd he tx (by rw [rx]; exact uzero_anti) (by rw [rx, norm_zero]; exact zero_le_one)
    ty (by rw [ry]; exact uzero_anti) (by rw [ry, norm_zero]; exact zero_le_one)
  obtain ⟨x, y, x0, y0, hx, hy⟩ := e1 N N le_rfl
  obtain ⟨-, -, w⟩ := e2 x y N N x0 y0 le_rfl le_rfl hx hy
  have args : List.Forall₂ ((uV n ℝ false).Arg (uW n ℝ false) (0 * u) T L (x N) (y N))
      ((List.ofFn fun i => (uV n ℝ false).de i T) ++ List.ofFn fun i => (uW n ℝ false).de i L) (List.ofFn (x N) ++ List.ofFn (y N)) := by
    refine List.rel_append (List.forall₂_iff_get.mpr ⟨by simp, fun i h1 h2 => ?_⟩) (List.forall₂_iff_get.mpr ⟨by simp, fun i h1 h2 => ?_⟩)
    · exact .inl ⟨⟨i, by simpa using h1⟩, by rw [List.get_eq_getElem, List.getElem_ofFn], by rw [List.get_eq_getElem, List.getElem_ofFn]⟩
    · exact .inr (.inl ⟨⟨i, by simpa using h1⟩, by rw [List.get_eq_getElem, List.getElem_ofFn], by rw [List.get_eq_getElem, List.getElem_ofFn]⟩)
  obtain ⟨rs, er, hr⟩ := w _ args
  obtain ⟨da, _, hda, hr', rfl⟩ := List.forall₂_cons_left_iff.1 hr
  obtain ⟨db, _, hdb, hr'', rfl⟩ := List.forall₂_cons_left_iff.1 hr'
  obtain rfl := List.forall₂_nil_left_iff.1 hr''
  exact ⟨x N, y N, da, db, er, fun i j => (nearIs_two.1 hda).2.2 i j, fun i j => (nearIs_two.1 hdb).2.2 i j⟩

end Heap
