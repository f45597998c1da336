import Verif.Props.OverflowRef
import Verif.Props.OverflowEx
import Verif.Props.IterUni
/-!
# C106: an iteration that converges never overflows
-/

namespace Heap
open Prog CC
variable {n : ℕ → ℕ} {K : Type} [RCLike K] {u η Ω : ℝ} {G H : List (List ℝ) → ℝ}

/-- The finite numbers of an array. -/
def fin (a : Arr (Option K)) : Arr K := ⟨a.cx, a.shape, fun idx => (a.val idx).getD 0⟩

/-- No element is an infinity or NaN. -/
def AllFin (a : Arr (Option K)) : Prop := ∀ idx, List.Forall₂ (· < ·) idx a.shape → ∃ x, a.val idx = some x

/-- A quotient: what it is for finite numbers, a divisor other than zero, and an exact quotient in range. -/
def OQuot (u η Ω : ℝ) (r d q : Option K) : Prop :=
  ∀ r' d', r = some r' → d = some d' → d' ≠ 0 → ‖r' / d'‖ ≤ Ω → ∃ q', q = some q' ∧ ‖q' - r' / d'‖ ≤ u * (‖r' / d'‖ + η)

/-- The update of one array: quotients by the denominators, and their subtraction. -/
def OUpd (O : Overflowing K u η G H Ω) (a r d b : Arr (Option K)) : Prop :=
  b.cx = a.cx ∧ b.shape = a.shape ∧ ∀ idx, List.Forall₂ (· < ·) idx a.shape → ∃ q, OQuot u η Ω (r.val idx) (d.val idx) q ∧ b.val idx = O.op .sub (a.val idx) q

/-- The doubles are antisymmetrised: `s = t - t.transpose((1, 0, 2, 3))`, `t = 0.25*(s - s.transpose((0, 1, 3, 2)))`. -/
def OClean (O : Overflowing K u η G H Ω) (b y : Arr (Option K)) : Prop :=
  y.cx = b.cx ∧ y.shape = b.shape ∧ ∀ p q r s : ℕ, List.Forall₂ (· < ·) [p, q, r, s] b.shape →
    y.val [p, q, r, s] = O.op .mul (some (1 / 4)) (O.op .sub (O.op .sub (b.val [p, q, r, s]) (b.val [q, p, r, s])) (O.op .sub (b.val [p, q, s, r]) (b.val [q, p, s, r])))

/-- One update in rounded arithmetic with overflow, followed by antisymmetrising. -/
def OStep (O : Overflowing K u η G H Ω) (ore : Option K → Option K) (f : Fun) (ins : List (Arr (Option K))) (d1 d2 : Arr (Option K))
    (a y : Arr (Option K) × Arr (Option K)) : Prop :=
  ∃ r1 r2 b, f.nrun (overflowing O true ore) (ins ++ [a.1, a.2]) = .ok [r1, r2] ∧ OUpd O a.1 r1 d1 y.1 ∧ OUpd O a.2 r2 d2 b ∧ OClean O b y.2

/-- Subtraction and multiplication of finite numbers commute with signs. -/
structure OSign (O : Overflowing K u η G H Ω) : Prop where
  swap : ∀ x y : K, O.op .sub (some y) (some x) = (O.op .sub (some x) (some y)).map (- ·)
  sub : ∀ x y : K, O.op .sub (some (-x)) (some (-y)) = (O.op .sub (some x) (some y)).map (- ·)
  mul : ∀ x y : K, O.op .mul (some x) (some (-y)) = (O.op .mul (some x) (some y)).map (- ·)

theorem extend_sign {O : Overflowing K u η G H Ω} (hO : OSign O) (h0 : 0 ≤ u) (hη : 0 ≤ η) (hG : GMono G) : SignSym (O.extend h0 hη hG) where
  swap x y := by
    have e : ‖opVal .sub y x‖ = ‖opVal .sub x y‖ := norm_sub_rev y x
    simp only [Overflowing.extend, e, hO.swap x y]
    split_ifs
    · cases O.op .sub (some x) (some y) <;> simp
    · simp [opVal]
  sub x y := by
    have e : ‖opVal .sub (-x) (-y)‖ = ‖opVal .sub x y‖ := by change ‖-x - -y‖ = ‖x - y‖; rw [neg_sub_neg, norm_sub_rev]
    simp only [Overflowing.extend, e, hO.sub x y]
    split_ifs
    · cases O.op .sub (some x) (some y) <;> simp
    · simp only [opVal]; ring
  mul x y := by
    have e : ‖opVal .mul x (-y)‖ = ‖opVal .mul x y‖ := by change ‖x * -y‖ = ‖x * y‖; rw [mul_neg, norm_neg]
    simp only [Overflowing.extend, e, hO.mul x y]
    split_ifs
    · cases O.op .mul (some x) (some y) <;> simp
    · simp [opVal]

/-- An operation in range. -/
theorem op_fin (h0 : 0 ≤ u) (h1 : u ≤ 1) (hη : 0 ≤ η) (hG : GMono G) (O : Overflowing K u η G H Ω) (o : Op) {a b : K} {D : ℝ} (hD : ‖opVal o a b‖ ≤ D) (hΩ : D ≤ Ω) :
    O.op o (some a) (some b) = some ((O.extend h0 hη hG).op o a b) ∧ ‖(O.extend h0 hη hG).op o a b‖ ≤ 2 * D + η := by
  refine ⟨extend_op O h0 hη hG (hD.trans hΩ), ?_⟩
  have e := (O.extend h0 hη hG).op_err o a b
  have s := norm_sub_norm_le ((O.extend h0 hη hG).op o a b) (opVal o a b)
  have : u * (‖opVal o a b‖ + η) ≤ ‖opVal o a b‖ + η := mul_le_of_le_one_left (by positivity) h1
  linarith

/-- Sizes that are sufficient for one update. -/
noncomputable def sub₁ (η B Q : ℝ) : ℝ := B + (2 * Q + η)
noncomputable def upd₁ (η B Q : ℝ) : ℝ := 2 * sub₁ η B Q + η
noncomputable def top₁ (η B Q : ℝ) : ℝ := 16 * upd₁ η B Q + 6 * η + Q + sub₁ η B Q

theorem oupd_fin (h0 : 0 ≤ u) (h1 : u ≤ 1) (hη : 0 ≤ η) (hG : GMono G) (O : Overflowing K u η G H Ω) {B R δ : ℝ} (hB : 0 ≤ B) (hR : 0 ≤ R) (hδ : 0 < δ)
    (hΩ : top₁ η B (R / δ) ≤ Ω) {a r d b : Arr (Option K)}
    (ha : ∀ idx, List.Forall₂ (· < ·) idx a.shape → ∃ x, a.val idx = some x ∧ ‖x‖ ≤ B)
    (hr : ∀ idx, List.Forall₂ (· < ·) idx a.shape → ∃ x, r.val idx = some x ∧ ‖x‖ ≤ R)
    (hd : ∀ idx, List.Forall₂ (· < ·) idx a.shape → ∃ x, d.val idx = some x ∧ δ ≤ ‖x‖) (h : OUpd O a r d b) :
    ∀ idx, List.Forall₂ (· < ·) idx a.shape → ∃ q x, ‖q - (fin r).val idx / (fin d).val idx‖ ≤ u * (‖(fin r).val idx / (fin d).val idx‖ + η) ∧
      b.val idx = some x ∧ x = (O.extend h0 hη hG).op .sub ((fin a).val idx) q ∧ ‖x‖ ≤ upd₁ η B (R / δ) := by
  intro idx hi
  obtain ⟨x, hx, bx⟩ := ha idx hi
  obtain ⟨y, hy, by'⟩ := hr idx hi
  obtain ⟨z, hz, bz⟩ := hd idx hi
  obtain ⟨q, hq, hb⟩ := h.2.2 idx hi
  have pz : 0 < ‖z‖ := hδ.trans_le bz
  have Q0 : 0 ≤ R / δ := by positivity
  have hQ : ‖y / z‖ ≤ R / δ := by
    rw [norm_div]
    exact div_le_div₀ hR by' hδ bz
  have hΩ' := hΩ
  unfold top₁ upd₁ sub₁ at hΩ'
  obtain ⟨q', rfl, eq⟩ := hq y z hy hz (norm_pos_iff.1 pz) (by linarith)
  have bq : ‖q'‖ ≤ 2 * (R / δ) + η := by
    have s := norm_sub_norm_le q' (y / z)
    have : u * (‖y / z‖ + η) ≤ ‖y / z‖ + η := mul_le_of_le_one_left (by positivity) h1
    linarith
  obtain ⟨o1, o2⟩ := op_fin h0 h1 hη hG O .sub (a := x) (b := q') (D := sub₁ η B (R / δ)) ((norm_sub_le _ _).trans (add_le_add bx bq))
    (by unfold sub₁; linarith)
  refine ⟨q', _, ?_, ?_, rfl, ?_⟩
  · simpa [fin, hy, hz] using eq
  · rw [hb, hx, o1]; simp [fin, hx]
  · simpa [fin, hx, upd₁] using o2

theorem oclean_fin (h0 : 0 ≤ u) (h1 : u ≤ 1) (hη : 0 ≤ η) (hG : GMono G) (O : Overflowing K u η G H Ω) {D : ℝ} (hD : 0 ≤ D) (hΩ : 16 * D + 6 * η ≤ Ω)
    {v o : ℕ} {b y : Arr (Option K)} (hs : b.shape = [v, v, o, o]) (hb : ∀ idx, List.Forall₂ (· < ·) idx b.shape → ∃ x, b.val idx = some x ∧ ‖x‖ ≤ D) (h : OClean O b y) :
    ∀ p q r s : ℕ, List.Forall₂ (· < ·) [p, q, r, s] b.shape → ∃ x, y.val [p, q, r, s] = some x ∧
      x = (O.extend h0 hη hG).op .mul (1 / 4) ((O.extend h0 hη hG).op .sub ((O.extend h0 hη hG).op .sub ((fin b).val [p, q, r, s]) ((fin b).val [q, p, r, s]))
        ((O.extend h0 hη hG).op .sub ((fin b).val [p, q, s, r]) ((fin b).val [q, p, s, r]))) := by
  intro p q r s hi
  have hi' := hi
  rw [hs] at hi'
  simp only [List.forall₂_cons, List.Forall₂.nil, and_true] at hi'
  obtain ⟨i1, i2, i3, i4⟩ := hi'
  obtain ⟨x, hx, bx⟩ := hb _ hi
  obtain ⟨y', hy, by'⟩ := hb [q, p, r, s] (by rw [hs]; simp [i1, i2, i3, i4])
  obtain ⟨z, hz, bz⟩ := hb [p, q, s, r] (by rw [hs]; simp [i1, i2, i3, i4])
  obtain ⟨w, hw, bw⟩ := hb [q, p, s, r] (by rw [hs]; simp [i1, i2, i3, i4])
  obtain ⟨a1, a2⟩ := op_fin h0 h1 hη hG O .sub (a := x) (b := y') (D := D + D) ((norm_sub_le _ _).trans (add_le_add bx by')) (by linarith)
  obtain ⟨b1, b2⟩ := op_fin h0 h1 hη hG O .sub (a := z) (b := w) (D := D + D) ((norm_sub_le _ _).trans (add_le_add bz bw)) (by linarith)
  obtain ⟨c1, c2⟩ := op_fin h0 h1 hη hG O .sub (D := (2 * (D + D) + η) + (2 * (D + D) + η)) ((norm_sub_le _ _).trans (add_le_add a2 b2)) (by linarith)
  have q4 : ‖(1 / 4 : K)‖ = 1 / 4 := by simp
  obtain ⟨d1, -⟩ := op_fin h0 h1 hη hG O .mul (a := 1 / 4)
    (b := (O.extend h0 hη hG).op .sub ((O.extend h0 hη hG).op .sub x y') ((O.extend h0 hη hG).op .sub z w)) (D := 2 * ((2 * (D + D) + η) + (2 * (D + D) + η)) + η)
    (by change ‖_ * _‖ ≤ _; rw [norm_mul, q4]; refine le_trans ?_ c2; linarith [norm_nonneg ((O.extend h0 hη hG).op .sub ((O.extend h0 hη hG).op .sub x y') ((O.extend h0 hη hG).op .sub z w))]) (by linarith)
  refine ⟨_, ?_, rfl⟩
  rw [h.2.2 p q r s hi, hx, hy, hz, hw, a1, b1, c1, d1]
  simp [fin, hx, hy, hz, hw]

/-- An array of the element type and shape described, with elements of at most `B`. -/
def Sized (B : ℝ) (d : Desc n K) (b : Arr K) : Prop :=
  b.cx = d.cx ∧ b.shape = d.ten.shape.map n ∧ ∀ idx, List.Forall₂ (· < ·) idx b.shape → ‖b.val idx‖ ≤ B

/-- C106: a call with arguments of at most `B` gives finite numbers of at most `R`, which are those of an arithmetic without overflow. -/
theorem C106_call {f : Fun} {ds es : List (Desc n K)} (h : Computes f ds es) (hl : ds.length = f.params.length) (re : K → K) (hre : ∀ x y, ‖re x - re y‖ ≤ ‖x - y‖)
    {η : ℝ} (hη : 0 ≤ η) {G H : List (List ℝ) → ℝ} (hG : GMono G) (hH : GMono H) {B : ℝ} (hB : 0 ≤ B) :
    ∃ R Ω₀, 0 ≤ R ∧ ∀ u (h0 : 0 ≤ u), u ≤ 1 → ∀ Ω, Ω₀ ≤ Ω → ∀ (O : Overflowing K u η G H Ω) (ore : Option K → Option K), (∀ x, ore (some x) = some (re x)) →
      ∀ (bs : List (Arr K)) (cs : List (Arr (Option K))), List.Forall₂ (Sized B) ds bs → List.Forall₂ SameA bs cs →
        ∃ xs ys, f.nrun (rounded (O.extend h0 hη hG) true re) bs = .ok xs ∧ f.nrun (overflowing O true ore) cs = .ok ys ∧ List.Forall₂ SameA xs ys ∧
          List.Forall₂ (Sized R) es xs := by
  obtain ⟨M, args, h1, h2, h3⟩ := exists_args ((numpy true re).total ⟨false, [], fun _ => 0⟩ fun _ a _ => a) ds
  obtain ⟨rs, M', h4, -, -, -, -, h5⟩ := h re ⟨false, [], fun _ => 0⟩ (fun _ a _ => a) M args (h1.trans hl) h2 h3
  generalize (args.map fun r => seen ((numpy true re).total ⟨false, [], fun _ => 0⟩ fun _ a _ => a) r.2 (M.heap r.1)) = as at h3 h4
  generalize (rs.map fun r => seen ((numpy true re).total ⟨false, [], fun _ => 0⟩ fun _ a _ => a) r.2 (M'.heap r.1)) = qs at h4 h5
  obtain ⟨Ω₁, k1⟩ := C105_refines f true hre h4 hη hG hH hB
  obtain ⟨R, Ω₂, k2⟩ := C105_uniform f true hre h4 hη hG hH hB
  refine ⟨max R 0, max Ω₁ Ω₂, le_max_right _ _, fun u u0 u1 Ω hΩ O ore ho bs cs hbs hcs => ?_⟩
  have m : List.Forall₂ (fun a b => b.cx = a.cx ∧ b.shape = a.shape ∧ ∀ idx, List.Forall₂ (· < ·) idx a.shape → ‖b.val idx‖ ≤ B) as bs := by
    refine List.forall₂_iff_get.mpr ⟨by rw [← h3.length_eq, ← hbs.length_eq], fun i i1 i2 => ?_⟩
    have e1 := (List.forall₂_iff_get.mp h3).2 i (by rw [h3.length_eq]; exact i1) i1
    have e2 := (List.forall₂_iff_get.mp hbs).2 i (by rw [hbs.length_eq]; exact i2) i2
    refine ⟨e2.1.trans e1.1.symm, e2.2.1.trans e1.2.1.symm, fun idx hi => e2.2.2 idx ?_⟩
    rw [e2.2.1, ← e1.2.1]; exact hi
  obtain ⟨xs, ys, r1, r2, r3⟩ := k1 u u0 u1 Ω ((le_max_left _ _).trans hΩ) O ore ho bs cs m hcs
  obtain ⟨ys', r4, r5⟩ := k2 u u0 u1 Ω ((le_max_right _ _).trans hΩ) O ore ho cs (by
    refine List.forall₂_iff_get.mpr ⟨m.length_eq.trans hcs.length_eq, fun i i1 i2 => ?_⟩
    have l1 : i < bs.length := by rw [← m.length_eq]; exact i1
    have e1 := (List.forall₂_iff_get.mp m).2 i i1 l1
    have e2 := (List.forall₂_iff_get.mp hcs).2 i l1 i2
    refine ⟨e2.1.trans e1.1, e2.2.1.trans e1.2.1, fun idx hi => ⟨_, e2.2.2 idx ?_, e1.2.2 idx hi⟩⟩
    rw [e1.2.1]; exact hi)
  rw [r2] at r4
  cases r4
  refine ⟨xs, ys, r1, r2, r3, List.forall₂_iff_get.mpr ⟨by rw [h5.length_eq, r5.length_eq, r3.length_eq], fun i i1 i2 => ?_⟩⟩
  have l1 : i < qs.length := by rw [← h5.length_eq]; exact i1
  have l2 : i < ys.length := by rw [← r3.length_eq]; exact i2
  have e1 := (List.forall₂_iff_get.mp h5).2 i i1 l1
  have e2 := (List.forall₂_iff_get.mp r5).2 i l1 l2
  have e3 := (List.forall₂_iff_get.mp r3).2 i i2 l2
  have es' : (xs.get ⟨i, i2⟩).shape = (qs.get ⟨i, l1⟩).shape := e3.2.1.symm.trans e2.2.1
  refine ⟨(e3.1.symm.trans e2.1).trans e1.1, es'.trans e1.2.1, fun idx hi => ?_⟩
  obtain ⟨y, f1, f2⟩ := e2.2.2 idx (es' ▸ hi)
  rw [e3.2.2 idx hi] at f1
  cases f1
  exact f2.trans (le_max_left _ _)

/-- The finite numbers of two arrays. -/
def fins (x : Arr (Option K) × Arr (Option K)) : Arr K × Arr K := (fin x.1, fin x.2)

theorem fin_same {a : Arr (Option K)} (h : AllFin a) : SameA (fin a) a :=
  ⟨rfl, rfl, fun idx hi => by obtain ⟨x, hx⟩ := h idx hi; simp [fin, hx]⟩

theorem sized_amp {B : ℝ} {t : Bool} {x : Arr K × Arr K} (ht : Typed n t x) (hx : ‖(ampOf x : Amp K (Fin (n 0)) (Fin (n 1)))‖ ≤ B) (T : Amp K (Fin (n 0)) (Fin (n 1))) :
    Sized B (.two t 1 0 T.1 : Desc n K) x.1 ∧ Sized B (.four t 1 1 0 0 T.2 : Desc n K) x.2 := by
  refine ⟨⟨ht.1.1, ht.1.2, fun idx hi => ?_⟩, ht.2.1, ht.2.2, fun idx hi => ?_⟩
  · rw [ht.1.2] at hi
    match idx, hi with
    | [a, i], .cons ha (.cons hi .nil) => exact (le_amp1 (ampOf x : Amp K (Fin (n 0)) (Fin (n 1))) ⟨a, ha⟩ ⟨i, hi⟩).trans hx
  · rw [ht.2.2] at hi
    match idx, hi with
    | [a, b, i, j], .cons ha (.cons hb (.cons hi (.cons hj .nil))) =>
      exact (le_amp2 (ampOf x : Amp K (Fin (n 0)) (Fin (n 1))) ⟨a, ha⟩ ⟨b, hb⟩ ⟨i, hi⟩ ⟨j, hj⟩).trans hx

/-- Denominators: finite, and not small. -/
def DenO (δ : ℝ) (s : List ℕ) (d : Arr (Option K)) : Prop := ∀ idx, List.Forall₂ (· < ·) idx s → ∃ z, d.val idx = some z ∧ δ ≤ ‖z‖

/-- C106: an update of amplitudes of at most `B`, in an arithmetic with a large enough largest number, is an update in an arithmetic without overflow. -/
theorem C106_step {f : Fun} {hs : List (Desc n K)} {t : Bool} {T R : Amp K (Fin (n 0)) (Fin (n 1))}
    (h : Computes f (hs ++ [.two t 1 0 T.1, .four t 1 1 0 0 T.2]) [.two t 1 0 R.1, .four t 1 1 0 0 R.2]) (hl : hs.length + 2 = f.params.length)
    (re : K → K) (hre : ∀ x y, ‖re x - re y‖ ≤ ‖x - y‖) {η : ℝ} (hη : 0 ≤ η) {G H : List (List ℝ) → ℝ} (hG : GMono G) (hH : GMono H) {B δ : ℝ} (hB : 0 ≤ B) (hδ : 0 < δ) :
    ∃ Ω₀, ∀ u (h0 : 0 ≤ u), u ≤ 1 → ∀ Ω, Ω₀ ≤ Ω → ∀ (O : Overflowing K u η G H Ω) (ore : Option K → Option K), (∀ x, ore (some x) = some (re x)) →
      ∀ (ins : List (Arr K)) (cs : List (Arr (Option K))) (d1 d2 : Arr (Option K)) (x : Arr (Option K) × Arr (Option K)),
        List.Forall₂ (Sized B) hs ins → List.Forall₂ SameA ins cs → DenO δ [n 1, n 0] d1 → DenO δ [n 1, n 1, n 0, n 0] d2 → AllFin x.1 → AllFin x.2 →
        Typed n t (fins x) → ‖(ampOf (fins x) : Amp K (Fin (n 0)) (Fin (n 1)))‖ ≤ B →
        (∃ y, OStep O ore f cs d1 d2 x y) ∧
          ∀ y, OStep O ore f cs d1 d2 x y → AStep (O.extend h0 hη hG) re f ins (fin d1) (fin d2) (fins x) (fins y) ∧ AllFin y.1 ∧ AllFin y.2 := by
  obtain ⟨Rb, Ω₁, hR, hc⟩ := C106_call h (by simpa using hl) re hre hη hG hH hB
  refine ⟨max Ω₁ (top₁ η B (Rb / δ)), fun u h0 h1 Ω hΩ O ore ho ins cs d1 d2 x hi hcs hd1 hd2 f1 f2 ht hx => ?_⟩
  obtain ⟨z1, z2⟩ := sized_amp ht hx T
  obtain ⟨xs, ys, r1, r2, r3, r4⟩ := hc u h0 h1 Ω ((le_max_left _ _).trans hΩ) O ore ho (ins ++ [fin x.1, fin x.2]) (cs ++ [x.1, x.2])
    (List.rel_append hi (.cons z1 (.cons z2 .nil))) (List.rel_append hcs (.cons (fin_same f1) (.cons (fin_same f2) .nil)))
  have hΩ2 := (le_max_right _ _).trans hΩ
  cases r4 with
  | @cons _ q1 _ _ g1 r4 =>
  cases r4 with
  | @cons _ q2 _ _ g2 r4 =>
  cases r4
  cases r3 with
  | @cons _ p1 _ _ k1 r3 =>
  cases r3 with
  | @cons _ p2 _ _ k2 r3 =>
  cases r3
  have s1 : x.1.shape = [n 1, n 0] := ht.1.2
  have s2 : x.2.shape = [n 1, n 1, n 0, n 0] := ht.2.2
  have e1 : q1.shape = x.1.shape := g1.2.1.trans s1.symm
  have e2 : q2.shape = x.2.shape := g2.2.1.trans s2.symm
  have Q0 : 0 ≤ Rb / δ := by positivity
  refine ⟨?_, fun y hy => ?_⟩
  · have quot : ∀ r d : Option K, ∃ q, OQuot u η Ω r d q := fun r d => by
      by_cases hq : ∃ r' d', r = some r' ∧ d = some d'
      · obtain ⟨r', d', rfl, rfl⟩ := hq
        refine ⟨some (r' / d'), fun r'' d'' a1 a2 _ _ => ⟨_, rfl, ?_⟩⟩
        cases a1; cases a2
        rw [sub_self, norm_zero]; positivity
      · exact ⟨none, fun r' d' a1 a2 => (hq ⟨r', d', a1, a2⟩).elim⟩
    choose Q hQ using quot
    refine ⟨(⟨x.1.cx, x.1.shape, fun idx => O.op .sub (x.1.val idx) (Q (p1.val idx) (d1.val idx))⟩, ⟨x.2.cx, x.2.shape, fun idx => ?_⟩), p1, p2,
      ⟨x.2.cx, x.2.shape, fun idx => O.op .sub (x.2.val idx) (Q (p2.val idx) (d2.val idx))⟩, r2, ⟨rfl, rfl, fun idx _ => ⟨_, hQ _ _, rfl⟩⟩,
      ⟨rfl, rfl, fun idx _ => ⟨_, hQ _ _, rfl⟩⟩, rfl, rfl, fun p q r s _ => ?_⟩
    · let b := fun idx => O.op .sub (x.2.val idx) (Q (p2.val idx) (d2.val idx))
      exact match idx with
      | [p, q, r, s] => O.op .mul (some (1 / 4)) (O.op .sub (O.op .sub (b [p, q, r, s]) (b [q, p, r, s])) (O.op .sub (b [p, q, s, r]) (b [q, p, s, r])))
      | _ => none
    · rfl
  · obtain ⟨p1', p2', b, w1, w2, w3, w4⟩ := hy
    rw [r2] at w1
    cases w1
    have u1 := oupd_fin h0 h1 hη hG O hB hR hδ hΩ2 (a := x.1) (r := p1) (d := d1)
      (fun idx hi => ⟨_, (fin_same f1).2.2 idx hi, z1.2.2 idx hi⟩) (fun idx hi => ⟨_, k1.2.2 idx (e1 ▸ hi), g1.2.2 idx (e1 ▸ hi)⟩)
      (fun idx hi => hd1 idx (s1 ▸ hi)) w2
    have u2 := oupd_fin h0 h1 hη hG O hB hR hδ hΩ2 (a := x.2) (r := p2) (d := d2)
      (fun idx hi => ⟨_, (fin_same f2).2.2 idx hi, z2.2.2 idx hi⟩) (fun idx hi => ⟨_, k2.2.2 idx (e2 ▸ hi), g2.2.2 idx (e2 ▸ hi)⟩)
      (fun idx hi => hd2 idx (s2 ▸ hi)) w3
    have hD : 0 ≤ upd₁ η B (Rb / δ) := by unfold upd₁ sub₁; positivity
    have hD' : 16 * upd₁ η B (Rb / δ) + 6 * η ≤ Ω := by
      refine le_trans ?_ hΩ2
      unfold top₁ sub₁; linarith
    have bs2 : b.shape = [n 1, n 1, n 0, n 0] := w3.2.1.trans s2
    have cl := oclean_fin h0 h1 hη hG O hD hD' bs2 (fun idx hi => by
      rw [w3.2.1] at hi
      obtain ⟨q, z, -, c1, -, c2⟩ := u2 idx hi
      exact ⟨z, c1, c2⟩) w4
    have val : ∀ {p : Arr (Option K)} {q : Arr K} {idx : List ℕ}, SameA q p → List.Forall₂ (· < ·) idx q.shape → (fin p).val idx = q.val idx := fun hs hi => by
      simp [fin, hs.2.2 _ hi]
    refine ⟨⟨(fin y.1, fin b), ⟨q1, q2, r1, ⟨w2.1, w2.2.1, fun idx hi => ?_⟩, w3.1, w3.2.1, fun idx hi => ?_⟩, rfl, w4.1, w4.2.1, fun p q r s hi => ?_⟩, fun idx hi => ?_, fun idx hi => ?_⟩
    · obtain ⟨q, z, c1, c2, c3, -⟩ := u1 idx hi
      rw [val k1 (e1 ▸ hi)] at c1
      refine ⟨q, c1, ?_⟩
      change (y.1.val idx).getD 0 = _
      rw [c2, c3]; rfl
    · obtain ⟨q, z, c1, c2, c3, -⟩ := u2 idx hi
      rw [val k2 (e2 ▸ hi)] at c1
      refine ⟨q, c1, ?_⟩
      change (b.val idx).getD 0 = _
      rw [c2, c3]; rfl
    · obtain ⟨z, c1, c2⟩ := cl p q r s hi
      change (y.2.val [p, q, r, s]).getD 0 = _
      rw [c1, c2]; rfl
    · rw [w2.2.1] at hi
      obtain ⟨q, z, -, c2, -⟩ := u1 idx hi
      exact ⟨z, c2⟩
    · rw [w4.2.1] at hi
      have hi' := hi
      rw [bs2] at hi'
      match idx, hi' with
      | [a, b', i, j], .cons _ (.cons _ (.cons _ (.cons _ .nil))) =>
        obtain ⟨z, c1, -⟩ := cl a b' i j hi
        exact ⟨z, c1⟩

theorem gap_exists (eo : Fin (n 0) → K) (ev : Fin (n 1) → K) (g1 : ∀ a i, ev a - eo i ≠ 0) (g2 : ∀ a b i j, ev a + ev b - eo i - eo j ≠ 0) :
    ∃ δ : ℝ, 0 < δ ∧ (∀ a i, 2 * δ ≤ ‖ev a - eo i‖) ∧ ∀ a b i j, 2 * δ ≤ ‖ev a + ev b - eo i - eo j‖ := by
  let X : Amp K (Fin (n 0)) (Fin (n 1)) := (fun a i => (ev a - eo i)⁻¹, fun a b i j => (ev a + ev b - eo i - eo j)⁻¹)
  have key : ∀ z : K, z ≠ 0 → ‖z⁻¹‖ ≤ ‖X‖ → 2 * (1 / (2 * (‖X‖ + 1))) ≤ ‖z‖ := fun z hz h => by
    have pz := norm_pos_iff.2 hz
    rw [norm_inv] at h
    have pX : 0 < ‖X‖ := (inv_pos.2 pz).trans_le h
    rw [inv_le_comm₀ pz pX] at h
    refine le_trans ?_ h
    rw [show 2 * (1 / (2 * (‖X‖ + 1))) = (‖X‖ + 1)⁻¹ by field_simp]
    exact inv_anti₀ pX (by linarith)
  exact ⟨1 / (2 * (‖X‖ + 1)), by positivity, fun a i => key _ (g1 a i) (le_amp1 X a i), fun a b i j => key _ (g2 a b i j) (le_amp2 X a b i j)⟩

/-- C106: an iteration that converges never overflows.  Under the assumptions of C96 there is a size `Ω₀` such that in every arithmetic whose largest number is at
least `Ω₀`, with integrals and denominators that are finite and wrong by at most `c * u`, no number of updates leads to an infinity or NaN, and the
amplitudes are as accurate as without overflow. -/
theorem C106_attains (re : K → K) (hre : ∀ x y, ‖re x - re y‖ ≤ ‖x - y‖) {η : ℝ} (hη : 0 ≤ η) {G H : List (List ℝ) → ℝ} (hG : GMono G) (hH : GMono H) {c : ℝ} (hc : 0 ≤ c)
    (t : Bool) (F : OneE (Fin (n 0)) (Fin (n 1)) K) (I : TwoE (Fin (n 0)) (Fin (n 1)) K) (hI : AntiI I) (eo : Fin (n 0) → K) (ev : Fin (n 1) → K)
    (g1 : ∀ a i, ev a - eo i ≠ 0) (g2 : ∀ a b i j, ev a + ev b - eo i - eo j ≠ 0) (T : Amp K (Fin (n 0)) (Fin (n 1))) (hT : Anti T.2) (δ q : ℝ) (hδ : 0 < δ) (q0 : 0 ≤ q) (q1 : q < 1)
    (contr : ∀ X, Anti X.2 → ‖X - T‖ ≤ δ → ‖update F I eo ev X - T‖ ≤ q * ‖X - T‖) {f : Fun} (hf : Residuals f) :
    ∃ C u₀ Ω₀ : ℝ, 0 ≤ C ∧ 0 < u₀ ∧ ∀ u, 0 ≤ u → u ≤ u₀ → ∀ Ω, Ω₀ ≤ Ω → ∀ (O : Overflowing K u η G H Ω), OSign O →
    ∀ (ore : Option K → Option K), (∀ x, ore (some x) = some (re x)) → ∀ (cs : List (Arr (Option K))) (d1 d2 : Arr (Option K)) (x : ℕ → Arr (Option K) × Arr (Option K)),
      (∀ a ∈ cs, AllFin a) → List.Forall₂ (NearIs (c * u)) (ham t F I) (cs.map fin) →
      (∀ idx, List.Forall₂ (· < ·) idx [n 1, n 0] → ∃ z, d1.val idx = some z) → (∀ idx, List.Forall₂ (· < ·) idx [n 1, n 1, n 0, n 0] → ∃ z, d2.val idx = some z) →
      NearDen (c * u) eo ev (fin d1) (fin d2) → AllFin (x 0).1 → AllFin (x 0).2 →
      Typed n t (fins (x 0)) → Anti (ampOf (fins (x 0)) : Amp K (Fin (n 0)) (Fin (n 1))).2 → ‖ampOf (fins (x 0)) - T‖ ≤ δ →
      ∀ k, (∀ j < k, OStep O ore f cs d1 d2 (x j) (x (j + 1))) →
        AllFin (x k).1 ∧ AllFin (x k).2 ∧ Typed n t (fins (x k)) ∧ Anti (ampOf (fins (x k)) : Amp K (Fin (n 0)) (Fin (n 1))).2 ∧ ‖ampOf (fins (x k)) - T‖ ≤ δ ∧
        ‖ampOf (fins (x k)) - T‖ ≤ q ^ k * ‖ampOf (fins (x 0)) - T‖ + C * u ∧ ∃ y, OStep O ore f cs d1 d2 (x k) y := by
  obtain ⟨C, u₀, hC, hu, hu1, h⟩ := C96_attains re hre hη hG hc t F I hI eo ev g1 g2 T hT δ q hδ q0 q1 contr hf
  obtain ⟨g, hg, hg1, hg2⟩ := gap_exists eo ev g1 g2
  obtain ⟨M, hM, hb⟩ := desc_bounds (ham t F I) (‖T‖ + δ)
  obtain ⟨e1, e2⟩ := residuals_compute t F I hI hf T hT
  have M0 : 0 ≤ M := le_trans (by positivity) hM
  obtain ⟨Ω₀, hs⟩ := C106_step e1 e2 re hre hη hG hH (B := M + c) (δ := g) (by positivity) hg
  refine ⟨C, min u₀ (g / (c + 1)), Ω₀, hC, by positivity, fun u u0 uu Ω hΩ O hO ore ho cs d1 d2 x fcs hi fd1 fd2 hd f1 f2 t0 a0 n0 => ?_⟩
  have uu0 := uu.trans (min_le_left _ _)
  have cu : c * u ≤ g := by
    have := (le_div_iff₀ (by positivity)).1 (uu.trans (min_le_right _ _))
    nlinarith
  have cu1 : c * u ≤ c := mul_le_of_le_one_right hc (uu0.trans hu1)
  have key := h u u0 uu0 (O.extend u0 hη hG) (extend_sign hO u0 hη hG) (cs.map fin) (fin d1) (fin d2) (fun j => fins (x j)) hi hd t0 a0 n0
  have sized : List.Forall₂ (Sized (M + c)) (ham t F I) (cs.map fin) := by
    rw [List.forall₂_map_left_iff, List.forall₂_same] at hb
    refine List.forall₂_iff_get.mpr ⟨hi.length_eq, fun i i1 i2 => ?_⟩
    have w1 := (List.forall₂_iff_get.mp hi).2 i i1 i2
    have w2 := hb _ (List.get_mem (ham t F I) ⟨i, i1⟩)
    refine ⟨w1.1, w1.2.1, fun idx hidx => ?_⟩
    have w3 := w1.2.2 idx hidx
    rw [w1.2.1] at hidx
    have w4 := w2.2.2 idx hidx
    have := norm_sub_norm_le (((cs.map fin).get ⟨i, i2⟩).val idx) (Cur.get ((ham t F I).get ⟨i, i1⟩).ten.shape ((ham t F I).get ⟨i, i1⟩).ten.val idx)
    linarith
  have same : List.Forall₂ SameA (cs.map fin) cs := by
    rw [List.forall₂_map_left_iff]
    exact List.forall₂_same.mpr fun a ha => fin_same (fcs a ha)
  have far : ∀ z D : K, ‖z - D‖ ≤ c * u → 2 * g ≤ ‖D‖ → g ≤ ‖z‖ := fun z D h1 h2 => by
    have := norm_sub_norm_le D z
    rw [norm_sub_rev] at this
    linarith
  have den1 : DenO g [n 1, n 0] d1 := fun idx hidx => by
    obtain ⟨z, hz⟩ := fd1 idx hidx
    refine ⟨z, hz, ?_⟩
    match idx, hidx with
    | [a, i], .cons ha (.cons hi .nil) =>
      have := hd.1 ⟨a, ha⟩ ⟨i, hi⟩
      simp only [fin, hz, Option.getD_some] at this
      exact far z _ this (hg1 _ _)
  have den2 : DenO g [n 1, n 1, n 0, n 0] d2 := fun idx hidx => by
    obtain ⟨z, hz⟩ := fd2 idx hidx
    refine ⟨z, hz, ?_⟩
    match idx, hidx with
    | [a, b, i, j], .cons ha (.cons hb (.cons hi (.cons hj .nil))) =>
      have := hd.2 ⟨a, ha⟩ ⟨b, hb⟩ ⟨i, hi⟩ ⟨j, hj⟩
      simp only [fin, hz, Option.getD_some] at this
      exact far z _ this (hg2 _ _ _ _)
  have small : ∀ X : Amp K (Fin (n 0)) (Fin (n 1)), ‖X - T‖ ≤ δ → ‖X‖ ≤ M + c := fun X hX => by
    have := norm_sub_norm_le X T
    linarith
  have step := fun j => hs u u0 (uu0.trans hu1) Ω hΩ O ore ho (cs.map fin) cs d1 d2 (x j) sized same den1 den2
  have run : ∀ k, (∀ j < k, OStep O ore f cs d1 d2 (x j) (x (j + 1))) →
      (∀ j < k, AStep (O.extend u0 hη hG) re f (cs.map fin) (fin d1) (fin d2) (fins (x j)) (fins (x (j + 1)))) ∧ AllFin (x k).1 ∧ AllFin (x k).2 := by
    intro k
    induction k with
    | zero => exact fun _ => ⟨nofun, f1, f2⟩
    | succ k ih =>
      intro hk
      obtain ⟨i1, i2, i3⟩ := ih fun j hj => hk j (by omega)
      obtain ⟨m1, -, m3, -, -⟩ := key k i1
      obtain ⟨w1, w2, w3⟩ := (step k i2 i3 m1 (small _ m3)).2 _ (hk k (by omega))
      refine ⟨fun j hj => ?_, w2, w3⟩
      rcases Nat.lt_succ_iff_lt_or_eq.1 hj with hj | rfl
      · exact i1 j hj
      · exact w1
  intro k hk
  obtain ⟨i1, i2, i3⟩ := run k hk
  obtain ⟨m1, m2, m3, m4, -⟩ := key k i1
  exact ⟨i2, i3, m1, m2, m3, m4, (step k i2 i3 m1 (small _ m3)).1⟩

/-- C106: for a weak perturbation, from every antisymmetric start in a ball. -/
theorem C106_weak (re : K → K) (hre : ∀ x y, ‖re x - re y‖ ≤ ‖x - y‖) {η : ℝ} (hη : 0 ≤ η) {G H : List (List ℝ) → ℝ} (hG : GMono G) (hH : GMono H) {c : ℝ} (hc : 0 ≤ c)
    (t : Bool) (f : OneE (Fin (n 0)) (Fin (n 1)) K) (I : TwoE (Fin (n 0)) (Fin (n 1)) K) (hI : AntiI I) (eo : Fin (n 0) → K) (ev : Fin (n 1) → K)
    (g1 : ∀ a i, ev a - eo i ≠ 0) (g2 : ∀ a b i j, ev a + ev b - eo i - eo j ≠ 0) (r : ℝ) (hr : 0 < r) {g : Fun} (hg : Residuals g) :
    ∃ z₀ : ℝ, 0 < z₀ ∧ ∀ z : K, ‖z‖ ≤ z₀ → ∃ T : Amp K (Fin (n 0)) (Fin (n 1)), Anti T.2 ∧ ‖T‖ ≤ r ∧
      CC.ccsd_simple ((diagF eo ev).addMul z f) (I.mul z) T.1 T.2 = (fun _ _ => 0, fun _ _ _ _ => 0) ∧
      ∃ C u₀ Ω₀ : ℝ, 0 ≤ C ∧ 0 < u₀ ∧ ∀ u, 0 ≤ u → u ≤ u₀ → ∀ Ω, Ω₀ ≤ Ω → ∀ (O : Overflowing K u η G H Ω), OSign O →
        ∀ (ore : Option K → Option K), (∀ x, ore (some x) = some (re x)) → ∀ (cs : List (Arr (Option K))) (d1 d2 : Arr (Option K)) (x : ℕ → Arr (Option K) × Arr (Option K)),
        (∀ a ∈ cs, AllFin a) → List.Forall₂ (NearIs (c * u)) (ham t ((diagF eo ev).addMul z f) (I.mul z)) (cs.map fin) →
        (∀ idx, List.Forall₂ (· < ·) idx [n 1, n 0] → ∃ z, d1.val idx = some z) → (∀ idx, List.Forall₂ (· < ·) idx [n 1, n 1, n 0, n 0] → ∃ z, d2.val idx = some z) →
        NearDen (c * u) eo ev (fin d1) (fin d2) → AllFin (x 0).1 → AllFin (x 0).2 →
        Typed n t (fins (x 0)) → Anti (ampOf (fins (x 0)) : Amp K (Fin (n 0)) (Fin (n 1))).2 → ‖(ampOf (fins (x 0)) : Amp K (Fin (n 0)) (Fin (n 1)))‖ ≤ r →
        ∀ k, (∀ j < k, OStep O ore g cs d1 d2 (x j) (x (j + 1))) →
          AllFin (x k).1 ∧ AllFin (x k).2 ∧ ‖ampOf (fins (x k)) - T‖ ≤ (1 / 2) ^ k * ‖ampOf (fins (x 0)) - T‖ + C * u ∧ ∃ y, OStep O ore g cs d1 d2 (x k) y := by
  obtain ⟨z₁, hz1, h1⟩ := C66_converges eo ev f I hI g1 g2 r hr
  obtain ⟨z₂, hz2, h2⟩ := C66_converges eo ev f I hI g1 g2 (3 * r) (by positivity)
  refine ⟨min z₁ z₂, lt_min hz1 hz2, fun z hz => ?_⟩
  obtain ⟨T, hA, hn, hsol, -, -⟩ := h1 z (hz.trans (min_le_left _ _))
  obtain ⟨T', -, -, -, huniq, hcv⟩ := h2 z (hz.trans (min_le_right _ _))
  obtain rfl := huniq T hA (by linarith) hsol
  obtain ⟨C, u₀, Ω₀, hC, hu, h'⟩ := C106_attains re hre hη hG hH hc t ((diagF eo ev).addMul z f) (I.mul z) (TwoE.mul_anti hI z) eo ev g1 g2 T hA (2 * r) (1 / 2)
    (by positivity) (by norm_num) (by norm_num)
    (fun X hX hd => by
      have := hcv X hX (by have := norm_sub_norm_le X T; linarith) 1
      simpa using this) hg
  refine ⟨T, hA, hn, hsol, C, u₀, Ω₀, hC, hu, fun u u0 uu Ω hΩ O hO ore ho cs d1 d2 x fc hi fd1 fd2 hd f1 f2 t0 a0 n0 k hk => ?_⟩
  obtain ⟨m1, m2, -, -, -, m4, m5⟩ := h' u u0 uu Ω hΩ O hO ore ho cs d1 d2 x fc hi fd1 fd2 hd f1 f2 t0 a0
    (by have := norm_sub_le (ampOf (fins (x 0))) T; linarith) k hk
  exact ⟨m1, m2, m4, m5⟩

/-- C106: IEEE arithmetic commutes with signs. -/
theorem C106_ieee (p : ℕ) (emin : ℤ) (hp : 0 < p) {Ω : ℝ} (hΩ : Ω ∈ Binary.F p emin) : OSign (binaryOver p emin hp hΩ) := by
  have key : ∀ (o o' : Op) (a b a' b' : ℝ), opVal o' a' b' = -opVal o a b → ieee p emin Ω o' (some a') (some b') = (ieee p emin Ω o (some a) (some b)).map (- ·) := by
    intro o o' a b a' b' h
    simp only [ieee, h, Binary.rd_neg, abs_neg]
    split_ifs <;> rfl
  exact ⟨fun x y => key .sub .sub _ _ _ _ (by simp [opVal]), fun x y => key .sub .sub _ _ _ _ (by simp only [opVal]; ring), fun x y => key .mul .mul _ _ _ _ (by simp [opVal])⟩

/-- Two occupied orbitals of energy -1, three virtual ones of energy 1, any antisymmetric integrals that are weak enough, and IEEE arithmetic of `p` bits with largest number `Ω`:
runs of any length from amplitudes zero stay finite. -/
example (f : OneE (Fin 2) (Fin 3) ℝ) (I : TwoE (Fin 2) (Fin 3) ℝ) (hI : AntiI I) : ∃ z₀ : ℝ, 0 < z₀ ∧ ∀ z : ℝ, |z| ≤ z₀ →
    ∃ (T : Amp ℝ (Fin 2) (Fin 3)) (C Ω₀ : ℝ) (p₀ : ℕ), CC.ccsd_simple ((diagF (fun _ => -1) fun _ => 1).addMul z f) (I.mul z) T.1 T.2 = (fun _ _ => 0, fun _ _ _ _ => 0) ∧
      ∀ (p : ℕ) (hp : 0 < p) (Ω : ℝ) (hΩ : Ω ∈ Binary.F p (-1022 + 1 - p)), p₀ ≤ p → Ω₀ ≤ Ω → ∀ k,
      ∃ x : ℕ → Arr (Option ℝ) × Arr (Option ℝ), (∀ j < k, OStep (binaryOver p (-1022 + 1 - p) hp hΩ) id Prog.ccsd_stanton
          ((ham (n := fun k => k + 2) false ((diagF (fun _ => -1) fun _ => 1).addMul z f) (I.mul z)).map fun d => ⟨d.cx, d.arr.shape, fun idx => some (d.arr.val idx)⟩)
          ⟨false, [3, 2], fun _ => some 2⟩ ⟨false, [3, 3, 2, 2], fun _ => some 4⟩ (x j) (x (j + 1))) ∧ AllFin (x k).1 ∧ AllFin (x k).2 ∧
        ‖ampOf (n := fun k => k + 2) (fins (x k)) - T‖ ≤ (1 / 2) ^ k + C * (1 / 2) ^ p := by
  obtain ⟨z₀, hz, h⟩ := C106_weak (n := fun k => k + 2) id (fun _ _ => le_rfl) (Binary.two_pos (-1022)).le (sz_mono (Binary.two_pos (-1022)).le) (pk_mono (Binary.two_pos (-1022)).le) (c := 0) le_rfl false f I hI
    (fun _ => (-1 : ℝ)) (fun _ => 1) (fun _ _ => by norm_num) (fun _ _ _ _ => by norm_num) 1 one_pos (.inr rfl : Residuals Prog.ccsd_stanton)
  refine ⟨z₀, hz, fun z hzz => ?_⟩
  obtain ⟨T, hA, hn, hsol, C, u₀, Ω₀, hC, hu, h'⟩ := h z hzz
  obtain ⟨p₀, hp₀⟩ := exists_pow_lt_of_lt_one hu (by norm_num : (1 / 2 : ℝ) < 1)
  refine ⟨T, C, Ω₀, p₀, hsol, fun p hp Ω hΩ hpp hle k => ?_⟩
  have pu : ((1 : ℝ) / 2) ^ p ≤ u₀ := (pow_le_pow_of_le_one (by norm_num) (by norm_num) hpp).trans hp₀.le
  let x₀ : Arr (Option ℝ) × Arr (Option ℝ) := (⟨false, [3, 2], fun _ => some 0⟩, ⟨false, [3, 3, 2, 2], fun _ => some 0⟩)
  have z0 : ampOf (n := fun k => k + 2) (fins x₀) = 0 := rfl
  have gen : ∀ (η : ℝ) (O : Overflowing ℝ ((1 / 2) ^ p) η (szSum η) (pkSum η) Ω), η = 2 ^ (-1022 : ℤ) → OSign O → ∀ (x : ℕ → Arr (Option ℝ) × Arr (Option ℝ)), x 0 = x₀ → ∀ k,
      (∀ j < k, OStep O id Prog.ccsd_stanton
          ((ham (n := fun k => k + 2) false ((diagF (fun _ => -1) fun _ => 1).addMul z f) (I.mul z)).map fun d => ⟨d.cx, d.arr.shape, fun idx => some (d.arr.val idx)⟩)
          ⟨false, [3, 2], fun _ => some 2⟩ ⟨false, [3, 3, 2, 2], fun _ => some 4⟩ (x j) (x (j + 1))) →
      AllFin (x k).1 ∧ AllFin (x k).2 ∧ ‖ampOf (n := fun k => k + 2) (fins (x k)) - T‖ ≤ (1 / 2) ^ k * ‖ampOf (n := fun k => k + 2) (fins (x 0)) - T‖ + C * (1 / 2) ^ p ∧
      ∃ y, OStep O id Prog.ccsd_stanton
          ((ham (n := fun k => k + 2) false ((diagF (fun _ => -1) fun _ => 1).addMul z f) (I.mul z)).map fun d => ⟨d.cx, d.arr.shape, fun idx => some (d.arr.val idx)⟩)
          ⟨false, [3, 2], fun _ => some 2⟩ ⟨false, [3, 3, 2, 2], fun _ => some 4⟩ (x k) y := by
    intro η O e hO x hx
    subst e
    refine h' ((1 / 2) ^ p) (by positivity) pu Ω hle O hO id (fun _ => rfl) _ _ _ x (fun a ha => ?_) ?_ (fun _ _ => ⟨_, rfl⟩) (fun _ _ => ⟨_, rfl⟩)
      ⟨fun _ _ => by norm_num [fin], fun _ _ _ _ => by norm_num [fin]⟩ (by rw [hx]; exact fun _ _ => ⟨_, rfl⟩) (by rw [hx]; exact fun _ _ => ⟨_, rfl⟩)
      (by rw [hx]; exact ⟨⟨rfl, rfl⟩, rfl, rfl⟩) (by rw [hx, z0]; constructor <;> intro a b i j <;> simp) (by rw [hx]; exact (norm_le_zero_iff.2 z0).trans zero_le_one)
    · obtain ⟨d, -, rfl⟩ := List.mem_map.1 ha
      exact fun _ _ => ⟨_, rfl⟩
    · rw [List.map_map, List.forall₂_map_right_iff]
      exact List.forall₂_same.2 fun d _ => ⟨rfl, rfl, fun idx _ => by rw [zero_mul]; exact le_of_eq (by rw [norm_eq_zero]; exact sub_self _)⟩
  have key := gen _ (binaryOver p (-1022 + 1 - p) hp hΩ) (by congr 1; ring) (C106_ieee _ _ hp hΩ)
  obtain ⟨x, hx0, hx⟩ := chains (fun k x hx0 hx => (key x hx0 k hx).2.2.2) k
  obtain ⟨m1, m2, m3, -⟩ := key x hx0 k hx
  refine ⟨x, hx, m1, m2, m3.trans ?_⟩
  have : ‖ampOf (n := fun k => k + 2) (fins (x 0)) - T‖ ≤ 1 := by
    rw [hx0, show ampOf (n := fun k => k + 2) (fins x₀) = 0 from z0, zero_sub, norm_neg]
    exact hn
  have := mul_le_of_le_one_right (by positivity : (0 : ℝ) ≤ (1 / 2) ^ k) this
  linarith

end Heap
