import Verif.Props.OverflowIter
import Verif.Props.IterUniL
/-!
# C109: an iteration of the Lambda equations that converges never overflows
-/

namespace Heap
open Prog CC
variable {n : ℕ → ℕ} {K : Type} [RCLike K] {u η Ω : ℝ} {G H : List (List ℝ) → ℝ}

/-- One update of the multipliers in rounded arithmetic with overflow, for the amplitudes in `y`, followed by antisymmetrising. -/
def OStepL (O : Overflowing K u η G H Ω) (ore : Option K → Option K) (f : Fun) (ins : List (Arr (Option K))) (y : Arr (Option K) × Arr (Option K)) (d1 d2 : Arr (Option K))
    (a z : Arr (Option K) × Arr (Option K)) : Prop :=
  ∃ r1 r2 b, f.nrun (overflowing O true ore) (ins ++ [a.1, a.2] ++ [y.1, y.2]) = .ok [r1, r2] ∧ OUpd O a.1 r1 d1 z.1 ∧ OUpd O a.2 r2 d2 b ∧ OClean O b z.2

theorem sized_lam {B : ℝ} {t : Bool} {x : Arr K × Arr K} (ht : TypedL n t x) (hx : ‖(lamOf x : Amp K (Fin (n 1)) (Fin (n 0)))‖ ≤ B) (L : Amp K (Fin (n 1)) (Fin (n 0))) :
    Sized B (.two t 0 1 L.1 : Desc n K) x.1 ∧ Sized B (.four t 0 0 1 1 L.2 : Desc n K) x.2 := by
  refine ⟨⟨ht.1.1, ht.1.2, fun idx hi => ?_⟩, ht.2.1, ht.2.2, fun idx hi => ?_⟩
  · rw [ht.1.2] at hi
    match idx, hi with
    | [a, i], .cons ha (.cons hi .nil) => exact (le_amp1 (lamOf x : Amp K (Fin (n 1)) (Fin (n 0))) ⟨a, ha⟩ ⟨i, hi⟩).trans hx
  · rw [ht.2.2] at hi
    match idx, hi with
    | [a, b, i, j], .cons ha (.cons hb (.cons hi (.cons hj .nil))) =>
      exact (le_amp2 (lamOf x : Amp K (Fin (n 1)) (Fin (n 0))) ⟨a, ha⟩ ⟨b, hb⟩ ⟨i, hi⟩ ⟨j, hj⟩).trans hx

/-- C109: an update of multipliers of at most `B`, in an arithmetic with a large enough largest number, is an update in an arithmetic without overflow. -/
theorem C109_step {f : Fun} {hs : List (Desc n K)} {t : Bool} {T : Amp K (Fin (n 0)) (Fin (n 1))} {L R : Amp K (Fin (n 1)) (Fin (n 0))}
    (h : Computes f (hs ++ [.two t 0 1 L.1, .four t 0 0 1 1 L.2] ++ [.two t 1 0 T.1, .four t 1 1 0 0 T.2]) [.two t 0 1 R.1, .four t 0 0 1 1 R.2]) (hl : hs.length + 4 = f.params.length)
    (re : K → K) (hre : ∀ x y, ‖re x - re y‖ ≤ ‖x - y‖) {η : ℝ} (hη : 0 ≤ η) {G H : List (List ℝ) → ℝ} (hG : GMono G) (hH : GMono H) {B δ : ℝ} (hB : 0 ≤ B) (hδ : 0 < δ) :
    ∃ Ω₀, ∀ u (h0 : 0 ≤ u), u ≤ 1 → ∀ Ω, Ω₀ ≤ Ω → ∀ (O : Overflowing K u η G H Ω) (ore : Option K → Option K), (∀ x, ore (some x) = some (re x)) →
      ∀ (ins : List (Arr K)) (cs : List (Arr (Option K))) (y : Arr (Option K) × Arr (Option K)) (d1 d2 : Arr (Option K)) (x : Arr (Option K) × Arr (Option K)),
        List.Forall₂ (Sized B) hs ins → List.Forall₂ SameA ins cs → AllFin y.1 → AllFin y.2 → Typed n t (fins y) → ‖(ampOf (fins y) : Amp K (Fin (n 0)) (Fin (n 1)))‖ ≤ B →
        DenO δ [n 0, n 1] d1 → DenO δ [n 0, n 0, n 1, n 1] d2 → AllFin x.1 → AllFin x.2 →
        TypedL n t (fins x) → ‖(lamOf (fins x) : Amp K (Fin (n 1)) (Fin (n 0)))‖ ≤ B →
        (∃ z, OStepL O ore f cs y d1 d2 x z) ∧
          ∀ z, OStepL O ore f cs y d1 d2 x z → LStep (O.extend h0 hη hG) re f ins (fins y) (fin d1) (fin d2) (fins x) (fins z) ∧ AllFin z.1 ∧ AllFin z.2 := by
  obtain ⟨Rb, Ω₁, hR, hc⟩ := C106_call h (by simpa using hl) re hre hη hG hH hB
  refine ⟨max Ω₁ (top₁ η B (Rb / δ)), fun u h0 h1 Ω hΩ O ore ho ins cs y₀ d1 d2 x hi hcs fy1 fy2 hty hyB hd1 hd2 f1 f2 ht hx => ?_⟩
  obtain ⟨z1, z2⟩ := sized_lam ht hx L
  obtain ⟨z3, z4⟩ := sized_amp hty hyB T
  obtain ⟨xs, ys, r1, r2, r3, r4⟩ := hc u h0 h1 Ω ((le_max_left _ _).trans hΩ) O ore ho (ins ++ [fin x.1, fin x.2] ++ [fin y₀.1, fin y₀.2]) (cs ++ [x.1, x.2] ++ [y₀.1, y₀.2])
    (List.rel_append (List.rel_append hi (.cons z1 (.cons z2 .nil))) (.cons z3 (.cons z4 .nil)))
    (List.rel_append (List.rel_append hcs (.cons (fin_same f1) (.cons (fin_same f2) .nil))) (.cons (fin_same fy1) (.cons (fin_same fy2) .nil)))
  have hΩ2 := (le_max_right _ _).trans hΩ
  cases r4 with
  | @cons _ q1 _ _ g1 r4 =>
  cases r4 with
  | @cons _ q2 _ _ g2 r4 =>
  cases r4
  cases r3 with
  | @cons _ p1 _ _ k1 r3 =>
  cases r3 with
  | @cons _ p2 _ _ k2 r3 =>
  cases r3
  have s1 : x.1.shape = [n 0, n 1] := ht.1.2
  have s2 : x.2.shape = [n 0, n 0, n 1, n 1] := ht.2.2
  have e1 : q1.shape = x.1.shape := g1.2.1.trans s1.symm
  have e2 : q2.shape = x.2.shape := g2.2.1.trans s2.symm
  have Q0 : 0 ≤ Rb / δ := by positivity
  refine ⟨?_, fun y hy => ?_⟩
  · have quot : ∀ r d : Option K, ∃ q, OQuot u η Ω r d q := fun r d => by
      by_cases hq : ∃ r' d', r = some r' ∧ d = some d'
      · obtain ⟨r', d', rfl, rfl⟩ := hq
        refine ⟨some (r' / d'), fun r'' d'' a1 a2 _ _ => ⟨_, rfl, ?_⟩⟩
        cases a1; cases a2
        rw [sub_self, norm_zero]; positivity
      · exact ⟨none, fun r' d' a1 a2 => (hq ⟨r', d', a1, a2⟩).elim⟩
    choose Q hQ using quot
    refine ⟨(⟨x.1.cx, x.1.shape, fun idx => O.op .sub (x.1.val idx) (Q (p1.val idx) (d1.val idx))⟩, ⟨x.2.cx, x.2.shape, fun idx => ?_⟩), p1, p2,
      ⟨x.2.cx, x.2.shape, fun idx => O.op .sub (x.2.val idx) (Q (p2.val idx) (d2.val idx))⟩, r2, ⟨rfl, rfl, fun idx _ => ⟨_, hQ _ _, rfl⟩⟩,
      ⟨rfl, rfl, fun idx _ => ⟨_, hQ _ _, rfl⟩⟩, rfl, rfl, fun p q r s _ => ?_⟩
    · let b := fun idx => O.op .sub (x.2.val idx) (Q (p2.val idx) (d2.val idx))
      exact match idx with
      | [p, q, r, s] => O.op .mul (some (1 / 4)) (O.op .sub (O.op .sub (b [p, q, r, s]) (b [q, p, r, s])) (O.op .sub (b [p, q, s, r]) (b [q, p, s, r])))
      | _ => none
    · rfl
  · obtain ⟨p1', p2', b, w1, w2, w3, w4⟩ := hy
    rw [r2] at w1
    cases w1
    have u1 := oupd_fin h0 h1 hη hG O hB hR hδ hΩ2 (a := x.1) (r := p1) (d := d1)
      (fun idx hi => ⟨_, (fin_same f1).2.2 idx hi, z1.2.2 idx hi⟩) (fun idx hi => ⟨_, k1.2.2 idx (e1 ▸ hi), g1.2.2 idx (e1 ▸ hi)⟩)
      (fun idx hi => hd1 idx (s1 ▸ hi)) w2
    have u2 := oupd_fin h0 h1 hη hG O hB hR hδ hΩ2 (a := x.2) (r := p2) (d := d2)
      (fun idx hi => ⟨_, (fin_same f2).2.2 idx hi, z2.2.2 idx hi⟩) (fun idx hi => ⟨_, k2.2.2 idx (e2 ▸ hi), g2.2.2 idx (e2 ▸ hi)⟩)
      (fun idx hi => hd2 idx (s2 ▸ hi)) w3
    have hD : 0 ≤ upd₁ η B (Rb / δ) := by unfold upd₁ sub₁; positivity
    have hD' : 16 * upd₁ η B (Rb / δ) + 6 * η ≤ Ω := by
      refine le_trans ?_ hΩ2
      unfold top₁ sub₁; linarith
    have bs2 : b.shape = [n 0, n 0, n 1, n 1] := w3.2.1.trans s2
    have cl := oclean_fin h0 h1 hη hG O hD hD' bs2 (fun idx hi => by
      rw [w3.2.1] at hi
      obtain ⟨q, z, -, c1, -, c2⟩ := u2 idx hi
      exact ⟨z, c1, c2⟩) w4
    have val : ∀ {p : Arr (Option K)} {q : Arr K} {idx : List ℕ}, SameA q p → List.Forall₂ (· < ·) idx q.shape → (fin p).val idx = q.val idx := fun hs hi => by
      simp [fin, hs.2.2 _ hi]
    refine ⟨⟨(fin y.1, fin b), ⟨q1, q2, r1, ⟨w2.1, w2.2.1, fun idx hi => ?_⟩, w3.1, w3.2.1, fun idx hi => ?_⟩, rfl, w4.1, w4.2.1, fun p q r s hi => ?_⟩, fun idx hi => ?_, fun idx hi => ?_⟩
    · obtain ⟨q, z, c1, c2, c3, -⟩ := u1 idx hi
      rw [val k1 (e1 ▸ hi)] at c1
      refine ⟨q, c1, ?_⟩
      change (y.1.val idx).getD 0 = _
      rw [c2, c3]; rfl
    · obtain ⟨q, z, c1, c2, c3, -⟩ := u2 idx hi
      rw [val k2 (e2 ▸ hi)] at c1
      refine ⟨q, c1, ?_⟩
      change (b.val idx).getD 0 = _
      rw [c2, c3]; rfl
    · obtain ⟨z, c1, c2⟩ := cl p q r s hi
      change (y.2.val [p, q, r, s]).getD 0 = _
      rw [c1, c2]; rfl
    · rw [w2.2.1] at hi
      obtain ⟨q, z, -, c2, -⟩ := u1 idx hi
      exact ⟨z, c2⟩
    · rw [w4.2.1] at hi
      have hi' := hi
      rw [bs2] at hi'
      match idx, hi' with
      | [a, b', i, j], .cons _ (.cons _ (.cons _ (.cons _ .nil))) =>
        obtain ⟨z, c1, -⟩ := cl a b' i j hi
        exact ⟨z, c1⟩

/-- C109: an iteration of the Lambda equations that converges never overflows.  Under the assumptions of C97 there is a size `Ω₀` such that in every arithmetic whose largest number is at
least `Ω₀`, with integrals, amplitudes and denominators that are finite and wrong by at most `c * u`, no number of updates leads to an infinity or NaN, and the
multipliers are as accurate as without overflow. -/
theorem C109_attains (re : K → K) (hre : ∀ x y, ‖re x - re y‖ ≤ ‖x - y‖) {η : ℝ} (hη : 0 ≤ η) {G H : List (List ℝ) → ℝ} (hG : GMono G) (hH : GMono H) {c : ℝ} (hc : 0 ≤ c)
    (t : Bool) (F : OneE (Fin (n 0)) (Fin (n 1)) K) (I : TwoE (Fin (n 0)) (Fin (n 1)) K) (hI : AntiI I) (eo : Fin (n 0) → K) (ev : Fin (n 1) → K)
    (g1 : ∀ a i, ev a - eo i ≠ 0) (g2 : ∀ a b i j, ev a + ev b - eo i - eo j ≠ 0) (T : Amp K (Fin (n 0)) (Fin (n 1))) (hT : Anti T.2) (L : Amp K (Fin (n 1)) (Fin (n 0))) (hL : Anti L.2) (δ q : ℝ) (hδ : 0 < δ) (q0 : 0 ≤ q) (q1 : q < 1)
    (contr : ∀ X, Anti X.2 → ‖X - L‖ ≤ δ → ‖updateL F I eo ev T X - L‖ ≤ q * ‖X - L‖) {f : Fun} (hf : ResidualsL f) :
    ∃ C u₀ Ω₀ : ℝ, 0 ≤ C ∧ 0 < u₀ ∧ ∀ u, 0 ≤ u → u ≤ u₀ → ∀ Ω, Ω₀ ≤ Ω → ∀ (O : Overflowing K u η G H Ω), OSign O →
    ∀ (ore : Option K → Option K), (∀ x, ore (some x) = some (re x)) → ∀ (cs : List (Arr (Option K))) (y : Arr (Option K) × Arr (Option K)) (d1 d2 : Arr (Option K)) (x : ℕ → Arr (Option K) × Arr (Option K)),
      (∀ a ∈ cs, AllFin a) → List.Forall₂ (NearIs (c * u)) (hamL t F I) (cs.map fin) → AllFin y.1 → AllFin y.2 → NearAmp (c * u) t T (fins y) →
      (∀ idx, List.Forall₂ (· < ·) idx [n 0, n 1] → ∃ z, d1.val idx = some z) → (∀ idx, List.Forall₂ (· < ·) idx [n 0, n 0, n 1, n 1] → ∃ z, d2.val idx = some z) →
      NearDenL (c * u) eo ev (fin d1) (fin d2) → AllFin (x 0).1 → AllFin (x 0).2 →
      TypedL n t (fins (x 0)) → Anti (lamOf (fins (x 0)) : Amp K (Fin (n 1)) (Fin (n 0))).2 → ‖lamOf (fins (x 0)) - L‖ ≤ δ →
      ∀ k, (∀ j < k, OStepL O ore f cs y d1 d2 (x j) (x (j + 1))) →
        AllFin (x k).1 ∧ AllFin (x k).2 ∧ TypedL n t (fins (x k)) ∧ Anti (lamOf (fins (x k)) : Amp K (Fin (n 1)) (Fin (n 0))).2 ∧ ‖lamOf (fins (x k)) - L‖ ≤ δ ∧
        ‖lamOf (fins (x k)) - L‖ ≤ q ^ k * ‖lamOf (fins (x 0)) - L‖ + C * u ∧ ∃ z, OStepL O ore f cs y d1 d2 (x k) z := by
  obtain ⟨C, u₀, hC, hu, hu1, h⟩ := C97_attains re hre hη hG hc t F I hI T hT eo ev g1 g2 L hL δ q hδ q0 q1 contr hf
  obtain ⟨g, hg, hg1, hg2⟩ := gap_exists eo ev g1 g2
  obtain ⟨M, hM, hb⟩ := desc_bounds (hamL t F I) (‖T‖ + (‖L‖ + δ))
  obtain ⟨e1, e2⟩ := residualsL_compute t F I hI hf T hT L hL
  have M0 : 0 ≤ M := le_trans (by positivity) hM
  obtain ⟨Ω₀, hs⟩ := C109_step e1 e2 re hre hη hG hH (B := M + c) (δ := g) (by positivity) hg
  refine ⟨C, min u₀ (g / (c + 1)), Ω₀, hC, by positivity, fun u u0 uu Ω hΩ O hO ore ho cs y d1 d2 x fcs hi fy1 fy2 hy fd1 fd2 hd f1 f2 t0 a0 n0 => ?_⟩
  have uu0 := uu.trans (min_le_left _ _)
  have cu : c * u ≤ g := by
    have := (le_div_iff₀ (by positivity)).1 (uu.trans (min_le_right _ _))
    nlinarith
  have cu1 : c * u ≤ c := mul_le_of_le_one_right hc (uu0.trans hu1)
  have key := h u u0 uu0 (O.extend u0 hη hG) (extend_sign hO u0 hη hG) (cs.map fin) (fins y) (fin d1) (fin d2) (fun j => fins (x j)) hi hy hd t0 a0 n0
  have sized : List.Forall₂ (Sized (M + c)) (hamL t F I) (cs.map fin) := by
    rw [List.forall₂_map_left_iff, List.forall₂_same] at hb
    refine List.forall₂_iff_get.mpr ⟨hi.length_eq, fun i i1 i2 => ?_⟩
    have w1 := (List.forall₂_iff_get.mp hi).2 i i1 i2
    have w2 := hb _ (List.get_mem (hamL t F I) ⟨i, i1⟩)
    refine ⟨w1.1, w1.2.1, fun idx hidx => ?_⟩
    have w3 := w1.2.2 idx hidx
    rw [w1.2.1] at hidx
    have w4 := w2.2.2 idx hidx
    have := norm_sub_norm_le (((cs.map fin).get ⟨i, i2⟩).val idx) (Cur.get ((hamL t F I).get ⟨i, i1⟩).ten.shape ((hamL t F I).get ⟨i, i1⟩).ten.val idx)
    linarith
  have same : List.Forall₂ SameA (cs.map fin) cs := by
    rw [List.forall₂_map_left_iff]
    exact List.forall₂_same.mpr fun a ha => fin_same (fcs a ha)
  have far : ∀ z D : K, ‖z - D‖ ≤ c * u → 2 * g ≤ ‖D‖ → g ≤ ‖z‖ := fun z D h1 h2 => by
    have := norm_sub_norm_le D z
    rw [norm_sub_rev] at this
    linarith
  have den1 : DenO g [n 0, n 1] d1 := fun idx hidx => by
    obtain ⟨z, hz⟩ := fd1 idx hidx
    refine ⟨z, hz, ?_⟩
    match idx, hidx with
    | [a, i], .cons ha (.cons hi .nil) =>
      have := hd.1 ⟨a, ha⟩ ⟨i, hi⟩
      simp only [fin, hz, Option.getD_some] at this
      exact far z _ this (hg1 _ _)
  have den2 : DenO g [n 0, n 0, n 1, n 1] d2 := fun idx hidx => by
    obtain ⟨z, hz⟩ := fd2 idx hidx
    refine ⟨z, hz, ?_⟩
    match idx, hidx with
    | [a, b, i, j], .cons ha (.cons hb (.cons hi (.cons hj .nil))) =>
      have := hd.2 ⟨a, ha⟩ ⟨b, hb⟩ ⟨i, hi⟩ ⟨j, hj⟩
      simp only [fin, hz, Option.getD_some] at this
      exact far z _ this (hg2 _ _ _ _)
  have small : ∀ X : Amp K (Fin (n 1)) (Fin (n 0)), ‖X - L‖ ≤ δ → ‖X‖ ≤ M + c := fun X hX => by
    have := norm_sub_norm_le X L
    have := norm_nonneg T
    linarith
  obtain ⟨hty, hyT⟩ := (nearAmp_iff (mul_nonneg hc u0)).1 hy
  have hyB : ‖(ampOf (fins y) : Amp K (Fin (n 0)) (Fin (n 1)))‖ ≤ M + c := by
    have := norm_sub_norm_le (ampOf (fins y) : Amp K (Fin (n 0)) (Fin (n 1))) T
    have := norm_nonneg L
    linarith
  have step := fun j => hs u u0 (uu0.trans hu1) Ω hΩ O ore ho (cs.map fin) cs y d1 d2 (x j) sized same fy1 fy2 hty hyB den1 den2
  have run : ∀ k, (∀ j < k, OStepL O ore f cs y d1 d2 (x j) (x (j + 1))) →
      (∀ j < k, LStep (O.extend u0 hη hG) re f (cs.map fin) (fins y) (fin d1) (fin d2) (fins (x j)) (fins (x (j + 1)))) ∧ AllFin (x k).1 ∧ AllFin (x k).2 := by
    intro k
    induction k with
    | zero => exact fun _ => ⟨nofun, f1, f2⟩
    | succ k ih =>
      intro hk
      obtain ⟨i1, i2, i3⟩ := ih fun j hj => hk j (by omega)
      obtain ⟨m1, -, m3, -, -⟩ := key k i1
      obtain ⟨w1, w2, w3⟩ := (step k i2 i3 m1 (small _ m3)).2 _ (hk k (by omega))
      refine ⟨fun j hj => ?_, w2, w3⟩
      rcases Nat.lt_succ_iff_lt_or_eq.1 hj with hj | rfl
      · exact i1 j hj
      · exact w1
  intro k hk
  obtain ⟨i1, i2, i3⟩ := run k hk
  obtain ⟨m1, m2, m3, m4, -⟩ := key k i1
  exact ⟨i2, i3, m1, m2, m3, m4, (step k i2 i3 m1 (small _ m3)).1⟩

/-- Denominators that are finite. -/
def FinOn (s : List ℕ) (d : Arr (Option K)) : Prop := ∀ idx, List.Forall₂ (· < ·) idx s → ∃ z, d.val idx = some z

/-- What a calculation is given: finite arrays. -/
structure FinIn (n : ℕ → ℕ) (ins insL : List (Arr (Option K))) (d1 d2 e1 e2 : Arr (Option K)) (x₀ y₀ : Arr (Option K) × Arr (Option K)) : Prop where
  ins : ∀ a ∈ ins, AllFin a
  insL : ∀ a ∈ insL, AllFin a
  d1 : FinOn [n 1, n 0] d1
  d2 : FinOn [n 1, n 1, n 0, n 0] d2
  e1 : FinOn [n 0, n 1] e1
  e2 : FinOn [n 0, n 0, n 1, n 1] e2
  x : AllFin x₀.1 ∧ AllFin x₀.2
  y : AllFin y₀.1 ∧ AllFin y₀.2

/-- C109: a whole calculation never overflows.  The amplitudes are iterated `k` times, then the multipliers `m` times with the amplitudes obtained, then any routine is called
with them.  There is a size `Ω₀`, the same for all small unit roundoffs, such that in every arithmetic whose largest number is at least `Ω₀` there are neither
infinities nor NaNs after any number of updates of the amplitudes, and for `k ≥ N` after any number of updates of the multipliers, and for `k, m ≥ N` the results
of the routine are finite and within `C * u` of the exact ones. -/
theorem C109_pipeline (re : K → K) (hre : ∀ x y, ‖re x - re y‖ ≤ ‖x - y‖) {η : ℝ} (hη : 0 ≤ η) {G H : List (List ℝ) → ℝ} (hG : GMono G) (hH : GMono H) {c : ℝ} (hc : 0 ≤ c)
    (t : Bool) (F : OneE (Fin (n 0)) (Fin (n 1)) K) (I : TwoE (Fin (n 0)) (Fin (n 1)) K) (hI : AntiI I)
    (eo : Fin (n 0) → K) (ev : Fin (n 1) → K) (g1 : ∀ a i, ev a - eo i ≠ 0) (g2 : ∀ a b i j, ev a + ev b - eo i - eo j ≠ 0)
    (T : Amp K (Fin (n 0)) (Fin (n 1))) (hT : Anti T.2) (L : Amp K (Fin (n 1)) (Fin (n 0))) (hL : Anti L.2)
    (δ δ' q : ℝ) (hδ : 0 < δ) (hδ' : 0 < δ') (q0 : 0 ≤ q) (q1 : q < 1)
    (contr : ∀ X, Anti X.2 → ‖X - T‖ ≤ δ → ‖update F I eo ev X - T‖ ≤ q * ‖X - T‖)
    (contrL : ∀ X, Anti X.2 → ‖X - L‖ ≤ δ' → ‖updateL F I eo ev T X - L‖ ≤ q * ‖X - L‖)
    {f g h : Fun} (hf : Residuals f) (hg : ResidualsL g) {ds es : List (Desc n K)} (hh : Computes h ds es) (hp : ds.length = h.params.length) :
    ∃ C u₀ Ω₀ : ℝ, 0 ≤ C ∧ 0 < u₀ ∧ u₀ ≤ 1 ∧ ∀ u, 0 < u → u ≤ u₀ → ∃ N : ℕ, ∀ Ω, Ω₀ ≤ Ω → ∀ (O : Overflowing K u η G H Ω), OSign O →
      ∀ (ore : Option K → Option K), (∀ x, ore (some x) = some (re x)) → ∀ (ins insL : List (Arr (Option K))) (d1 d2 e1 e2 : Arr (Option K))
      (x₀ y₀ : Arr (Option K) × Arr (Option K)), FinIn n ins insL d1 d2 e1 e2 x₀ y₀ →
      List.Forall₂ (NearIs (c * u)) (ham t F I) (ins.map fin) → List.Forall₂ (NearIs (c * u)) (hamL t F I) (insL.map fin) →
      NearDen (c * u) eo ev (fin d1) (fin d2) → NearDenL (c * u) eo ev (fin e1) (fin e2) →
      Typed n t (fins x₀) → Anti (ampOf (fins x₀) : Amp K (Fin (n 0)) (Fin (n 1))).2 → ‖ampOf (fins x₀) - T‖ ≤ δ →
      TypedL n t (fins y₀) → Anti (lamOf (fins y₀) : Amp K (Fin (n 1)) (Fin (n 0))).2 → ‖lamOf (fins y₀) - L‖ ≤ δ' →
      (∀ k m, N ≤ k → ∃ x y : ℕ → Arr (Option K) × Arr (Option K), x 0 = x₀ ∧ y 0 = y₀ ∧ (∀ j < k, OStep O ore f ins d1 d2 (x j) (x (j + 1))) ∧
        ∀ j < m, OStepL O ore g insL (x k) e1 e2 (y j) (y (j + 1))) ∧
      ∀ (x : ℕ → Arr (Option K) × Arr (Option K)) (k : ℕ), x 0 = x₀ → (∀ j < k, OStep O ore f ins d1 d2 (x j) (x (j + 1))) → (AllFin (x k).1 ∧ AllFin (x k).2) ∧
        (N ≤ k → ‖ampOf (fins (x k)) - T‖ ≤ C * u ∧
          ∀ (y : ℕ → Arr (Option K) × Arr (Option K)) (m : ℕ), y 0 = y₀ → (∀ j < m, OStepL O ore g insL (x k) e1 e2 (y j) (y (j + 1))) → (AllFin (y m).1 ∧ AllFin (y m).2) ∧
            (N ≤ m → ‖lamOf (fins (y m)) - L‖ ≤ C * u ∧
              ∀ bs, List.Forall₂ (fun d b => AllFin b ∧ Arg (c * u) t T L (fins (x k)) (fins (y m)) d (fin b)) ds bs →
                ∃ rs, h.nrun (overflowing O true ore) bs = .ok rs ∧ (∀ r ∈ rs, AllFin r) ∧ List.Forall₂ (NearIs (C * u)) es (rs.map fin))) := by
  obtain ⟨C₁, u₁, Ω₁, hC₁, hu₁, h₁⟩ := C106_attains re hre hη hG hH hc t F I hI eo ev g1 g2 T hT δ q hδ q0 q1 contr hf
  obtain ⟨C₂, u₂, Ω₂, hC₂, hu₂, h₂⟩ := C109_attains re hre hη hG hH (c := c + C₁ + 1) (by positivity) t F I hI eo ev g1 g2 T hT L hL δ' q hδ' q0 q1 contrL hg
  obtain ⟨M, M0, hM⟩ := desc_bounds ds 0
  obtain ⟨C₃, hC₃, h₃⟩ := C60_uniform_routine (ι := Unit) h (fun _ => ds) (fun _ => es) (fun _ => hh) (fun _ => hp) _ (M := M) (fun _ => hM)
    re hre hη hG (c := c + C₁ + C₂ + 1) (by positivity)
  obtain ⟨R, Ω₃, -, h₄⟩ := C106_call hh hp re hre hη hG hH (B := M + (c + C₁ + C₂ + 1)) (by positivity)
  refine ⟨C₁ + C₂ + C₃ + 1, min (min u₁ u₂) 1, max Ω₁ (max Ω₂ Ω₃), by positivity, lt_min (lt_min hu₁ hu₂) one_pos, min_le_right _ _, fun u u0 uu => ?_⟩
  have uu1 := (uu.trans (min_le_left _ _)).trans (min_le_left _ _)
  have uu2 := (uu.trans (min_le_left _ _)).trans (min_le_right _ _)
  have uu3 := uu.trans (min_le_right _ _)
  obtain ⟨N, hN⟩ := exists_pow_lt_of_lt_one (show 0 < u / (δ + δ') by positivity) q1
  refine ⟨N, fun Ω hΩ O hO ore ho ins insL d1 d2 e1 e2 x₀ y₀ hfin hi hiL hd he tx ax nx ty ay ny => ?_⟩
  have Ω1 := (le_max_left _ _).trans hΩ
  have Ω2 := ((le_max_left _ _).trans (le_max_right _ _)).trans hΩ
  have Ω3 := ((le_max_right _ _).trans (le_max_right _ _)).trans hΩ
  have small : ∀ k, N ≤ k → ∀ s : ℝ, 0 ≤ s → s ≤ δ + δ' → q ^ k * s ≤ u := fun k hk s s0 hs => by
    have h1 : q ^ k * s ≤ q ^ N * (δ + δ') := mul_le_mul (pow_le_pow_of_le_one q0 q1.le hk) hs s0 (pow_nonneg q0 _)
    have h2 := mul_le_mul_of_nonneg_right hN.le (by positivity : 0 ≤ δ + δ')
    rw [div_mul_cancel₀ _ (by positivity : δ + δ' ≠ 0)] at h2
    linarith
  have up : ∀ {a b : ℝ}, a ≤ b → a * u ≤ b * u := fun h => mul_le_mul_of_nonneg_right h u0.le
  have amps : ∀ (x : ℕ → Arr (Option K) × Arr (Option K)) (k : ℕ), x 0 = x₀ → (∀ j < k, OStep O ore f ins d1 d2 (x j) (x (j + 1))) →
      ((AllFin (x k).1 ∧ AllFin (x k).2) ∧ Typed n t (fins (x k)) ∧ (N ≤ k → ‖ampOf (fins (x k)) - T‖ ≤ (C₁ + 1) * u)) ∧ ∃ z, OStep O ore f ins d1 d2 (x k) z := by
    rintro x k rfl hx
    obtain ⟨p1, p2, p3, -, -, p4, p5⟩ := h₁ u u0.le uu1 Ω Ω1 O hO ore ho ins d1 d2 x hfin.ins hi hfin.d1 hfin.d2 hd hfin.x.1 hfin.x.2 tx ax nx k hx
    exact ⟨⟨⟨p1, p2⟩, p3, fun hk => by linarith [small k hk _ (norm_nonneg _) (nx.trans (by linarith))]⟩, p5⟩
  have hi' : List.Forall₂ (NearIs ((c + C₁ + 1) * u)) (hamL t F I) (insL.map fin) := hiL.imp fun _ _ h => ⟨h.1, h.2.1, fun idx hi => (h.2.2 idx hi).trans (up (by linarith))⟩
  have lams : ∀ (w : Arr (Option K) × Arr (Option K)) (y : ℕ → Arr (Option K) × Arr (Option K)) (m : ℕ), AllFin w.1 ∧ AllFin w.2 → Typed n t (fins w) →
      ‖ampOf (fins w) - T‖ ≤ (C₁ + 1) * u → y 0 = y₀ → (∀ j < m, OStepL O ore g insL w e1 e2 (y j) (y (j + 1))) →
      ((AllFin (y m).1 ∧ AllFin (y m).2) ∧ TypedL n t (fins (y m)) ∧ (N ≤ m → ‖lamOf (fins (y m)) - L‖ ≤ (C₂ + 1) * u)) ∧ ∃ z, OStepL O ore g insL w e1 e2 (y m) z := by
    rintro w y m pf p1 p5 rfl hy
    obtain ⟨f1, f2, q1', -, -, q4, q5⟩ := h₂ u u0.le uu2 Ω Ω2 O hO ore ho insL w e1 e2 y hfin.insL hi' pf.1 pf.2
      ((nearAmp_iff (by positivity)).2 ⟨p1, p5.trans (up (by linarith))⟩) hfin.e1 hfin.e2
      ⟨fun i a => (he.1 i a).trans (up (by linarith)), fun i j a b => (he.2 i j a b).trans (up (by linarith))⟩ hfin.y.1 hfin.y.2 ty ay ny m hy
    exact ⟨⟨⟨f1, f2⟩, q1', fun hm => by linarith [small m hm _ (norm_nonneg _) (ny.trans (by linarith))]⟩, q5⟩
  refine ⟨fun k m hk => ?_, fun x k hx0 hx => ?_⟩
  · obtain ⟨x, hx0, hx⟩ := chains (fun k x h0 hx => (amps x k h0 hx).2) k
    obtain ⟨⟨pf, p1, p2⟩, -⟩ := amps x k hx0 hx
    obtain ⟨y, hy0, hy⟩ := chains (fun m y h0 hy => (lams (x k) y m pf p1 (p2 hk) h0 hy).2) m
    exact ⟨x, y, hx0, hy0, hx, hy⟩
  obtain ⟨⟨pf, p1, p2⟩, -⟩ := amps x k hx0 hx
  refine ⟨pf, fun hk => ?_⟩
  have p5 := p2 hk
  refine ⟨p5.trans (up (by linarith)), fun y m hy0 hy => ?_⟩
  obtain ⟨⟨qf, q1', q2⟩, -⟩ := lams (x k) y m pf p1 p5 hy0 hy
  refine ⟨qf, fun hm => ?_⟩
  have q6 := q2 hm
  have nT : NearAmp ((c + C₁ + C₂ + 1) * u) t T (fins (x k)) := (nearAmp_iff (by positivity)).2 ⟨p1, p5.trans (up (by linarith))⟩
  have nL := nearLam (ε := (c + C₁ + C₂ + 1) * u) (by positivity) q1' (q6.trans (up (by linarith)))
  refine ⟨q6.trans (up (by linarith)), fun bs hbs => ?_⟩
  have near : List.Forall₂ (NearIs ((c + C₁ + C₂ + 1) * u)) ds (bs.map fin) := by
    rw [List.forall₂_map_right_iff]
    refine hbs.imp fun d b h => ?_
    rcases h.2 with ⟨rfl, e⟩ | ⟨rfl, e⟩ | ⟨rfl, e⟩ | ⟨rfl, e⟩ | h
    · rw [e]; exact nT.1
    · rw [e]; exact nT.2
    · rw [e]; exact nL.1
    · rw [e]; exact nL.2
    · exact ⟨h.1, h.2.1, fun idx hi => (h.2.2 idx hi).trans (up (by linarith))⟩
  have sized : List.Forall₂ (Sized (M + (c + C₁ + C₂ + 1))) ds (bs.map fin) := by
    rw [List.forall₂_map_left_iff, List.forall₂_same] at hM
    refine List.forall₂_iff_get.mpr ⟨near.length_eq, fun i i1 i2 => ?_⟩
    have w1 := (List.forall₂_iff_get.mp near).2 i i1 i2
    have w2 := hM _ (List.get_mem ds ⟨i, i1⟩)
    refine ⟨w1.1, w1.2.1, fun idx hidx => ?_⟩
    have w3 := w1.2.2 idx hidx
    rw [w1.2.1] at hidx
    have w4 := w2.2.2 idx hidx
    have w5 : (c + C₁ + C₂ + 1) * u ≤ c + C₁ + C₂ + 1 := mul_le_of_le_one_right (by positivity) uu3
    have := norm_sub_norm_le (((bs.map fin).get ⟨i, i2⟩).val idx) (Cur.get (ds.get ⟨i, i1⟩).ten.shape (ds.get ⟨i, i1⟩).ten.val idx)
    linarith
  have same : List.Forall₂ SameA (bs.map fin) bs := by
    rw [List.forall₂_map_left_iff]
    refine List.forall₂_same.mpr fun b hb => ?_
    obtain ⟨i, hi, rfl⟩ := List.getElem_of_mem hb
    exact fin_same ((List.forall₂_iff_get.mp hbs).2 i (by rw [hbs.length_eq]; exact hi) hi).1
  obtain ⟨xs, ys, r1, r2, r3, -⟩ := h₄ u u0.le uu3 Ω Ω3 O ore ho (bs.map fin) bs sized same
  obtain ⟨rs, e, hr⟩ := h₃ () u u0.le uu3 (O.extend u0.le hη hG) (bs.map fin) near
  rw [r1] at e
  cases e
  refine ⟨ys, r2, fun y hy => ?_, List.forall₂_iff_get.mpr ⟨by rw [hr.length_eq, r3.length_eq, List.length_map], fun i i1 i2 => ?_⟩⟩
  · obtain ⟨i, hi, rfl⟩ := List.getElem_of_mem hy
    have w := (List.forall₂_iff_get.mp r3).2 i (by rw [r3.length_eq]; exact hi) hi
    exact fun idx hidx => ⟨_, w.2.2 idx (w.2.1 ▸ hidx)⟩
  · have l2 : i < ys.length := by simpa using i2
    have l1 : i < xs.length := by rw [r3.length_eq]; exact l2
    have w := (List.forall₂_iff_get.mp r3).2 i l1 l2
    have v := (List.forall₂_iff_get.mp hr).2 i i1 l1
    have ee : (ys.map fin).get ⟨i, i2⟩ = fin (ys.get ⟨i, l2⟩) := by simp
    rw [ee]
    refine ⟨w.1.trans v.1, w.2.1.trans v.2.1, fun idx hidx => ?_⟩
    have hidx' : List.Forall₂ (· < ·) idx (xs.get ⟨i, l1⟩).shape := w.2.1 ▸ hidx
    have := v.2.2 idx hidx'
    rw [show (fin (ys.get ⟨i, l2⟩)).val idx = (xs.get ⟨i, l1⟩).val idx by simp only [fin, w.2.2 idx hidx', Option.getD_some]]
    exact this.trans (up (by linarith))

/-- Exact numbers, as an array that could hold infinities. -/
def optArr (d : Desc n K) : Arr (Option K) := ⟨d.cx, d.arr.shape, fun idx => some (d.arr.val idx)⟩

/-- Two occupied orbitals of energy -1, three virtual ones of energy 1, any antisymmetric integrals that are weak enough, and IEEE arithmetic of `p` bits with largest number `Ω`:
amplitudes by `ccsd_stanton`, multipliers by `ccsd_lambda_opt`, both from zero, and the occupied block of the one-particle density matrix, all finite. -/
example (f : OneE (Fin 2) (Fin 3) ℝ) (I : TwoE (Fin 2) (Fin 3) ℝ) (hI : AntiI I) : ∃ z₀ : ℝ, 0 < z₀ ∧ ∀ z : ℝ, |z| ≤ z₀ →
    ∃ (T : Amp ℝ (Fin 2) (Fin 3)) (L : Amp ℝ (Fin 3) (Fin 2)) (C Ω₀ : ℝ) (p₀ : ℕ),
      CC.ccsd_simple ((diagF (fun _ => -1) fun _ => 1).addMul z f) (I.mul z) T.1 T.2 = (fun _ _ => 0, fun _ _ _ _ => 0) ∧
      CC.ccsd_lambda_simple ((diagF (fun _ => -1) fun _ => 1).addMul z f) (I.mul z) L.1 L.2 T.1 T.2 = (fun _ _ => 0, fun _ _ _ _ => 0) ∧
      ∀ (p : ℕ) (hp : 0 < p) (Ω : ℝ) (hΩ : Ω ∈ Binary.F p (-1022 + 1 - p)), p₀ ≤ p → Ω₀ ≤ Ω →
      ∃ (k : ℕ) (x y : ℕ → Arr (Option ℝ) × Arr (Option ℝ)), (∀ j < k, OStep (binaryOver p (-1022 + 1 - p) hp hΩ) id Prog.ccsd_stanton
          ((ham (n := fun k => k + 2) false ((diagF (fun _ => -1) fun _ => 1).addMul z f) (I.mul z)).map optArr)
          ⟨false, [3, 2], fun _ => some 2⟩ ⟨false, [3, 3, 2, 2], fun _ => some 4⟩ (x j) (x (j + 1))) ∧
        (∀ j < k, OStepL (binaryOver p (-1022 + 1 - p) hp hΩ) id Prog.ccsd_lambda_opt
          ((hamL (n := fun k => k + 2) false ((diagF (fun _ => -1) fun _ => 1).addMul z f) (I.mul z)).map optArr) (x k)
          ⟨false, [2, 3], fun _ => some 2⟩ ⟨false, [2, 2, 3, 3], fun _ => some 4⟩ (y j) (y (j + 1))) ∧
        ∃ d, Prog.ccsd_1rdm_ji.nrun (overflowing (binaryOver p (-1022 + 1 - p) hp hΩ) true id) [(x k).1, (x k).2, (y k).1, (y k).2] = .ok [d] ∧ AllFin d ∧
          ∀ i j : Fin 2, |(fin d).val [i.1, j.1] - CC.ccsd_1rdm_ji T.1 T.2 L.1 L.2 i j| ≤ C * (1 / 2) ^ p := by
  obtain ⟨z₁, hz1, h1⟩ := C66_converges (fun _ : Fin 2 => (-1 : ℝ)) (fun _ : Fin 3 => 1) f I hI (fun _ _ => by norm_num) (fun _ _ _ _ => by norm_num) 1 one_pos
  obtain ⟨z₂, hz2, h2⟩ := C66_lambda_converges (fun _ : Fin 2 => (-1 : ℝ)) (fun _ : Fin 3 => 1) f I hI (fun _ _ => by norm_num) (fun _ _ _ _ => by norm_num) 1
  obtain ⟨z₃, hz3, h3⟩ := C66_converges (fun _ : Fin 2 => (-1 : ℝ)) (fun _ : Fin 3 => 1) f I hI (fun _ _ => by norm_num) (fun _ _ _ _ => by norm_num) 3 (by norm_num)
  refine ⟨min z₁ (min z₂ z₃), lt_min hz1 (lt_min hz2 hz3), fun z hz => ?_⟩
  obtain ⟨T, hA, hn, hsol, -, -⟩ := h1 z (hz.trans (min_le_left _ _))
  obtain ⟨T', -, -, -, huniq, hcv⟩ := h3 z (hz.trans ((min_le_right _ _).trans (min_le_right _ _)))
  obtain rfl := huniq T hA (by linarith) hsol
  obtain ⟨L, hL, hLs, hLc⟩ := h2 z (hz.trans ((min_le_right _ _).trans (min_le_left _ _))) T hA hn
  obtain ⟨C, u₀, Ω₀, hC, hu, hu1, h'⟩ := C109_pipeline (n := fun k => k + 2) id (fun _ _ => le_rfl) (Binary.two_pos (-1022)).le (sz_mono (Binary.two_pos (-1022)).le)
    (pk_mono (Binary.two_pos (-1022)).le) (c := 0) le_rfl false ((diagF (fun _ => -1) fun _ => 1).addMul z f) (I.mul z) (TwoE.mul_anti hI z) (fun _ => (-1 : ℝ)) (fun _ => 1)
    (fun _ _ => by norm_num) (fun _ _ _ _ => by norm_num) T hA L hL 2 (1 + ‖L‖) (1 / 2) (by norm_num) (by positivity) (by norm_num) (by norm_num)
    (fun X hX hd => by
      have := hcv X hX (by have := norm_sub_norm_le X T; linarith) 1
      simpa using this)
    (fun X hX _ => by simpa using hLc X hX 1) (.inr rfl : Residuals Prog.ccsd_stanton) (.inr (.inl rfl) : ResidualsL Prog.ccsd_lambda_opt)
    (C53_ccsd_1rdm_ji (n := fun k => k + 2) (l := false) (t := false) T.1 T.2 L.1 L.2) rfl
  obtain ⟨p₀, hp₀⟩ := exists_pow_lt_of_lt_one hu (by norm_num : (1 / 2 : ℝ) < 1)
  refine ⟨T, L, C, Ω₀, p₀, hsol, (hLs L hL).2 rfl, fun p hp Ω hΩ hpp hle => ?_⟩
  have pu : ((1 : ℝ) / 2) ^ p ≤ u₀ := (pow_le_pow_of_le_one (by norm_num) (by norm_num) hpp).trans hp₀.le
  obtain ⟨N, hN⟩ := h' ((1 / 2) ^ p) (by positivity) pu
  have near : ∀ ds : List (Desc (fun k => k + 2) ℝ), List.Forall₂ (NearIs (0 * (1 / 2) ^ p)) ds ((ds.map optArr).map fin) := fun ds => by
    rw [List.map_map, List.forall₂_map_right_iff]
    exact List.forall₂_same.2 fun d _ => ⟨rfl, rfl, fun idx _ => by rw [zero_mul]; exact le_of_eq (by rw [norm_eq_zero]; exact sub_self _)⟩
  have allf : ∀ ds : List (Desc (fun k => k + 2) ℝ), ∀ a ∈ ds.map optArr, AllFin a := fun ds a ha => by
    obtain ⟨d, -, rfl⟩ := List.mem_map.1 ha
    exact fun _ _ => ⟨_, rfl⟩
  have gen : ∀ (η : ℝ) (O : Overflowing ℝ ((1 / 2) ^ p) η (szSum η) (pkSum η) Ω), η = 2 ^ (-1022 : ℤ) → OSign O →
      ∃ (k : ℕ) (x y : ℕ → Arr (Option ℝ) × Arr (Option ℝ)), (∀ j < k, OStep O id Prog.ccsd_stanton
          ((ham (n := fun k => k + 2) false ((diagF (fun _ => -1) fun _ => 1).addMul z f) (I.mul z)).map optArr)
          ⟨false, [3, 2], fun _ => some 2⟩ ⟨false, [3, 3, 2, 2], fun _ => some 4⟩ (x j) (x (j + 1))) ∧
        (∀ j < k, OStepL O id Prog.ccsd_lambda_opt
          ((hamL (n := fun k => k + 2) false ((diagF (fun _ => -1) fun _ => 1).addMul z f) (I.mul z)).map optArr) (x k)
          ⟨false, [2, 3], fun _ => some 2⟩ ⟨false, [2, 2, 3, 3], fun _ => some 4⟩ (y j) (y (j + 1))) ∧
        ∃ d, Prog.ccsd_1rdm_ji.nrun (overflowing O true id) [(x k).1, (x k).2, (y k).1, (y k).2] = .ok [d] ∧ AllFin d ∧
          ∀ i j : Fin 2, |(fin d).val [i.1, j.1] - CC.ccsd_1rdm_ji T.1 T.2 L.1 L.2 i j| ≤ C * (1 / 2) ^ p := by
    intro η O e hO
    subst e
    obtain ⟨r1, r2⟩ := hN Ω hle O hO id (fun _ => rfl) _ _ ⟨false, [3, 2], fun _ => some 2⟩ ⟨false, [3, 3, 2, 2], fun _ => some 4⟩ ⟨false, [2, 3], fun _ => some 2⟩ ⟨false, [2, 2, 3, 3], fun _ => some 4⟩
      (⟨false, [3, 2], fun _ => some 0⟩, ⟨false, [3, 3, 2, 2], fun _ => some 0⟩) (⟨false, [2, 3], fun _ => some 0⟩, ⟨false, [2, 2, 3, 3], fun _ => some 0⟩)
      { ins := allf _, insL := allf _, d1 := fun _ _ => ⟨2, rfl⟩, d2 := fun _ _ => ⟨4, rfl⟩, e1 := fun _ _ => ⟨2, rfl⟩, e2 := fun _ _ => ⟨4, rfl⟩,
        x := ⟨fun _ _ => ⟨0, rfl⟩, fun _ _ => ⟨0, rfl⟩⟩, y := ⟨fun _ _ => ⟨0, rfl⟩, fun _ _ => ⟨0, rfl⟩⟩ }
      (near _) (near _)
      ⟨fun _ _ => by norm_num [fin], fun _ _ _ _ => by norm_num [fin]⟩ ⟨fun _ _ => by norm_num [fin], fun _ _ _ _ => by norm_num [fin]⟩
      ⟨⟨rfl, rfl⟩, rfl, rfl⟩ (by constructor <;> intro a b i j <;> simp [ampOf, fins, fin])
      (by change ‖(0 : Amp ℝ (Fin 2) (Fin 3)) - T‖ ≤ 2; rw [zero_sub, norm_neg]; linarith)
      ⟨⟨rfl, rfl⟩, rfl, rfl⟩ (by constructor <;> intro a b i j <;> simp [lamOf, fins, fin])
      (by change ‖(0 : Amp ℝ (Fin 3) (Fin 2)) - L‖ ≤ 1 + ‖L‖; rw [zero_sub, norm_neg]; linarith)
    obtain ⟨x, y, x0, y0, hx, hy⟩ := r1 N N le_rfl
    obtain ⟨⟨x1, x2⟩, w⟩ := r2 x N x0 hx
    obtain ⟨-, w⟩ := w le_rfl
    obtain ⟨⟨y1, y2⟩, w⟩ := w y N y0 hy
    obtain ⟨-, w⟩ := w le_rfl
    obtain ⟨rs, e, af, hr⟩ := w [(x N).1, (x N).2, (y N).1, (y N).2] (.cons ⟨x1, .inl ⟨rfl, rfl⟩⟩ (.cons ⟨x2, .inr (.inl ⟨rfl, rfl⟩)⟩ (.cons ⟨y1, .inr (.inr (.inl ⟨rfl, rfl⟩))⟩
      (.cons ⟨y2, .inr (.inr (.inr (.inl ⟨rfl, rfl⟩)))⟩ .nil))))
    match rs, hr with
    | [d], .cons hd .nil => exact ⟨N, x, y, hx, hy, d, e, af d (by simp), fun i j => (nearIs_two.1 hd).2.2 i j⟩
  exact gen _ (binaryOver p (-1022 + 1 - p) hp hΩ) (by congr 1; ring) (C106_ieee _ _ hp hΩ)

end Heap
