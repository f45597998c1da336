import Verif.Props.OverflowIterU
import Verif.Props.IterUniR
/-!
# C111: restricted iterations that converge never overflow
-/

namespace Heap
open Prog CC Verif.Tensor
variable {n : ℕ → ℕ} {K : Type} [RCLike K] {u η Ω : ℝ} {G H : List (List ℝ) → ℝ}

/-- One step of two arrays in rounded arithmetic with overflow: a call that returns the residuals, and the update of both arrays. -/
def OStepBy (O : Overflowing K u η G H Ω) (run : Arr (Option K) × Arr (Option K) → Except Err (List (Arr (Option K)))) (d1 d2 : Arr (Option K)) (a b : Arr (Option K) × Arr (Option K)) : Prop :=
  ∃ r1 r2, run a = .ok [r1, r2] ∧ OUpd O a.1 r1 d1 b.1 ∧ OUpd O a.2 r2 d2 b.2

/-- The doubles are symmetrised: `t = 0.5*(t + t.transpose((1, 0, 3, 2)))`. -/
def OPaired (O : Overflowing K u η G H Ω) (b y : Arr (Option K) × Arr (Option K)) : Prop :=
  y.1 = b.1 ∧ y.2.cx = b.2.cx ∧ y.2.shape = b.2.shape ∧ ∀ p q r s : ℕ, List.Forall₂ (· < ·) [p, q, r, s] b.2.shape →
    y.2.val [p, q, r, s] = O.op .mul (some (1 / 2)) (O.op .add (b.2.val [p, q, r, s]) (b.2.val [q, p, s, r]))

/-- Addition of finite numbers does not depend on the order of the summands. -/
def OComm (O : Overflowing K u η G H Ω) : Prop := ∀ x y : K, O.op .add (some x) (some y) = O.op .add (some y) (some x)

/-- One update of the restricted amplitudes in rounded arithmetic with overflow: a call of `f`, the update, and symmetrising the doubles. -/
def POStep (O : Overflowing K u η G H Ω) (ore : Option K → Option K) (f : Fun) (ins : List (Arr (Option K))) (d1 d2 : Arr (Option K)) (x y : Arr (Option K) × Arr (Option K)) : Prop :=
  ∃ b, OStepBy O (fun v => f.nrun (overflowing O true ore) (ins ++ [v.1, v.2])) d1 d2 x b ∧ OPaired O b y

/-- The same for multipliers, with the amplitudes in `w`. -/
def POStepL (O : Overflowing K u η G H Ω) (ore : Option K → Option K) (f : Fun) (ins : List (Arr (Option K))) (w : Arr (Option K) × Arr (Option K)) (d1 d2 : Arr (Option K))
    (x y : Arr (Option K) × Arr (Option K)) : Prop :=
  ∃ b, OStepBy O (fun v => f.nrun (overflowing O true ore) (ins ++ [v.1, v.2] ++ [w.1, w.2])) d1 d2 x b ∧ OPaired O b y

theorem extend_comm {O : Overflowing K u η G H Ω} (hO : OComm O) (h0 : 0 ≤ u) (hη : 0 ≤ η) (hG : GMono G) : AddComm (O.extend h0 hη hG) := fun x y => by
  have e : opVal .add x y = opVal .add y x := add_comm x y
  simp only [Overflowing.extend, e, hO x y]

/-- Both arrays are finite. -/
def BothFin (x : Arr (Option K) × Arr (Option K)) : Prop := AllFin x.1 ∧ AllFin x.2

/-- C111: an update of two arrays of at most `B`, in an arithmetic with a large enough largest number, is an update in an arithmetic without overflow. -/
theorem C111_update {f : Fun} {hs ts : List (Desc n K)} {t : Bool} {v o : ℕ} {T1 R1 : Fin (n v) → Fin (n o) → K} {T2 R2 : Fin (n v) → Fin (n v) → Fin (n o) → Fin (n o) → K}
    (h : Computes f (hs ++ [.two t v o T1, .four t v v o o T2] ++ ts) [.two t v o R1, .four t v v o o R2]) (hl : hs.length + 2 + ts.length = f.params.length)
    (re : K → K) (hre : ∀ x y, ‖re x - re y‖ ≤ ‖x - y‖) {η : ℝ} (hη : 0 ≤ η) {G H : List (List ℝ) → ℝ} (hG : GMono G) (hH : GMono H) {B δ : ℝ} (hB : 0 ≤ B) (hδ : 0 < δ) :
    ∃ Ω₀, ∀ u (h0 : 0 ≤ u), u ≤ 1 → ∀ Ω, Ω₀ ≤ Ω → ∀ (O : Overflowing K u η G H Ω) (ore : Option K → Option K), (∀ x, ore (some x) = some (re x)) →
      ∀ (ins ins' : List (Arr K)) (cs cs' : List (Arr (Option K))) (d1 d2 : Arr (Option K)) (x : Arr (Option K) × Arr (Option K)),
        List.Forall₂ (Sized B) hs ins → List.Forall₂ SameA ins cs → List.Forall₂ (Sized B) ts ins' → List.Forall₂ SameA ins' cs' →
        DenO δ [n v, n o] d1 → DenO δ [n v, n v, n o, n o] d2 → BothFin x →
        Sized B (.two t v o T1) (fin x.1) → Sized B (.four t v v o o T2) (fin x.2) →
        (∃ b y, OStepBy O (fun w => f.nrun (overflowing O true ore) (cs ++ [w.1, w.2] ++ cs')) d1 d2 x b ∧ OPaired O b y) ∧
          ∀ b y, OStepBy O (fun w => f.nrun (overflowing O true ore) (cs ++ [w.1, w.2] ++ cs')) d1 d2 x b → OPaired O b y →
            RStepBy (O.extend h0 hη hG) (fun w => f.nrun (rounded (O.extend h0 hη hG) true re) (ins ++ [w.1, w.2] ++ ins')) (fin d1) (fin d2) (fins x) (fins b) ∧
            Paired (O.extend h0 hη hG) (fins b) (fins y) ∧ BothFin y := by
  obtain ⟨Rb, Ω₁, hR, hc⟩ := C106_call h (by simpa [add_assoc, add_comm, add_left_comm] using hl) re hre hη hG hH hB
  have Q0 : 0 ≤ Rb / δ := by positivity
  have hD : 0 ≤ upd₁ η B (Rb / δ) := by unfold upd₁ sub₁; positivity
  have hD' : 16 * upd₁ η B (Rb / δ) + 6 * η ≤ top₁ η B (Rb / δ) := by unfold top₁ sub₁; linarith
  refine ⟨max Ω₁ (top₁ η B (Rb / δ)), fun u h0 h1 Ω hΩ O ore ho ins ins' cs cs' d1 d2 x hi hcs hi' hcs' hd1 hd2 hf z1 z2 => ?_⟩
  obtain ⟨xs, ys, r1, r2, r3, r4⟩ := hc u h0 h1 Ω ((le_max_left _ _).trans hΩ) O ore ho (ins ++ [fin x.1, fin x.2] ++ ins') (cs ++ [x.1, x.2] ++ cs')
    (List.rel_append (List.rel_append hi (.cons z1 (.cons z2 .nil))) hi') (List.rel_append (List.rel_append hcs (.cons (fin_same hf.1) (.cons (fin_same hf.2) .nil))) hcs')
  have hΩ2 := (le_max_right _ _).trans hΩ
  cases r4 with
  | @cons _ q1 _ _ g1 r4 =>
  cases r4 with
  | @cons _ q2 _ _ g2 r4 =>
  cases r4
  cases r3 with
  | @cons _ p1 _ _ k1 r3 =>
  cases r3 with
  | @cons _ p2 _ _ k2 r3 =>
  cases r3
  have s1 : x.1.shape = [n v, n o] := z1.2.1
  have s2 : x.2.shape = [n v, n v, n o, n o] := z2.2.1
  have e1 : q1.shape = x.1.shape := g1.2.1.trans s1.symm
  have e2 : q2.shape = x.2.shape := g2.2.1.trans s2.symm
  refine ⟨?_, fun b y hb hy => ?_⟩
  · have quot : ∀ r d : Option K, ∃ q, OQuot u η Ω r d q := fun r d => by
      by_cases hq : ∃ r' d', r = some r' ∧ d = some d'
      · obtain ⟨r', d', rfl, rfl⟩ := hq
        refine ⟨some (r' / d'), fun r'' d'' a1 a2 _ _ => ⟨_, rfl, ?_⟩⟩
        cases a1; cases a2
        rw [sub_self, norm_zero]; positivity
      · exact ⟨none, fun r' d' a1 a2 => (hq ⟨r', d', a1, a2⟩).elim⟩
    choose Q hQ using quot
    let b : Arr (Option K) × Arr (Option K) := (⟨x.1.cx, x.1.shape, fun idx => O.op .sub (x.1.val idx) (Q (p1.val idx) (d1.val idx))⟩,
      ⟨x.2.cx, x.2.shape, fun idx => O.op .sub (x.2.val idx) (Q (p2.val idx) (d2.val idx))⟩)
    exact ⟨b, (b.1, ⟨b.2.cx, b.2.shape, fun idx => O.op .mul (some (1 / 2)) (O.op .add (b.2.val idx) (b.2.val [idx.getD 1 0, idx.getD 0 0, idx.getD 3 0, idx.getD 2 0]))⟩),
      ⟨p1, p2, r2, ⟨rfl, rfl, fun idx _ => ⟨_, hQ _ _, rfl⟩⟩, rfl, rfl, fun idx _ => ⟨_, hQ _ _, rfl⟩⟩, rfl, rfl, rfl, fun _ _ _ _ _ => rfl⟩
  · obtain ⟨p1', p2', w1, w2, w3⟩ := hb
    beta_reduce at w1
    rw [r2] at w1
    cases w1
    have u1 := oupd_fin h0 h1 hη hG O hB hR hδ hΩ2 (a := x.1) (r := p1) (d := d1)
      (fun idx hi => ⟨_, (fin_same hf.1).2.2 idx hi, z1.2.2 idx hi⟩) (fun idx hi => ⟨_, k1.2.2 idx (e1 ▸ hi), g1.2.2 idx (e1 ▸ hi)⟩)
      (fun idx hi => hd1 idx (s1 ▸ hi)) w2
    have u2 := oupd_fin h0 h1 hη hG O hB hR hδ hΩ2 (a := x.2) (r := p2) (d := d2)
      (fun idx hi => ⟨_, (fin_same hf.2).2.2 idx hi, z2.2.2 idx hi⟩) (fun idx hi => ⟨_, k2.2.2 idx (e2 ▸ hi), g2.2.2 idx (e2 ▸ hi)⟩)
      (fun idx hi => hd2 idx (s2 ▸ hi)) w3
    have val : ∀ {p : Arr (Option K)} {q : Arr K} {idx : List ℕ}, SameA q p → List.Forall₂ (· < ·) idx q.shape → (fin p).val idx = q.val idx := fun hs hi => by
      simp [fin, hs.2.2 _ hi]
    have bs2 : b.2.shape = [n v, n v, n o, n o] := w3.2.1.trans s2
    have cl : ∀ p q r s : ℕ, List.Forall₂ (· < ·) [p, q, r, s] b.2.shape → ∃ z, y.2.val [p, q, r, s] = some z ∧
        z = (O.extend h0 hη hG).op .mul (1 / 2) ((O.extend h0 hη hG).op .add ((fin b.2).val [p, q, r, s]) ((fin b.2).val [q, p, s, r])) := by
      intro p q r s hi
      have hi' := hi
      rw [bs2] at hi'
      simp only [List.forall₂_cons, List.Forall₂.nil, and_true] at hi'
      obtain ⟨i1, i2, i3, i4⟩ := hi'
      obtain ⟨-, z, -, c1, -, c2⟩ := u2 [p, q, r, s] (by rw [s2]; simp [i1, i2, i3, i4])
      obtain ⟨-, z', -, c1', -, c2'⟩ := u2 [q, p, s, r] (by rw [s2]; simp [i1, i2, i3, i4])
      obtain ⟨a1, a2⟩ := op_fin h0 h1 hη hG O .add (a := z) (b := z') (D := upd₁ η B (Rb / δ) + upd₁ η B (Rb / δ)) ((norm_add_le _ _).trans (add_le_add c2 c2')) (by linarith)
      have q4 : ‖(1 / 2 : K)‖ = 1 / 2 := by simp
      obtain ⟨m1, -⟩ := op_fin h0 h1 hη hG O .mul (a := 1 / 2) (b := (O.extend h0 hη hG).op .add z z') (D := 2 * (upd₁ η B (Rb / δ) + upd₁ η B (Rb / δ)) + η)
        (by change ‖_ * _‖ ≤ _; rw [norm_mul, q4]; linarith [norm_nonneg ((O.extend h0 hη hG).op .add z z')]) (by linarith)
      refine ⟨_, ?_, rfl⟩
      rw [hy.2.2.2 p q r s hi, c1, c1', a1, m1]
      simp [fin, c1, c1']
    refine ⟨⟨q1, q2, r1, ⟨w2.1, w2.2.1, fun idx hi => ?_⟩, w3.1, w3.2.1, fun idx hi => ?_⟩, ⟨congrArg fin hy.1, hy.2.1, hy.2.2.1, fun p q r s hi => ?_⟩, fun idx hi => ?_, fun idx hi => ?_⟩
    · obtain ⟨q, z, c1, c2, c3, -⟩ := u1 idx hi
      rw [val k1 (e1 ▸ hi)] at c1
      refine ⟨q, c1, ?_⟩
      change (b.1.val idx).getD 0 = _
      rw [c2, c3]; rfl
    · obtain ⟨q, z, c1, c2, c3, -⟩ := u2 idx hi
      rw [val k2 (e2 ▸ hi)] at c1
      refine ⟨q, c1, ?_⟩
      change (b.2.val idx).getD 0 = _
      rw [c2, c3]; rfl
    · obtain ⟨z, c1, c2⟩ := cl p q r s hi
      change (y.2.val [p, q, r, s]).getD 0 = _
      rw [c1, c2]; rfl
    · rw [hy.1] at hi ⊢
      rw [w2.2.1] at hi
      obtain ⟨q, z, -, c2, -⟩ := u1 idx hi
      exact ⟨z, c2⟩
    · rw [hy.2.2.1] at hi
      have hi' := hi
      rw [bs2] at hi'
      match idx, hi' with
      | [a, b', i, j], .cons _ (.cons _ (.cons _ (.cons _ .nil))) =>
        obtain ⟨z, c1, -⟩ := cl a b' i j hi
        exact ⟨z, c1⟩

/-- A run that is in range, step by step. -/
theorem prun {P : Arr (Option K) × Arr (Option K) → Arr (Option K) × Arr (Option K) → Prop} {Q : Arr K × Arr K → Arr K × Arr K → Prop} {I : ℕ → Arr K × Arr K → Prop}
    {x : ℕ → Arr (Option K) × Arr (Option K)} (h0 : BothFin (x 0)) (key : ∀ k, (∀ j < k, Q (fins (x j)) (fins (x (j + 1)))) → I k (fins (x k)))
    (step : ∀ k a, BothFin a → I k (fins a) → (∃ y, P a y) ∧ ∀ y, P a y → Q (fins a) (fins y) ∧ BothFin y) (k : ℕ) (hk : ∀ j < k, P (x j) (x (j + 1))) :
    BothFin (x k) ∧ I k (fins (x k)) ∧ ∃ y, P (x k) y := by
  have run : ∀ k, (∀ j < k, P (x j) (x (j + 1))) → (∀ j < k, Q (fins (x j)) (fins (x (j + 1)))) ∧ BothFin (x k) := by
    intro k
    induction k with
    | zero => exact fun _ => ⟨nofun, h0⟩
    | succ k ih =>
      intro hk
      obtain ⟨i1, i2⟩ := ih fun j hj => hk j (by omega)
      obtain ⟨w1, w2⟩ := (step k _ i2 (key k i1)).2 _ (hk k (by omega))
      refine ⟨fun j hj => ?_, w2⟩
      rcases Nat.lt_succ_iff_lt_or_eq.1 hj with hj | rfl
      · exact i1 j hj
      · exact w1
  obtain ⟨i1, i2⟩ := run k hk
  exact ⟨i2, key k i1, (step k _ i2 (key k i1)).1⟩

theorem far {γ ε : ℝ} (hε : ε ≤ γ) {z D : K} (h1 : ‖z - D‖ ≤ ε) (h2 : 2 * γ ≤ ‖D‖) : γ ≤ ‖z‖ := by
  have := norm_sub_norm_le D z
  rw [norm_sub_rev] at this
  linarith

section routines
variable (re : K → K) (hre : ∀ x y, ‖re x - re y‖ ≤ ‖x - y‖) {η : ℝ} (hη : 0 ≤ η) {G H : List (List ℝ) → ℝ} (hG : GMono G) (hH : GMono H) {c : ℝ} (hc : 0 ≤ c)
  (t : Bool) (F : OneE (Fin (n 0)) (Fin (n 1)) K) (I : TwoEFull (Fin (n 0)) (Fin (n 1)) (Fin (n 0)) (Fin (n 1)) K) (eo : Fin (n 0) → K) (ev : Fin (n 1) → K)
  (g1 : ∀ a i, ev a - eo i ≠ 0) (g2 : ∀ a b i j, ev a + ev b - eo i - eo j ≠ 0)
  (T : Amp K (Fin (n 0)) (Fin (n 1))) (L : Amp K (Fin (n 1)) (Fin (n 0))) (δ q : ℝ) (hδ : 0 < δ) (q0 : 0 ≤ q) (q1 : q < 1)
include hre hη hG hH hc g1 g2 hδ q0 q1

/-- C111: a restricted iteration that converges never overflows.  Under the assumptions of C98 there is a size `Ω₀` such that in every arithmetic whose largest number is at
least `Ω₀`, with integrals and denominators that are finite and wrong by at most `c * u`, no number of updates leads to an infinity or NaN, and the amplitudes are as
accurate as without overflow. -/
theorem C111_attains (hT : PairSym T.2) (contr : ∀ X, PairSym X.2 → ‖X - T‖ ≤ δ → ‖rupdate F I eo ev X - T‖ ≤ q * ‖X - T‖) :
    ∃ C u₀ Ω₀ : ℝ, 0 ≤ C ∧ 0 < u₀ ∧ u₀ ≤ 1 ∧ ∀ u, 0 ≤ u → u ≤ u₀ → ∀ Ω, Ω₀ ≤ Ω → ∀ (O : Overflowing K u η G H Ω), OComm O →
    ∀ (ore : Option K → Option K), (∀ x, ore (some x) = some (re x)) → ∀ (cs : List (Arr (Option K))) (d1 d2 : Arr (Option K)) (x : ℕ → Arr (Option K) × Arr (Option K)),
      (∀ a ∈ cs, AllFin a) → List.Forall₂ (NearIs (c * u)) (hamR t F I) (cs.map fin) → FinOn [n 1, n 0] d1 → FinOn [n 1, n 1, n 0, n 0] d2 →
      NearDen (c * u) eo ev (fin d1) (fin d2) → BothFin (x 0) →
      Typed n t (fins (x 0)) → PairSym (ampOf (fins (x 0)) : Amp K (Fin (n 0)) (Fin (n 1))).2 → ‖ampOf (fins (x 0)) - T‖ ≤ δ →
      ∀ k, (∀ j < k, POStep O ore Prog.rccsd_stanton cs d1 d2 (x j) (x (j + 1))) →
        BothFin (x k) ∧ (Typed n t (fins (x k)) ∧ PairSym (ampOf (fins (x k)) : Amp K (Fin (n 0)) (Fin (n 1))).2 ∧ ‖ampOf (fins (x k)) - T‖ ≤ δ ∧
        ‖ampOf (fins (x k)) - T‖ ≤ q ^ k * ‖ampOf (fins (x 0)) - T‖ + C * u) ∧ ∃ y, POStep O ore Prog.rccsd_stanton cs d1 d2 (x k) y := by
  obtain ⟨C, u₀, hC, hu, hu1, h⟩ := C98_attains re hre hη hG hc t F I eo ev g1 g2 T δ q hδ q0 q1 hT contr
  obtain ⟨g, hg, hg1, hg2⟩ := gap_exists eo ev g1 g2
  obtain ⟨M, hM, hb⟩ := desc_bounds (hamR t F I) (‖T‖ + δ)
  have M0 : 0 ≤ M := le_trans (by positivity) hM
  obtain ⟨Ω₀, hs⟩ := C111_update (f := Prog.rccsd_stanton) (hs := hamR t F I) (ts := []) (t := t) (v := 1) (o := 0) (T1 := T.1) (T2 := T.2)
    (R1 := (CC.rccsd_stanton F I T.1 T.2).1) (R2 := (CC.rccsd_stanton F I T.1 T.2).2)
    (by rw [List.append_nil]; exact C53_rccsd_stanton id F I T.1 T.2) rfl re hre hη hG hH (B := M + c) (δ := g) (by positivity) hg
  refine ⟨C, min u₀ (g / (c + 1)), Ω₀, hC, by positivity, (min_le_left _ _).trans hu1, fun u u0 uu Ω hΩ O hO ore ho cs d1 d2 x fcs hi fd1 fd2 hd f0 t0 a0 n0 => ?_⟩
  have uu0 := uu.trans (min_le_left _ _)
  have cu : c * u ≤ g := by
    have := (le_div_iff₀ (by positivity)).1 (uu.trans (min_le_right _ _))
    nlinarith
  have cu1 : c * u ≤ c := mul_le_of_le_one_right hc (uu0.trans hu1)
  have den1 : DenO g [n 1, n 0] d1 := fun idx hidx => by
    obtain ⟨z, hz⟩ := fd1 idx hidx
    refine ⟨z, hz, ?_⟩
    match idx, hidx with
    | [a, i], .cons ha (.cons hi .nil) =>
      have := hd.1 ⟨a, ha⟩ ⟨i, hi⟩
      simp only [fin, hz, Option.getD_some] at this
      exact far cu this (hg1 _ _)
  have den2 : DenO g [n 1, n 1, n 0, n 0] d2 := fun idx hidx => by
    obtain ⟨z, hz⟩ := fd2 idx hidx
    refine ⟨z, hz, ?_⟩
    match idx, hidx with
    | [a, b, i, j], .cons ha (.cons hb (.cons hi (.cons hj .nil))) =>
      have := hd.2 ⟨a, ha⟩ ⟨b, hb⟩ ⟨i, hi⟩ ⟨j, hj⟩
      simp only [fin, hz, Option.getD_some] at this
      exact far cu this (hg2 _ _ _ _)
  have key := h u u0 uu0 (O.extend u0 hη hG) (extend_comm hO u0 hη hG) (cs.map fin) (fin d1) (fin d2) (fun j => fins (x j)) hi hd t0 a0 n0
  refine prun (Q := fun a b => PStep (O.extend u0 hη hG) re Prog.rccsd_stanton (cs.map fin) (fin d1) (fin d2) a b)
    (I := fun k w => Typed n t w ∧ PairSym (ampOf w : Amp K (Fin (n 0)) (Fin (n 1))).2 ∧ ‖ampOf w - T‖ ≤ δ ∧ ‖ampOf w - T‖ ≤ q ^ k * ‖ampOf (fins (x 0)) - T‖ + C * u)
    f0 (fun k hk => ?_) fun k a fa ia => ?_
  · obtain ⟨m1, m2, m3, m4, -⟩ := key k hk
    exact ⟨m1, m2, m3, m4⟩
  · obtain ⟨z1, z2⟩ := sized_amp ia.1 (B := M + c) (by have := norm_sub_norm_le (ampOf (fins a)) T; linarith [ia.2.2.1]) T
    obtain ⟨⟨b, y, hb', hy'⟩, hall⟩ := hs u u0 (uu0.trans hu1) Ω hΩ O ore ho (cs.map fin) [] cs [] d1 d2 a (near_sized cu1 hb hi) (fins_same fcs) .nil .nil den1 den2 fa z1 z2
    simp only [List.append_nil] at hb' hall
    refine ⟨⟨y, b, hb', hy'⟩, fun y hy => ?_⟩
    obtain ⟨b, hb', hy⟩ := hy
    obtain ⟨w1, w2, w3⟩ := hall b y hb' hy
    exact ⟨⟨fins b, w1, w2⟩, w3⟩

/-- C111: the multipliers, iterated with `rccsd_lambda_opt` for finite amplitudes wrong by at most `c * u`, never overflow either. -/
theorem C111_lambda_attains (hL : PairSym L.2) (contr : ∀ X, PairSym X.2 → ‖X - L‖ ≤ δ → ‖rupdateL F I eo ev T X - L‖ ≤ q * ‖X - L‖) :
    ∃ C u₀ Ω₀ : ℝ, 0 ≤ C ∧ 0 < u₀ ∧ u₀ ≤ 1 ∧ ∀ u, 0 ≤ u → u ≤ u₀ → ∀ Ω, Ω₀ ≤ Ω → ∀ (O : Overflowing K u η G H Ω), OComm O →
    ∀ (ore : Option K → Option K), (∀ x, ore (some x) = some (re x)) → ∀ (cs : List (Arr (Option K))) (w : Arr (Option K) × Arr (Option K)) (d1 d2 : Arr (Option K))
    (x : ℕ → Arr (Option K) × Arr (Option K)),
      (∀ a ∈ cs, AllFin a) → List.Forall₂ (NearIs (c * u)) (hamRL t F I) (cs.map fin) → BothFin w → NearAmp (c * u) t T (fins w) →
      FinOn [n 0, n 1] d1 → FinOn [n 0, n 0, n 1, n 1] d2 → NearDenL (c * u) eo ev (fin d1) (fin d2) → BothFin (x 0) →
      TypedL n t (fins (x 0)) → PairSym (lamOf (fins (x 0)) : Amp K (Fin (n 1)) (Fin (n 0))).2 → ‖lamOf (fins (x 0)) - L‖ ≤ δ →
      ∀ k, (∀ j < k, POStepL O ore Prog.rccsd_lambda_opt cs w d1 d2 (x j) (x (j + 1))) →
        BothFin (x k) ∧ (TypedL n t (fins (x k)) ∧ PairSym (lamOf (fins (x k)) : Amp K (Fin (n 1)) (Fin (n 0))).2 ∧ ‖lamOf (fins (x k)) - L‖ ≤ δ ∧
        ‖lamOf (fins (x k)) - L‖ ≤ q ^ k * ‖lamOf (fins (x 0)) - L‖ + C * u) ∧ ∃ z, POStepL O ore Prog.rccsd_lambda_opt cs w d1 d2 (x k) z := by
  obtain ⟨C, u₀, hC, hu, hu1, h⟩ := C98_lambda_attains re hre hη hG hc t F I eo ev g1 g2 T L δ q hδ q0 q1 hL contr
  obtain ⟨g, hg, hg1, hg2⟩ := gap_exists eo ev g1 g2
  obtain ⟨M, hM, hb⟩ := desc_bounds (hamRL t F I) (‖T‖ + (‖L‖ + δ))
  have M0 : 0 ≤ M := le_trans (by positivity) hM
  obtain ⟨Ω₀, hs⟩ := C111_update (f := Prog.rccsd_lambda_opt) (hs := hamRL t F I) (ts := [.two t 1 0 T.1, .four t 1 1 0 0 T.2]) (t := t) (v := 0) (o := 1) (T1 := L.1) (T2 := L.2)
    (R1 := (CC.rccsd_lambda_opt F I L.1 L.2 T.1 T.2).1) (R2 := (CC.rccsd_lambda_opt F I L.1 L.2 T.1 T.2).2)
    (C53_rccsd_lambda_opt id id F I L.1 L.2 T.1 T.2) rfl re hre hη hG hH (B := M + c) (δ := g) (by positivity) hg
  refine ⟨C, min u₀ (g / (c + 1)), Ω₀, hC, by positivity, (min_le_left _ _).trans hu1, fun u u0 uu Ω hΩ O hO ore ho cs w d1 d2 x fcs hi fw hw fd1 fd2 hd f0 t0 a0 n0 => ?_⟩
  have uu0 := uu.trans (min_le_left _ _)
  have cu : c * u ≤ g := by
    have := (le_div_iff₀ (by positivity)).1 (uu.trans (min_le_right _ _))
    nlinarith
  have cu1 : c * u ≤ c := mul_le_of_le_one_right hc (uu0.trans hu1)
  have den1 : DenO g [n 0, n 1] d1 := fun idx hidx => by
    obtain ⟨z, hz⟩ := fd1 idx hidx
    refine ⟨z, hz, ?_⟩
    match idx, hidx with
    | [a, i], .cons ha (.cons hi .nil) =>
      have := hd.1 ⟨a, ha⟩ ⟨i, hi⟩
      simp only [fin, hz, Option.getD_some] at this
      exact far cu this (hg1 _ _)
  have den2 : DenO g [n 0, n 0, n 1, n 1] d2 := fun idx hidx => by
    obtain ⟨z, hz⟩ := fd2 idx hidx
    refine ⟨z, hz, ?_⟩
    match idx, hidx with
    | [a, b, i, j], .cons ha (.cons hb (.cons hi (.cons hj .nil))) =>
      have := hd.2 ⟨a, ha⟩ ⟨b, hb⟩ ⟨i, hi⟩ ⟨j, hj⟩
      simp only [fin, hz, Option.getD_some] at this
      exact far cu this (hg2 _ _ _ _)
  obtain ⟨hty, hyT⟩ := (nearAmp_iff (mul_nonneg hc u0)).1 hw
  obtain ⟨v1, v2⟩ := sized_amp hty (B := M + c) (by have := norm_sub_norm_le (ampOf (fins w)) T; linarith [norm_nonneg L]) T
  have key := h u u0 uu0 (O.extend u0 hη hG) (extend_comm hO u0 hη hG) (cs.map fin) (fins w) (fin d1) (fin d2) (fun j => fins (x j)) hi hw hd t0 a0 n0
  refine prun (Q := fun a b => PStepL (O.extend u0 hη hG) re Prog.rccsd_lambda_opt (cs.map fin) (fins w) (fin d1) (fin d2) a b)
    (I := fun k w => TypedL n t w ∧ PairSym (lamOf w : Amp K (Fin (n 1)) (Fin (n 0))).2 ∧ ‖lamOf w - L‖ ≤ δ ∧ ‖lamOf w - L‖ ≤ q ^ k * ‖lamOf (fins (x 0)) - L‖ + C * u)
    f0 (fun k hk => ?_) fun k a fa ia => ?_
  · obtain ⟨m1, m2, m3, m4, -⟩ := key k hk
    exact ⟨m1, m2, m3, m4⟩
  · obtain ⟨z1, z2⟩ := sized_lam ia.1 (B := M + c) (by have := norm_sub_norm_le (lamOf (fins a)) L; linarith [ia.2.2.1, norm_nonneg T]) L
    obtain ⟨⟨b, y, hb', hy'⟩, hall⟩ := hs u u0 (uu0.trans hu1) Ω hΩ O ore ho (cs.map fin) [fin w.1, fin w.2] cs [w.1, w.2] d1 d2 a (near_sized cu1 hb hi) (fins_same fcs)
      (.cons v1 (.cons v2 .nil)) (.cons (fin_same fw.1) (.cons (fin_same fw.2) .nil)) den1 den2 fa z1 z2
    refine ⟨⟨y, b, hb', hy'⟩, fun y hy => ?_⟩
    obtain ⟨b, hb', hy⟩ := hy
    obtain ⟨w1, w2, w3⟩ := hall b y hb' hy
    exact ⟨⟨fins b, w1, w2⟩, w3⟩

end routines

/-- C111: a whole restricted calculation never overflows: amplitudes by `rccsd_stanton`, multipliers by `rccsd_lambda_opt` with the amplitudes obtained, and any routine called
with both.  The size `Ω₀` is the same for all small unit roundoffs and all numbers of updates. -/
theorem C111_pipeline (re : K → K) (hre : ∀ x y, ‖re x - re y‖ ≤ ‖x - y‖) {η : ℝ} (hη : 0 ≤ η) {G H : List (List ℝ) → ℝ} (hG : GMono G) (hH : GMono H) {c : ℝ} (hc : 0 ≤ c)
    (t : Bool) (F : OneE (Fin (n 0)) (Fin (n 1)) K) (I : TwoEFull (Fin (n 0)) (Fin (n 1)) (Fin (n 0)) (Fin (n 1)) K)
    (eo : Fin (n 0) → K) (ev : Fin (n 1) → K) (g1 : ∀ a i, ev a - eo i ≠ 0) (g2 : ∀ a b i j, ev a + ev b - eo i - eo j ≠ 0)
    (T : Amp K (Fin (n 0)) (Fin (n 1))) (hT : PairSym T.2) (L : Amp K (Fin (n 1)) (Fin (n 0))) (hL : PairSym L.2)
    (δ δ' q : ℝ) (hδ : 0 < δ) (hδ' : 0 < δ') (q0 : 0 ≤ q) (q1 : q < 1)
    (contr : ∀ X, PairSym X.2 → ‖X - T‖ ≤ δ → ‖rupdate F I eo ev X - T‖ ≤ q * ‖X - T‖)
    (contrL : ∀ X, PairSym X.2 → ‖X - L‖ ≤ δ' → ‖rupdateL F I eo ev T X - L‖ ≤ q * ‖X - L‖)
    {h : Fun} {ds es : List (Desc n K)} (hh : Computes h ds es) (hp : ds.length = h.params.length) :
    ∃ C u₀ Ω₀ : ℝ, 0 ≤ C ∧ 0 < u₀ ∧ u₀ ≤ 1 ∧ ∀ u, 0 < u → u ≤ u₀ → ∃ N : ℕ, ∀ Ω, Ω₀ ≤ Ω → ∀ (O : Overflowing K u η G H Ω), OComm O →
      ∀ (ore : Option K → Option K), (∀ x, ore (some x) = some (re x)) → ∀ (ins insL : List (Arr (Option K))) (d1 d2 e1 e2 : Arr (Option K))
      (x₀ y₀ : Arr (Option K) × Arr (Option K)), FinIn n ins insL d1 d2 e1 e2 x₀ y₀ →
      List.Forall₂ (NearIs (c * u)) (hamR t F I) (ins.map fin) → List.Forall₂ (NearIs (c * u)) (hamRL t F I) (insL.map fin) →
      NearDen (c * u) eo ev (fin d1) (fin d2) → NearDenL (c * u) eo ev (fin e1) (fin e2) →
      Typed n t (fins x₀) → PairSym (ampOf (fins x₀) : Amp K (Fin (n 0)) (Fin (n 1))).2 → ‖ampOf (fins x₀) - T‖ ≤ δ →
      TypedL n t (fins y₀) → PairSym (lamOf (fins y₀) : Amp K (Fin (n 1)) (Fin (n 0))).2 → ‖lamOf (fins y₀) - L‖ ≤ δ' →
      (∀ k m, N ≤ k → ∃ x y : ℕ → Arr (Option K) × Arr (Option K), x 0 = x₀ ∧ y 0 = y₀ ∧ (∀ j < k, POStep O ore Prog.rccsd_stanton ins d1 d2 (x j) (x (j + 1))) ∧
        ∀ j < m, POStepL O ore Prog.rccsd_lambda_opt insL (x k) e1 e2 (y j) (y (j + 1))) ∧
      ∀ (x : ℕ → Arr (Option K) × Arr (Option K)) (k : ℕ), x 0 = x₀ → (∀ j < k, POStep O ore Prog.rccsd_stanton ins d1 d2 (x j) (x (j + 1))) → BothFin (x k) ∧
        (N ≤ k → ‖ampOf (fins (x k)) - T‖ ≤ C * u ∧
          ∀ (y : ℕ → Arr (Option K) × Arr (Option K)) (m : ℕ), y 0 = y₀ → (∀ j < m, POStepL O ore Prog.rccsd_lambda_opt insL (x k) e1 e2 (y j) (y (j + 1))) → BothFin (y m) ∧
            (N ≤ m → ‖lamOf (fins (y m)) - L‖ ≤ C * u ∧
              ∀ bs, (∀ b ∈ bs, AllFin b) → List.Forall₂ (Arg (c * u) t T L (fins (x k)) (fins (y m))) ds (bs.map fin) →
                ∃ rs, h.nrun (overflowing O true ore) bs = .ok rs ∧ (∀ r ∈ rs, AllFin r) ∧ List.Forall₂ (NearIs (C * u)) es (rs.map fin))) := by
  obtain ⟨C₁, u₁, Ω₁, hC₁, hu₁, hu₁', h₁⟩ := C111_attains re hre hη hG hH hc t F I eo ev g1 g2 T δ q hδ q0 q1 hT contr
  obtain ⟨C₂, u₂, Ω₂, hC₂, hu₂, hu₂', h₂⟩ := C111_lambda_attains re hre hη hG hH (c := c + C₁ + 1) (by positivity) t F I eo ev g1 g2 T L δ' q hδ' q0 q1 hL contrL
  obtain ⟨C₃, Ω₃, hC₃, h₃⟩ := C110_call hh hp re hre hη hG hH (c := c + C₁ + C₂ + 1) (by positivity)
  refine ⟨C₁ + C₂ + C₃ + 1, min u₁ u₂, max Ω₁ (max Ω₂ Ω₃), by positivity, lt_min hu₁ hu₂, (min_le_left _ _).trans hu₁', fun u u0 uu => ?_⟩
  obtain ⟨N, hN⟩ := exists_pow_lt_of_lt_one (show 0 < u / (δ + δ') by positivity) q1
  refine ⟨N, fun Ω hΩ O hO ore ho ins insL d1 d2 e1 e2 x₀ y₀ hfin hi hiL hd he tx ax nx ty ay ny => ?_⟩
  have Ω1 := (le_max_left _ _).trans hΩ
  have Ω2 := ((le_max_left _ _).trans (le_max_right _ _)).trans hΩ
  have Ω3 := ((le_max_right _ _).trans (le_max_right _ _)).trans hΩ
  have small : ∀ k, N ≤ k → ∀ s : ℝ, 0 ≤ s → s ≤ δ + δ' → q ^ k * s ≤ u := fun k hk s s0 hs => by
    have h1 : q ^ k * s ≤ q ^ N * (δ + δ') := mul_le_mul (pow_le_pow_of_le_one q0 q1.le hk) hs s0 (pow_nonneg q0 _)
    have h2 := mul_le_mul_of_nonneg_right hN.le (by positivity : 0 ≤ δ + δ')
    rw [div_mul_cancel₀ _ (by positivity : δ + δ' ≠ 0)] at h2
    linarith
  have up : ∀ {a b : ℝ}, a ≤ b → a * u ≤ b * u := fun h => mul_le_mul_of_nonneg_right h u0.le
  have amps : ∀ (x : ℕ → Arr (Option K) × Arr (Option K)) (k : ℕ), x 0 = x₀ → (∀ j < k, POStep O ore Prog.rccsd_stanton ins d1 d2 (x j) (x (j + 1))) →
      (BothFin (x k) ∧ Typed n t (fins (x k)) ∧ (N ≤ k → ‖ampOf (fins (x k)) - T‖ ≤ (C₁ + 1) * u)) ∧ ∃ z, POStep O ore Prog.rccsd_stanton ins d1 d2 (x k) z := by
    rintro x k rfl hx
    obtain ⟨pf, ⟨p1, -, -, p4⟩, p5⟩ := h₁ u u0.le (uu.trans (min_le_left _ _)) Ω Ω1 O hO ore ho ins d1 d2 x hfin.ins hi hfin.d1 hfin.d2 hd hfin.x tx ax nx k hx
    exact ⟨⟨pf, p1, fun hk => by linarith [small k hk _ (norm_nonneg _) (nx.trans (by linarith))]⟩, p5⟩
  have hi' : List.Forall₂ (NearIs ((c + C₁ + 1) * u)) (hamRL t F I) (insL.map fin) := hiL.imp fun _ _ h => near_mono (up (by linarith)) h
  have lams : ∀ (w : Arr (Option K) × Arr (Option K)) (y : ℕ → Arr (Option K) × Arr (Option K)) (m : ℕ), BothFin w → Typed n t (fins w) →
      ‖ampOf (fins w) - T‖ ≤ (C₁ + 1) * u → y 0 = y₀ → (∀ j < m, POStepL O ore Prog.rccsd_lambda_opt insL w e1 e2 (y j) (y (j + 1))) →
      (BothFin (y m) ∧ TypedL n t (fins (y m)) ∧ (N ≤ m → ‖lamOf (fins (y m)) - L‖ ≤ (C₂ + 1) * u)) ∧ ∃ z, POStepL O ore Prog.rccsd_lambda_opt insL w e1 e2 (y m) z := by
    rintro w y m pf p1 p5 rfl hy
    obtain ⟨qf, ⟨q1', -, -, q4⟩, q5⟩ := h₂ u u0.le (uu.trans (min_le_right _ _)) Ω Ω2 O hO ore ho insL w e1 e2 y hfin.insL hi' pf
      ((nearAmp_iff (by positivity)).2 ⟨p1, p5.trans (up (by linarith))⟩) hfin.e1 hfin.e2
      ⟨fun i a => (he.1 i a).trans (up (by linarith)), fun i j a b => (he.2 i j a b).trans (up (by linarith))⟩ hfin.y ty ay ny m hy
    exact ⟨⟨qf, q1', fun hm => by linarith [small m hm _ (norm_nonneg _) (ny.trans (by linarith))]⟩, q5⟩
  refine ⟨fun k m hk => ?_, fun x k hx0 hx => ?_⟩
  · obtain ⟨x, hx0, hx⟩ := chains (fun k x h0 hx => (amps x k h0 hx).2) k
    obtain ⟨⟨pf, p1, p2⟩, -⟩ := amps x k hx0 hx
    obtain ⟨y, hy0, hy⟩ := chains (fun m y h0 hy => (lams (x k) y m pf p1 (p2 hk) h0 hy).2) m
    exact ⟨x, y, hx0, hy0, hx, hy⟩
  obtain ⟨⟨pf, p1, p2⟩, -⟩ := amps x k hx0 hx
  refine ⟨pf, fun hk => ?_⟩
  have p5 := p2 hk
  refine ⟨p5.trans (up (by linarith)), fun y m hy0 hy => ?_⟩
  obtain ⟨⟨qf, q1', q2⟩, -⟩ := lams (x k) y m pf p1 p5 hy0 hy
  refine ⟨qf, fun hm => ?_⟩
  have q6 := q2 hm
  have nT : NearAmp ((c + C₁ + C₂ + 1) * u) t T (fins (x k)) := (nearAmp_iff (by positivity)).2 ⟨p1, p5.trans (up (by linarith))⟩
  have nL := nearLam (ε := (c + C₁ + C₂ + 1) * u) (by positivity) q1' (q6.trans (up (by linarith)))
  refine ⟨q6.trans (up (by linarith)), fun bs hf hbs => ?_⟩
  obtain ⟨rs, er, fr, hr⟩ := h₃ u u0.le ((uu.trans (min_le_left _ _)).trans hu₁') Ω Ω3 O ore ho bs hf (hbs.imp fun d b h => by
    rcases h with ⟨rfl, e⟩ | ⟨rfl, e⟩ | ⟨rfl, e⟩ | ⟨rfl, e⟩ | h
    · rw [e]; exact nT.1
    · rw [e]; exact nT.2
    · rw [e]; exact nL.1
    · rw [e]; exact nL.2
    · exact near_mono (up (by linarith)) h)
  exact ⟨rs, er, fr, hr.imp fun _ _ h => near_mono (up (by linarith)) h⟩

/-- C111: a whole restricted calculation for a weak perturbation, from exchange-symmetric amplitudes and multipliers in a ball, never overflows. -/
theorem C111_weak (re : K → K) (hre : ∀ x y, ‖re x - re y‖ ≤ ‖x - y‖) {η : ℝ} (hη : 0 ≤ η) {G H : List (List ℝ) → ℝ} (hG : GMono G) (hH : GMono H) {c : ℝ} (hc : 0 ≤ c)
    (t : Bool) (v : OneE (Fin (n 0)) (Fin (n 1)) K) (I : TwoEFull (Fin (n 0)) (Fin (n 1)) (Fin (n 0)) (Fin (n 1)) K) (hI : PairI I) (eo : Fin (n 0) → K) (ev : Fin (n 1) → K)
    (g1 : ∀ a i, ev a - eo i ≠ 0) (g2 : ∀ a b i j, ev a + ev b - eo i - eo j ≠ 0) (r : ℝ) (hr : 0 < r) :
    ∃ z₀ : ℝ, 0 < z₀ ∧ ∀ z : K, ‖z‖ ≤ z₀ → ∃ (T : Amp K (Fin (n 0)) (Fin (n 1))) (L : Amp K (Fin (n 1)) (Fin (n 0))), PairSym T.2 ∧ PairSym L.2 ∧ ‖T‖ ≤ r ∧
      CC.rccsd_stanton ((diagF eo ev).addMul z v) (I.mul z) T.1 T.2 = (fun _ _ => 0, fun _ _ _ _ => 0) ∧
      CC.rccsd_lambda_opt ((diagF eo ev).addMul z v) (I.mul z) L.1 L.2 T.1 T.2 = (fun _ _ => 0, fun _ _ _ _ => 0) ∧
      ∀ (h : Fun) (ds es : List (Desc n K)), Computes h ds es → ds.length = h.params.length →
      ∃ C u₀ Ω₀ : ℝ, 0 ≤ C ∧ 0 < u₀ ∧ u₀ ≤ 1 ∧ ∀ u, 0 < u → u ≤ u₀ → ∃ N : ℕ, ∀ Ω, Ω₀ ≤ Ω → ∀ (O : Overflowing K u η G H Ω), OComm O →
        ∀ (ore : Option K → Option K), (∀ x, ore (some x) = some (re x)) → ∀ (ins insL : List (Arr (Option K))) (d1 d2 e1 e2 : Arr (Option K))
        (x₀ y₀ : Arr (Option K) × Arr (Option K)), FinIn n ins insL d1 d2 e1 e2 x₀ y₀ →
        List.Forall₂ (NearIs (c * u)) (hamR t ((diagF eo ev).addMul z v) (I.mul z)) (ins.map fin) →
        List.Forall₂ (NearIs (c * u)) (hamRL t ((diagF eo ev).addMul z v) (I.mul z)) (insL.map fin) →
        NearDen (c * u) eo ev (fin d1) (fin d2) → NearDenL (c * u) eo ev (fin e1) (fin e2) →
        Typed n t (fins x₀) → PairSym (ampOf (fins x₀) : Amp K (Fin (n 0)) (Fin (n 1))).2 → ‖(ampOf (fins x₀) : Amp K (Fin (n 0)) (Fin (n 1)))‖ ≤ r →
        TypedL n t (fins y₀) → PairSym (lamOf (fins y₀) : Amp K (Fin (n 1)) (Fin (n 0))).2 → ‖(lamOf (fins y₀) : Amp K (Fin (n 1)) (Fin (n 0)))‖ ≤ r →
        (∀ k m, N ≤ k → ∃ x y : ℕ → Arr (Option K) × Arr (Option K), x 0 = x₀ ∧ y 0 = y₀ ∧ (∀ j < k, POStep O ore Prog.rccsd_stanton ins d1 d2 (x j) (x (j + 1))) ∧
          ∀ j < m, POStepL O ore Prog.rccsd_lambda_opt insL (x k) e1 e2 (y j) (y (j + 1))) ∧
        ∀ (x : ℕ → Arr (Option K) × Arr (Option K)) (k : ℕ), x 0 = x₀ → (∀ j < k, POStep O ore Prog.rccsd_stanton ins d1 d2 (x j) (x (j + 1))) → BothFin (x k) ∧
          (N ≤ k → ‖ampOf (fins (x k)) - T‖ ≤ C * u ∧
            ∀ (y : ℕ → Arr (Option K) × Arr (Option K)) (m : ℕ), y 0 = y₀ → (∀ j < m, POStepL O ore Prog.rccsd_lambda_opt insL (x k) e1 e2 (y j) (y (j + 1))) → BothFin (y m) ∧
              (N ≤ m → ‖lamOf (fins (y m)) - L‖ ≤ C * u ∧
                ∀ bs, (∀ b ∈ bs, AllFin b) → List.Forall₂ (Arg (c * u) t T L (fins (x k)) (fins (y m))) ds (bs.map fin) →
                  ∃ rs, h.nrun (overflowing O true ore) bs = .ok rs ∧ (∀ r ∈ rs, AllFin r) ∧ List.Forall₂ (NearIs (C * u)) es (rs.map fin))) := by
  obtain ⟨z₁, hz1, h1⟩ := C73_rccsd_converges eo ev v I hI g1 g2 r hr
  obtain ⟨z₂, hz2, h2⟩ := C73_rccsd_lambda_converges eo ev v I hI g1 g2 r
  obtain ⟨z₃, hz3, h3⟩ := C73_rccsd_converges eo ev v I hI g1 g2 (3 * r) (by positivity)
  refine ⟨min z₁ (min z₂ z₃), lt_min hz1 (lt_min hz2 hz3), fun z hz => ?_⟩
  obtain ⟨T, hA, hn, hsol, -, -⟩ := h1 z (hz.trans (min_le_left _ _))
  obtain ⟨T', -, -, -, huniq, hcv⟩ := h3 z (hz.trans ((min_le_right _ _).trans (min_le_right _ _)))
  obtain rfl := huniq T hA (by linarith) hsol
  obtain ⟨L, hL, hLs, hLc⟩ := h2 z (hz.trans ((min_le_right _ _).trans (min_le_left _ _))) T hA hn
  refine ⟨T, L, hA, hL, hn, hsol, (hLs L hL).2 rfl, fun h ds es hh hp => ?_⟩
  obtain ⟨C, u₀, Ω₀, hC, hu, hu1, h'⟩ := C111_pipeline re hre hη hG hH hc t ((diagF eo ev).addMul z v) (I.mul z) eo ev g1 g2 T hA L hL (2 * r) (r + ‖L‖)
    (1 / 2) (by positivity) (by positivity) (by norm_num) (by norm_num)
    (fun X hX hd => by
      have := hcv X hX (by have := norm_sub_norm_le X T; linarith) 1
      simpa using this)
    (fun X hX _ => by simpa using hLc X hX 1) hh hp
  refine ⟨C, u₀, Ω₀, hC, hu, hu1, fun u u0 uu => ?_⟩
  obtain ⟨N, hN⟩ := h' u u0 uu
  exact ⟨N, fun Ω hΩ O hO ore ho ins insL d1 d2 e1 e2 x₀ y₀ hf hi hiL hd he tx ax nx ty ay ny =>
    hN Ω hΩ O hO ore ho ins insL d1 d2 e1 e2 x₀ y₀ hf hi hiL hd he tx ax (by have := norm_sub_le (ampOf (fins x₀)) T; linarith) ty ay
      (by have := norm_sub_le (lamOf (fins y₀)) L; linarith)⟩

/-- C111: sums of finite numbers in IEEE arithmetic do not depend on the order, whether they overflow or not. -/
theorem C111_ieee (p : ℕ) (emin : ℤ) (hp : 0 < p) {Ω : ℝ} (hΩ : Ω ∈ Binary.F p emin) : OComm (binaryOver p emin hp hΩ) := fun x y => by
  change ieee p emin Ω .add (some x) (some y) = ieee p emin Ω .add (some y) (some x)
  simp only [ieee, show opVal .add x y = opVal .add y x from add_comm x y]

/-- Two doubly occupied orbitals of energy -1, three virtual ones of energy 1, any exchange-symmetric integrals that are weak enough, IEEE arithmetic of `p` bits with largest
number `Ω`: amplitudes and multipliers from zero, and the occupied block of the one-particle density matrix, all finite. -/
example (f : OneE (Fin 2) (Fin 3) ℝ) (I : TwoEFull (Fin 2) (Fin 3) (Fin 2) (Fin 3) ℝ) (hI : PairI I) : ∃ z₀ : ℝ, 0 < z₀ ∧ ∀ z : ℝ, |z| ≤ z₀ →
    ∃ (T : Amp ℝ (Fin 2) (Fin 3)) (L : Amp ℝ (Fin 3) (Fin 2)) (C Ω₀ : ℝ) (p₀ : ℕ),
      CC.rccsd_stanton ((diagF (fun _ => -1) fun _ => 1).addMul z f) (I.mul z) T.1 T.2 = (fun _ _ => 0, fun _ _ _ _ => 0) ∧
      CC.rccsd_lambda_opt ((diagF (fun _ => -1) fun _ => 1).addMul z f) (I.mul z) L.1 L.2 T.1 T.2 = (fun _ _ => 0, fun _ _ _ _ => 0) ∧
      ∀ (p : ℕ) (hp : 0 < p) (Ω : ℝ) (hΩ : Ω ∈ Binary.F p (-1022 + 1 - p)), p₀ ≤ p → Ω₀ ≤ Ω → ∃ (k : ℕ) (x y : ℕ → Arr (Option ℝ) × Arr (Option ℝ)),
        (∀ j < k, POStep (binaryOver p (-1022 + 1 - p) hp hΩ) id Prog.rccsd_stanton
          ((hamR (n := fun k => k + 2) false ((diagF (fun _ => -1) fun _ => 1).addMul z f) (I.mul z)).map optArr)
          ⟨false, [3, 2], fun _ => some 2⟩ ⟨false, [3, 3, 2, 2], fun _ => some 4⟩ (x j) (x (j + 1))) ∧
        (∀ j < k, POStepL (binaryOver p (-1022 + 1 - p) hp hΩ) id Prog.rccsd_lambda_opt
          ((hamRL (n := fun k => k + 2) false ((diagF (fun _ => -1) fun _ => 1).addMul z f) (I.mul z)).map optArr) (x k)
          ⟨false, [2, 3], fun _ => some 2⟩ ⟨false, [2, 2, 3, 3], fun _ => some 4⟩ (y j) (y (j + 1))) ∧
        ∃ d, Prog.rccsd_1rdm_ji.nrun (overflowing (binaryOver p (-1022 + 1 - p) hp hΩ) true id) [(x k).1, (x k).2, (y k).1, (y k).2] = .ok [d] ∧ AllFin d ∧
          ∀ i j : Fin 2, |(fin d).val [i.1, j.1] - CC.rccsd_1rdm_ji T.1 T.2 L.1 L.2 1 i j| ≤ C * (1 / 2) ^ p := by
  obtain ⟨z₀, hz, h⟩ := C111_weak (n := fun k => k + 2) id (fun _ _ => le_rfl) (Binary.two_pos (-1022)).le (sz_mono (Binary.two_pos (-1022)).le) (pk_mono (Binary.two_pos (-1022)).le)
    (c := 0) le_rfl false f I hI (fun _ => (-1 : ℝ)) (fun _ => 1) (fun _ _ => by norm_num) (fun _ _ _ _ => by norm_num) 1 one_pos
  refine ⟨z₀, hz, fun z hzz => ?_⟩
  obtain ⟨T, L, hA, hL, hn, hsol, hsolL, h'⟩ := h z hzz
  obtain ⟨C, u₀, Ω₀, hC, hu, hu1, h''⟩ := h' Prog.rccsd_1rdm_ji _ _ (C53_rccsd_1rdm_ji (n := fun k => k + 2) (l := false) (t := false) T.1 T.2 L.1 L.2 1) rfl
  obtain ⟨p₀, hp₀⟩ := exists_pow_lt_of_lt_one hu (by norm_num : (1 / 2 : ℝ) < 1)
  refine ⟨T, L, C, Ω₀, p₀, hsol, hsolL, fun p hp Ω hΩ hpp hle => ?_⟩
  have pu : ((1 : ℝ) / 2) ^ p ≤ u₀ := (pow_le_pow_of_le_one (by norm_num) (by norm_num) hpp).trans hp₀.le
  obtain ⟨N, hN⟩ := h'' ((1 / 2) ^ p) (by positivity) pu
  have near : ∀ ds : List (Desc (fun k => k + 2) ℝ), List.Forall₂ (NearIs (0 * (1 / 2) ^ p)) ds ((ds.map optArr).map fin) := fun ds => by
    rw [List.map_map, List.forall₂_map_right_iff]
    exact List.forall₂_same.2 fun d _ => ⟨rfl, rfl, fun idx _ => by rw [zero_mul]; exact le_of_eq (by rw [norm_eq_zero]; exact sub_self _)⟩
  have allf : ∀ ds : List (Desc (fun k => k + 2) ℝ), ∀ a ∈ ds.map optArr, AllFin a := fun ds a ha => by
    obtain ⟨d, -, rfl⟩ := List.mem_map.1 ha
    exact fun _ _ => ⟨_, rfl⟩
  have gen : ∀ (η : ℝ) (O : Overflowing ℝ ((1 / 2) ^ p) η (szSum η) (pkSum η) Ω), η = 2 ^ (-1022 : ℤ) → OComm O →
      ∃ (k : ℕ) (x y : ℕ → Arr (Option ℝ) × Arr (Option ℝ)), (∀ j < k, POStep O id Prog.rccsd_stanton
          ((hamR (n := fun k => k + 2) false ((diagF (fun _ => -1) fun _ => 1).addMul z f) (I.mul z)).map optArr)
          ⟨false, [3, 2], fun _ => some 2⟩ ⟨false, [3, 3, 2, 2], fun _ => some 4⟩ (x j) (x (j + 1))) ∧
        (∀ j < k, POStepL O id Prog.rccsd_lambda_opt
          ((hamRL (n := fun k => k + 2) false ((diagF (fun _ => -1) fun _ => 1).addMul z f) (I.mul z)).map optArr) (x k)
          ⟨false, [2, 3], fun _ => some 2⟩ ⟨false, [2, 2, 3, 3], fun _ => some 4⟩ (y j) (y (j + 1))) ∧
        ∃ d, Prog.rccsd_1rdm_ji.nrun (overflowing O true id) [(x k).1, (x k).2, (y k).1, (y k).2] = .ok [d] ∧ AllFin d ∧
          ∀ i j : Fin 2, |(fin d).val [i.1, j.1] - CC.rccsd_1rdm_ji T.1 T.2 L.1 L.2 1 i j| ≤ C * (1 / 2) ^ p := by
    intro η O e hO
    subst e
    obtain ⟨r1, r2⟩ := hN Ω hle O hO id (fun _ => rfl) _ _ ⟨false, [3, 2], fun _ => some 2⟩ ⟨false, [3, 3, 2, 2], fun _ => some 4⟩ ⟨false, [2, 3], fun _ => some 2⟩ ⟨false, [2, 2, 3, 3], fun _ => some 4⟩
      (⟨false, [3, 2], fun _ => some 0⟩, ⟨false, [3, 3, 2, 2], fun _ => some 0⟩) (⟨false, [2, 3], fun _ => some 0⟩, ⟨false, [2, 2, 3, 3], fun _ => some 0⟩)
      { ins := allf _, insL := allf _, d1 := fun _ _ => ⟨2, rfl⟩, d2 := fun _ _ => ⟨4, rfl⟩, e1 := fun _ _ => ⟨2, rfl⟩, e2 := fun _ _ => ⟨4, rfl⟩,
        x := ⟨fun _ _ => ⟨0, rfl⟩, fun _ _ => ⟨0, rfl⟩⟩, y := ⟨fun _ _ => ⟨0, rfl⟩, fun _ _ => ⟨0, rfl⟩⟩ }
      (near _) (near _)
      ⟨fun _ _ => by norm_num [fin], fun _ _ _ _ => by norm_num [fin]⟩ ⟨fun _ _ => by norm_num [fin], fun _ _ _ _ => by norm_num [fin]⟩
      ⟨⟨rfl, rfl⟩, rfl, rfl⟩ (fun a b i j => rfl)
      (by change ‖(0 : Amp ℝ (Fin 2) (Fin 3))‖ ≤ 1; rw [norm_zero]; exact zero_le_one)
      ⟨⟨rfl, rfl⟩, rfl, rfl⟩ (fun a b i j => rfl)
      (by change ‖(0 : Amp ℝ (Fin 3) (Fin 2))‖ ≤ 1; rw [norm_zero]; exact zero_le_one)
    obtain ⟨x, y, x0, y0, hx, hy⟩ := r1 N N le_rfl
    obtain ⟨⟨x1, x2⟩, w⟩ := r2 x N x0 hx
    obtain ⟨-, w⟩ := w le_rfl
    obtain ⟨⟨y1, y2⟩, w⟩ := w y N y0 hy
    obtain ⟨-, w⟩ := w le_rfl
    obtain ⟨rs, e, af, hr⟩ := w [(x N).1, (x N).2, (y N).1, (y N).2] (by simp [x1, x2, y1, y2])
      (.cons (.inl ⟨rfl, rfl⟩) (.cons (.inr (.inl ⟨rfl, rfl⟩)) (.cons (.inr (.inr (.inl ⟨rfl, rfl⟩))) (.cons (.inr (.inr (.inr (.inl ⟨rfl, rfl⟩)))) .nil))))
    match rs, hr with
    | [d], .cons hd .nil => exact ⟨N, x, y, hx, hy, d, e, af d (by simp), fun i j => (nearIs_two.1 hd).2.2 i j⟩
  exact gen _ (binaryOver p (-1022 + 1 - p) hp hΩ) (by congr 1; ring) (C111_ieee _ _ hp hΩ)

end Heap
