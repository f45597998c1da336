import Verif.Props.IterUniL
import Verif.Props.IterateU
/-!
# C98: the accuracy that the restricted iterations attain in rounded arithmetic, and the exchange symmetry of their doubles
-/

namespace Heap
open Prog CC Verif.Tensor
variable {n : ℕ → ℕ} {K : Type} [RCLike K]

/-! ### restoring the exchange symmetry -/

/-- The doubles are symmetrised: `t = 0.5*(t + t.transpose((1, 0, 3, 2)))`. -/
def Paired {u η : ℝ} {G : List (List ℝ) → ℝ} (A : Rounding K u η G) (b y : Arr K × Arr K) : Prop :=
  y.1 = b.1 ∧ y.2.cx = b.2.cx ∧ y.2.shape = b.2.shape ∧ ∀ p q r s : ℕ, List.Forall₂ (· < ·) [p, q, r, s] b.2.shape →
    y.2.val [p, q, r, s] = A.op .mul (1 / 2) (A.op .add (b.2.val [p, q, r, s]) (b.2.val [q, p, s, r]))

/-- Addition does not depend on the order of the summands, as in IEEE arithmetic. -/
def AddComm {u η : ℝ} {G : List (List ℝ) → ℝ} (A : Rounding K u η G) : Prop := ∀ x y, A.op .add x y = A.op .add y x

/-- The exchange-symmetric part. -/
def pairP {O V : Type} (X : Amp K O V) : Amp K O V := (X.1, fun a b i j => (X.2 a b i j + X.2 b a j i) / 2)

section
variable {O V : Type} [Fintype O] [Fintype V] [DecidableEq O] [DecidableEq V]

theorem half_norm (x y : K) {c : ℝ} (hx : ‖x‖ ≤ c) (hy : ‖y‖ ≤ c) : ‖(x + y) / 2‖ ≤ c := by
  rw [norm_div, show ‖(2 : K)‖ = 2 by simp]
  have := norm_add_le x y
  linarith

theorem pairP_norm (X : Amp K O V) : ‖pairP X‖ ≤ ‖X‖ :=
  amp_le (norm_nonneg _) (fun a i => le_amp1 X a i) fun a b i j => half_norm _ _ (le_amp2 X a b i j) (le_amp2 X b a j i)

theorem pairP_pair (X : Amp K O V) : PairSym (pairP X).2 := fun a b i j => by simp only [pairP]; ring

theorem pairP_close {T : Amp K O V} (hT : PairSym T.2) (X : Amp K O V) : ‖pairP X - T‖ ≤ ‖X - T‖ := by
  have e : pairP X - T = pairP (X - T) := by
    refine Prod.ext rfl ?_
    funext a b i j
    simp only [pairP, Prod.snd_sub, Pi.sub_apply]
    linear_combination (1 / 2 : K) * hT a b i j
  rw [e]
  exact pairP_norm _

end

theorem pair_num {u η B : ℝ} {G : List (List ℝ) → ℝ} (A : Rounding K u η G) (u0 : 0 ≤ u) (u1 : u ≤ 1) (hη : 0 ≤ η) {x y : K} (hx : ‖x‖ ≤ B) (hy : ‖y‖ ≤ B) :
    ‖A.op .mul (1 / 2) (A.op .add x y) - (x + y) / 2‖ ≤ (3 * B + 2 * η) * u := by
  have B0 := (norm_nonneg _).trans hx
  have o1 := A.op_err .add x y
  simp only [opVal] at o1
  have n1 := norm_add_le x y
  have e1 : ‖A.op .add x y - (x + y)‖ ≤ (2 * B + η) * u := by nlinarith
  generalize A.op .add x y = s at *
  have bu : (2 * B + η) * u ≤ 2 * B + η := mul_le_of_le_one_right (by positivity) u1
  have n2 : ‖s‖ ≤ 4 * B + η := by
    have := norm_sub_norm_le s (x + y)
    linarith
  have o2 := A.op_err .mul (1 / 2) s
  simp only [opVal] at o2
  have q2 : ‖(1 / 2 : K)‖ = 1 / 2 := by simp
  rw [norm_mul, q2] at o2
  have e2 : ‖1 / 2 * s - (x + y) / 2‖ ≤ 1 / 2 * ((2 * B + η) * u) := by
    rw [show 1 / 2 * s - (x + y) / 2 = 1 / 2 * (s - (x + y)) by ring, norm_mul, q2]
    linarith
  have := norm_sub_le_norm_sub_add_norm_sub (A.op .mul (1 / 2) s) (1 / 2 * s) ((x + y) / 2)
  have t1 : u * (1 / 2 * ‖s‖ + η) ≤ (1 / 2 * (4 * B + η) + η) * u := by nlinarith
  nlinarith

/-- C98: symmetrising in rounded arithmetic leaves doubles that are exchange-symmetric without any error. -/
theorem C98_paired {u η B : ℝ} {G : List (List ℝ) → ℝ} (A : Rounding K u η G) (hA : AddComm A) (u0 : 0 ≤ u) (u1 : u ≤ 1) (hη : 0 ≤ η) {t : Bool} {b y : Arr K × Arr K}
    (hb : Typed n t b) (hB : ‖(ampOf b : Amp K (Fin (n 0)) (Fin (n 1)))‖ ≤ B) (h : Paired A b y) :
    Typed n t y ∧ PairSym (ampOf y : Amp K (Fin (n 0)) (Fin (n 1))).2 ∧ ‖ampOf y - pairP (ampOf b : Amp K (Fin (n 0)) (Fin (n 1)))‖ ≤ (3 * B + 2 * η) * u := by
  obtain ⟨h1, h2, h3, h4⟩ := h
  have B0 := (norm_nonneg _).trans hB
  have v : ∀ (p q : Fin (n 1)) (r s : Fin (n 0)), y.2.val [p.1, q.1, r.1, s.1] = _ := fun p q r s => h4 p.1 q.1 r.1 s.1 (by rw [hb.2.2]; simp)
  refine ⟨⟨by rw [h1]; exact hb.1, h2.trans hb.2.1, h3.trans hb.2.2⟩, fun p q r s => ?_, ?_⟩
  · simp only [ampOf]
    rw [v p q r s, v q p s r, hA]
  · refine amp_le (by positivity) (fun a i => ?_) fun p q r s => ?_
    · change ‖y.1.val [a.1, i.1] - b.1.val [a.1, i.1]‖ ≤ _
      rw [h1, sub_self, norm_zero]
      positivity
    · change ‖y.2.val [p.1, q.1, r.1, s.1] - (b.2.val [p.1, q.1, r.1, s.1] + b.2.val [q.1, p.1, s.1, r.1]) / 2‖ ≤ _
      rw [v]
      exact pair_num A u0 u1 hη ((le_amp2 (ampOf b) p q r s).trans hB) ((le_amp2 (ampOf b) q p s r).trans hB)

/-- One update of the restricted amplitudes in rounded arithmetic: a call of `f`, the update, and symmetrising the doubles. -/
def PStep {u η : ℝ} {G : List (List ℝ) → ℝ} (A : Rounding K u η G) (re : K → K) (f : Fun) (ins : List (Arr K)) (d1 d2 : Arr K) (x y : Arr K × Arr K) : Prop :=
  ∃ b, RStep A re f ins d1 d2 x b ∧ Paired A b y

/-- The same for multipliers, with the amplitudes in `w`. -/
def PStepL {u η : ℝ} {G : List (List ℝ) → ℝ} (A : Rounding K u η G) (re : K → K) (f : Fun) (ins : List (Arr K)) (w : Arr K × Arr K) (d1 d2 : Arr K) (x y : Arr K × Arr K) : Prop :=
  ∃ b, RStepBy A (fun v => f.nrun (rounded A true re) (ins ++ [v.1, v.2] ++ [w.1, w.2])) d1 d2 x b ∧ Paired A b y

theorem paired_ok {u η B : ℝ} {G : List (List ℝ) → ℝ} (A : Rounding K u η G) (hA : AddComm A) (u0 : 0 ≤ u) (u1 : u ≤ 1) (hη : 0 ≤ η) (t : Bool) :
    CleanOK (n := n) (3 * B + 2 * η) B u t (fun X => PairSym X.2) pairP (Paired A) := fun b tb hb =>
  ⟨⟨(b.1, ⟨b.2.cx, b.2.shape, fun idx => A.op .mul (1 / 2) (A.op .add (b.2.val idx) (b.2.val [idx.getD 1 0, idx.getD 0 0, idx.getD 3 0, idx.getD 2 0]))⟩),
    rfl, rfl, rfl, fun p q r s _ => rfl⟩, fun _ hy => C98_paired A hA u0 u1 hη tb hb hy⟩

/-! ### amplitudes -/

/-- The integrals that `rccsd_stanton` takes. -/
def hamR (t : Bool) (F : OneE (Fin (n 0)) (Fin (n 1)) K) (I : TwoEFull (Fin (n 0)) (Fin (n 1)) (Fin (n 0)) (Fin (n 1)) K) : List (Desc n K) :=
  [.two t 0 0 F.oo, .two t 0 1 F.ov, .two t 1 0 F.vo, .two t 1 1 F.vv, .four t 0 0 0 0 I.oooo, .four t 0 0 0 1 I.ooov, .four t 0 0 1 0 I.oovo, .four t 0 0 1 1 I.oovv,
    .four t 0 1 0 0 I.ovoo, .four t 0 1 0 1 I.ovov, .four t 0 1 1 0 I.ovvo, .four t 0 1 1 1 I.ovvv, .four t 1 0 1 0 I.vovo, .four t 1 0 1 1 I.vovv,
    .four t 1 1 0 0 I.vvoo, .four t 1 1 1 0 I.vvvo, .four t 1 1 1 1 I.vvvv]

/-- The integrals that `rccsd_lambda_opt` takes. -/
def hamRL (t : Bool) (F : OneE (Fin (n 0)) (Fin (n 1)) K) (I : TwoEFull (Fin (n 0)) (Fin (n 1)) (Fin (n 0)) (Fin (n 1)) K) : List (Desc n K) :=
  [.two t 0 0 F.oo, .two t 0 1 F.ov, .two t 1 1 F.vv, .four t 0 0 0 0 I.oooo, .four t 0 0 0 1 I.ooov, .four t 0 0 1 0 I.oovo, .four t 0 0 1 1 I.oovv,
    .four t 0 1 0 0 I.ovoo, .four t 0 1 0 1 I.ovov, .four t 0 1 1 0 I.ovvo, .four t 0 1 1 1 I.ovvv, .four t 1 0 0 0 I.vooo, .four t 1 0 0 1 I.voov,
    .four t 1 0 1 0 I.vovo, .four t 1 0 1 1 I.vovv, .four t 1 1 0 1 I.vvov, .four t 1 1 1 0 I.vvvo, .four t 1 1 1 1 I.vvvv]

section routines
variable (re : K → K) (hre : ∀ x y, ‖re x - re y‖ ≤ ‖x - y‖) {η : ℝ} (hη : 0 ≤ η) {G : List (List ℝ) → ℝ} (hG : GMono G) {c : ℝ} (hc : 0 ≤ c)
  (t : Bool) (F : OneE (Fin (n 0)) (Fin (n 1)) K) (I : TwoEFull (Fin (n 0)) (Fin (n 1)) (Fin (n 0)) (Fin (n 1)) K) (eo : Fin (n 0) → K) (ev : Fin (n 1) → K)
  (g1 : ∀ a i, ev a - eo i ≠ 0) (g2 : ∀ a b i j, ev a + ev b - eo i - eo j ≠ 0)
  (T : Amp K (Fin (n 0)) (Fin (n 1))) (L : Amp K (Fin (n 1)) (Fin (n 0))) (δ q : ℝ) (hδ : 0 < δ) (q0 : 0 ≤ q) (q1 : q < 1)
include hre hη hG hc g1 g2 hδ q0 q1

/-- C98: the accuracy attained by the amplitudes.  Suppose that exact updates of exchange-symmetric amplitudes at most `δ` from `T` come closer to `T` by the factor
`q < 1` at least.  In any rounded arithmetic of small unit roundoff `u`, with integrals and denominators wrong by at most `c * u`, and with the doubles symmetrised after
every update: no call raises, the doubles stay exactly exchange-symmetric, and after any number `k` of updates the error is at most `q ^ k` times the first one and
`C * u`. -/
theorem C98_attains (hT : PairSym T.2) (contr : ∀ X, PairSym X.2 → ‖X - T‖ ≤ δ → ‖rupdate F I eo ev X - T‖ ≤ q * ‖X - T‖) :
    ∃ C u₀ : ℝ, 0 ≤ C ∧ 0 < u₀ ∧ u₀ ≤ 1 ∧ ∀ u, 0 ≤ u → u ≤ u₀ → ∀ (A : Rounding K u η G), AddComm A → ∀ (ins : List (Arr K)) (d1 d2 : Arr K)
    (x : ℕ → Arr K × Arr K), List.Forall₂ (NearIs (c * u)) (hamR t F I) ins → NearDen (c * u) eo ev d1 d2 →
      Typed n t (x 0) → PairSym (ampOf (x 0) : Amp K (Fin (n 0)) (Fin (n 1))).2 → ‖ampOf (x 0) - T‖ ≤ δ →
      ∀ k, (∀ j < k, PStep A re Prog.rccsd_stanton ins d1 d2 (x j) (x (j + 1))) →
        Typed n t (x k) ∧ PairSym (ampOf (x k) : Amp K (Fin (n 0)) (Fin (n 1))).2 ∧ ‖ampOf (x k) - T‖ ≤ δ ∧
        ‖ampOf (x k) - T‖ ≤ q ^ k * ‖ampOf (x 0) - T‖ + C * u ∧ ∃ y, PStep A re Prog.rccsd_stanton ins d1 d2 (x k) y :=
  let ⟨_, hCr, hr⟩ := res_round Prog.rccsd_stanton (hamR t F I) t (fun X => CC.rccsd_stanton F I X.1 X.2) (fun X => PairSym X.2)
    (fun X _ => C53_rccsd_stanton id F I X.1 X.2) rfl re hre hη hG hc (‖T‖ + δ)
  let ⟨C, u₀, h1, h2, h3, h⟩ := attainBy (G := G) t eo ev (fun X => CC.rccsd_stanton F I X.1 X.2) hη hc g1 g2 (fun X => PairSym X.2) pairP T (pairP_close hT) δ q hδ q0 q1 contr hCr
    (fun B => 3 * B + 2 * η) fun B hB => by positivity
  ⟨C, u₀, h1, h2, h3, fun u u0 uu A hA ins d1 d2 x hi hd t0 a0 n0 k hk =>
    let ⟨m1, m2, m3, m4, y, m5⟩ := h u u0 uu A _ (Paired A) d1 d2 x (fun B _ => paired_ok A hA u0 (uu.trans h3) hη t) (hr u u0 (uu.trans h3) A ins hi) hd t0 a0 n0 k hk
    ⟨m1, m2, m3, m4, y, m5⟩⟩

omit hδ q0 in
/-- C98: the residuals that `rccsd_stanton` returns and the error of the amplitudes bound each other, up to the roundoff. -/
theorem C98_residual (contr : ∀ X, PairSym X.2 → ‖X - T‖ ≤ δ → ‖rupdate F I eo ev X - T‖ ≤ q * ‖X - T‖) :
    ∃ C : ℝ, 0 < C ∧ ∀ u, 0 ≤ u → u ≤ 1 → ∀ (A : Rounding K u η G) (ins : List (Arr K)),
    List.Forall₂ (NearIs (c * u)) (hamR t F I) ins → ∀ x : Arr K × Arr K, Typed n t x → PairSym (ampOf x : Amp K (Fin (n 0)) (Fin (n 1))).2 → ‖ampOf x - T‖ ≤ δ →
      ∃ r1 r2, Prog.rccsd_stanton.nrun (rounded A true re) (ins ++ [x.1, x.2]) = .ok [r1, r2] ∧ Typed n t (r1, r2) ∧
        ‖(ampOf (r1, r2) : Amp K (Fin (n 0)) (Fin (n 1)))‖ ≤ C * (‖ampOf x - T‖ + u) ∧
        ‖ampOf x - T‖ ≤ C * (‖(ampOf (r1, r2) : Amp K (Fin (n 0)) (Fin (n 1)))‖ + u) :=
  let ⟨_, hCr, hr⟩ := res_round Prog.rccsd_stanton (hamR t F I) t (fun X => CC.rccsd_stanton F I X.1 X.2) (fun X => PairSym X.2)
    (fun X _ => C53_rccsd_stanton id F I X.1 X.2) rfl re hre hη hG hc (‖T‖ + δ)
  let ⟨C, h1, h⟩ := stop t eo ev (fun X => CC.rccsd_stanton F I X.1 X.2) g1 g2 (fun X => PairSym X.2) T δ q q1 contr hCr
  ⟨C, h1, fun u u0 u1 A ins hi x => h u u0 u1 _ (hr u u0 u1 A ins hi) x⟩

omit hre hη hG hc g1 g2 hδ q0 q1 in
theorem stepBy_RL (X : Amp K (Fin (n 1)) (Fin (n 0))) :
    stepBy (n := sw n) (fun X => CC.rccsd_lambda_opt F I X.1 X.2 T.1 T.2) (fun a => -ev a) (fun i => -eo i) X = rupdateL F I eo ev T X := by
  refine Prod.ext ?_ ?_
  · funext i a
    simp only [stepBy, rupdateL]
    rw [show -eo i - -ev a = ev a - eo i by ring]
  · funext i j a b
    simp only [stepBy, rupdateL]
    rw [show -eo i + -eo j - -ev a - -ev b = ev a + ev b - eo i - eo j by ring]

/-- C98: the accuracy attained by the multipliers, with integrals, amplitudes and denominators wrong by at most `c * u`. -/
theorem C98_lambda_attains (hL : PairSym L.2) (contr : ∀ X, PairSym X.2 → ‖X - L‖ ≤ δ → ‖rupdateL F I eo ev T X - L‖ ≤ q * ‖X - L‖) :
    ∃ C u₀ : ℝ, 0 ≤ C ∧ 0 < u₀ ∧ u₀ ≤ 1 ∧ ∀ u, 0 ≤ u → u ≤ u₀ → ∀ (A : Rounding K u η G), AddComm A → ∀ (ins : List (Arr K)) (y : Arr K × Arr K) (d1 d2 : Arr K)
    (x : ℕ → Arr K × Arr K), List.Forall₂ (NearIs (c * u)) (hamRL t F I) ins → NearAmp (c * u) t T y → NearDenL (c * u) eo ev d1 d2 →
      TypedL n t (x 0) → PairSym (lamOf (x 0) : Amp K (Fin (n 1)) (Fin (n 0))).2 → ‖lamOf (x 0) - L‖ ≤ δ →
      ∀ k, (∀ j < k, PStepL A re Prog.rccsd_lambda_opt ins y d1 d2 (x j) (x (j + 1))) →
        TypedL n t (x k) ∧ PairSym (lamOf (x k) : Amp K (Fin (n 1)) (Fin (n 0))).2 ∧ ‖lamOf (x k) - L‖ ≤ δ ∧
        ‖lamOf (x k) - L‖ ≤ q ^ k * ‖lamOf (x 0) - L‖ + C * u ∧ ∃ z, PStepL A re Prog.rccsd_lambda_opt ins y d1 d2 (x k) z := by
  obtain ⟨Cr, hCr, hr⟩ := resL_any re hre hη hG hc Prog.rccsd_lambda_opt (hamRL t F I) t T (fun X => CC.rccsd_lambda_opt F I X.1 X.2 T.1 T.2) (fun X => PairSym X.2)
    (fun X _ => C53_rccsd_lambda_opt id id F I X.1 X.2 T.1 T.2) rfl (‖L‖ + δ)
  obtain ⟨C, u₀, h1, h2, h3, h⟩ := attainBy (n := sw n) (G := G) t (fun a => -ev a) (fun i => -eo i) (fun X => CC.rccsd_lambda_opt F I X.1 X.2 T.1 T.2) hη hc
    (fun i a h => g1 a i (by linear_combination h)) (fun i j a b h => g2 a b i j (by linear_combination h)) (fun X => PairSym X.2) pairP L (pairP_close hL) δ q hδ q0 q1
    (fun X hX hd => by rw [stepBy_RL F I eo ev T X]; exact contr X hX hd) hCr (fun B => 3 * B + 2 * η) fun B hB => by positivity
  refine ⟨C, u₀, h1, h2, h3, fun u u0 uu A hA ins y d1 d2 x hi hy hd t0 a0 n0 k hk => ?_⟩
  obtain ⟨m1, m2, m3, m4, z, m5⟩ := h u u0 uu A _ (Paired A) d1 d2 x (fun B _ => paired_ok A hA u0 (uu.trans h3) hη t) (hr u u0 (uu.trans h3) A ins y hi hy)
    ⟨fun i a => by
      have := hd.1 i a
      rwa [show ev a - eo i = -eo i - -ev a by ring] at this, fun i j a b => by
      have := hd.2 i j a b
      rwa [show ev a + ev b - eo i - eo j = -eo i + -eo j - -ev a - -ev b by ring] at this⟩ t0 a0 n0 k hk
  exact ⟨m1, m2, m3, m4, z, m5⟩

end routines

/-- C98: a whole restricted calculation for a weak perturbation, from exchange-symmetric amplitudes and multipliers in a ball: the amplitudes by `rccsd_stanton`, then the
multipliers by `rccsd_lambda_opt` with the amplitudes obtained, then any routine that is called with them. -/
theorem C98_weak (re : K → K) (hre : ∀ x y, ‖re x - re y‖ ≤ ‖x - y‖) {η : ℝ} (hη : 0 ≤ η) {G : List (List ℝ) → ℝ} (hG : GMono G) {c : ℝ} (hc : 0 ≤ c)
    (t : Bool) (v : OneE (Fin (n 0)) (Fin (n 1)) K) (I : TwoEFull (Fin (n 0)) (Fin (n 1)) (Fin (n 0)) (Fin (n 1)) K) (hI : PairI I) (eo : Fin (n 0) → K) (ev : Fin (n 1) → K)
    (g1 : ∀ a i, ev a - eo i ≠ 0) (g2 : ∀ a b i j, ev a + ev b - eo i - eo j ≠ 0) (r : ℝ) (hr : 0 < r) :
    ∃ z₀ : ℝ, 0 < z₀ ∧ ∀ z : K, ‖z‖ ≤ z₀ → ∃ (T : Amp K (Fin (n 0)) (Fin (n 1))) (L : Amp K (Fin (n 1)) (Fin (n 0))), PairSym T.2 ∧ PairSym L.2 ∧ ‖T‖ ≤ r ∧
      CC.rccsd_stanton ((diagF eo ev).addMul z v) (I.mul z) T.1 T.2 = (fun _ _ => 0, fun _ _ _ _ => 0) ∧
      CC.rccsd_lambda_opt ((diagF eo ev).addMul z v) (I.mul z) L.1 L.2 T.1 T.2 = (fun _ _ => 0, fun _ _ _ _ => 0) ∧
      ∀ (h : Fun) (ds es : List (Desc n K)), Computes h ds es → ds.length = h.params.length →
      ∃ C u₀ : ℝ, 0 ≤ C ∧ 0 < u₀ ∧ u₀ ≤ 1 ∧ ∀ u, 0 < u → u ≤ u₀ → ∃ N : ℕ, ∀ (A : Rounding K u η G), AddComm A → ∀ (ins insL : List (Arr K)) (d1 d2 e1 e2 : Arr K)
        (x₀ y₀ : Arr K × Arr K), List.Forall₂ (NearIs (c * u)) (hamR t ((diagF eo ev).addMul z v) (I.mul z)) ins →
        List.Forall₂ (NearIs (c * u)) (hamRL t ((diagF eo ev).addMul z v) (I.mul z)) insL → NearDen (c * u) eo ev d1 d2 → NearDenL (c * u) eo ev e1 e2 →
        Typed n t x₀ → PairSym (ampOf x₀ : Amp K (Fin (n 0)) (Fin (n 1))).2 → ‖(ampOf x₀ : Amp K (Fin (n 0)) (Fin (n 1)))‖ ≤ r →
        TypedL n t y₀ → PairSym (lamOf y₀ : Amp K (Fin (n 1)) (Fin (n 0))).2 → ‖(lamOf y₀ : Amp K (Fin (n 1)) (Fin (n 0)))‖ ≤ r →
        (∀ k m, N ≤ k → ∃ x y : ℕ → Arr K × Arr K, x 0 = x₀ ∧ y 0 = y₀ ∧ (∀ j < k, PStep A re Prog.rccsd_stanton ins d1 d2 (x j) (x (j + 1))) ∧
          ∀ j < m, PStepL A re Prog.rccsd_lambda_opt insL (x k) e1 e2 (y j) (y (j + 1))) ∧
        ∀ (x y : ℕ → Arr K × Arr K) (k m : ℕ), x 0 = x₀ → y 0 = y₀ → N ≤ k → N ≤ m →
          (∀ j < k, PStep A re Prog.rccsd_stanton ins d1 d2 (x j) (x (j + 1))) → (∀ j < m, PStepL A re Prog.rccsd_lambda_opt insL (x k) e1 e2 (y j) (y (j + 1))) →
          ‖ampOf (x k) - T‖ ≤ C * u ∧ ‖lamOf (y m) - L‖ ≤ C * u ∧
          ∀ bs, List.Forall₂ (Arg (c * u) t T L (x k) (y m)) ds bs → ∃ rs, h.nrun (rounded A true re) bs = .ok rs ∧ List.Forall₂ (NearIs (C * u)) es rs := by
  obtain ⟨z₁, hz1, h1⟩ := C73_rccsd_converges eo ev v I hI g1 g2 r hr
  obtain ⟨z₂, hz2, h2⟩ := C73_rccsd_lambda_converges eo ev v I hI g1 g2 r
  obtain ⟨z₃, hz3, h3⟩ := C73_rccsd_converges eo ev v I hI g1 g2 (3 * r) (by positivity)
  refine ⟨min z₁ (min z₂ z₃), lt_min hz1 (lt_min hz2 hz3), fun z hz => ?_⟩
  obtain ⟨T, hA, hn, hsol, -, -⟩ := h1 z (hz.trans (min_le_left _ _))
  obtain ⟨T', -, -, -, huniq, hcv⟩ := h3 z (hz.trans ((min_le_right _ _).trans (min_le_right _ _)))
  obtain rfl := huniq T hA (by linarith) hsol
  obtain ⟨L, hL, hLs, hLc⟩ := h2 z (hz.trans ((min_le_right _ _).trans (min_le_left _ _))) T hA hn
  refine ⟨T, L, hA, hL, hn, hsol, (hLs L hL).2 rfl, fun h ds es hh hp => ?_⟩
  obtain ⟨C, u₀, hC, hu, hu1, h'⟩ := pipelineBy re hre hη hG hc t (hamR t ((diagF eo ev).addMul z v) (I.mul z)) (hamRL t ((diagF eo ev).addMul z v) (I.mul z)) eo ev T L (2 * r) (r + ‖L‖)
    (1 / 2) (by positivity) (by positivity) (by norm_num) (by norm_num) (fun X => PairSym X.2) (fun X => PairSym X.2) AddComm (fun A => PStep A re Prog.rccsd_stanton)
    (fun A => PStepL A re Prog.rccsd_lambda_opt)
    (C98_attains re hre hη hG hc t _ _ eo ev g1 g2 T (2 * r) (1 / 2) (by positivity) (by norm_num) (by norm_num) hA (fun X hX hd => by
      have := hcv X hX (by have := norm_sub_norm_le X T; linarith) 1
      simpa using this))
    (fun c' hc' => C98_lambda_attains re hre hη hG hc' t _ _ eo ev g1 g2 T L (r + ‖L‖) (1 / 2) (by positivity) (by norm_num) (by norm_num) hL
      (fun X hX _ => by simpa using hLc X hX 1)) hh hp
  refine ⟨C, u₀, hC, hu, hu1, fun u u0 uu => ?_⟩
  obtain ⟨N, hN⟩ := h' u u0 uu
  exact ⟨N, fun A hA' ins insL d1 d2 e1 e2 x₀ y₀ hi hiL hd he tx ax nx ty ay ny =>
    hN A hA' ins insL d1 d2 e1 e2 x₀ y₀ hi hiL hd he tx ax (by have := norm_sub_le (ampOf x₀) T; linarith) ty ay (by have := norm_sub_le (lamOf y₀) L; linarith)⟩

/-- C98: rounding to the nearest binary number, ties to even, does not depend on the order of the summands. -/
theorem C98_binary (p : ℕ) (emin : ℤ) : AddComm (binaryReal p emin) := fun x y => by
  change Binary.rd p emin (x + y) = Binary.rd p emin (y + x)
  rw [add_comm]

theorem inflate_comm {u : ℝ} (h0 : 0 ≤ u) (h1 : u ≤ 1) : AddComm (inflate h0 h1 : Rounding K u 0 (szSum 0)) := fun x y => by simp only [inflate, ltr, opVal]; ring

/-! ### amplitudes without exchange symmetry -/

/-- What doubles lack of exchange symmetry. -/
def odd {O V : Type} (X : V → V → O → O → K) : V → V → O → O → K := fun a b i j => X a b i j - X b a j i

theorem odd_zero {O V : Type} {X : V → V → O → O → K} : odd X = 0 ↔ PairSym X := by
  constructor
  · exact fun h a b i j => (sub_eq_zero.1 (congrFun (congrFun (congrFun (congrFun h a) b) i) j)).symm
  · intro h
    funext a b i j
    exact sub_eq_zero.2 (h a b i j).symm

section
variable {O V : Type} [Fintype O] [Fintype V] [DecidableEq O] [DecidableEq V]

theorem odd_norm (X : V → V → O → O → K) : ‖odd X‖ ≤ 2 * ‖X‖ := norm4_le (by positivity) fun a b i j => by
  have := norm_sub_le (X a b i j) (X b a j i)
  have := le_norm4 X a b i j
  have := le_norm4 X b a j i
  simp only [odd]
  linarith

theorem pairP_sub (X : Amp K O V) : ‖X - pairP X‖ ≤ ‖odd X.2‖ / 2 := by
  refine amp_le (by positivity) (fun a i => ?_) fun a b i j => ?_
  · rw [show (X - pairP X).1 a i = 0 from sub_self _, norm_zero]
    positivity
  · rw [show (X - pairP X).2 a b i j = odd X.2 a b i j / 2 by simp only [pairP, odd, Prod.snd_sub, Pi.sub_apply]; ring, norm_div, show ‖(2 : K)‖ = 2 by simp]
    exact div_le_div_of_nonneg_right (le_norm4 _ a b i j) (by norm_num)

set_option maxHeartbeats 4000000 in
theorem rstanton_smooth (F : OneE O V K) (I : TwoEFull O V O V K) : ContDiff K 1 (fun T : Amp K O V => (CC.rccsd_stanton F I T.1 T.2 : Amp K O V)) := by
  refine ContDiff.prodMk (contDiff_pi.2 fun a => contDiff_pi.2 fun i => ?_)
    (contDiff_pi.2 fun a => contDiff_pi.2 fun b => contDiff_pi.2 fun i => contDiff_pi.2 fun j => ?_)
  · unfold CC.r_Stanton
    dsimp only
    fun_prop
  · unfold CC.r_Stanton
    dsimp only
    fun_prop

/-- Without interaction. -/
theorem rstanton_free (eo : O → K) (ev : V → K) (T1 : V → O → K) (T2 : V → V → O → O → K) (a b : V) (i j : O) :
    (CC.rccsd_stanton (diagF eo ev) (noJ O V O V K) T1 T2).2 a b i j = (ev b - eo j) * T2 a b i j + (ev a - eo i) * T2 b a j i := by
  simp [CC.rccsd_stanton, CC.r_Stanton, diagF, noJ, ite_mul]
  ring

end

section
variable (eo : Fin (n 0) → K) (ev : Fin (n 1) → K) (f : OneE (Fin (n 0)) (Fin (n 1)) K) (I : TwoEFull (Fin (n 0)) (Fin (n 1)) (Fin (n 0)) (Fin (n 1)) K)

theorem rstanton_split (z : K) (T : Amp K (Fin (n 0)) (Fin (n 1))) (a b : Fin (n 1)) (i j : Fin (n 0)) :
    (CC.rccsd_stanton ((diagF eo ev).addMul z f) (I.mul z) T.1 T.2).2 a b i j =
      (ev b - eo j) * T.2 a b i j + (ev a - eo i) * T.2 b a j i + z * (CC.rccsd_stanton f I T.1 T.2).2 a b i j := by
  have h := C64_rccsd_stanton (n := n) (x := 1) (y := z) (diagF eo ev) f (noJ _ _ _ _ K) I T.1 T.2
  rw [show (diagF eo ev).lin 1 z f = (diagF eo ev).addMul z f by simp only [OneE.lin, OneE.addMul, lin2_def, one_mul],
    show (noJ _ _ _ _ K).lin 1 z I = I.mul z by simp only [TwoEFull.lin, TwoEFull.mul, noJ, lin4_def, zero_add, mul_zero]] at h
  rw [h]
  simp only [lin4_def, rstanton_free, one_mul]

/-- C98: what the doubles lack of exchange symmetry is changed by an update through the interaction only; the denominators do not damp it. -/
theorem C98_odd_step (g2 : ∀ a b i j, ev a + ev b - eo i - eo j ≠ 0) (z : K) (T : Amp K (Fin (n 0)) (Fin (n 1))) (a b : Fin (n 1)) (i j : Fin (n 0)) :
    let X := (rupdate ((diagF eo ev).addMul z f) (I.mul z) eo ev T).2
    let R := (CC.rccsd_stanton f I T.1 T.2).2
    X a b i j - X b a j i = T.2 a b i j - T.2 b a j i - z * (R a b i j - R b a j i) / (ev a + ev b - eo i - eo j) := by
  intro X R
  simp only [X, R, rupdate, rstanton_split]
  rw [show ev b + ev a - eo j - eo i = ev a + ev b - eo i - eo j by ring]
  field_simp [g2 a b i j]
  ring

/-- C98: without interaction the residuals vanish at doubles that are not exchange-symmetric, for every choice of the part `o` that is lacking. -/
theorem C98_spurious (g2 : ∀ a b i j, ev a + ev b - eo i - eo j ≠ 0) (o : Fin (n 1) → Fin (n 1) → Fin (n 0) → Fin (n 0) → K) (ho : ∀ a b i j, o b a j i = -o a b i j) :
    CC.rccsd_stanton (diagF eo ev) (I.mul 0) (fun _ _ => 0) (fun a b i j => (ev a - eo i) / (ev a + ev b - eo i - eo j) * o a b i j) = (fun _ _ => 0, fun _ _ _ _ => 0) ∧
    ∀ a b i j, (ev a - eo i) / (ev a + ev b - eo i - eo j) * o a b i j - (ev b - eo j) / (ev b + ev a - eo j - eo i) * o b a j i = o a b i j := by
  have e0 : I.mul 0 = noJ _ _ _ _ K := by simp only [TwoEFull.mul, noJ, zero_mul]
  rw [e0]
  refine ⟨Prod.ext ?_ ?_, fun a b i j => ?_⟩
  · funext a i
    simp [CC.rccsd_stanton, CC.r_Stanton, diagF, noJ, ite_mul]
  · funext a b i j
    rw [rstanton_free, ho a b i j, show ev b + ev a - eo j - eo i = ev a + ev b - eo i - eo j by ring]
    ring
  · rw [ho a b i j, show ev b + ev a - eo j - eo i = ev a + ev b - eo i - eo j by ring]
    field_simp [g2 a b i j]
    ring

variable (hI : PairI I)
include hI

theorem odd_res (r : ℝ) : ∃ M : ℝ, 0 < M ∧ ∀ T : Amp K (Fin (n 0)) (Fin (n 1)), ‖T‖ ≤ r → ‖odd (CC.rccsd_stanton f I T.1 T.2).2‖ ≤ M * ‖odd T.2‖ := by
  obtain ⟨M, hM, -, b2⟩ := ball_bounds (rstanton_smooth f I) r
  refine ⟨M, hM, fun T hT => ?_⟩
  have h0 : odd (CC.rccsd_stanton f I (pairP T).1 (pairP T).2).2 = 0 := odd_zero.2 (C43_rccsd_pair f I _ _ hI (pairP_pair T))
  have h1 := b2 (pairP T) (by simpa using (pairP_norm T).trans hT) T (by simpa using hT)
  have h2 : odd (CC.rccsd_stanton f I T.1 T.2).2
      = odd ((CC.rccsd_stanton f I T.1 T.2 : Amp K (Fin (n 0)) (Fin (n 1))) - CC.rccsd_stanton f I (pairP T).1 (pairP T).2).2 := by
    funext a b i j
    have := congrFun (congrFun (congrFun (congrFun h0 a) b) i) j
    simp only [odd, Prod.snd_sub, Pi.sub_apply, Pi.zero_apply] at this ⊢
    linear_combination this
  rw [h2]
  have h3 := norm_snd_le ((CC.rccsd_stanton f I T.1 T.2 : Amp K (Fin (n 0)) (Fin (n 1))) - CC.rccsd_stanton f I (pairP T).1 (pairP T).2)
  have h4 := mul_le_mul_of_nonneg_left (pairP_sub T) hM.le
  have h5 := odd_norm ((CC.rccsd_stanton f I T.1 T.2 : Amp K (Fin (n 0)) (Fin (n 1))) - CC.rccsd_stanton f I (pairP T).1 (pairP T).2).2
  linarith

/-- C98: without symmetrising, a loss of exchange symmetry stays.  There is a constant `M` for a ball such that for every strength `z` of the perturbation and every start
whose updates stay in the ball, the part lacking is multiplied by a factor between `1 - M|z|` and `1 + M|z|` in every update; the amplitudes come no closer than half of
it to any exchange-symmetric ones. -/
theorem C98_odd_stays (g2 : ∀ a b i j, ev a + ev b - eo i - eo j ≠ 0) (r : ℝ) : ∃ M : ℝ, 0 < M ∧ ∀ z : K, M * ‖z‖ ≤ 1 → ∀ (T₀ : Amp K (Fin (n 0)) (Fin (n 1))) (k : ℕ),
    (∀ j < k, ‖(rupdate ((diagF eo ev).addMul z f) (I.mul z) eo ev)^[j] T₀‖ ≤ r) →
    let X := (rupdate ((diagF eo ev).addMul z f) (I.mul z) eo ev)^[k] T₀
    (1 - M * ‖z‖) ^ k * ‖odd T₀.2‖ ≤ ‖odd X.2‖ ∧ ‖odd X.2‖ ≤ (1 + M * ‖z‖) ^ k * ‖odd T₀.2‖ ∧
    ∀ T : Amp K (Fin (n 0)) (Fin (n 1)), PairSym T.2 → (1 - M * ‖z‖) ^ k * ‖odd T₀.2‖ / 2 ≤ ‖X - T‖ := by
  obtain ⟨M, hM, b⟩ := odd_res f I hI r
  obtain ⟨N, hN, -, n2⟩ := inv_bound eo ev
  refine ⟨M * N, by positivity, fun z hz T₀ k hk => ?_⟩
  set U := rupdate ((diagF eo ev).addMul z f) (I.mul z) eo ev with hU
  have step : ∀ T : Amp K (Fin (n 0)) (Fin (n 1)), ‖T‖ ≤ r → ‖odd (U T).2 - odd T.2‖ ≤ M * N * ‖z‖ * ‖odd T.2‖ := fun T hT => by
    refine norm4_le (by positivity) fun a b' i j => ?_
    have e := C98_odd_step eo ev f I g2 z T a b' i j
    have e' : (odd (U T).2 - odd T.2) a b' i j = -(z * odd (CC.rccsd_stanton f I T.1 T.2).2 a b' i j * (ev a + ev b' - eo i - eo j)⁻¹) := by
      simp only [Pi.sub_apply, odd, hU]
      rw [e]
      ring
    rw [e', norm_neg, norm_mul, norm_mul]
    calc _ ≤ ‖z‖ * (M * ‖odd T.2‖) * N := mul_le_mul (mul_le_mul_of_nonneg_left ((le_norm4 _ a b' i j).trans (b T hT)) (norm_nonneg _)) (n2 a b' i j) (norm_nonneg _) (by positivity)
      _ = _ := by ring
  have main : (1 - M * N * ‖z‖) ^ k * ‖odd T₀.2‖ ≤ ‖odd (U^[k] T₀).2‖ ∧ ‖odd (U^[k] T₀).2‖ ≤ (1 + M * N * ‖z‖) ^ k * ‖odd T₀.2‖ := by
    induction k with
    | zero => simp
    | succ k ih =>
      obtain ⟨i1, i2⟩ := ih fun j hj => hk j (hj.trans (Nat.lt_succ_self k))
      have s := step _ (hk k (Nat.lt_succ_self k))
      rw [Function.iterate_succ_apply']
      have s1 := norm_sub_norm_le (odd (U (U^[k] T₀)).2) (odd (U^[k] T₀).2)
      have s2 := norm_sub_norm_le (odd (U^[k] T₀).2) (odd (U (U^[k] T₀)).2)
      rw [norm_sub_rev] at s2
      constructor
      · have := mul_le_mul_of_nonneg_left i1 (by linarith : 0 ≤ 1 - M * N * ‖z‖)
        rw [pow_succ']
        nlinarith
      · have := mul_le_mul_of_nonneg_left i2 (by positivity : 0 ≤ 1 + M * N * ‖z‖)
        rw [pow_succ']
        nlinarith
  refine ⟨main.1, main.2, fun T hT => ?_⟩
  have h1 : odd (U^[k] T₀).2 = odd (U^[k] T₀ - T).2 := by
    funext a b' i j
    simp only [odd, Prod.snd_sub, Pi.sub_apply]
    linear_combination -hT a b' i j
  have h2 := odd_norm (U^[k] T₀ - T).2
  have h3 := norm_snd_le (U^[k] T₀ - T)
  have := main.1
  rw [h1] at this
  linarith

end

/-- Two occupied orbitals of energy -1, three virtual ones of energy 1, any exchange-symmetric integrals that are weak enough, an arithmetic that really rounds: amplitudes
by `rccsd_stanton`, multipliers by `rccsd_lambda_opt`, both from zero, and the occupied block of the one-particle density matrix. -/
example (f : OneE (Fin 2) (Fin 3) ℝ) (I : TwoEFull (Fin 2) (Fin 3) (Fin 2) (Fin 3) ℝ) (hI : PairI I) : ∃ z₀ : ℝ, 0 < z₀ ∧ ∀ z : ℝ, |z| ≤ z₀ →
    ∃ (T : Amp ℝ (Fin 2) (Fin 3)) (L : Amp ℝ (Fin 3) (Fin 2)) (C u₀ : ℝ), 0 < u₀ ∧
      CC.rccsd_stanton ((diagF (fun _ => -1) fun _ => 1).addMul z f) (I.mul z) T.1 T.2 = (fun _ _ => 0, fun _ _ _ _ => 0) ∧
      CC.rccsd_lambda_opt ((diagF (fun _ => -1) fun _ => 1).addMul z f) (I.mul z) L.1 L.2 T.1 T.2 = (fun _ _ => 0, fun _ _ _ _ => 0) ∧
      ∀ (u : ℝ) (h0 : 0 < u) (h1 : u ≤ 1), u ≤ u₀ → ∃ x y : Arr ℝ × Arr ℝ, ∃ d : Arr ℝ,
        Prog.rccsd_1rdm_ji.nrun (rounded (inflate h0.le h1 : Rounding ℝ u 0 (szSum 0)) true id) [x.1, x.2, y.1, y.2] = .ok [d] ∧
        ∀ i j : Fin 2, |d.val [i.1, j.1] - CC.rccsd_1rdm_ji T.1 T.2 L.1 L.2 1 i j| ≤ C * u := by
  obtain ⟨z₀, hz, h⟩ := C98_weak (n := fun k => k + 2) id (fun _ _ => le_rfl) le_rfl (sz_mono le_rfl) (c := 0) le_rfl false f I hI (fun _ => (-1 : ℝ)) (fun _ => 1)
    (fun _ _ => by norm_num) (fun _ _ _ _ => by norm_num) 1 one_pos
  refine ⟨z₀, hz, fun z hzz => ?_⟩
  obtain ⟨T, L, hA, hL, hn, hsol, hsolL, h'⟩ := h z hzz
  obtain ⟨C, u₀, hC, hu, hu1, h''⟩ := h' Prog.rccsd_1rdm_ji _ _ (C53_rccsd_1rdm_ji (n := fun k => k + 2) (l := false) (t := false) T.1 T.2 L.1 L.2 1) rfl
  refine ⟨T, L, C, u₀, hu, hsol, hsolL, fun u h0 h1 uu => ?_⟩
  obtain ⟨N, hN⟩ := h'' u h0 uu
  have near : ∀ d : Desc (fun k => k + 2) ℝ, NearIs (0 * u) d d.arr := fun d => ⟨rfl, rfl, fun idx _ => by rw [zero_mul, Desc.arr, sub_self, norm_zero]⟩
  have hi : ∀ ds : List (Desc (fun k => k + 2) ℝ), List.Forall₂ (NearIs (0 * u)) ds (ds.map Desc.arr) := fun ds => by
    rw [List.forall₂_map_right_iff]
    exact List.forall₂_same.2 fun d _ => near d
  obtain ⟨e1, e2⟩ := hN (inflate h0.le h1) (inflate_comm h0.le h1) _ _ ⟨false, [3, 2], fun _ => 2⟩ ⟨false, [3, 3, 2, 2], fun _ => 4⟩ ⟨false, [2, 3], fun _ => 2⟩
    ⟨false, [2, 2, 3, 3], fun _ => 4⟩ (⟨false, [3, 2], fun _ => 0⟩, ⟨false, [3, 3, 2, 2], fun _ => 0⟩) (⟨false, [2, 3], fun _ => 0⟩, ⟨false, [2, 2, 3, 3], fun _ => 0⟩)
    (hi _) (hi _) ⟨fun _ _ => by norm_num, fun _ _ _ _ => by norm_num⟩ ⟨fun _ _ => by norm_num, fun _ _ _ _ => by norm_num⟩ ⟨⟨rfl, rfl⟩, rfl, rfl⟩
    (fun a b i j => rfl) (amp_le zero_le_one (fun a i => by simp [ampOf]) fun a b i j => by simp [ampOf]) ⟨⟨rfl, rfl⟩, rfl, rfl⟩
    (fun a b i j => rfl) (amp_le zero_le_one (fun a i => by simp [lamOf]) fun a b i j => by simp [lamOf])
  obtain ⟨x, y, x0, y0, hx, hy⟩ := e1 N N le_rfl
  obtain ⟨-, -, w⟩ := e2 x y N N x0 y0 le_rfl le_rfl hx hy
  obtain ⟨rs, e, hr⟩ := w [(x N).1, (x N).2, (y N).1, (y N).2] (.cons (.inl ⟨rfl, rfl⟩) (.cons (.inr (.inl ⟨rfl, rfl⟩)) (.cons (.inr (.inr (.inl ⟨rfl, rfl⟩)))
    (.cons (.inr (.inr (.inr (.inl ⟨rfl, rfl⟩)))) .nil))))
  obtain ⟨d, _, hd, hr', rfl⟩ := List.forall₂_cons_left_iff.1 hr
  obtain rfl := List.forall₂_nil_left_iff.1 hr'
  exact ⟨x N, y N, d, e, fun i j => (nearIs_two.1 hd).2.2 i j⟩

/-- Doubles of two occupied and one virtual orbital that are not exchange-symmetric. -/
def lop : Fin 1 → Fin 1 → Fin 2 → Fin 2 → ℝ := fun _ _ i j => if i = 0 ∧ j = 1 then 1 else if i = 1 ∧ j = 0 then -1 else 0

/-- Energies -1 and 1: residuals that vanish at doubles without exchange symmetry. -/
example (I : TwoEFull (Fin 2) (Fin 1) (Fin 2) (Fin 1) ℝ) : CC.rccsd_stanton (diagF (fun _ => -1) fun _ => 1) (I.mul 0) (fun _ _ => 0) (fun a b i j => 1 / 2 * lop a b i j) =
    (fun _ _ => 0, fun _ _ _ _ => 0) ∧ ¬ PairSym fun a b i j => 1 / 2 * lop a b i j := by
  have h := (C98_spurious (n := fun k => 2 - k) (fun _ => (-1 : ℝ)) (fun _ => 1) I (fun _ _ _ _ => by norm_num) lop (by
    intro a b i j
    fin_cases i <;> fin_cases j <;> simp [lop])).1
  norm_num at h ⊢
  refine ⟨h, fun hp => ?_⟩
  have := hp 0 0 0 1
  norm_num [lop] at this

/-- Ten updates leave at least 0.9 of the part lacking, for every perturbation that is weak enough. -/
example (f : OneE (Fin 2) (Fin 1) ℝ) (I : TwoEFull (Fin 2) (Fin 1) (Fin 2) (Fin 1) ℝ) (hI : PairI I) : ∃ z₀ : ℝ, 0 < z₀ ∧ ∀ z : ℝ, |z| ≤ z₀ → ∀ k ≤ 10,
    (∀ j < k, ‖(rupdate ((diagF (fun _ => -1) fun _ => 1).addMul z f) (I.mul z) (fun _ => -1) fun _ => 1)^[j] (0, lop)‖ ≤ 5) →
    9 / 10 ≤ ‖((rupdate ((diagF (fun _ => -1) fun _ => 1).addMul z f) (I.mul z) (fun _ => -1) fun _ => 1)^[k] (0, lop)).2‖ := by
  obtain ⟨M, hM, h⟩ := C98_odd_stays (n := fun k => 2 - k) (fun _ => (-1 : ℝ)) (fun _ => 1) f I hI (fun _ _ _ _ => by norm_num) 5
  refine ⟨1 / (100 * M), by positivity, fun z hz k hk hb => ?_⟩
  have hMz : M * ‖z‖ ≤ 1 / 100 := by
    have := mul_le_mul_of_nonneg_left hz hM.le
    rwa [show M * (1 / (100 * M)) = 1 / 100 by field_simp] at this
  obtain ⟨h1, -, -⟩ := h z (hMz.trans (by norm_num)) (0, lop) k hb
  have o : 2 ≤ ‖odd lop‖ := by
    have := le_norm4 (odd lop) 0 0 0 1
    norm_num [odd, lop] at this
    exact this
  have p : (9 / 10 : ℝ) ≤ (1 - M * ‖z‖) ^ k := by
    have b1 : (99 / 100 : ℝ) ^ 10 ≤ (99 / 100) ^ k := pow_le_pow_of_le_one (by norm_num) (by norm_num) hk
    have b2 : (99 / 100 : ℝ) ^ k ≤ (1 - M * ‖z‖) ^ k := pow_le_pow_left₀ (by norm_num) (by linarith) k
    have b3 : (9 / 10 : ℝ) ≤ (99 / 100) ^ 10 := by norm_num
    linarith
  have q := odd_norm ((rupdate ((diagF (fun _ => -1) fun _ => 1).addMul z f) (I.mul z) (fun _ => -1) fun _ => 1)^[k] (0, lop)).2
  have : (9 / 10 : ℝ) * 2 ≤ (1 - M * ‖z‖) ^ k * ‖odd lop‖ := mul_le_mul p o (by norm_num) ((by norm_num : (0 : ℝ) ≤ 9 / 10).trans p)
  have h1' : (1 - M * ‖z‖) ^ k * ‖odd lop‖ ≤ ‖odd ((rupdate ((diagF (fun _ => -1) fun _ => 1).addMul z f) (I.mul z) (fun _ => -1) fun _ => 1)^[k] (0, lop)).2‖ := h1
  linarith

end Heap
