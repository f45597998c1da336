import Verif.Props.IterUni
import Verif.Props.GL
/-!
# C97: the accuracy that the Lambda iteration attains in rounded arithmetic, and of what is computed from amplitudes and multipliers
-/

namespace Heap
open Prog CC
variable {n : ℕ → ℕ} {K : Type} [RCLike K]

/-- The numbers of orbitals with occupied and virtual orbitals exchanged. -/
abbrev sw (n : ℕ → ℕ) (k : ℕ) : ℕ := n (1 - k)

/-- The multipliers in two arrays. -/
def lamOf (x : Arr K × Arr K) : Amp K (Fin (n 1)) (Fin (n 0)) := (fun i a => x.1.val [i.1, a.1], fun i j a b => x.2.val [i.1, j.1, a.1, b.1])

/-- Two arrays of the element type and shapes of multipliers. -/
def TypedL (n : ℕ → ℕ) (t : Bool) (x : Arr K × Arr K) : Prop := (x.1.cx = t ∧ x.1.shape = [n 0, n 1]) ∧ x.2.cx = t ∧ x.2.shape = [n 0, n 0, n 1, n 1]

/-- Denominators wrong by at most `ε`, in the order of the multipliers. -/
def NearDenL (ε : ℝ) (eo : Fin (n 0) → K) (ev : Fin (n 1) → K) (d1 d2 : Arr K) : Prop :=
  (∀ i a, ‖d1.val [(i : Fin (n 0)).1, (a : Fin (n 1)).1] - (ev a - eo i)‖ ≤ ε) ∧
    ∀ i j a b, ‖d2.val [(i : Fin (n 0)).1, (j : Fin (n 0)).1, (a : Fin (n 1)).1, (b : Fin (n 1)).1] - (ev a + ev b - eo i - eo j)‖ ≤ ε

/-- The integrals that the Lambda routines take. -/
def hamL (t : Bool) (F : OneE (Fin (n 0)) (Fin (n 1)) K) (I : TwoE (Fin (n 0)) (Fin (n 1)) K) : List (Desc n K) :=
  [.two t 0 0 F.oo, .two t 0 1 F.ov, .two t 1 1 F.vv, .four t 0 0 0 0 I.oooo, .four t 0 0 0 1 I.ooov, .four t 0 0 1 1 I.oovv, .four t 1 0 0 0 I.vooo,
    .four t 1 0 1 0 I.vovo, .four t 1 0 1 1 I.vovv, .four t 1 1 1 0 I.vvvo, .four t 1 1 1 1 I.vvvv]

/-- The routines that return the residuals of the Lambda equations. -/
def ResidualsL (f : Fun) : Prop := f = Prog.ccsd_lambda_simple ∨ f = Prog.ccsd_lambda_opt ∨ f = Prog.ccsd_lambda_stanton

/-- One update of the multipliers in rounded arithmetic, for the amplitudes in `y`: a call of `f`, the update, and antisymmetrising the doubles. -/
def LStep {u η : ℝ} {G : List (List ℝ) → ℝ} (A : Rounding K u η G) (re : K → K) (f : Fun) (ins : List (Arr K)) (y : Arr K × Arr K) (d1 d2 : Arr K) (x z : Arr K × Arr K) : Prop :=
  AStepBy A (fun w => f.nrun (rounded A true re) (ins ++ [w.1, w.2] ++ [y.1, y.2])) d1 d2 x z

theorem residualsL_compute (t : Bool) (F : OneE (Fin (n 0)) (Fin (n 1)) K) (I : TwoE (Fin (n 0)) (Fin (n 1)) K) (hI : AntiI I) {f : Fun} (hf : ResidualsL f)
    (T : Amp K (Fin (n 0)) (Fin (n 1))) (hT : Anti T.2) (X : Amp K (Fin (n 1)) (Fin (n 0))) (hX : Anti X.2) :
    Computes f (hamL t F I ++ [.two t 0 1 X.1, .four t 0 0 1 1 X.2] ++ [.two t 1 0 T.1, .four t 1 1 0 0 T.2])
      [.two t 0 1 (CC.ccsd_lambda_simple F I X.1 X.2 T.1 T.2).1, .four t 0 0 1 1 (CC.ccsd_lambda_simple F I X.1 X.2 T.1 T.2).2] ∧ (hamL t F I).length + 4 = f.params.length := by
  rcases hf with rfl | rfl | rfl
  · exact ⟨C53_ccsd_lambda_simple id id F I X.1 X.2 T.1 T.2, rfl⟩
  · have := C53_ccsd_lambda_opt (i := t) (t := t) (l := t) id id F I X.1 X.2 T.1 T.2
    rw [C05_opt_eq_simple F I hI _ _ hX _ _ hT] at this
    exact ⟨this, rfl⟩
  · have := C53_ccsd_lambda_stanton (i := t) (t := t) (l := t) id id F I X.1 X.2 T.1 T.2
    rw [C05_stanton_eq_simple F I hI _ _ hX _ _ hT] at this
    exact ⟨this, rfl⟩

/-- The residuals of all multipliers in a ball, for a routine whose last four arguments are multipliers and amplitudes. -/
theorem resL_any (re : K → K) (hre : ∀ x y, ‖re x - re y‖ ≤ ‖x - y‖) {η : ℝ} (hη : 0 ≤ η) {G : List (List ℝ) → ℝ} (hG : GMono G) {c : ℝ} (hc : 0 ≤ c)
    (f : Fun) (ds : List (Desc n K)) (t : Bool) (T : Amp K (Fin (n 0)) (Fin (n 1))) (R : Amp K (Fin (n 1)) (Fin (n 0)) → Amp K (Fin (n 1)) (Fin (n 0)))
    (S : Amp K (Fin (n 1)) (Fin (n 0)) → Prop) (hS : ∀ X, S X → Computes f (ds ++ [.two t 0 1 X.1, .four t 0 0 1 1 X.2] ++ [.two t 1 0 T.1, .four t 1 1 0 0 T.2])
      [.two t 0 1 (R X).1, .four t 0 0 1 1 (R X).2]) (hl : ds.length + 4 = f.params.length) (r : ℝ) :
    ∃ C : ℝ, 0 ≤ C ∧ ∀ u, 0 ≤ u → u ≤ 1 → ∀ (A : Rounding K u η G) (ins : List (Arr K)) (y : Arr K × Arr K),
    List.Forall₂ (NearIs (c * u)) ds ins → NearAmp (c * u) t T y →
      Good (n := sw n) (C * u) t R S r fun x => f.nrun (rounded A true re) (ins ++ [x.1, x.2] ++ [y.1, y.2]) := by
  obtain ⟨M₁, hM₁, hb₁⟩ := desc_bounds ds r
  obtain ⟨M, hM, hb₂⟩ := desc_bounds [.two t 1 0 T.1, .four t 1 1 0 0 T.2] M₁
  obtain ⟨C, hC, h⟩ := C60_uniform_routine (ι := {X : Amp K (Fin (n 1)) (Fin (n 0)) // S X ∧ ‖X‖ ≤ r}) f
    (fun X => ds ++ [.two t 0 1 X.1.1, .four t 0 0 1 1 X.1.2] ++ [.two t 1 0 T.1, .four t 1 1 0 0 T.2])
    (fun X => [.two t 0 1 (R X.1).1, .four t 0 0 1 1 (R X.1).2])
    (fun X => hS X.1 X.2.1) (fun X => by simpa using hl)
    (ds.map (fun d => (d.cx, d.ten.shape.map n)) ++ [(t, [n 0, n 1]), (t, [n 0, n 0, n 1, n 1])] ++ ([.two t 1 0 T.1, .four t 1 1 0 0 T.2] : List (Desc n K)).map fun d => (d.cx, d.ten.shape.map n)) (M := M)
    (fun X => List.rel_append (List.rel_append (hb₁.imp fun _ _ h => h.mono hM) (.cons ⟨rfl, rfl, fun idx hi => by
      obtain ⟨x, _, hx, hi', rfl⟩ := List.forall₂_cons_right_iff.1 hi
      obtain ⟨y, _, hy, hi'', rfl⟩ := List.forall₂_cons_right_iff.1 hi'
      obtain rfl := List.forall₂_nil_right_iff.1 hi''
      simpa [Cur.get, hx, hy] using ((le_amp1 X.1 ⟨x, hx⟩ ⟨y, hy⟩).trans X.2.2).trans (hM₁.trans hM)⟩
      (.cons ⟨rfl, rfl, fun idx hi => by
        obtain ⟨x, _, hx, h1, rfl⟩ := List.forall₂_cons_right_iff.1 hi
        obtain ⟨y, _, hy, h2, rfl⟩ := List.forall₂_cons_right_iff.1 h1
        obtain ⟨z, _, hz, h3, rfl⟩ := List.forall₂_cons_right_iff.1 h2
        obtain ⟨w, _, hw, h4, rfl⟩ := List.forall₂_cons_right_iff.1 h3
        obtain rfl := List.forall₂_nil_right_iff.1 h4
        simpa [Cur.get, hx, hy, hz, hw] using ((le_amp2 X.1 ⟨x, hx⟩ ⟨y, hy⟩ ⟨z, hz⟩ ⟨w, hw⟩).trans X.2.2).trans (hM₁.trans hM)⟩ .nil))) hb₂)
    re hre hη hG hc
  refine ⟨C, hC, fun u u0 u1 A ins y hi hy x hx hSx hr => ?_⟩
  have n0 : NearAmp (n := sw n) (c * u) t (ampOf x) x := (nearAmp_iff (by positivity)).2 ⟨hx, by rw [sub_self, norm_zero]; positivity⟩
  have n1 : NearIs (n := n) (c * u) (.two t 0 1 (ampOf (n := sw n) x).1) x.1 := by
    have := nearIs_two.1 n0.1
    exact nearIs_two.2 this
  have n2 : NearIs (n := n) (c * u) (.four t 0 0 1 1 (ampOf (n := sw n) x).2) x.2 := by
    have := nearIs_four.1 n0.2
    exact nearIs_four.2 this
  obtain ⟨ys, e, hy⟩ := h ⟨ampOf (n := sw n) x, hSx, hr⟩ u u0 u1 A (ins ++ [x.1, x.2] ++ [y.1, y.2])
    (List.rel_append (List.rel_append hi (.cons n1 (.cons n2 .nil))) (.cons hy.1 (.cons hy.2 .nil)))
  obtain ⟨r1, _, q1, hy1, rfl⟩ := List.forall₂_cons_left_iff.1 hy
  obtain ⟨r2, _, q2, hy2, rfl⟩ := List.forall₂_cons_left_iff.1 hy1
  obtain rfl := List.forall₂_nil_left_iff.1 hy2
  have q1' := nearIs_two.1 q1
  have q2' := nearIs_four.1 q2
  exact ⟨r1, r2, e, nearIs_two.2 q1', nearIs_four.2 q2'⟩

section routines
variable (re : K → K) (hre : ∀ x y, ‖re x - re y‖ ≤ ‖x - y‖) {η : ℝ} (hη : 0 ≤ η) {G : List (List ℝ) → ℝ} (hG : GMono G) {c : ℝ} (hc : 0 ≤ c)
  (t : Bool) (F : OneE (Fin (n 0)) (Fin (n 1)) K) (I : TwoE (Fin (n 0)) (Fin (n 1)) K) (hI : AntiI I) (T : Amp K (Fin (n 0)) (Fin (n 1))) (hT : Anti T.2)
include hre hη hG hc hI hT

/-- The residuals of all multipliers in a ball. -/
theorem resL_round {f : Fun} (hf : ResidualsL f) (r : ℝ) : ∃ C : ℝ, 0 ≤ C ∧ ∀ u, 0 ≤ u → u ≤ 1 → ∀ (A : Rounding K u η G) (ins : List (Arr K)) (y : Arr K × Arr K),
    List.Forall₂ (NearIs (c * u)) (hamL t F I) ins → NearAmp (c * u) t T y →
      Good (n := sw n) (C * u) t (fun X => CC.ccsd_lambda_simple F I X.1 X.2 T.1 T.2) (fun X => Anti X.2) r
        fun x => f.nrun (rounded A true re) (ins ++ [x.1, x.2] ++ [y.1, y.2]) :=
  resL_any re hre hη hG hc f (hamL t F I) t T (fun X => CC.ccsd_lambda_simple F I X.1 X.2 T.1 T.2) (fun X => Anti X.2)
    (fun X hX => (residualsL_compute t F I hI hf T hT X hX).1) (residualsL_compute t F I hI hf T hT 0 (by constructor <;> intro a b i j <;> exact neg_zero.symm)).2 r

variable (eo : Fin (n 0) → K) (ev : Fin (n 1) → K)
  (g1 : ∀ a i, ev a - eo i ≠ 0) (g2 : ∀ a b i j, ev a + ev b - eo i - eo j ≠ 0)
  (L : Amp K (Fin (n 1)) (Fin (n 0))) (hL : Anti L.2) (δ q : ℝ) (hδ : 0 < δ) (q0 : 0 ≤ q) (q1 : q < 1)
  (contr : ∀ X, Anti X.2 → ‖X - L‖ ≤ δ → ‖updateL F I eo ev T X - L‖ ≤ q * ‖X - L‖)

omit hre hη hG hc hI hT in
theorem stepBy_L (X : Amp K (Fin (n 1)) (Fin (n 0))) :
    stepBy (n := sw n) (fun X => CC.ccsd_lambda_simple F I X.1 X.2 T.1 T.2) (fun a => -ev a) (fun i => -eo i) X = updateL F I eo ev T X := by
  refine Prod.ext ?_ ?_
  · funext i a
    simp only [stepBy, updateL]
    rw [show -eo i - -ev a = ev a - eo i by ring]
  · funext i j a b
    simp only [stepBy, updateL]
    rw [show -eo i + -eo j - -ev a - -ev b = ev a + ev b - eo i - eo j by ring]

include g1 g2 hL hδ q0 q1 contr

/-- C97: the accuracy attained.  Suppose that exact updates of antisymmetric multipliers at most `δ` from `L` come closer to `L` by the factor `q < 1` at least.  In any
rounded arithmetic of small unit roundoff `u`, with integrals, amplitudes and denominators wrong by at most `c * u`, and with the doubles antisymmetrised after every
update: no call raises, the doubles stay exactly antisymmetric, and after any number `k` of updates the error is at most `q ^ k` times the first one and `C * u`. -/
theorem C97_attains {f : Fun} (hf : ResidualsL f) :
    ∃ C u₀ : ℝ, 0 ≤ C ∧ 0 < u₀ ∧ u₀ ≤ 1 ∧ ∀ u, 0 ≤ u → u ≤ u₀ → ∀ (A : Rounding K u η G), SignSym A → ∀ (ins : List (Arr K)) (y : Arr K × Arr K) (d1 d2 : Arr K)
    (x : ℕ → Arr K × Arr K), List.Forall₂ (NearIs (c * u)) (hamL t F I) ins → NearAmp (c * u) t T y → NearDenL (c * u) eo ev d1 d2 →
      TypedL n t (x 0) → Anti (lamOf (x 0) : Amp K (Fin (n 1)) (Fin (n 0))).2 → ‖lamOf (x 0) - L‖ ≤ δ →
      ∀ k, (∀ j < k, LStep A re f ins y d1 d2 (x j) (x (j + 1))) →
        TypedL n t (x k) ∧ Anti (lamOf (x k) : Amp K (Fin (n 1)) (Fin (n 0))).2 ∧ ‖lamOf (x k) - L‖ ≤ δ ∧
        ‖lamOf (x k) - L‖ ≤ q ^ k * ‖lamOf (x 0) - L‖ + C * u ∧
        ∃ z, LStep A re f ins y d1 d2 (x k) z := by
  obtain ⟨Cr, hCr, hr⟩ := resL_round re hre hη hG hc t F I hI T hT hf (‖L‖ + δ)
  obtain ⟨C, u₀, h1, h2, h3, h⟩ := attain (n := sw n) (G := G) t (fun a => -ev a) (fun i => -eo i) (fun X => CC.ccsd_lambda_simple F I X.1 X.2 T.1 T.2) hη hc
    (fun i a h => g1 a i (by linear_combination h)) (fun i j a b h => g2 a b i j (by linear_combination h)) L hL δ q hδ q0 q1
    (fun X hX hd => by rw [stepBy_L F I T eo ev X]; exact contr X hX hd) hCr
  refine ⟨C, u₀, h1, h2, h3, fun u u0 uu A hA ins y d1 d2 x hi hy hd => h u u0 uu A hA _ d1 d2 x (hr u u0 (uu.trans h3) A ins y hi hy) ⟨fun i a => ?_, fun i j a b => ?_⟩⟩
  · have := hd.1 i a
    rwa [show ev a - eo i = -eo i - -ev a by ring] at this
  · have := hd.2 i j a b
    rwa [show ev a + ev b - eo i - eo j = -eo i + -eo j - -ev a - -ev b by ring] at this

omit hL hδ q0 in
/-- C97: the residuals that the routine returns and the error of the multipliers bound each other, up to the roundoff. -/
theorem C97_residual {f : Fun} (hf : ResidualsL f) :
    ∃ C : ℝ, 0 < C ∧ ∀ u, 0 ≤ u → u ≤ 1 → ∀ (A : Rounding K u η G) (ins : List (Arr K)) (y : Arr K × Arr K),
    List.Forall₂ (NearIs (c * u)) (hamL t F I) ins → NearAmp (c * u) t T y →
    ∀ x : Arr K × Arr K, TypedL n t x → Anti (lamOf x : Amp K (Fin (n 1)) (Fin (n 0))).2 → ‖lamOf x - L‖ ≤ δ →
      ∃ r1 r2, f.nrun (rounded A true re) (ins ++ [x.1, x.2] ++ [y.1, y.2]) = .ok [r1, r2] ∧ TypedL n t (r1, r2) ∧
        ‖(lamOf (r1, r2) : Amp K (Fin (n 1)) (Fin (n 0)))‖ ≤ C * (‖lamOf x - L‖ + u) ∧
        ‖lamOf x - L‖ ≤ C * (‖(lamOf (r1, r2) : Amp K (Fin (n 1)) (Fin (n 0)))‖ + u) := by
  obtain ⟨Cr, hCr, hr⟩ := resL_round re hre hη hG hc t F I hI T hT hf (‖L‖ + δ)
  obtain ⟨C, h1, h⟩ := stop (n := sw n) t (fun a => -ev a) (fun i => -eo i) (fun X => CC.ccsd_lambda_simple F I X.1 X.2 T.1 T.2)
    (fun i a h => g1 a i (by linear_combination h)) (fun i j a b h => g2 a b i j (by linear_combination h)) (fun X => Anti X.2) L δ q q1
    (fun X hX hd => by rw [stepBy_L F I T eo ev X]; exact contr X hX hd) hCr
  exact ⟨C, h1, fun u u0 u1 A ins y hi hy => h u u0 u1 _ (hr u u0 u1 A ins y hi hy)⟩

end routines

/-! ### amplitudes, multipliers and what is computed from them -/

/-- An argument of a routine: amplitudes from the arrays `x`, multipliers from the arrays `y`, or anything else, wrong by at most `ε`. -/
def Arg (ε : ℝ) (t : Bool) (T : Amp K (Fin (n 0)) (Fin (n 1))) (L : Amp K (Fin (n 1)) (Fin (n 0))) (x y : Arr K × Arr K) (d : Desc n K) (b : Arr K) : Prop :=
  (d = .two t 1 0 T.1 ∧ b = x.1) ∨ (d = .four t 1 1 0 0 T.2 ∧ b = x.2) ∨ (d = .two t 0 1 L.1 ∧ b = y.1) ∨ (d = .four t 0 0 1 1 L.2 ∧ b = y.2) ∨ NearIs ε d b

theorem nearLam {ε : ℝ} (hε : 0 ≤ ε) {t : Bool} {L : Amp K (Fin (n 1)) (Fin (n 0))} {x : Arr K × Arr K} (h : TypedL n t x) (hn : ‖lamOf x - L‖ ≤ ε) :
    NearIs (n := n) ε (.two t 0 1 L.1) x.1 ∧ NearIs (n := n) ε (.four t 0 0 1 1 L.2) x.2 := by
  have h' : NearAmp (n := sw n) ε t L x := (nearAmp_iff hε).2 ⟨h, hn⟩
  have h1 := nearIs_two.1 h'.1
  have h2 := nearIs_four.1 h'.2
  exact ⟨nearIs_two.2 h1, nearIs_four.2 h2⟩

/-- What the iteration of the amplitudes attains, for any set `ok` of rounded arithmetics, any integrals `H`, symmetry `Sy` and steps `St`. -/
def Attains {η : ℝ} {G : List (List ℝ) → ℝ} (c : ℝ) (t : Bool) (H : List (Desc n K)) (eo : Fin (n 0) → K) (ev : Fin (n 1) → K) (T : Amp K (Fin (n 0)) (Fin (n 1))) (δ q : ℝ)
    (Sy : Amp K (Fin (n 0)) (Fin (n 1)) → Prop) (ok : ∀ {u : ℝ}, Rounding K u η G → Prop)
    (St : ∀ {u : ℝ}, Rounding K u η G → List (Arr K) → Arr K → Arr K → Arr K × Arr K → Arr K × Arr K → Prop) : Prop :=
  ∃ C u₀ : ℝ, 0 ≤ C ∧ 0 < u₀ ∧ u₀ ≤ 1 ∧ ∀ u, 0 ≤ u → u ≤ u₀ → ∀ (A : Rounding K u η G), ok A → ∀ (ins : List (Arr K)) (d1 d2 : Arr K)
    (x : ℕ → Arr K × Arr K), List.Forall₂ (NearIs (c * u)) H ins → NearDen (c * u) eo ev d1 d2 →
      Typed n t (x 0) → Sy (ampOf (x 0)) → ‖ampOf (x 0) - T‖ ≤ δ →
      ∀ k, (∀ j < k, St A ins d1 d2 (x j) (x (j + 1))) →
        Typed n t (x k) ∧ Sy (ampOf (x k)) ∧ ‖ampOf (x k) - T‖ ≤ δ ∧
        ‖ampOf (x k) - T‖ ≤ q ^ k * ‖ampOf (x 0) - T‖ + C * u ∧ ∃ y, St A ins d1 d2 (x k) y

/-- What the iteration of the multipliers attains. -/
def AttainsL {η : ℝ} {G : List (List ℝ) → ℝ} (c : ℝ) (t : Bool) (H : List (Desc n K)) (eo : Fin (n 0) → K) (ev : Fin (n 1) → K) (T : Amp K (Fin (n 0)) (Fin (n 1)))
    (L : Amp K (Fin (n 1)) (Fin (n 0))) (δ q : ℝ) (Sy : Amp K (Fin (n 1)) (Fin (n 0)) → Prop) (ok : ∀ {u : ℝ}, Rounding K u η G → Prop)
    (St : ∀ {u : ℝ}, Rounding K u η G → List (Arr K) → Arr K × Arr K → Arr K → Arr K → Arr K × Arr K → Arr K × Arr K → Prop) : Prop :=
  ∃ C u₀ : ℝ, 0 ≤ C ∧ 0 < u₀ ∧ u₀ ≤ 1 ∧ ∀ u, 0 ≤ u → u ≤ u₀ → ∀ (A : Rounding K u η G), ok A → ∀ (ins : List (Arr K)) (y : Arr K × Arr K) (d1 d2 : Arr K)
    (x : ℕ → Arr K × Arr K), List.Forall₂ (NearIs (c * u)) H ins → NearAmp (c * u) t T y → NearDenL (c * u) eo ev d1 d2 →
      TypedL n t (x 0) → Sy (lamOf (x 0)) → ‖lamOf (x 0) - L‖ ≤ δ →
      ∀ k, (∀ j < k, St A ins y d1 d2 (x j) (x (j + 1))) →
        TypedL n t (x k) ∧ Sy (lamOf (x k)) ∧ ‖lamOf (x k) - L‖ ≤ δ ∧
        ‖lamOf (x k) - L‖ ≤ q ^ k * ‖lamOf (x 0) - L‖ + C * u ∧ ∃ z, St A ins y d1 d2 (x k) z

/-- Amplitudes, multipliers and what is computed from them, for any iterations that attain the roundoff. -/
theorem pipelineBy (re : K → K) (hre : ∀ x y, ‖re x - re y‖ ≤ ‖x - y‖) {η : ℝ} (hη : 0 ≤ η) {G : List (List ℝ) → ℝ} (hG : GMono G) {c : ℝ} (hc : 0 ≤ c)
    (t : Bool) (H HL : List (Desc n K)) (eo : Fin (n 0) → K) (ev : Fin (n 1) → K) (T : Amp K (Fin (n 0)) (Fin (n 1))) (L : Amp K (Fin (n 1)) (Fin (n 0)))
    (δ δ' q : ℝ) (hδ : 0 < δ) (hδ' : 0 < δ') (q0 : 0 ≤ q) (q1 : q < 1)
    (Sy : Amp K (Fin (n 0)) (Fin (n 1)) → Prop) (SyL : Amp K (Fin (n 1)) (Fin (n 0)) → Prop) (ok : ∀ {u : ℝ}, Rounding K u η G → Prop)
    (St : ∀ {u : ℝ}, Rounding K u η G → List (Arr K) → Arr K → Arr K → Arr K × Arr K → Arr K × Arr K → Prop)
    (StL : ∀ {u : ℝ}, Rounding K u η G → List (Arr K) → Arr K × Arr K → Arr K → Arr K → Arr K × Arr K → Arr K × Arr K → Prop)
    (ha : Attains (G := G) c t H eo ev T δ q Sy ok St) (haL : ∀ c', 0 ≤ c' → AttainsL (G := G) c' t HL eo ev T L δ' q SyL ok StL)
    {h : Fun} {ds es : List (Desc n K)} (hh : Computes h ds es) (hp : ds.length = h.params.length) :
    ∃ C u₀ : ℝ, 0 ≤ C ∧ 0 < u₀ ∧ u₀ ≤ 1 ∧ ∀ u, 0 < u → u ≤ u₀ → ∃ N : ℕ, ∀ (A : Rounding K u η G), ok A → ∀ (ins insL : List (Arr K)) (d1 d2 e1 e2 : Arr K)
      (x₀ y₀ : Arr K × Arr K), List.Forall₂ (NearIs (c * u)) H ins → List.Forall₂ (NearIs (c * u)) HL insL →
      NearDen (c * u) eo ev d1 d2 → NearDenL (c * u) eo ev e1 e2 →
      Typed n t x₀ → Sy (ampOf x₀) → ‖ampOf x₀ - T‖ ≤ δ →
      TypedL n t y₀ → SyL (lamOf y₀) → ‖lamOf y₀ - L‖ ≤ δ' →
      (∀ k m, N ≤ k → ∃ x y : ℕ → Arr K × Arr K, x 0 = x₀ ∧ y 0 = y₀ ∧ (∀ j < k, St A ins d1 d2 (x j) (x (j + 1))) ∧
        ∀ j < m, StL A insL (x k) e1 e2 (y j) (y (j + 1))) ∧
      ∀ (x y : ℕ → Arr K × Arr K) (k m : ℕ), x 0 = x₀ → y 0 = y₀ → N ≤ k → N ≤ m →
        (∀ j < k, St A ins d1 d2 (x j) (x (j + 1))) → (∀ j < m, StL A insL (x k) e1 e2 (y j) (y (j + 1))) →
        ‖ampOf (x k) - T‖ ≤ C * u ∧ ‖lamOf (y m) - L‖ ≤ C * u ∧
        ∀ bs, List.Forall₂ (Arg (c * u) t T L (x k) (y m)) ds bs → ∃ rs, h.nrun (rounded A true re) bs = .ok rs ∧ List.Forall₂ (NearIs (C * u)) es rs := by
  obtain ⟨C₁, u₁, hC₁, hu₁, hu₁', h₁⟩ := ha
  obtain ⟨C₂, u₂, hC₂, hu₂, hu₂', h₂⟩ := haL (c + C₁ + 1) (by positivity)
  obtain ⟨M, -, hM⟩ := desc_bounds ds 0
  obtain ⟨C₃, hC₃, h₃⟩ := C60_uniform_routine (ι := Unit) h (fun _ => ds) (fun _ => es) (fun _ => hh) (fun _ => hp) _ (M := M) (fun _ => hM)
    re hre hη hG (c := c + C₁ + C₂ + 1) (by positivity)
  refine ⟨C₁ + C₂ + C₃ + 1, min u₁ u₂, by positivity, lt_min hu₁ hu₂, (min_le_left _ _).trans hu₁', fun u u0 uu => ?_⟩
  obtain ⟨N, hN⟩ := exists_pow_lt_of_lt_one (show 0 < u / (δ + δ') by positivity) q1
  refine ⟨N, fun A hA ins insL d1 d2 e1 e2 x₀ y₀ hi hiL hd he tx ax nx ty ay ny => ?_⟩
  have small : ∀ k, N ≤ k → ∀ s : ℝ, 0 ≤ s → s ≤ δ + δ' → q ^ k * s ≤ u := fun k hk s s0 hs => by
    have h1 : q ^ k * s ≤ q ^ N * (δ + δ') := mul_le_mul (pow_le_pow_of_le_one q0 q1.le hk) hs s0 (pow_nonneg q0 _)
    have h2 := mul_le_mul_of_nonneg_right hN.le (by positivity : 0 ≤ δ + δ')
    rw [div_mul_cancel₀ _ (by positivity : δ + δ' ≠ 0)] at h2
    linarith
  have up : ∀ {a b : ℝ}, a ≤ b → a * u ≤ b * u := fun h => mul_le_mul_of_nonneg_right h u0.le
  have amps : ∀ (x : ℕ → Arr K × Arr K) (k : ℕ), x 0 = x₀ → (∀ j < k, St A ins d1 d2 (x j) (x (j + 1))) →
      (Typed n t (x k) ∧ (N ≤ k → ‖ampOf (x k) - T‖ ≤ (C₁ + 1) * u)) ∧ ∃ z, St A ins d1 d2 (x k) z := by
    rintro x k rfl hx
    obtain ⟨p1, -, -, p4, p5⟩ := h₁ u u0.le (uu.trans (min_le_left _ _)) A hA ins d1 d2 x hi hd tx ax nx k hx
    exact ⟨⟨p1, fun hk => by linarith [small k hk _ (norm_nonneg _) (nx.trans (by linarith))]⟩, p5⟩
  have hi' : List.Forall₂ (NearIs ((c + C₁ + 1) * u)) HL insL := hiL.imp fun _ _ h => ⟨h.1, h.2.1, fun idx hi => (h.2.2 idx hi).trans (up (by linarith))⟩
  have lams : ∀ (w : Arr K × Arr K) (y : ℕ → Arr K × Arr K) (m : ℕ), Typed n t w → ‖ampOf w - T‖ ≤ (C₁ + 1) * u → y 0 = y₀ →
      (∀ j < m, StL A insL w e1 e2 (y j) (y (j + 1))) →
      (TypedL n t (y m) ∧ (N ≤ m → ‖lamOf (y m) - L‖ ≤ (C₂ + 1) * u)) ∧ ∃ z, StL A insL w e1 e2 (y m) z := by
    rintro w y m p1 p5 rfl hy
    obtain ⟨q1', -, -, q4, q5⟩ := h₂ u u0.le (uu.trans (min_le_right _ _)) A hA insL w e1 e2 y hi'
      ((nearAmp_iff (by positivity)).2 ⟨p1, p5.trans (up (by linarith))⟩)
      ⟨fun i a => (he.1 i a).trans (up (by linarith)), fun i j a b => (he.2 i j a b).trans (up (by linarith))⟩ ty ay ny m hy
    exact ⟨⟨q1', fun hm => by linarith [small m hm _ (norm_nonneg _) (ny.trans (by linarith))]⟩, q5⟩
  refine ⟨fun k m hk => ?_, fun x y k m hx0 hy0 hk hm hx hy => ?_⟩
  · obtain ⟨x, hx0, hx⟩ := chains (fun k x h0 hx => (amps x k h0 hx).2) k
    obtain ⟨⟨p1, p2⟩, -⟩ := amps x k hx0 hx
    obtain ⟨y, hy0, hy⟩ := chains (fun m y h0 hy => (lams (x k) y m p1 (p2 hk) h0 hy).2) m
    exact ⟨x, y, hx0, hy0, hx, hy⟩
  · obtain ⟨⟨p1, p2⟩, -⟩ := amps x k hx0 hx
    have p5 := p2 hk
    obtain ⟨⟨q1', q2⟩, -⟩ := lams (x k) y m p1 p5 hy0 hy
    have q6 := q2 hm
    have nT : NearAmp ((c + C₁ + C₂ + 1) * u) t T (x k) := (nearAmp_iff (by positivity)).2 ⟨p1, p5.trans (up (by linarith))⟩
    have nL := nearLam (ε := (c + C₁ + C₂ + 1) * u) (by positivity) q1' (q6.trans (up (by linarith)))
    refine ⟨p5.trans (up (by linarith)), q6.trans (up (by linarith)), fun bs hbs => ?_⟩
    obtain ⟨rs, e, hr⟩ := h₃ () u u0.le ((uu.trans (min_le_left _ _)).trans hu₁') A bs (hbs.imp fun d b h => by
      rcases h with ⟨rfl, rfl⟩ | ⟨rfl, rfl⟩ | ⟨rfl, rfl⟩ | ⟨rfl, rfl⟩ | h
      · exact nT.1
      · exact nT.2
      · exact nL.1
      · exact nL.2
      · exact ⟨h.1, h.2.1, fun idx hi => (h.2.2 idx hi).trans (up (by linarith))⟩)
    exact ⟨rs, e, hr.imp fun _ _ h => ⟨h.1, h.2.1, fun idx hi => (h.2.2 idx hi).trans (up (by linarith))⟩⟩

section pipeline
variable (re : K → K) (hre : ∀ x y, ‖re x - re y‖ ≤ ‖x - y‖) {η : ℝ} (hη : 0 ≤ η) {G : List (List ℝ) → ℝ} (hG : GMono G) {c : ℝ} (hc : 0 ≤ c)
  (t : Bool) (F : OneE (Fin (n 0)) (Fin (n 1)) K) (I : TwoE (Fin (n 0)) (Fin (n 1)) K) (hI : AntiI I)
  (eo : Fin (n 0) → K) (ev : Fin (n 1) → K) (g1 : ∀ a i, ev a - eo i ≠ 0) (g2 : ∀ a b i j, ev a + ev b - eo i - eo j ≠ 0)
  (T : Amp K (Fin (n 0)) (Fin (n 1))) (hT : Anti T.2) (L : Amp K (Fin (n 1)) (Fin (n 0))) (hL : Anti L.2)
  (δ δ' q : ℝ) (hδ : 0 < δ) (hδ' : 0 < δ') (q0 : 0 ≤ q) (q1 : q < 1)
  (contr : ∀ X, Anti X.2 → ‖X - T‖ ≤ δ → ‖update F I eo ev X - T‖ ≤ q * ‖X - T‖)
  (contrL : ∀ X, Anti X.2 → ‖X - L‖ ≤ δ' → ‖updateL F I eo ev T X - L‖ ≤ q * ‖X - L‖)
include hre hη hG hc hI g1 g2 hT hL hδ hδ' q0 q1 contr contrL

/-- C97: a whole calculation.  The amplitudes are iterated `k` times, then the multipliers are iterated `m` times with the amplitudes obtained, and then any routine is
called with them, like those of the energy and of the density matrices.  For every unit roundoff `u` there is a number `N` of updates from which on all results are
within `C * u` of the exact ones, and no call raises.  The constant depends neither on `u` nor on the numbers of updates. -/
theorem C97_pipeline {f g h : Fun} (hf : Residuals f) (hg : ResidualsL g) {ds es : List (Desc n K)} (hh : Computes h ds es) (hp : ds.length = h.params.length) :
    ∃ C u₀ : ℝ, 0 ≤ C ∧ 0 < u₀ ∧ u₀ ≤ 1 ∧ ∀ u, 0 < u → u ≤ u₀ → ∃ N : ℕ, ∀ (A : Rounding K u η G), SignSym A → ∀ (ins insL : List (Arr K)) (d1 d2 e1 e2 : Arr K)
      (x₀ y₀ : Arr K × Arr K), List.Forall₂ (NearIs (c * u)) (ham t F I) ins → List.Forall₂ (NearIs (c * u)) (hamL t F I) insL →
      NearDen (c * u) eo ev d1 d2 → NearDenL (c * u) eo ev e1 e2 →
      Typed n t x₀ → Anti (ampOf x₀ : Amp K (Fin (n 0)) (Fin (n 1))).2 → ‖ampOf x₀ - T‖ ≤ δ →
      TypedL n t y₀ → Anti (lamOf y₀ : Amp K (Fin (n 1)) (Fin (n 0))).2 → ‖lamOf y₀ - L‖ ≤ δ' →
      (∀ k m, N ≤ k → ∃ x y : ℕ → Arr K × Arr K, x 0 = x₀ ∧ y 0 = y₀ ∧ (∀ j < k, AStep A re f ins d1 d2 (x j) (x (j + 1))) ∧
        ∀ j < m, LStep A re g insL (x k) e1 e2 (y j) (y (j + 1))) ∧
      ∀ (x y : ℕ → Arr K × Arr K) (k m : ℕ), x 0 = x₀ → y 0 = y₀ → N ≤ k → N ≤ m →
        (∀ j < k, AStep A re f ins d1 d2 (x j) (x (j + 1))) → (∀ j < m, LStep A re g insL (x k) e1 e2 (y j) (y (j + 1))) →
        ‖ampOf (x k) - T‖ ≤ C * u ∧ ‖lamOf (y m) - L‖ ≤ C * u ∧
        ∀ bs, List.Forall₂ (Arg (c * u) t T L (x k) (y m)) ds bs → ∃ rs, h.nrun (rounded A true re) bs = .ok rs ∧ List.Forall₂ (NearIs (C * u)) es rs :=
  pipelineBy re hre hη hG hc t (ham t F I) (hamL t F I) eo ev T L δ δ' q hδ hδ' q0 q1 (fun X => Anti X.2) (fun X => Anti X.2) SignSym (fun A => AStep A re f) (fun A => LStep A re g)
    (C96_attains re hre hη hG hc t F I hI eo ev g1 g2 T hT δ q hδ q0 q1 contr hf)
    (fun _ hc' => C97_attains re hre hη hG hc' t F I hI T hT eo ev g1 g2 L hL δ' q hδ' q0 q1 contrL hg) hh hp

end pipeline

/-- C97: a whole calculation for a weak perturbation, from antisymmetric amplitudes and multipliers in a ball. -/
theorem C97_weak (re : K → K) (hre : ∀ x y, ‖re x - re y‖ ≤ ‖x - y‖) {η : ℝ} (hη : 0 ≤ η) {G : List (List ℝ) → ℝ} (hG : GMono G) {c : ℝ} (hc : 0 ≤ c)
    (t : Bool) (v : OneE (Fin (n 0)) (Fin (n 1)) K) (I : TwoE (Fin (n 0)) (Fin (n 1)) K) (hI : AntiI I) (eo : Fin (n 0) → K) (ev : Fin (n 1) → K)
    (g1 : ∀ a i, ev a - eo i ≠ 0) (g2 : ∀ a b i j, ev a + ev b - eo i - eo j ≠ 0) (r : ℝ) (hr : 0 < r) {f g : Fun} (hf : Residuals f) (hg : ResidualsL g) :
    ∃ z₀ : ℝ, 0 < z₀ ∧ ∀ z : K, ‖z‖ ≤ z₀ → ∃ (T : Amp K (Fin (n 0)) (Fin (n 1))) (L : Amp K (Fin (n 1)) (Fin (n 0))), Anti T.2 ∧ Anti L.2 ∧ ‖T‖ ≤ r ∧
      CC.ccsd_simple ((diagF eo ev).addMul z v) (I.mul z) T.1 T.2 = (fun _ _ => 0, fun _ _ _ _ => 0) ∧
      CC.ccsd_lambda_simple ((diagF eo ev).addMul z v) (I.mul z) L.1 L.2 T.1 T.2 = (fun _ _ => 0, fun _ _ _ _ => 0) ∧
      ∀ (h : Fun) (ds es : List (Desc n K)), Computes h ds es → ds.length = h.params.length →
      ∃ C u₀ : ℝ, 0 ≤ C ∧ 0 < u₀ ∧ u₀ ≤ 1 ∧ ∀ u, 0 < u → u ≤ u₀ → ∃ N : ℕ, ∀ (A : Rounding K u η G), SignSym A → ∀ (ins insL : List (Arr K)) (d1 d2 e1 e2 : Arr K)
        (x₀ y₀ : Arr K × Arr K), List.Forall₂ (NearIs (c * u)) (ham t ((diagF eo ev).addMul z v) (I.mul z)) ins →
        List.Forall₂ (NearIs (c * u)) (hamL t ((diagF eo ev).addMul z v) (I.mul z)) insL → NearDen (c * u) eo ev d1 d2 → NearDenL (c * u) eo ev e1 e2 →
        Typed n t x₀ → Anti (ampOf x₀ : Amp K (Fin (n 0)) (Fin (n 1))).2 → ‖(ampOf x₀ : Amp K (Fin (n 0)) (Fin (n 1)))‖ ≤ r →
        TypedL n t y₀ → Anti (lamOf y₀ : Amp K (Fin (n 1)) (Fin (n 0))).2 → ‖(lamOf y₀ : Amp K (Fin (n 1)) (Fin (n 0)))‖ ≤ r →
        (∀ k m, N ≤ k → ∃ x y : ℕ → Arr K × Arr K, x 0 = x₀ ∧ y 0 = y₀ ∧ (∀ j < k, AStep A re f ins d1 d2 (x j) (x (j + 1))) ∧
          ∀ j < m, LStep A re g insL (x k) e1 e2 (y j) (y (j + 1))) ∧
        ∀ (x y : ℕ → Arr K × Arr K) (k m : ℕ), x 0 = x₀ → y 0 = y₀ → N ≤ k → N ≤ m →
          (∀ j < k, AStep A re f ins d1 d2 (x j) (x (j + 1))) → (∀ j < m, LStep A re g insL (x k) e1 e2 (y j) (y (j + 1))) →
          ‖ampOf (x k) - T‖ ≤ C * u ∧ ‖lamOf (y m) - L‖ ≤ C * u ∧
          ∀ bs, List.Forall₂ (Arg (c * u) t T L (x k) (y m)) ds bs → ∃ rs, h.nrun (rounded A true re) bs = .ok rs ∧ List.Forall₂ (NearIs (C * u)) es rs := by
  obtain ⟨z₁, hz1, h1⟩ := C66_converges eo ev v I hI g1 g2 r hr
  obtain ⟨z₂, hz2, h2⟩ := C66_lambda_converges eo ev v I hI g1 g2 r
  obtain ⟨z₃, hz3, h3⟩ := C66_converges eo ev v I hI g1 g2 (3 * r) (by positivity)
  refine ⟨min z₁ (min z₂ z₃), lt_min hz1 (lt_min hz2 hz3), fun z hz => ?_⟩
  obtain ⟨T, hA, hn, hsol, -, -⟩ := h1 z (hz.trans (min_le_left _ _))
  obtain ⟨T', -, -, -, huniq, hcv⟩ := h3 z (hz.trans ((min_le_right _ _).trans (min_le_right _ _)))
  obtain rfl := huniq T hA (by linarith) hsol
  obtain ⟨L, hL, hLs, hLc⟩ := h2 z (hz.trans ((min_le_right _ _).trans (min_le_left _ _))) T hA hn
  refine ⟨T, L, hA, hL, hn, hsol, (hLs L hL).2 rfl, fun h ds es hh hp => ?_⟩
  obtain ⟨C, u₀, hC, hu, hu1, h'⟩ := C97_pipeline re hre hη hG hc t ((diagF eo ev).addMul z v) (I.mul z) (TwoE.mul_anti hI z) eo ev g1 g2 T hA L hL (2 * r) (r + ‖L‖) (1 / 2)
    (by positivity) (by positivity) (by norm_num) (by norm_num)
    (fun X hX hd => by
      have := hcv X hX (by have := norm_sub_norm_le X T; linarith) 1
      simpa using this)
    (fun X hX _ => by simpa using hLc X hX 1) hf hg hh hp
  refine ⟨C, u₀, hC, hu, hu1, fun u u0 uu => ?_⟩
  obtain ⟨N, hN⟩ := h' u u0 uu
  exact ⟨N, fun A hA' ins insL d1 d2 e1 e2 x₀ y₀ hi hiL hd he tx ax nx ty ay ny =>
    hN A hA' ins insL d1 d2 e1 e2 x₀ y₀ hi hiL hd he tx ax (by have := norm_sub_le (ampOf x₀) T; linarith) ty ay (by have := norm_sub_le (lamOf y₀) L; linarith)⟩

/-- Two occupied orbitals of energy -1, three virtual ones of energy 1, any antisymmetric integrals that are weak enough, an arithmetic that really rounds: amplitudes
by `ccsd_stanton`, multipliers by `ccsd_lambda_opt`, both from zero, and the occupied block of the one-particle density matrix. -/
example (f : OneE (Fin 2) (Fin 3) ℝ) (I : TwoE (Fin 2) (Fin 3) ℝ) (hI : AntiI I) : ∃ z₀ : ℝ, 0 < z₀ ∧ ∀ z : ℝ, |z| ≤ z₀ →
    ∃ (T : Amp ℝ (Fin 2) (Fin 3)) (L : Amp ℝ (Fin 3) (Fin 2)) (C u₀ : ℝ), 0 < u₀ ∧
      CC.ccsd_simple ((diagF (fun _ => -1) fun _ => 1).addMul z f) (I.mul z) T.1 T.2 = (fun _ _ => 0, fun _ _ _ _ => 0) ∧
      CC.ccsd_lambda_simple ((diagF (fun _ => -1) fun _ => 1).addMul z f) (I.mul z) L.1 L.2 T.1 T.2 = (fun _ _ => 0, fun _ _ _ _ => 0) ∧
      ∀ (u : ℝ) (h0 : 0 < u) (h1 : u ≤ 1), u ≤ u₀ → ∃ x y : Arr ℝ × Arr ℝ, ∃ d : Arr ℝ,
        Prog.ccsd_1rdm_ji.nrun (rounded (inflate h0.le h1 : Rounding ℝ u 0 (szSum 0)) true id) [x.1, x.2, y.1, y.2] = .ok [d] ∧
        ∀ i j : Fin 2, |d.val [i.1, j.1] - CC.ccsd_1rdm_ji T.1 T.2 L.1 L.2 i j| ≤ C * u := by
  obtain ⟨z₀, hz, h⟩ := C97_weak (n := fun k => k + 2) id (fun _ _ => le_rfl) le_rfl (sz_mono le_rfl) (c := 0) le_rfl false f I hI (fun _ => (-1 : ℝ)) (fun _ => 1)
    (fun _ _ => by norm_num) (fun _ _ _ _ => by norm_num) 1 one_pos (.inr rfl : Residuals Prog.ccsd_stanton) (.inr (.inl rfl) : ResidualsL Prog.ccsd_lambda_opt)
  refine ⟨z₀, hz, fun z hzz => ?_⟩
  obtain ⟨T, L, hA, hL, hn, hsol, hsolL, h'⟩ := h z hzz
  obtain ⟨C, u₀, hC, hu, hu1, h''⟩ := h' Prog.ccsd_1rdm_ji _ _ (C53_ccsd_1rdm_ji (n := fun k => k + 2) (l := false) (t := false) T.1 T.2 L.1 L.2) rfl
  refine ⟨T, L, C, u₀, hu, hsol, hsolL, fun u h0 h1 uu => ?_⟩
  obtain ⟨N, hN⟩ := h'' u h0 uu
  have near : ∀ d : Desc (fun k => k + 2) ℝ, NearIs (0 * u) d d.arr := fun d => ⟨rfl, rfl, fun idx _ => by rw [zero_mul, Desc.arr, sub_self, norm_zero]⟩
  have hi : ∀ ds : List (Desc (fun k => k + 2) ℝ), List.Forall₂ (NearIs (0 * u)) ds (ds.map Desc.arr) := fun ds => by
    rw [List.forall₂_map_right_iff]
    exact List.forall₂_same.2 fun d _ => near d
  obtain ⟨e1, e2⟩ := hN (inflate h0.le h1) (inflate_sign h0.le h1) _ _ ⟨false, [3, 2], fun _ => 2⟩ ⟨false, [3, 3, 2, 2], fun _ => 4⟩ ⟨false, [2, 3], fun _ => 2⟩
    ⟨false, [2, 2, 3, 3], fun _ => 4⟩ (⟨false, [3, 2], fun _ => 0⟩, ⟨false, [3, 3, 2, 2], fun _ => 0⟩) (⟨false, [2, 3], fun _ => 0⟩, ⟨false, [2, 2, 3, 3], fun _ => 0⟩)
    (hi _) (hi _) ⟨fun _ _ => by norm_num, fun _ _ _ _ => by norm_num⟩ ⟨fun _ _ => by norm_num, fun _ _ _ _ => by norm_num⟩ ⟨⟨rfl, rfl⟩, rfl, rfl⟩
    (by constructor <;> intro a b i j <;> simp [ampOf]) (amp_le zero_le_one (fun a i => by simp [ampOf]) fun a b i j => by simp [ampOf]) ⟨⟨rfl, rfl⟩, rfl, rfl⟩
    (by constructor <;> intro a b i j <;> simp [lamOf]) (amp_le zero_le_one (fun a i => by simp [lamOf]) fun a b i j => by simp [lamOf])
  obtain ⟨x, y, x0, y0, hx, hy⟩ := e1 N N le_rfl
  obtain ⟨-, -, w⟩ := e2 x y N N x0 y0 le_rfl le_rfl hx hy
  obtain ⟨rs, e, hr⟩ := w [(x N).1, (x N).2, (y N).1, (y N).2] (.cons (.inl ⟨rfl, rfl⟩) (.cons (.inr (.inl ⟨rfl, rfl⟩)) (.cons (.inr (.inr (.inl ⟨rfl, rfl⟩)))
    (.cons (.inr (.inr (.inr (.inl ⟨rfl, rfl⟩)))) .nil))))
  obtain ⟨d, _, hd, hr', rfl⟩ := List.forall₂_cons_left_iff.1 hr
  obtain rfl := List.forall₂_nil_left_iff.1 hr'
  exact ⟨x N, y N, d, e, fun i j => (nearIs_two.1 hd).2.2 i j⟩

end Heap
