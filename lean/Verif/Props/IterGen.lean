import Verif.Props.IterUniL
/-!
# Iterations over several arrays in rounded arithmetic

The arguments of `IterUni` and `IterUniL` for amplitudes in any number of arrays.
-/

namespace Heap
open Prog CC
variable {n : ℕ → ℕ} {K : Type} [RCLike K]

/-- The element of a tensor at the given numbers. -/
def Desc.at (d : Desc n K) (idx : List ℕ) : K := Cur.get d.ten.shape d.ten.val idx

/-- Amplitudes that are kept in several arrays: the tensors, the shapes of the arrays, and the amplitudes in given arrays. -/
structure Coords (n : ℕ → ℕ) (K : Type) [RCLike K] (E : Type) [NormedAddCommGroup E] (m : ℕ) (t : Bool) where
  de : Fin m → E → Desc n K
  sh : Fin m → List ℕ
  rd : (Fin m → Arr K) → E
  cx : ∀ i X, (de i X).cx = t
  shape : ∀ i X, (de i X).ten.shape.map n = sh i
  le : ∀ (X : E) (c : ℝ), 0 ≤ c → (∀ i idx, List.Forall₂ (· < ·) idx (sh i) → ‖(de i X).at idx‖ ≤ c) → ‖X‖ ≤ c
  ge : ∀ (X : E) i idx, List.Forall₂ (· < ·) idx (sh i) → ‖(de i X).at idx‖ ≤ ‖X‖
  sub : ∀ (X Y : E) i idx, List.Forall₂ (· < ·) idx (sh i) → (de i (X - Y)).at idx = (de i X).at idx - (de i Y).at idx
  read : ∀ x i idx, List.Forall₂ (· < ·) idx (sh i) → (de i (rd x)).at idx = (x i).val idx

namespace Coords
variable {E : Type} [NormedAddCommGroup E] {m : ℕ} {t : Bool} (V : Coords n K E m t)

/-- Arrays of the element type and shapes of the amplitudes. -/
def Ty (x : Fin m → Arr K) : Prop := ∀ i, (x i).cx = t ∧ (x i).shape = V.sh i

theorem near_iff {ε : ℝ} (hε : 0 ≤ ε) {X : E} {x : Fin m → Arr K} : (∀ i, NearIs ε (V.de i X) (x i)) ↔ V.Ty x ∧ ‖V.rd x - X‖ ≤ ε := by
  constructor
  · intro h
    have ty : V.Ty x := fun i => ⟨(h i).1.trans (V.cx i X), (h i).2.1.trans (V.shape i X)⟩
    refine ⟨ty, V.le _ _ hε fun i idx hi => ?_⟩
    rw [V.sub _ _ _ _ hi, V.read _ _ _ hi]
    exact (h i).2.2 idx (by rw [(ty i).2]; exact hi)
  · rintro ⟨ty, h⟩ i
    refine ⟨(ty i).1.trans (V.cx i X).symm, (ty i).2.trans (V.shape i X).symm, fun idx hi => ?_⟩
    rw [(ty i).2] at hi
    have := V.ge (V.rd x - X) i idx hi
    rw [V.sub _ _ _ _ hi, V.read _ _ _ hi] at this
    exact this.trans h

/-- One step: a call that returns the residuals, and the update of every array. -/
def Step {u η : ℝ} {G : List (List ℝ) → ℝ} (A : Rounding K u η G) (run : (Fin m → Arr K) → Except Err (List (Arr K))) (d a b : Fin m → Arr K) : Prop :=
  ∃ r : Fin m → Arr K, run a = .ok (List.ofFn r) ∧ ∀ i, (b i).cx = (a i).cx ∧ (b i).shape = (a i).shape ∧ ∀ idx, List.Forall₂ (· < ·) idx (a i).shape →
    ∃ q, ‖q - (r i).val idx / (d i).val idx‖ ≤ u * (‖(r i).val idx / (d i).val idx‖ + η) ∧ (b i).val idx = A.op .sub ((a i).val idx) q

/-- What a routine returns for amplitudes in a ball. -/
def Good (ε : ℝ) (R : E → E) (S : E → Prop) (r : ℝ) (run : (Fin m → Arr K) → Except Err (List (Arr K))) : Prop :=
  ∀ x, V.Ty x → S (V.rd x) → ‖V.rd x‖ ≤ r → ∃ y : Fin m → Arr K, run x = .ok (List.ofFn y) ∧ ∀ i, NearIs ε (V.de i (R (V.rd x))) (y i)

/-- Denominators `D` wrong by at most `ε`. -/
def NearDen (ε : ℝ) (D : E) (d : Fin m → Arr K) : Prop := ∀ i idx, List.Forall₂ (· < ·) idx (V.sh i) → ‖(d i).val idx - (V.de i D).at idx‖ ≤ ε

/-- A way of restoring the symmetry of the amplitudes. -/
def Clean (Ec B u : ℝ) (Sy : E → Prop) (P : E → E) (Cl : (Fin m → Arr K) → (Fin m → Arr K) → Prop) : Prop :=
  ∀ b, V.Ty b → ‖V.rd b‖ ≤ B → (∃ y, Cl b y) ∧ ∀ y, Cl b y → V.Ty y ∧ Sy (V.rd y) ∧ ‖V.rd y - P (V.rd b)‖ ≤ Ec * u

theorem bound_all (g : Fin m → List ℕ → ℝ) : ∃ B : ℝ, 0 ≤ B ∧ ∀ i idx, List.Forall₂ (· < ·) idx (V.sh i) → g i idx ≤ B := by
  choose B hB h using fun i => bound_idx (V.sh i) (g i)
  exact ⟨∑ i, B i, Finset.sum_nonneg fun i _ => hB i, fun i idx hi => (h i idx hi).trans (Finset.single_le_sum (fun i _ => hB i) (Finset.mem_univ i))⟩

/-- The denominators are bounded away from zero. -/
theorem gap (D : E) (g : ∀ i idx, List.Forall₂ (· < ·) idx (V.sh i) → (V.de i D).at idx ≠ 0) :
    ∃ γ : ℝ, 0 < γ ∧ ∀ i idx, List.Forall₂ (· < ·) idx (V.sh i) → γ ≤ ‖(V.de i D).at idx‖ := by
  obtain ⟨B, hB, h⟩ := V.bound_all fun i idx => ‖(V.de i D).at idx‖⁻¹
  refine ⟨(B + 1)⁻¹, by positivity, fun i idx hi => ?_⟩
  have h0 := norm_pos_iff.2 (g i idx hi)
  rw [inv_le_comm₀ (by positivity) h0]
  linarith [h i idx hi]

/-! ### one update -/

section
variable (D : E) (g : ∀ i idx, List.Forall₂ (· < ·) idx (V.sh i) → (V.de i D).at idx ≠ 0) (R U : E → E)
  (hU : ∀ X i idx, List.Forall₂ (· < ·) idx (V.sh i) → (V.de i (U X)).at idx = (V.de i X).at idx - (V.de i (R X)).at idx / (V.de i D).at idx)
include g hU

theorem step_round (S : E → Prop) {η : ℝ} (hη : 0 ≤ η) {G : List (List ℝ) → ℝ} {c : ℝ} (hc : 0 ≤ c)
    (r N : ℝ) (hN : ∀ X, S X → ‖X‖ ≤ r → ‖R X‖ ≤ N) {C : ℝ} (hC : 0 ≤ C) : ∃ C' u₀ : ℝ, 0 ≤ C' ∧ 0 < u₀ ∧ u₀ ≤ 1 ∧ ∀ u, 0 ≤ u → u ≤ u₀ → ∀ (A : Rounding K u η G)
    (run : (Fin m → Arr K) → Except Err (List (Arr K))) (d : Fin m → Arr K), V.Good (C * u) R S r run → V.NearDen (c * u) D d →
      ∀ x, V.Ty x → S (V.rd x) → ‖V.rd x‖ ≤ r → (∃ b, Step A run d x b) ∧ ∀ b, Step A run d x b → ∀ i, NearIs (C' * u) (V.de i (U (V.rd x))) (b i) := by
  obtain ⟨γ, hγ, hg⟩ := V.gap D g
  refine ⟨|stepC η c c C r N γ|, min 1 (γ / (2 * (c + 1))), abs_nonneg _, lt_min one_pos (by positivity), min_le_left _ _, ?_⟩
  intro u u0 uu A run d hgd hd x hx hSx hr
  have u1 := uu.trans (min_le_left _ _)
  have cu : c * u ≤ γ / 2 := by
    have := mul_le_mul_of_nonneg_left (uu.trans (min_le_right _ _)) (by positivity : 0 ≤ c + 1)
    rw [show (c + 1) * (γ / (2 * (c + 1))) = γ / 2 by field_simp] at this
    nlinarith
  obtain ⟨y, e, hy⟩ := hgd x hx hSx hr
  refine ⟨⟨fun i => ⟨(x i).cx, (x i).shape, fun idx => A.op .sub ((x i).val idx) ((y i).val idx / (d i).val idx)⟩, y, e,
    fun i => ⟨rfl, rfl, fun idx _ => ⟨_, by rw [sub_self, norm_zero]; positivity, rfl⟩⟩⟩, ?_⟩
  rintro b ⟨y', e', hb⟩ i
  rw [e] at e'
  obtain rfl : y = y' := List.ofFn_injective (Except.ok.inj e')
  have sx := (hx i).2
  refine ⟨(hb i).1.trans ((hx i).1.trans (V.cx _ _).symm), (hb i).2.1.trans (sx.trans (V.shape _ _).symm), fun idx hi => ?_⟩
  rw [(hb i).2.1] at hi
  obtain ⟨q, h1, h2⟩ := (hb i).2.2 idx hi
  rw [sx] at hi
  rw [h2]
  change ‖_ - (V.de i (U (V.rd x))).at idx‖ ≤ _
  rw [hU _ _ _ hi, V.read _ _ _ hi]
  have hr' : ‖(y i).val idx - (V.de i (R (V.rd x))).at idx‖ ≤ C * u := (hy i).2.2 idx (by rw [(hy i).2.1, V.shape]; exact hi)
  have hl := hg i idx hi
  refine ((step_close A u0 u1 hη hc hc hC (g i idx hi) (cu.trans (div_le_div_of_nonneg_right hl (by norm_num))) (hd i idx hi) hr' (X := (x i).val idx)
    (by rw [sub_self, norm_zero]; positivity) h1).1).trans (mul_le_mul_of_nonneg_right (le_trans ?_ (le_abs_self _)) u0)
  refine stepC_mono hc hC hγ ?_ ((V.ge _ i idx hi).trans (hN _ hSx hr)) hl
  have := V.ge (V.rd x) i idx hi
  rw [V.read _ _ _ hi] at this
  exact this.trans hr

variable (Sy : E → Prop) (T : E) (δ q : ℝ) (q1 : q < 1) (contr : ∀ X, Sy X → ‖X - T‖ ≤ δ → ‖U X - T‖ ≤ q * ‖X - T‖)
include q1 contr

theorem res_bound : ∃ B : ℝ, 0 < B ∧ ∀ X, Sy X → ‖X - T‖ ≤ δ → ‖R X‖ ≤ B * ‖X - T‖ ∧ ‖X - T‖ ≤ B * ‖R X‖ := by
  obtain ⟨γ, hγ, hg⟩ := V.gap D g
  have q1' : 0 < 1 - q := sub_pos.2 q1
  have D0 := norm_nonneg D
  refine ⟨2 * ‖D‖ + γ⁻¹ / (1 - q), by positivity, fun X hX hd => ?_⟩
  have hc := contr X hX hd
  have h0 := norm_nonneg (X - T)
  have hr := norm_nonneg (R X)
  have diff : ∀ i idx, List.Forall₂ (· < ·) idx (V.sh i) → (V.de i (X - U X)).at idx = (V.de i (R X)).at idx / (V.de i D).at idx := fun i idx hi => by
    rw [V.sub _ _ _ _ hi, hU _ _ _ hi]; ring
  constructor
  · have mm : ‖X - U X‖ ≤ 2 * ‖X - T‖ := by
      have := norm_sub_le (X - T) (U X - T)
      rw [show X - T - (U X - T) = X - U X by abel] at this
      nlinarith
    have : ‖R X‖ ≤ ‖D‖ * (2 * ‖X - T‖) := by
      refine V.le _ _ (by positivity) fun i idx hi => ?_
      have e : (V.de i (R X)).at idx = (V.de i D).at idx * (V.de i (X - U X)).at idx := by
        rw [diff i idx hi, mul_div_cancel₀ _ (g i idx hi)]
      rw [e, norm_mul]
      exact mul_le_mul (V.ge _ i idx hi) ((V.ge _ i idx hi).trans mm) (norm_nonneg _) D0
    have : 0 ≤ γ⁻¹ / (1 - q) * ‖X - T‖ := by positivity
    linarith
  · have mm : ‖X - U X‖ ≤ γ⁻¹ * ‖R X‖ := by
      refine V.le _ _ (by positivity) fun i idx hi => ?_
      rw [diff i idx hi, div_eq_inv_mul, norm_mul, norm_inv]
      exact mul_le_mul (inv_anti₀ hγ (hg i idx hi)) (V.ge _ i idx hi) (norm_nonneg _) (by positivity)
    have tt : ‖X - T‖ ≤ ‖X - U X‖ + ‖U X - T‖ := norm_sub_le_norm_sub_add_norm_sub _ _ _
    have : ‖X - T‖ ≤ γ⁻¹ / (1 - q) * ‖R X‖ := by
      rw [div_mul_eq_mul_div, le_div_iff₀ q1']
      linarith
    have : 0 ≤ 2 * ‖D‖ * ‖R X‖ := by positivity
    linarith

/-- The residuals that are returned and the error of the amplitudes bound each other. -/
theorem stop {Cr : ℝ} (hCr : 0 ≤ Cr) : ∃ C : ℝ, 0 < C ∧ ∀ u, 0 ≤ u → u ≤ 1 → ∀ run, V.Good (Cr * u) R Sy (‖T‖ + δ) run →
    ∀ x, V.Ty x → Sy (V.rd x) → ‖V.rd x - T‖ ≤ δ →
      ∃ r : Fin m → Arr K, run x = .ok (List.ofFn r) ∧ V.Ty r ∧ ‖V.rd r‖ ≤ C * (‖V.rd x - T‖ + u) ∧ ‖V.rd x - T‖ ≤ C * (‖V.rd r‖ + u) := by
  obtain ⟨B, hB, hR⟩ := V.res_bound D g R U hU Sy T δ q q1 contr
  refine ⟨B + Cr + B * Cr, by positivity, fun u u0 u1 run hg x hx ha hn => ?_⟩
  obtain ⟨r, e, hr⟩ := hg x hx ha (by have := norm_sub_norm_le (V.rd x) T; linarith)
  obtain ⟨tr, hr'⟩ := (V.near_iff (by positivity)).1 hr
  obtain ⟨b1, b2⟩ := hR _ ha hn
  have h0 := norm_nonneg (V.rd x - T)
  have h0' := norm_nonneg (V.rd r)
  refine ⟨r, e, tr, ?_, ?_⟩
  · have := norm_sub_norm_le (V.rd r) (R (V.rd x))
    have : 0 ≤ Cr * ‖V.rd x - T‖ := by positivity
    have : 0 ≤ B * u := by positivity
    have : 0 ≤ B * Cr * (‖V.rd x - T‖ + u) := by positivity
    linarith
  · have h1 := norm_sub_norm_le (R (V.rd x)) (V.rd r)
    rw [norm_sub_rev] at h1
    have h2 := mul_le_mul_of_nonneg_left (show ‖R (V.rd x)‖ ≤ ‖V.rd r‖ + Cr * u by linarith) hB.le
    have : 0 ≤ Cr * ‖V.rd r‖ := by positivity
    have : 0 ≤ B * Cr * ‖V.rd r‖ := by positivity
    have : 0 ≤ (B + Cr) * u := by positivity
    linarith

variable (P : E → E) (hP : ∀ X, ‖P X - T‖ ≤ ‖X - T‖) (hδ : 0 < δ) (q0 : 0 ≤ q)
include hP hδ q0

/-- All updates. -/
theorem attain {η : ℝ} (hη : 0 ≤ η) {G : List (List ℝ) → ℝ} {c : ℝ} (hc : 0 ≤ c) {Cr : ℝ} (hCr : 0 ≤ Cr) (Ec : ℝ → ℝ) (hEc : ∀ B, 0 ≤ B → 0 ≤ Ec B) :
    ∃ C u₀ : ℝ, 0 ≤ C ∧ 0 < u₀ ∧ u₀ ≤ 1 ∧ ∀ u, 0 ≤ u → u ≤ u₀ → ∀ (A : Rounding K u η G)
    (run : (Fin m → Arr K) → Except Err (List (Arr K))) (Cl : (Fin m → Arr K) → (Fin m → Arr K) → Prop) (d : Fin m → Arr K) (x : ℕ → Fin m → Arr K),
      (∀ B, 0 ≤ B → V.Clean (Ec B) B u Sy P Cl) → V.Good (Cr * u) R Sy (‖T‖ + δ) run → V.NearDen (c * u) D d →
      V.Ty (x 0) → Sy (V.rd (x 0)) → ‖V.rd (x 0) - T‖ ≤ δ →
      ∀ k, (∀ j < k, ∃ b, Step A run d (x j) b ∧ Cl b (x (j + 1))) →
        V.Ty (x k) ∧ Sy (V.rd (x k)) ∧ ‖V.rd (x k) - T‖ ≤ δ ∧
        ‖V.rd (x k) - T‖ ≤ q ^ k * ‖V.rd (x 0) - T‖ + C * u ∧ ∃ y b, Step A run d (x k) b ∧ Cl b y := by
  obtain ⟨B₀, hB₀, hR⟩ := V.res_bound D g R U hU Sy T δ q q1 contr
  obtain ⟨Cs, us, hCs, hus, hus1, hs⟩ := V.step_round D g R U hU (G := G) (fun X => Sy X ∧ ‖X - T‖ ≤ δ) hη hc (‖T‖ + δ) (B₀ * δ)
    (fun X h _ => ((hR X h.1 h.2).1).trans (mul_le_mul_of_nonneg_left h.2 hB₀.le)) hCr
  have q1' : 0 < 1 - q := sub_pos.2 q1
  have T0 := norm_nonneg T
  set B := ‖T‖ + δ + Cs with hB
  have B0 : 0 ≤ B := by positivity
  set Er := Ec B + Cs with hE
  have E0 : 0 ≤ Er := add_nonneg (hEc B B0) hCs
  refine ⟨Er / (1 - q), min us ((1 - q) * δ / (Er + 1)), by positivity, lt_min hus (by positivity), (min_le_left _ _).trans hus1, ?_⟩
  intro u u0 uu A run Cl d x hcl hg hd t0 a0 n0
  have uus := uu.trans (min_le_left _ _)
  have u1 := uus.trans hus1
  have Eu : Er * u ≤ (1 - q) * δ := by
    have := mul_le_mul_of_nonneg_left (uu.trans (min_le_right _ _)) (by positivity : 0 ≤ Er + 1)
    rw [show (Er + 1) * ((1 - q) * δ / (Er + 1)) = (1 - q) * δ by field_simp] at this
    nlinarith
  have hi : V.Good (Cr * u) R (fun X => Sy X ∧ ‖X - T‖ ≤ δ) (‖T‖ + δ) run := fun x hx hs hr => hg x hx hs.1 hr
  have ball : ∀ X : E, ‖X - T‖ ≤ δ → ‖X‖ ≤ ‖T‖ + δ := fun X h => by
    have := norm_sub_norm_le X T
    linarith
  have one : ∀ x y, V.Ty x → Sy (V.rd x) → ‖V.rd x - T‖ ≤ δ → (∃ b, Step A run d x b ∧ Cl b y) →
      V.Ty y ∧ Sy (V.rd y) ∧ ‖V.rd y - T‖ ≤ q * ‖V.rd x - T‖ + Er * u := by
    rintro x y ht ha hn ⟨b, hb, hy⟩
    have h1 := (hs u u0 uus A run d hi hd x ht ⟨ha, hn⟩ (ball _ hn)).2 b hb
    obtain ⟨tb, h2⟩ := (V.near_iff (by positivity)).1 h1
    have h3 := contr _ ha hn
    have h4 : ‖V.rd b - T‖ ≤ Cs * u + q * ‖V.rd x - T‖ := by
      have := norm_sub_le_norm_sub_add_norm_sub (V.rd b) (U (V.rd x)) T
      linarith
    have h5 : ‖V.rd b‖ ≤ B := by
      have := norm_sub_norm_le (V.rd b) T
      have : Cs * u ≤ Cs := mul_le_of_le_one_right hCs u1
      have : q * ‖V.rd x - T‖ ≤ δ := by nlinarith [norm_nonneg (V.rd x - T)]
      linarith
    obtain ⟨ty, ay, hy'⟩ := (hcl B B0 b tb h5).2 y hy
    refine ⟨ty, ay, ?_⟩
    have h6 := hP (V.rd b)
    have h7 := norm_sub_le_norm_sub_add_norm_sub (V.rd y) (P (V.rd b)) T
    rw [hE, add_mul]
    linarith
  intro k
  have main : (∀ j < k, ∃ b, Step A run d (x j) b ∧ Cl b (x (j + 1))) → V.Ty (x k) ∧ Sy (V.rd (x k)) ∧ ‖V.rd (x k) - T‖ ≤ δ ∧
        ‖V.rd (x k) - T‖ ≤ q ^ k * ‖V.rd (x 0) - T‖ + Er / (1 - q) * u := by
    induction k with
    | zero =>
      intro _
      refine ⟨t0, a0, n0, ?_⟩
      rw [pow_zero, one_mul]
      exact le_add_of_nonneg_right (by positivity)
    | succ k ih =>
      intro hk
      obtain ⟨i1, i2, i3, i4⟩ := ih fun j hj => hk j (hj.trans (Nat.lt_succ_self k))
      obtain ⟨o1, o2, o3⟩ := one _ _ i1 i2 i3 (hk k (Nat.lt_succ_self k))
      refine ⟨o1, o2, ?_, ?_⟩
      · have := mul_le_mul_of_nonneg_left i3 q0
        linarith
      · have h := mul_le_mul_of_nonneg_left i4 q0
        have e : q * (Er / (1 - q) * u) + Er * u = Er / (1 - q) * u := by field_simp; ring
        rw [pow_succ']
        linarith
  intro hk
  obtain ⟨m1, m2, m3, m4⟩ := main hk
  refine ⟨m1, m2, m3, m4, ?_⟩
  obtain ⟨h1, h2⟩ := hs u u0 uus A run d hi hd (x k) m1 ⟨m2, m3⟩ (ball _ m3)
  obtain ⟨b, hb⟩ := h1
  obtain ⟨tb, -⟩ := (V.near_iff (by positivity)).1 (h2 b hb)
  obtain ⟨y, hy⟩ := (hcl _ (norm_nonneg _) b tb le_rfl).1
  exact ⟨y, b, hb, hy⟩

end

/-! ### residuals -/

theorem de_bound {X : E} {r M : ℝ} (hX : ‖X‖ ≤ r) (hM : r ≤ M) : List.Forall₂ (DescBound M) (List.ofFn fun i => (t, V.sh i)) (List.ofFn fun i => V.de i X) := by
  refine List.forall₂_iff_get.mpr ⟨by simp, fun i h1 h2 => ?_⟩
  simp only [List.get_eq_getElem, List.getElem_ofFn]
  exact ⟨V.cx _ _, V.shape _ _, fun idx hi => ((V.ge X _ idx hi).trans hX).trans hM⟩

theorem near_list {ε : ℝ} {X : E} {x : Fin m → Arr K} (h : ∀ i, NearIs ε (V.de i X) (x i)) : List.Forall₂ (NearIs ε) (List.ofFn fun i => V.de i X) (List.ofFn x) := by
  refine List.forall₂_iff_get.mpr ⟨by simp, fun i h1 h2 => ?_⟩
  simp only [List.get_eq_getElem, List.getElem_ofFn]
  exact h _

theorem list_near {ε : ℝ} {X : E} {ys : List (Arr K)} (h : List.Forall₂ (NearIs ε) (List.ofFn fun i => V.de i X) ys) :
    ∃ y : Fin m → Arr K, ys = List.ofFn y ∧ ∀ i, NearIs ε (V.de i X) (y i) := by
  have hl : m = ys.length := by simpa using h.length_eq
  refine ⟨fun i => ys.get (i.cast hl), ?_, fun i => ?_⟩
  · refine List.ext_getElem (by simpa using hl.symm) fun i h1 h2 => ?_
    simp
  · have := (List.forall₂_iff_get.mp h).2 i (by simp) (by rw [← hl]; exact i.2)
    simpa using this

/-- The residuals of all amplitudes in a ball, for a routine that takes integrals, the amplitudes, and further arguments. -/
theorem res_round (re : K → K) (hre : ∀ x y, ‖re x - re y‖ ≤ ‖x - y‖) {η : ℝ} (hη : 0 ≤ η) {G : List (List ℝ) → ℝ} (hG : GMono G) {c : ℝ} (hc : 0 ≤ c)
    (f : Fun) (ds ds' : List (Desc n K)) (R : E → E) (S : E → Prop)
    (hS : ∀ X, S X → Computes f (ds ++ (List.ofFn fun i => V.de i X) ++ ds') (List.ofFn fun i => V.de i (R X)))
    (hl : ds.length + m + ds'.length = f.params.length) (r : ℝ) :
    ∃ C : ℝ, 0 ≤ C ∧ ∀ u, 0 ≤ u → u ≤ 1 → ∀ (A : Rounding K u η G) (ins ins' : List (Arr K)),
      List.Forall₂ (NearIs (c * u)) ds ins → List.Forall₂ (NearIs (c * u)) ds' ins' →
      V.Good (C * u) R S r fun x => f.nrun (rounded A true re) (ins ++ List.ofFn x ++ ins') := by
  obtain ⟨M₁, hM₁, hb₁⟩ := desc_bounds ds r
  obtain ⟨M, hM, hb₂⟩ := desc_bounds ds' M₁
  obtain ⟨C, hC, h⟩ := C60_uniform_routine (ι := {X : E // S X ∧ ‖X‖ ≤ r}) f (fun X => ds ++ (List.ofFn fun i => V.de i X.1) ++ ds') (fun X => List.ofFn fun i => V.de i (R X.1))
    (fun X => hS X.1 X.2.1) (fun X => by simpa [add_assoc] using hl) _ (M := M)
    (fun X => List.rel_append (List.rel_append (hb₁.imp fun _ _ h => h.mono hM) (V.de_bound X.2.2 (hM₁.trans hM))) hb₂) re hre hη hG hc
  refine ⟨C, hC, fun u u0 u1 A ins ins' hi hi' x hx hSx hr => ?_⟩
  have n0 : ∀ i, NearIs (c * u) (V.de i (V.rd x)) (x i) := (V.near_iff (by positivity)).2 ⟨hx, by rw [sub_self, norm_zero]; positivity⟩
  obtain ⟨ys, e, hy⟩ := h ⟨V.rd x, hSx, hr⟩ u u0 u1 A (ins ++ List.ofFn x ++ ins') (List.rel_append (List.rel_append hi (V.near_list n0)) hi')
  obtain ⟨y, rfl, hy'⟩ := V.list_near hy
  exact ⟨y, e, hy'⟩

end Coords

/-! ### a whole calculation -/

theorem near_mono {ε ε' : ℝ} (h : ε ≤ ε') {d : Desc n K} {b : Arr K} (hb : NearIs ε d b) : NearIs ε' d b := ⟨hb.1, hb.2.1, fun idx hi => (hb.2.2 idx hi).trans h⟩

section pipeline
variable {E L : Type} [NormedAddCommGroup E] [NormedAddCommGroup L] {m m' : ℕ} {t t' : Bool} (V : Coords n K E m t) (W : Coords n K L m' t')

/-- What an iteration attains, for any set `ok` of rounded arithmetics, integrals `H`, denominators `D`, symmetry `Sy` and steps `St`. -/
def Coords.Attains {η : ℝ} {G : List (List ℝ) → ℝ} (c : ℝ) (H : List (Desc n K)) (D T : E) (δ q : ℝ) (Sy : E → Prop) (ok : ∀ {u : ℝ}, Rounding K u η G → Prop)
    (St : ∀ {u : ℝ}, Rounding K u η G → List (Arr K) → (Fin m → Arr K) → (Fin m → Arr K) → (Fin m → Arr K) → Prop) : Prop :=
  ∃ C u₀ : ℝ, 0 ≤ C ∧ 0 < u₀ ∧ u₀ ≤ 1 ∧ ∀ u, 0 ≤ u → u ≤ u₀ → ∀ (A : Rounding K u η G), ok A → ∀ (ins : List (Arr K)) (d : Fin m → Arr K)
    (x : ℕ → Fin m → Arr K), List.Forall₂ (NearIs (c * u)) H ins → V.NearDen (c * u) D d → V.Ty (x 0) → Sy (V.rd (x 0)) → ‖V.rd (x 0) - T‖ ≤ δ →
      ∀ k, (∀ j < k, St A ins d (x j) (x (j + 1))) →
        V.Ty (x k) ∧ Sy (V.rd (x k)) ∧ ‖V.rd (x k) - T‖ ≤ δ ∧ ‖V.rd (x k) - T‖ ≤ q ^ k * ‖V.rd (x 0) - T‖ + C * u ∧ ∃ y, St A ins d (x k) y

/-- What an iteration attains that needs the result of another one. -/
def Coords.AttainsL {η : ℝ} {G : List (List ℝ) → ℝ} (c : ℝ) (H : List (Desc n K)) (T : E) (D Λ : L) (δ q : ℝ) (Sy : L → Prop) (ok : ∀ {u : ℝ}, Rounding K u η G → Prop)
    (St : ∀ {u : ℝ}, Rounding K u η G → List (Arr K) → (Fin m → Arr K) → (Fin m' → Arr K) → (Fin m' → Arr K) → (Fin m' → Arr K) → Prop) : Prop :=
  ∃ C u₀ : ℝ, 0 ≤ C ∧ 0 < u₀ ∧ u₀ ≤ 1 ∧ ∀ u, 0 ≤ u → u ≤ u₀ → ∀ (A : Rounding K u η G), ok A → ∀ (ins : List (Arr K)) (y : Fin m → Arr K) (d : Fin m' → Arr K)
    (x : ℕ → Fin m' → Arr K), List.Forall₂ (NearIs (c * u)) H ins → (∀ i, NearIs (c * u) (V.de i T) (y i)) → W.NearDen (c * u) D d →
      W.Ty (x 0) → Sy (W.rd (x 0)) → ‖W.rd (x 0) - Λ‖ ≤ δ →
      ∀ k, (∀ j < k, St A ins y d (x j) (x (j + 1))) →
        W.Ty (x k) ∧ Sy (W.rd (x k)) ∧ ‖W.rd (x k) - Λ‖ ≤ δ ∧ ‖W.rd (x k) - Λ‖ ≤ q ^ k * ‖W.rd (x 0) - Λ‖ + C * u ∧ ∃ z, St A ins y d (x k) z

/-- An argument of a routine: amplitudes from the arrays `x`, multipliers from the arrays `y`, or anything else, wrong by at most `ε`. -/
def Coords.Arg (ε : ℝ) (T : E) (Λ : L) (x : Fin m → Arr K) (y : Fin m' → Arr K) (d : Desc n K) (b : Arr K) : Prop :=
  (∃ i, d = V.de i T ∧ b = x i) ∨ (∃ i, d = W.de i Λ ∧ b = y i) ∨ NearIs ε d b

/-- Amplitudes, multipliers and what is computed from them. -/
theorem Coords.pipeline (re : K → K) (hre : ∀ x y, ‖re x - re y‖ ≤ ‖x - y‖) {η : ℝ} (hη : 0 ≤ η) {G : List (List ℝ) → ℝ} (hG : GMono G) {c : ℝ} (hc : 0 ≤ c)
    (H HL : List (Desc n K)) (D T : E) (DL Λ : L) (δ δ' q : ℝ) (hδ : 0 < δ) (hδ' : 0 < δ') (q0 : 0 ≤ q) (q1 : q < 1)
    (Sy : E → Prop) (SyL : L → Prop) (ok : ∀ {u : ℝ}, Rounding K u η G → Prop)
    (St : ∀ {u : ℝ}, Rounding K u η G → List (Arr K) → (Fin m → Arr K) → (Fin m → Arr K) → (Fin m → Arr K) → Prop)
    (StL : ∀ {u : ℝ}, Rounding K u η G → List (Arr K) → (Fin m → Arr K) → (Fin m' → Arr K) → (Fin m' → Arr K) → (Fin m' → Arr K) → Prop)
    (ha : V.Attains (G := G) c H D T δ q Sy ok St) (haL : ∀ c', 0 ≤ c' → V.AttainsL W (G := G) c' HL T DL Λ δ' q SyL ok StL)
    {h : Fun} {ds es : List (Desc n K)} (hh : Computes h ds es) (hp : ds.length = h.params.length) :
    ∃ C u₀ : ℝ, 0 ≤ C ∧ 0 < u₀ ∧ u₀ ≤ 1 ∧ ∀ u, 0 < u → u ≤ u₀ → ∃ N : ℕ, ∀ (A : Rounding K u η G), ok A → ∀ (ins insL : List (Arr K)) (d x₀ : Fin m → Arr K)
      (e y₀ : Fin m' → Arr K), List.Forall₂ (NearIs (c * u)) H ins → List.Forall₂ (NearIs (c * u)) HL insL →
      V.NearDen (c * u) D d → W.NearDen (c * u) DL e →
      V.Ty x₀ → Sy (V.rd x₀) → ‖V.rd x₀ - T‖ ≤ δ → W.Ty y₀ → SyL (W.rd y₀) → ‖W.rd y₀ - Λ‖ ≤ δ' →
      (∀ k l, N ≤ k → ∃ (x : ℕ → Fin m → Arr K) (y : ℕ → Fin m' → Arr K), x 0 = x₀ ∧ y 0 = y₀ ∧ (∀ j < k, St A ins d (x j) (x (j + 1))) ∧
        ∀ j < l, StL A insL (x k) e (y j) (y (j + 1))) ∧
      ∀ (x : ℕ → Fin m → Arr K) (y : ℕ → Fin m' → Arr K) (k l : ℕ), x 0 = x₀ → y 0 = y₀ → N ≤ k → N ≤ l →
        (∀ j < k, St A ins d (x j) (x (j + 1))) → (∀ j < l, StL A insL (x k) e (y j) (y (j + 1))) →
        ‖V.rd (x k) - T‖ ≤ C * u ∧ ‖W.rd (y l) - Λ‖ ≤ C * u ∧
        ∀ bs, List.Forall₂ (V.Arg W (c * u) T Λ (x k) (y l)) ds bs → ∃ rs, h.nrun (rounded A true re) bs = .ok rs ∧ List.Forall₂ (NearIs (C * u)) es rs := by
  obtain ⟨C₁, u₁, hC₁, hu₁, hu₁', h₁⟩ := ha
  obtain ⟨C₂, u₂, hC₂, hu₂, hu₂', h₂⟩ := haL (c + C₁ + 1) (by positivity)
  obtain ⟨M, -, hM⟩ := desc_bounds ds 0
  obtain ⟨C₃, hC₃, h₃⟩ := C60_uniform_routine (ι := Unit) h (fun _ => ds) (fun _ => es) (fun _ => hh) (fun _ => hp) _ (M := M) (fun _ => hM)
    re hre hη hG (c := c + C₁ + C₂ + 1) (by positivity)
  refine ⟨C₁ + C₂ + C₃ + 1, min u₁ u₂, by positivity, lt_min hu₁ hu₂, (min_le_left _ _).trans hu₁', fun u u0 uu => ?_⟩
  obtain ⟨N, hN⟩ := exists_pow_lt_of_lt_one (show 0 < u / (δ + δ') by positivity) q1
  refine ⟨N, fun A hA ins insL d x₀ e y₀ hi hiL hd he tx ax nx ty ay ny => ?_⟩
  have small : ∀ k, N ≤ k → ∀ s : ℝ, 0 ≤ s → s ≤ δ + δ' → q ^ k * s ≤ u := fun k hk s s0 hs => by
    have h1 : q ^ k * s ≤ q ^ N * (δ + δ') := mul_le_mul (pow_le_pow_of_le_one q0 q1.le hk) hs s0 (pow_nonneg q0 _)
    have h2 := mul_le_mul_of_nonneg_right hN.le (by positivity : 0 ≤ δ + δ')
    rw [div_mul_cancel₀ _ (by positivity : δ + δ' ≠ 0)] at h2
    linarith
  have up : ∀ {a b : ℝ}, a ≤ b → a * u ≤ b * u := fun h => mul_le_mul_of_nonneg_right h u0.le
  have amps : ∀ (x : ℕ → Fin m → Arr K) (k : ℕ), x 0 = x₀ → (∀ j < k, St A ins d (x j) (x (j + 1))) →
      (V.Ty (x k) ∧ (N ≤ k → ‖V.rd (x k) - T‖ ≤ (C₁ + 1) * u)) ∧ ∃ z, St A ins d (x k) z := by
    rintro x k rfl hx
    obtain ⟨p1, -, -, p4, p5⟩ := h₁ u u0.le (uu.trans (min_le_left _ _)) A hA ins d x hi hd tx ax nx k hx
    exact ⟨⟨p1, fun hk => by linarith [small k hk _ (norm_nonneg _) (nx.trans (by linarith))]⟩, p5⟩
  have hi' : List.Forall₂ (NearIs ((c + C₁ + 1) * u)) HL insL := hiL.imp fun _ _ h => near_mono (up (by linarith)) h
  have lams : ∀ (w : Fin m → Arr K) (y : ℕ → Fin m' → Arr K) (l : ℕ), V.Ty w → ‖V.rd w - T‖ ≤ (C₁ + 1) * u → y 0 = y₀ →
      (∀ j < l, StL A insL w e (y j) (y (j + 1))) →
      (W.Ty (y l) ∧ (N ≤ l → ‖W.rd (y l) - Λ‖ ≤ (C₂ + 1) * u)) ∧ ∃ z, StL A insL w e (y l) z := by
    rintro w y l p1 p5 rfl hy
    obtain ⟨q1', -, -, q4, q5⟩ := h₂ u u0.le (uu.trans (min_le_right _ _)) A hA insL w e y hi'
      ((V.near_iff (by positivity)).2 ⟨p1, p5.trans (up (by linarith))⟩) (fun i idx hi => (he i idx hi).trans (up (by linarith))) ty ay ny l hy
    exact ⟨⟨q1', fun hm => by linarith [small l hm _ (norm_nonneg _) (ny.trans (by linarith))]⟩, q5⟩
  refine ⟨fun k l hk => ?_, fun x y k l hx0 hy0 hk hm hx hy => ?_⟩
  · obtain ⟨x, hx0, hx⟩ := chains (fun k x h0 hx => (amps x k h0 hx).2) k
    obtain ⟨⟨p1, p2⟩, -⟩ := amps x k hx0 hx
    obtain ⟨y, hy0, hy⟩ := chains (fun l y h0 hy => (lams (x k) y l p1 (p2 hk) h0 hy).2) l
    exact ⟨x, y, hx0, hy0, hx, hy⟩
  · obtain ⟨⟨p1, p2⟩, -⟩ := amps x k hx0 hx
    have p5 := p2 hk
    obtain ⟨⟨q1', q2⟩, -⟩ := lams (x k) y l p1 p5 hy0 hy
    have q6 := q2 hm
    have nT := (V.near_iff (ε := (c + C₁ + C₂ + 1) * u) (X := T) (by positivity)).2 ⟨p1, p5.trans (up (by linarith))⟩
    have nL := (W.near_iff (ε := (c + C₁ + C₂ + 1) * u) (X := Λ) (by positivity)).2 ⟨q1', q6.trans (up (by linarith))⟩
    refine ⟨p5.trans (up (by linarith)), q6.trans (up (by linarith)), fun bs hbs => ?_⟩
    obtain ⟨rs, er, hr⟩ := h₃ () u u0.le ((uu.trans (min_le_left _ _)).trans hu₁') A bs (hbs.imp fun d b h => by
      rcases h with ⟨i, rfl, rfl⟩ | ⟨i, rfl, rfl⟩ | h
      · exact nT i
      · exact nL i
      · exact near_mono (up (by linarith)) h)
    exact ⟨rs, er, hr.imp fun _ _ h => near_mono (up (by linarith)) h⟩

end pipeline

end Heap
