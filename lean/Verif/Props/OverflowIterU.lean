import Verif.Props.OverflowIterL
import Verif.Props.IterUniU
/-!
# C110: unrestricted iterations that converge never overflow
-/

namespace Heap
open Prog CC
variable {n : ℕ → ℕ} {K : Type} [RCLike K] {u η Ω : ℝ} {G H : List (List ℝ) → ℝ}
set_option synthInstance.maxSize 100000
set_option synthInstance.maxHeartbeats 400000

/-- The finite numbers of several arrays. -/
def finv {m : ℕ} (x : Fin m → Arr (Option K)) : Fin m → Arr K := fun i => fin (x i)

/-- One step in rounded arithmetic with overflow: a call that returns the residuals, and the update of every array. -/
def OStepV {m : ℕ} (O : Overflowing K u η G H Ω) (run : (Fin m → Arr (Option K)) → Except Err (List (Arr (Option K)))) (d a b : Fin m → Arr (Option K)) : Prop :=
  ∃ r : Fin m → Arr (Option K), run a = .ok (List.ofFn r) ∧ ∀ i, OUpd O (a i) (r i) (d i) (b i)

/-- The doubles of equal spins are antisymmetrised, the other arrays are kept. -/
def UOClean (O : Overflowing K u η G H Ω) (b y : Fin 5 → Arr (Option K)) : Prop :=
  y 0 = b 0 ∧ y 1 = b 1 ∧ OClean O (b 2) (y 2) ∧ y 3 = b 3 ∧ OClean O (b 4) (y 4)

/-- One update of the amplitudes in rounded arithmetic with overflow: a call of `uccsd_stanton`, the update of the five arrays, and antisymmetrising the doubles of equal spins. -/
def UOStep (O : Overflowing K u η G H Ω) (ore : Option K → Option K) (ins : List (Arr (Option K))) (d x y : Fin 5 → Arr (Option K)) : Prop :=
  ∃ b, OStepV O (fun w => Prog.uccsd_stanton.nrun (overflowing O true ore) (ins ++ List.ofFn w)) d x b ∧ UOClean O b y

/-- One update of the multipliers for the amplitudes in `w`, with `uccsd_lambda_opt`. -/
def ULOStep (O : Overflowing K u η G H Ω) (ore : Option K → Option K) (ins : List (Arr (Option K))) (w d x y : Fin 5 → Arr (Option K)) : Prop :=
  ∃ b, OStepV O (fun v => Prog.uccsd_lambda_opt.nrun (overflowing O true ore) (ins ++ List.ofFn v ++ List.ofFn w)) d x b ∧ UOClean O b y

theorem list_fn {α : Type} {m : ℕ} {l : List α} (h : l.length = m) : ∃ f : Fin m → α, l = List.ofFn f := by
  subst h
  exact ⟨l.get, (List.ofFn_get l).symm⟩

theorem forall_fn {α β : Type} {m : ℕ} {p : α → β → Prop} {f : Fin m → α} {g : Fin m → β} : List.Forall₂ p (List.ofFn f) (List.ofFn g) ↔ ∀ i, p (f i) (g i) := by
  constructor
  · intro h i
    have := (List.forall₂_iff_get.mp h).2 i (by simp) (by simp)
    simpa using this
  · intro h
    refine List.forall₂_iff_get.mpr ⟨by simp, fun i h1 h2 => ?_⟩
    simp only [List.get_eq_getElem, List.getElem_ofFn]
    exact h _

/-- Arrays close to bounded tensors are bounded. -/
theorem near_sized {ds : List (Desc n K)} {M c ε : ℝ} (hε : ε ≤ c) (hb : List.Forall₂ (DescBound M) (ds.map fun d => (d.cx, d.ten.shape.map n)) ds) {as : List (Arr K)}
    (h : List.Forall₂ (NearIs ε) ds as) : List.Forall₂ (Sized (M + c)) ds as := by
  rw [List.forall₂_map_left_iff, List.forall₂_same] at hb
  refine List.forall₂_iff_get.mpr ⟨h.length_eq, fun i i1 i2 => ?_⟩
  have w1 := (List.forall₂_iff_get.mp h).2 i i1 i2
  have w2 := hb _ (List.get_mem ds ⟨i, i1⟩)
  refine ⟨w1.1, w1.2.1, fun idx hidx => ?_⟩
  have w3 := w1.2.2 idx hidx
  rw [w1.2.1] at hidx
  have w4 := w2.2.2 idx hidx
  have := norm_sub_norm_le ((as.get ⟨i, i2⟩).val idx) (Cur.get (ds.get ⟨i, i1⟩).ten.shape (ds.get ⟨i, i1⟩).ten.val idx)
  linarith

theorem fins_same {cs : List (Arr (Option K))} (h : ∀ a ∈ cs, AllFin a) : List.Forall₂ SameA (cs.map fin) cs := by
  rw [List.forall₂_map_left_iff]
  exact List.forall₂_same.mpr fun a ha => fin_same (h a ha)

/-- C110: a call of any routine that computes tensors, with finite arguments wrong by at most `c * u`: the results are finite and within `C * u` of the exact ones, in every
arithmetic with a large enough largest number. -/
theorem C110_call {h : Fun} {ds es : List (Desc n K)} (hh : Computes h ds es) (hp : ds.length = h.params.length) (re : K → K) (hre : ∀ x y, ‖re x - re y‖ ≤ ‖x - y‖)
    {η : ℝ} (hη : 0 ≤ η) {G H : List (List ℝ) → ℝ} (hG : GMono G) (hH : GMono H) {c : ℝ} (hc : 0 ≤ c) :
    ∃ C Ω₀ : ℝ, 0 ≤ C ∧ ∀ u, 0 ≤ u → u ≤ 1 → ∀ Ω, Ω₀ ≤ Ω → ∀ (O : Overflowing K u η G H Ω) (ore : Option K → Option K), (∀ x, ore (some x) = some (re x)) →
      ∀ bs : List (Arr (Option K)), (∀ b ∈ bs, AllFin b) → List.Forall₂ (NearIs (c * u)) ds (bs.map fin) →
        ∃ rs, h.nrun (overflowing O true ore) bs = .ok rs ∧ (∀ r ∈ rs, AllFin r) ∧ List.Forall₂ (NearIs (C * u)) es (rs.map fin) := by
  obtain ⟨M, M0, hM⟩ := desc_bounds ds 0
  obtain ⟨C₃, hC₃, h₃⟩ := C60_uniform_routine (ι := Unit) h (fun _ => ds) (fun _ => es) (fun _ => hh) (fun _ => hp) _ (M := M) (fun _ => hM) re hre hη hG (c := c) hc
  obtain ⟨R, Ω₃, -, h₄⟩ := C106_call hh hp re hre hη hG hH (B := M + c) (by positivity)
  refine ⟨C₃, Ω₃, hC₃, fun u u0 u1 Ω hΩ O ore ho bs hf near => ?_⟩
  obtain ⟨xs, ys, r1, r2, r3, -⟩ := h₄ u u0 u1 Ω hΩ O ore ho (bs.map fin) bs (near_sized (mul_le_of_le_one_right hc u1) hM near) (fins_same hf)
  obtain ⟨rs, e, hr⟩ := h₃ () u u0 u1 (O.extend u0 hη hG) (bs.map fin) near
  rw [r1] at e
  cases e
  refine ⟨ys, r2, fun y hy => ?_, List.forall₂_iff_get.mpr ⟨by rw [hr.length_eq, r3.length_eq, List.length_map], fun i i1 i2 => ?_⟩⟩
  · obtain ⟨i, hi, rfl⟩ := List.getElem_of_mem hy
    have w := (List.forall₂_iff_get.mp r3).2 i (by rw [r3.length_eq]; exact hi) hi
    exact fun idx hidx => ⟨_, w.2.2 idx (w.2.1 ▸ hidx)⟩
  · have l2 : i < ys.length := by simpa using i2
    have l1 : i < xs.length := by rw [r3.length_eq]; exact l2
    have w := (List.forall₂_iff_get.mp r3).2 i l1 l2
    have v := (List.forall₂_iff_get.mp hr).2 i i1 l1
    have ee : (ys.map fin).get ⟨i, i2⟩ = fin (ys.get ⟨i, l2⟩) := by simp
    rw [ee]
    refine ⟨w.1.trans v.1, w.2.1.trans v.2.1, fun idx hidx => ?_⟩
    have hidx' : List.Forall₂ (· < ·) idx (xs.get ⟨i, l1⟩).shape := w.2.1 ▸ hidx
    have := v.2.2 idx hidx'
    rw [show (fin (ys.get ⟨i, l2⟩)).val idx = (xs.get ⟨i, l1⟩).val idx by simp only [fin, w.2.2 idx hidx', Option.getD_some]]
    exact this

section step
variable {E : Type} [NormedAddCommGroup E] {m : ℕ} {t : Bool} (V : Coords n K E m t)

/-- C110: an update of any number of arrays of at most `B`, in an arithmetic with a large enough largest number, is an update in an arithmetic without overflow. -/
theorem C110_update {f : Fun} {hs ts : List (Desc n K)} {X R : E}
    (h : Computes f (hs ++ (List.ofFn fun i => V.de i X) ++ ts) (List.ofFn fun i => V.de i R)) (hl : hs.length + m + ts.length = f.params.length)
    (re : K → K) (hre : ∀ x y, ‖re x - re y‖ ≤ ‖x - y‖) {η : ℝ} (hη : 0 ≤ η) {G H : List (List ℝ) → ℝ} (hG : GMono G) (hH : GMono H) {B δ : ℝ} (hB : 0 ≤ B) (hδ : 0 < δ) :
    ∃ D Ω₀, 0 ≤ D ∧ 16 * D + 6 * η ≤ Ω₀ ∧ ∀ u (h0 : 0 ≤ u), u ≤ 1 → ∀ Ω, Ω₀ ≤ Ω → ∀ (O : Overflowing K u η G H Ω) (ore : Option K → Option K), (∀ x, ore (some x) = some (re x)) →
      ∀ (ins ins' : List (Arr K)) (cs cs' : List (Arr (Option K))) (d x : Fin m → Arr (Option K)),
        List.Forall₂ (Sized B) hs ins → List.Forall₂ SameA ins cs → List.Forall₂ (Sized B) ts ins' → List.Forall₂ SameA ins' cs' → (∀ i, DenO δ (V.sh i) (d i)) →
        (∀ i, AllFin (x i)) → V.Ty (finv x) → ‖V.rd (finv x)‖ ≤ B →
        (∃ b, OStepV O (fun w => f.nrun (overflowing O true ore) (cs ++ List.ofFn w ++ cs')) d x b) ∧
          ∀ b, OStepV O (fun w => f.nrun (overflowing O true ore) (cs ++ List.ofFn w ++ cs')) d x b →
            Coords.Step (O.extend h0 hη hG) (fun w => f.nrun (rounded (O.extend h0 hη hG) true re) (ins ++ List.ofFn w ++ ins')) (finv d) (finv x) (finv b) ∧ V.Ty (finv b) ∧
            ∀ i idx, List.Forall₂ (· < ·) idx (b i).shape → ∃ z, (b i).val idx = some z ∧ ‖z‖ ≤ D := by
  obtain ⟨Rb, Ω₁, hR, hc⟩ := C106_call h (by simpa [add_assoc] using hl) re hre hη hG hH hB
  have Q0 : 0 ≤ Rb / δ := by positivity
  have hD : 0 ≤ upd₁ η B (Rb / δ) := by unfold upd₁ sub₁; positivity
  have hD' : 16 * upd₁ η B (Rb / δ) + 6 * η ≤ top₁ η B (Rb / δ) := by unfold top₁ sub₁; linarith
  refine ⟨upd₁ η B (Rb / δ), max Ω₁ (top₁ η B (Rb / δ)), hD, hD'.trans (le_max_right _ _), fun u h0 h1 Ω hΩ O ore ho ins ins' cs cs' d x hi hcs hi' hcs' hd hf ht hx => ?_⟩
  have size : ∀ i idx, List.Forall₂ (· < ·) idx (x i).shape → ‖(fin (x i)).val idx‖ ≤ B := fun i idx hidx => by
    have hidx' : List.Forall₂ (· < ·) idx (V.sh i) := (ht i).2 ▸ hidx
    have := V.ge (V.rd (finv x)) i idx hidx'
    rw [V.read _ _ _ hidx'] at this
    exact this.trans hx
  obtain ⟨xs, ys, r1, r2, r3, r4⟩ := hc u h0 h1 Ω ((le_max_left _ _).trans hΩ) O ore ho (ins ++ List.ofFn (finv x) ++ ins') (cs ++ List.ofFn x ++ cs')
    (List.rel_append (List.rel_append hi (forall_fn.2 fun i => ⟨(ht i).1.trans (V.cx i X).symm, (ht i).2.trans (V.shape i X).symm, size i⟩)) hi')
    (List.rel_append (List.rel_append hcs (forall_fn.2 fun i => fin_same (hf i))) hcs')
  have hΩ2 := (le_max_right _ _).trans hΩ
  obtain ⟨q, rfl⟩ := list_fn (m := m) (l := xs) (by simpa using r4.length_eq.symm)
  obtain ⟨p, rfl⟩ := list_fn (m := m) (l := ys) (by simpa using r3.length_eq.symm)
  rw [forall_fn] at r3 r4
  have e : ∀ i, (q i).shape = (x i).shape := fun i => ((r4 i).2.1.trans (V.shape i R)).trans (ht i).2.symm
  refine ⟨?_, fun b hb => ?_⟩
  · have quot : ∀ r d : Option K, ∃ q, OQuot u η Ω r d q := fun r d => by
      by_cases hq : ∃ r' d', r = some r' ∧ d = some d'
      · obtain ⟨r', d', rfl, rfl⟩ := hq
        refine ⟨some (r' / d'), fun r'' d'' a1 a2 _ _ => ⟨_, rfl, ?_⟩⟩
        cases a1; cases a2
        rw [sub_self, norm_zero]; positivity
      · exact ⟨none, fun r' d' a1 a2 => (hq ⟨r', d', a1, a2⟩).elim⟩
    choose Q hQ using quot
    exact ⟨fun i => ⟨(x i).cx, (x i).shape, fun idx => O.op .sub ((x i).val idx) (Q ((p i).val idx) ((d i).val idx))⟩, p, r2, fun i => ⟨rfl, rfl, fun idx _ => ⟨_, hQ _ _, rfl⟩⟩⟩
  · obtain ⟨p', w1, w2⟩ := hb
    beta_reduce at w1
    rw [r2] at w1
    obtain rfl : p = p' := List.ofFn_injective (Except.ok.inj w1)
    have up := fun i => oupd_fin h0 h1 hη hG O hB hR hδ hΩ2 (a := x i) (r := p i) (d := d i)
      (fun idx hi => ⟨_, (fin_same (hf i)).2.2 idx hi, size i idx hi⟩) (fun idx hi => ⟨_, (r3 i).2.2 idx (e i ▸ hi), (r4 i).2.2 idx (e i ▸ hi)⟩)
      (fun idx hi => hd i idx ((ht i).2 ▸ hi)) (w2 i)
    refine ⟨⟨q, r1, fun i => ⟨(w2 i).1, (w2 i).2.1, fun idx hi => ?_⟩⟩, fun i => ⟨(w2 i).1.trans (ht i).1, (w2 i).2.1.trans (ht i).2⟩, fun i idx hi => ?_⟩
    · obtain ⟨r, z, c1, c2, c3, -⟩ := up i idx hi
      rw [show (fin (p i)).val idx = (q i).val idx by simp [fin, (r3 i).2.2 _ (e i ▸ hi)]] at c1
      refine ⟨r, c1, ?_⟩
      change ((b i).val idx).getD 0 = _
      rw [c2, c3]; rfl
    · rw [(w2 i).2.1] at hi
      obtain ⟨r, z, -, c2, -, c4⟩ := up i idx hi
      exact ⟨z, c2, c4⟩

omit V in
theorem oclean_exists (O : Overflowing K u η G H Ω) (b : Arr (Option K)) : ∃ y, OClean O b y :=
  ⟨⟨b.cx, b.shape, fun idx => O.op .mul (some (1 / 4)) (O.op .sub (O.op .sub (b.val idx) (b.val [idx.getD 1 0, idx.getD 0 0, idx.getD 2 0, idx.getD 3 0]))
    (O.op .sub (b.val [idx.getD 0 0, idx.getD 1 0, idx.getD 3 0, idx.getD 2 0]) (b.val [idx.getD 1 0, idx.getD 0 0, idx.getD 3 0, idx.getD 2 0])))⟩,
    rfl, rfl, fun _ _ _ _ _ => rfl⟩

omit V in
theorem oclean_anti (h0 : 0 ≤ u) (h1 : u ≤ 1) (hη : 0 ≤ η) (hG : GMono G) (O : Overflowing K u η G H Ω) {D : ℝ} (hD : 0 ≤ D) (hΩ : 16 * D + 6 * η ≤ Ω)
    {v o : ℕ} {b y : Arr (Option K)} (hs : b.shape = [v, v, o, o]) (hb : ∀ idx, List.Forall₂ (· < ·) idx b.shape → ∃ x, b.val idx = some x ∧ ‖x‖ ≤ D) (h : OClean O b y) :
    AntiOf (O.extend h0 hη hG) (fin b) (fin y) ∧ AllFin y := by
  have cl := oclean_fin h0 h1 hη hG O hD hΩ hs hb h
  refine ⟨⟨h.1, h.2.1, fun p q r s hi => ?_⟩, fun idx hi => ?_⟩
  · obtain ⟨z, c1, c2⟩ := cl p q r s hi
    change (y.val [p, q, r, s]).getD 0 = _
    rw [c1, c2]; rfl
  · rw [h.2.1] at hi
    have hi' := hi
    rw [hs] at hi'
    match idx, hi' with
    | [a, b', i, j], .cons _ (.cons _ (.cons _ (.cons _ .nil))) =>
      obtain ⟨z, c1, -⟩ := cl a b' i j hi
      exact ⟨z, c1⟩

omit V in
theorem uclean_fin (h0 : 0 ≤ u) (h1 : u ≤ 1) (hη : 0 ≤ η) (hG : GMono G) (O : Overflowing K u η G H Ω) {D : ℝ} (hD : 0 ≤ D) (hΩ : 16 * D + 6 * η ≤ Ω) {va oa vb ob : ℕ}
    {b : Fin 5 → Arr (Option K)} (ht : (uC (n := n) (K := K) t va oa vb ob).Ty (finv b)) (hb : ∀ i idx, List.Forall₂ (· < ·) idx (b i).shape → ∃ z, (b i).val idx = some z ∧ ‖z‖ ≤ D) :
    (∃ y, UOClean O b y) ∧ ∀ y, UOClean O b y → UCleaned (O.extend h0 hη hG) (finv b) (finv y) ∧ ∀ i, AllFin (y i) := by
  have all : ∀ i, AllFin (b i) := fun i idx hi => by obtain ⟨z, hz, -⟩ := hb i idx hi; exact ⟨z, hz⟩
  refine ⟨?_, ?_⟩
  · obtain ⟨y2, hy2⟩ := oclean_exists O (b 2)
    obtain ⟨y4, hy4⟩ := oclean_exists O (b 4)
    exact ⟨fun | 0 => b 0 | 1 => b 1 | 2 => y2 | 3 => b 3 | 4 => y4, rfl, rfl, hy2, rfl, hy4⟩
  · rintro y ⟨e0, e1, e2, e3, e4⟩
    obtain ⟨a2, f2⟩ := oclean_anti h0 h1 hη hG O hD hΩ (ht 2).2 (hb 2) e2
    obtain ⟨a4, f4⟩ := oclean_anti h0 h1 hη hG O hD hΩ (ht 4).2 (hb 4) e4
    refine ⟨⟨congrArg fin e0, congrArg fin e1, a2, congrArg fin e3, a4⟩, fun i => ?_⟩
    match i with
    | 0 => rw [e0]; exact all 0
    | 1 => rw [e1]; exact all 1
    | 2 => exact f2
    | 3 => rw [e3]; exact all 3
    | 4 => exact f4

/-- A run that is in range, step by step. -/
theorem orun {m : ℕ} {P : (Fin m → Arr (Option K)) → (Fin m → Arr (Option K)) → Prop} {Q : (Fin m → Arr K) → (Fin m → Arr K) → Prop} {I : ℕ → (Fin m → Arr K) → Prop}
    {x : ℕ → Fin m → Arr (Option K)} (h0 : ∀ i, AllFin (x 0 i)) (key : ∀ k, (∀ j < k, Q (finv (x j)) (finv (x (j + 1)))) → I k (finv (x k)))
    (step : ∀ k a, (∀ i, AllFin (a i)) → I k (finv a) → (∃ y, P a y) ∧ ∀ y, P a y → Q (finv a) (finv y) ∧ ∀ i, AllFin (y i)) (k : ℕ) (hk : ∀ j < k, P (x j) (x (j + 1))) :
    (∀ i, AllFin (x k i)) ∧ I k (finv (x k)) ∧ ∃ y, P (x k) y := by
  have run : ∀ k, (∀ j < k, P (x j) (x (j + 1))) → (∀ j < k, Q (finv (x j)) (finv (x (j + 1)))) ∧ ∀ i, AllFin (x k i) := by
    intro k
    induction k with
    | zero => exact fun _ => ⟨nofun, h0⟩
    | succ k ih =>
      intro hk
      obtain ⟨i1, i2⟩ := ih fun j hj => hk j (by omega)
      obtain ⟨w1, w2⟩ := (step k _ i2 (key k i1)).2 _ (hk k (by omega))
      refine ⟨fun j hj => ?_, w2⟩
      rcases Nat.lt_succ_iff_lt_or_eq.1 hj with hj | rfl
      · exact i1 j hj
      · exact w1
  obtain ⟨i1, i2⟩ := run k hk
  exact ⟨i2, key k i1, (step k _ i2 (key k i1)).1⟩

/-- Denominators close to ones that are not zero. -/
theorem Coords.den_far {D : E} {γ ε : ℝ} (hε : ε ≤ γ / 2) (hg : ∀ i idx, List.Forall₂ (· < ·) idx (V.sh i) → γ ≤ ‖(V.de i D).at idx‖) {d : Fin m → Arr (Option K)}
    (hf : ∀ i, FinOn (V.sh i) (d i)) (hd : V.NearDen ε D (finv d)) (i : Fin m) : DenO (γ / 2) (V.sh i) (d i) := fun idx hi => by
  obtain ⟨z, hz⟩ := hf i idx hi
  refine ⟨z, hz, ?_⟩
  have h1 := hd i idx hi
  simp only [finv, fin, hz, Option.getD_some] at h1
  have h2 := hg i idx hi
  have := norm_sub_norm_le ((V.de i D).at idx) z
  rw [norm_sub_rev] at this
  linarith

end step

section routines
variable (re : K → K) (hre : ∀ x y, ‖re x - re y‖ ≤ ‖x - y‖) {η : ℝ} (hη : 0 ≤ η) {G H : List (List ℝ) → ℝ} (hG : GMono G) (hH : GMono H) {c : ℝ} (hc : 0 ≤ c)
  (t : Bool) (Fa : OneE (Fin (n 0)) (Fin (n 1)) K) (Fb : OneE (Fin (n 2)) (Fin (n 3)) K) (Ia : TwoE (Fin (n 0)) (Fin (n 1)) K) (Ib : TwoE (Fin (n 2)) (Fin (n 3)) K)
  (J : TwoEFull (Fin (n 0)) (Fin (n 1)) (Fin (n 2)) (Fin (n 3)) K)
  (eoa : Fin (n 0) → K) (eva : Fin (n 1) → K) (eob : Fin (n 2) → K) (evb : Fin (n 3) → K) (g : UGap eoa eva eob evb)
  (T : UAmp K (Fin (n 0)) (Fin (n 1)) (Fin (n 2)) (Fin (n 3))) (L : UAmp K (Fin (n 1)) (Fin (n 0)) (Fin (n 3)) (Fin (n 2)))
  (δ q : ℝ) (q1 : q < 1)
include hre hη hG hH hc g q1

/-- C110: an unrestricted iteration that converges never overflows.  Under the assumptions of C99 there is a size `Ω₀` such that in every arithmetic whose largest number is at
least `Ω₀`, with integrals and denominators that are finite and wrong by at most `c * u`, no number of updates leads to an infinity or NaN, and the amplitudes are as
accurate as without overflow. -/
theorem C110_attains (hT : UAnti T) (hδ : 0 < δ) (q0 : 0 ≤ q) (contr : ∀ X, UAnti X → ‖X - T‖ ≤ δ → ‖uupdate Fa Fb Ia Ib J eoa eva eob evb X - T‖ ≤ q * ‖X - T‖) :
    ∃ C u₀ Ω₀ : ℝ, 0 ≤ C ∧ 0 < u₀ ∧ u₀ ≤ 1 ∧ ∀ u, 0 ≤ u → u ≤ u₀ → ∀ Ω, Ω₀ ≤ Ω → ∀ (O : Overflowing K u η G H Ω), OSign O →
    ∀ (ore : Option K → Option K), (∀ x, ore (some x) = some (re x)) → ∀ (cs : List (Arr (Option K))) (d : Fin 5 → Arr (Option K)) (x : ℕ → Fin 5 → Arr (Option K)),
      (∀ a ∈ cs, AllFin a) → List.Forall₂ (NearIs (c * u)) (uham t Fa Fb Ia Ib J) (cs.map fin) →
      (∀ i, FinOn ((uV n K t).sh i) (d i)) → (uV n K t).NearDen (c * u) (uden eoa eva eob evb) (finv d) → (∀ i, AllFin (x 0 i)) →
      (uV n K t).Ty (finv (x 0)) → UAnti ((uV n K t).rd (finv (x 0))) → ‖(uV n K t).rd (finv (x 0)) - T‖ ≤ δ →
      ∀ k, (∀ j < k, UOStep O ore cs d (x j) (x (j + 1))) →
        (∀ i, AllFin (x k i)) ∧ ((uV n K t).Ty (finv (x k)) ∧ UAnti ((uV n K t).rd (finv (x k))) ∧ ‖(uV n K t).rd (finv (x k)) - T‖ ≤ δ ∧
          ‖(uV n K t).rd (finv (x k)) - T‖ ≤ q ^ k * ‖(uV n K t).rd (finv (x 0)) - T‖ + C * u) ∧ ∃ y, UOStep O ore cs d (x k) y := by
  obtain ⟨C, u₀, hC, hu, hu1, h⟩ := C99_attains re hre hη hG hc t Fa Fb Ia Ib J eoa eva eob evb g T δ q q1 hT hδ q0 contr
  obtain ⟨γ, hγ, hg⟩ := (uV n K t).gap (uden eoa eva eob evb) (uden_ne t eoa eva eob evb g)
  obtain ⟨M, hM, hb⟩ := desc_bounds (uham t Fa Fb Ia Ib J) (‖T‖ + δ)
  have M0 : 0 ≤ M := le_trans (by positivity) hM
  obtain ⟨D, Ω₀, hD, hΩ₀, hs⟩ := C110_update (uV n K t) (f := Prog.uccsd_stanton) (hs := uham t Fa Fb Ia Ib J) (ts := []) (X := T) (R := CC.uccsd_stanton Fa Fb Ia Ib J T.1 T.2)
    (by rw [List.append_nil]; exact C53_uccsd_stanton (i := t) (t := t) id Fa Fb Ia Ib J T.1 T.2) rfl re hre hη hG hH (B := M + c) (δ := γ / 2) (by positivity) (by positivity)
  refine ⟨C, min u₀ (γ / (2 * (c + 1))), Ω₀, hC, by positivity, (min_le_left _ _).trans hu1, fun u u0 uu Ω hΩ O hO ore ho cs d x fcs hi fd hd f0 t0 a0 n0 => ?_⟩
  have uu0 := uu.trans (min_le_left _ _)
  have cu : c * u ≤ γ / 2 := by
    have := (le_div_iff₀ (by positivity)).1 (uu.trans (min_le_right _ _))
    nlinarith
  have cu1 : c * u ≤ c := mul_le_of_le_one_right hc (uu0.trans hu1)
  have key := h u u0 uu0 (O.extend u0 hη hG) (extend_sign hO u0 hη hG) (cs.map fin) (finv d) (fun j => finv (x j)) hi hd t0 a0 n0
  refine orun (Q := fun a b => UStep (O.extend u0 hη hG) re (cs.map fin) (finv d) a b)
    (I := fun k w => (uV n K t).Ty w ∧ UAnti ((uV n K t).rd w) ∧ ‖(uV n K t).rd w - T‖ ≤ δ ∧ ‖(uV n K t).rd w - T‖ ≤ q ^ k * ‖(uV n K t).rd (finv (x 0)) - T‖ + C * u)
    f0 (fun k hk => ?_) fun k a fa ia => ?_
  · obtain ⟨m1, m2, m3, m4, -⟩ := key k hk
    exact ⟨m1, m2, m3, m4⟩
  · obtain ⟨⟨b, hb'⟩, hall⟩ := hs u u0 (uu0.trans hu1) Ω hΩ O ore ho (cs.map fin) [] cs [] d a (near_sized cu1 hb hi) (fins_same fcs) .nil .nil
      ((uV n K t).den_far cu hg fd hd) fa ia.1 (by have := norm_sub_norm_le ((uV n K t).rd (finv a)) T; linarith [ia.2.2.1])
    simp only [List.append_nil] at hb' hall
    refine ⟨?_, fun y hy => ?_⟩
    · obtain ⟨-, w2, w3⟩ := hall b hb'
      obtain ⟨y, hy⟩ := (uclean_fin u0 (uu0.trans hu1) hη hG O hD (hΩ₀.trans hΩ) w2 w3).1
      exact ⟨y, b, hb', hy⟩
    · obtain ⟨b, hb', hy⟩ := hy
      obtain ⟨w1, w2, w3⟩ := hall b hb'
      obtain ⟨v1, v2⟩ := (uclean_fin u0 (uu0.trans hu1) hη hG O hD (hΩ₀.trans hΩ) w2 w3).2 y hy
      exact ⟨⟨finv b, w1, v1⟩, v2⟩

/-- C110: the multipliers, iterated with `uccsd_lambda_opt` for finite amplitudes wrong by at most `c * u`, never overflow either. -/
theorem C110_lambda_attains (hL : UAnti L) (hδ : 0 < δ) (q0 : 0 ≤ q)
    (contr : ∀ X, UAnti X → ‖X - L‖ ≤ δ → ‖uupdateL Fa Fb Ia Ib J eoa eva eob evb T X - L‖ ≤ q * ‖X - L‖) :
    ∃ C u₀ Ω₀ : ℝ, 0 ≤ C ∧ 0 < u₀ ∧ u₀ ≤ 1 ∧ ∀ u, 0 ≤ u → u ≤ u₀ → ∀ Ω, Ω₀ ≤ Ω → ∀ (O : Overflowing K u η G H Ω), OSign O →
    ∀ (ore : Option K → Option K), (∀ x, ore (some x) = some (re x)) → ∀ (cs : List (Arr (Option K))) (w d : Fin 5 → Arr (Option K)) (x : ℕ → Fin 5 → Arr (Option K)),
      (∀ a ∈ cs, AllFin a) → List.Forall₂ (NearIs (c * u)) (uhamL t Fa Fb Ia Ib J) (cs.map fin) → (∀ i, AllFin (w i)) → (∀ i, NearIs (c * u) ((uV n K t).de i T) (fin (w i))) →
      (∀ i, FinOn ((uW n K t).sh i) (d i)) → (uW n K t).NearDen (c * u) (udenL eoa eva eob evb) (finv d) → (∀ i, AllFin (x 0 i)) →
      (uW n K t).Ty (finv (x 0)) → UAnti ((uW n K t).rd (finv (x 0))) → ‖(uW n K t).rd (finv (x 0)) - L‖ ≤ δ →
      ∀ k, (∀ j < k, ULOStep O ore cs w d (x j) (x (j + 1))) →
        (∀ i, AllFin (x k i)) ∧ ((uW n K t).Ty (finv (x k)) ∧ UAnti ((uW n K t).rd (finv (x k))) ∧ ‖(uW n K t).rd (finv (x k)) - L‖ ≤ δ ∧
          ‖(uW n K t).rd (finv (x k)) - L‖ ≤ q ^ k * ‖(uW n K t).rd (finv (x 0)) - L‖ + C * u) ∧ ∃ y, ULOStep O ore cs w d (x k) y := by
  obtain ⟨C, u₀, hC, hu, hu1, h⟩ := C99_lambda_attains re hre hη hG hc t Fa Fb Ia Ib J eoa eva eob evb g T L δ q q1 hL hδ q0 contr
  obtain ⟨γ, hγ, hg⟩ := (uW n K t).gap (udenL eoa eva eob evb) (udenL_ne t eoa eva eob evb g)
  obtain ⟨M₁, hM₁, hb₁⟩ := desc_bounds (uhamL t Fa Fb Ia Ib J) (‖L‖ + δ)
  obtain ⟨M, hM, hb⟩ := desc_bounds (List.ofFn fun i => (uV n K t).de i T) M₁
  have hb' := hb₁.imp fun _ _ h => DescBound.mono hM h
  have M0 : 0 ≤ M := le_trans (by positivity) (hM₁.trans hM)
  obtain ⟨D, Ω₀, hD, hΩ₀, hs⟩ := C110_update (uW n K t) (f := Prog.uccsd_lambda_opt) (hs := uhamL t Fa Fb Ia Ib J) (ts := List.ofFn fun i => (uV n K t).de i T) (X := L)
    (R := CC.uccsd_lambda_opt Fa Fb Ia Ib J L.1 L.2 T.1 T.2) (C53_uccsd_lambda_opt (i := t) (t := t) (l := t) id id Fa Fb Ia Ib J L.1 L.2 T.1 T.2) rfl re hre hη hG hH (B := M + c) (δ := γ / 2)
    (by positivity) (by positivity)
  refine ⟨C, min u₀ (γ / (2 * (c + 1))), Ω₀, hC, by positivity, (min_le_left _ _).trans hu1, fun u u0 uu Ω hΩ O hO ore ho cs w d x fcs hi fw hw fd hd f0 t0 a0 n0 => ?_⟩
  have uu0 := uu.trans (min_le_left _ _)
  have cu : c * u ≤ γ / 2 := by
    have := (le_div_iff₀ (by positivity)).1 (uu.trans (min_le_right _ _))
    nlinarith
  have cu1 : c * u ≤ c := mul_le_of_le_one_right hc (uu0.trans hu1)
  have key := h u u0 uu0 (O.extend u0 hη hG) (extend_sign hO u0 hη hG) (cs.map fin) (finv w) (finv d) (fun j => finv (x j)) hi hw hd t0 a0 n0
  refine orun (Q := fun a b => ULStep (O.extend u0 hη hG) re (cs.map fin) (finv w) (finv d) a b)
    (I := fun k w => (uW n K t).Ty w ∧ UAnti ((uW n K t).rd w) ∧ ‖(uW n K t).rd w - L‖ ≤ δ ∧ ‖(uW n K t).rd w - L‖ ≤ q ^ k * ‖(uW n K t).rd (finv (x 0)) - L‖ + C * u)
    f0 (fun k hk => ?_) fun k a fa ia => ?_
  · obtain ⟨m1, m2, m3, m4, -⟩ := key k hk
    exact ⟨m1, m2, m3, m4⟩
  · obtain ⟨⟨b, hb''⟩, hall⟩ := hs u u0 (uu0.trans hu1) Ω hΩ O ore ho (cs.map fin) (List.ofFn (finv w)) cs (List.ofFn w) d a (near_sized cu1 hb' hi) (fins_same fcs)
      (near_sized cu1 hb ((uV n K t).near_list hw)) (forall_fn.2 fun i => fin_same (fw i))
      ((uW n K t).den_far cu hg fd hd) fa ia.1 (by have := norm_sub_norm_le ((uW n K t).rd (finv a)) L; linarith [ia.2.2.1])
    refine ⟨?_, fun y hy => ?_⟩
    · obtain ⟨-, w2, w3⟩ := hall b hb''
      obtain ⟨y, hy⟩ := (uclean_fin u0 (uu0.trans hu1) hη hG O hD (hΩ₀.trans hΩ) w2 w3).1
      exact ⟨y, b, hb'', hy⟩
    · obtain ⟨b, hb'', hy⟩ := hy
      obtain ⟨w1, w2, w3⟩ := hall b hb''
      obtain ⟨v1, v2⟩ := (uclean_fin u0 (uu0.trans hu1) hη hG O hD (hΩ₀.trans hΩ) w2 w3).2 y hy
      exact ⟨⟨finv b, w1, v1⟩, v2⟩

/-- C110: a whole unrestricted calculation never overflows: amplitudes iterated `k` times, multipliers iterated `l` times with the amplitudes obtained, and any routine
called with both.  The size `Ω₀` is the same for all small unit roundoffs and all numbers of updates. -/
theorem C110_pipeline (hT : UAnti T) (hL : UAnti L) (δ' : ℝ) (hδ : 0 < δ) (hδ' : 0 < δ') (q0 : 0 ≤ q)
    (contr : ∀ X, UAnti X → ‖X - T‖ ≤ δ → ‖uupdate Fa Fb Ia Ib J eoa eva eob evb X - T‖ ≤ q * ‖X - T‖)
    (contrL : ∀ X, UAnti X → ‖X - L‖ ≤ δ' → ‖uupdateL Fa Fb Ia Ib J eoa eva eob evb T X - L‖ ≤ q * ‖X - L‖)
    {h : Fun} {ds es : List (Desc n K)} (hh : Computes h ds es) (hp : ds.length = h.params.length) :
    ∃ C u₀ Ω₀ : ℝ, 0 ≤ C ∧ 0 < u₀ ∧ u₀ ≤ 1 ∧ ∀ u, 0 < u → u ≤ u₀ → ∃ N : ℕ, ∀ Ω, Ω₀ ≤ Ω → ∀ (O : Overflowing K u η G H Ω), OSign O →
      ∀ (ore : Option K → Option K), (∀ x, ore (some x) = some (re x)) → ∀ (ins insL : List (Arr (Option K))) (d x₀ e y₀ : Fin 5 → Arr (Option K)),
      (∀ a ∈ ins, AllFin a) → (∀ a ∈ insL, AllFin a) → (∀ i, FinOn ((uV n K t).sh i) (d i)) → (∀ i, FinOn ((uW n K t).sh i) (e i)) → (∀ i, AllFin (x₀ i)) → (∀ i, AllFin (y₀ i)) →
      List.Forall₂ (NearIs (c * u)) (uham t Fa Fb Ia Ib J) (ins.map fin) → List.Forall₂ (NearIs (c * u)) (uhamL t Fa Fb Ia Ib J) (insL.map fin) →
      (uV n K t).NearDen (c * u) (uden eoa eva eob evb) (finv d) → (uW n K t).NearDen (c * u) (udenL eoa eva eob evb) (finv e) →
      (uV n K t).Ty (finv x₀) → UAnti ((uV n K t).rd (finv x₀)) → ‖(uV n K t).rd (finv x₀) - T‖ ≤ δ →
      (uW n K t).Ty (finv y₀) → UAnti ((uW n K t).rd (finv y₀)) → ‖(uW n K t).rd (finv y₀) - L‖ ≤ δ' →
      (∀ k l, N ≤ k → ∃ x y : ℕ → Fin 5 → Arr (Option K), x 0 = x₀ ∧ y 0 = y₀ ∧ (∀ j < k, UOStep O ore ins d (x j) (x (j + 1))) ∧
        ∀ j < l, ULOStep O ore insL (x k) e (y j) (y (j + 1))) ∧
      ∀ (x : ℕ → Fin 5 → Arr (Option K)) (k : ℕ), x 0 = x₀ → (∀ j < k, UOStep O ore ins d (x j) (x (j + 1))) → (∀ i, AllFin (x k i)) ∧
        (N ≤ k → ‖(uV n K t).rd (finv (x k)) - T‖ ≤ C * u ∧
          ∀ (y : ℕ → Fin 5 → Arr (Option K)) (l : ℕ), y 0 = y₀ → (∀ j < l, ULOStep O ore insL (x k) e (y j) (y (j + 1))) → (∀ i, AllFin (y l i)) ∧
            (N ≤ l → ‖(uW n K t).rd (finv (y l)) - L‖ ≤ C * u ∧
              ∀ bs, (∀ b ∈ bs, AllFin b) → List.Forall₂ ((uV n K t).Arg (uW n K t) (c * u) T L (finv (x k)) (finv (y l))) ds (bs.map fin) →
                ∃ rs, h.nrun (overflowing O true ore) bs = .ok rs ∧ (∀ r ∈ rs, AllFin r) ∧ List.Forall₂ (NearIs (C * u)) es (rs.map fin))) := by
  obtain ⟨C₁, u₁, Ω₁, hC₁, hu₁, hu₁', h₁⟩ := C110_attains re hre hη hG hH hc t Fa Fb Ia Ib J eoa eva eob evb g T δ q q1 hT hδ q0 contr
  obtain ⟨C₂, u₂, Ω₂, hC₂, hu₂, hu₂', h₂⟩ := C110_lambda_attains re hre hη hG hH (c := c + C₁ + 1) (by positivity) t Fa Fb Ia Ib J eoa eva eob evb g T L δ' q q1 hL hδ' q0 contrL
  obtain ⟨C₃, Ω₃, hC₃, h₃⟩ := C110_call hh hp re hre hη hG hH (c := c + C₁ + C₂ + 1) (by positivity)
  refine ⟨C₁ + C₂ + C₃ + 1, min u₁ u₂, max Ω₁ (max Ω₂ Ω₃), by positivity, lt_min hu₁ hu₂, (min_le_left _ _).trans hu₁', fun u u0 uu => ?_⟩
  obtain ⟨N, hN⟩ := exists_pow_lt_of_lt_one (show 0 < u / (δ + δ') by positivity) q1
  refine ⟨N, fun Ω hΩ O hO ore ho ins insL d x₀ e y₀ fi fiL fd fe fx fy hi hiL hd he tx ax nx ty ay ny => ?_⟩
  have Ω1 := (le_max_left _ _).trans hΩ
  have Ω2 := ((le_max_left _ _).trans (le_max_right _ _)).trans hΩ
  have Ω3 := ((le_max_right _ _).trans (le_max_right _ _)).trans hΩ
  have small : ∀ k, N ≤ k → ∀ s : ℝ, 0 ≤ s → s ≤ δ + δ' → q ^ k * s ≤ u := fun k hk s s0 hs => by
    have h1 : q ^ k * s ≤ q ^ N * (δ + δ') := mul_le_mul (pow_le_pow_of_le_one q0 q1.le hk) hs s0 (pow_nonneg q0 _)
    have h2 := mul_le_mul_of_nonneg_right hN.le (by positivity : 0 ≤ δ + δ')
    rw [div_mul_cancel₀ _ (by positivity : δ + δ' ≠ 0)] at h2
    linarith
  have up : ∀ {a b : ℝ}, a ≤ b → a * u ≤ b * u := fun h => mul_le_mul_of_nonneg_right h u0.le
  have amps : ∀ (x : ℕ → Fin 5 → Arr (Option K)) (k : ℕ), x 0 = x₀ → (∀ j < k, UOStep O ore ins d (x j) (x (j + 1))) →
      ((∀ i, AllFin (x k i)) ∧ (uV n K t).Ty (finv (x k)) ∧ (N ≤ k → ‖(uV n K t).rd (finv (x k)) - T‖ ≤ (C₁ + 1) * u)) ∧ ∃ z, UOStep O ore ins d (x k) z := by
    rintro x k rfl hx
    obtain ⟨pf, ⟨p1, -, -, p4⟩, p5⟩ := h₁ u u0.le (uu.trans (min_le_left _ _)) Ω Ω1 O hO ore ho ins d x fi hi fd hd fx tx ax nx k hx
    exact ⟨⟨pf, p1, fun hk => by linarith [small k hk _ (norm_nonneg _) (nx.trans (by linarith))]⟩, p5⟩
  have hi' : List.Forall₂ (NearIs ((c + C₁ + 1) * u)) (uhamL t Fa Fb Ia Ib J) (insL.map fin) := hiL.imp fun _ _ h => near_mono (up (by linarith)) h
  have lams : ∀ (w : Fin 5 → Arr (Option K)) (y : ℕ → Fin 5 → Arr (Option K)) (l : ℕ), (∀ i, AllFin (w i)) → (uV n K t).Ty (finv w) → ‖(uV n K t).rd (finv w) - T‖ ≤ (C₁ + 1) * u →
      y 0 = y₀ → (∀ j < l, ULOStep O ore insL w e (y j) (y (j + 1))) →
      ((∀ i, AllFin (y l i)) ∧ (uW n K t).Ty (finv (y l)) ∧ (N ≤ l → ‖(uW n K t).rd (finv (y l)) - L‖ ≤ (C₂ + 1) * u)) ∧ ∃ z, ULOStep O ore insL w e (y l) z := by
    rintro w y l pf p1 p5 rfl hy
    obtain ⟨qf, ⟨q1', -, -, q4⟩, q5⟩ := h₂ u u0.le (uu.trans (min_le_right _ _)) Ω Ω2 O hO ore ho insL w e y fiL hi' pf
      (((uV n K t).near_iff (by positivity)).2 ⟨p1, p5.trans (up (by linarith))⟩) fe (fun i idx hi => (he i idx hi).trans (up (by linarith))) fy ty ay ny l hy
    exact ⟨⟨qf, q1', fun hm => by linarith [small l hm _ (norm_nonneg _) (ny.trans (by linarith))]⟩, q5⟩
  refine ⟨fun k l hk => ?_, fun x k hx0 hx => ?_⟩
  · obtain ⟨x, hx0, hx⟩ := chains (fun k x h0 hx => (amps x k h0 hx).2) k
    obtain ⟨⟨pf, p1, p2⟩, -⟩ := amps x k hx0 hx
    obtain ⟨y, hy0, hy⟩ := chains (fun l y h0 hy => (lams (x k) y l pf p1 (p2 hk) h0 hy).2) l
    exact ⟨x, y, hx0, hy0, hx, hy⟩
  obtain ⟨⟨pf, p1, p2⟩, -⟩ := amps x k hx0 hx
  refine ⟨pf, fun hk => ?_⟩
  have p5 := p2 hk
  refine ⟨p5.trans (up (by linarith)), fun y l hy0 hy => ?_⟩
  obtain ⟨⟨qf, q1', q2⟩, -⟩ := lams (x k) y l pf p1 p5 hy0 hy
  refine ⟨qf, fun hm => ?_⟩
  have q6 := q2 hm
  have nT := ((uV n K t).near_iff (ε := (c + C₁ + C₂ + 1) * u) (X := T) (by positivity)).2 ⟨p1, p5.trans (up (by linarith))⟩
  have nL := ((uW n K t).near_iff (ε := (c + C₁ + C₂ + 1) * u) (X := L) (by positivity)).2 ⟨q1', q6.trans (up (by linarith))⟩
  refine ⟨q6.trans (up (by linarith)), fun bs hf hbs => ?_⟩
  obtain ⟨rs, er, fr, hr⟩ := h₃ u u0.le ((uu.trans (min_le_left _ _)).trans hu₁') Ω Ω3 O ore ho bs hf (hbs.imp fun d b h => by
    rcases h with ⟨i, rfl, rfl⟩ | ⟨i, rfl, rfl⟩ | h
    · exact nT i
    · exact nL i
    · exact near_mono (up (by linarith)) h)
  exact ⟨rs, er, fr, hr.imp fun _ _ h => near_mono (up (by linarith)) h⟩

end routines

/-- C110: a whole unrestricted calculation for a weak perturbation, from amplitudes and multipliers zero or in a ball, never overflows. -/
theorem C110_weak (re : K → K) (hre : ∀ x y, ‖re x - re y‖ ≤ ‖x - y‖) {η : ℝ} (hη : 0 ≤ η) {G H : List (List ℝ) → ℝ} (hG : GMono G) (hH : GMono H) {c : ℝ} (hc : 0 ≤ c)
    (t : Bool) (fa : OneE (Fin (n 0)) (Fin (n 1)) K) (fb : OneE (Fin (n 2)) (Fin (n 3)) K) (Ia : TwoE (Fin (n 0)) (Fin (n 1)) K) (Ib : TwoE (Fin (n 2)) (Fin (n 3)) K)
    (J : TwoEFull (Fin (n 0)) (Fin (n 1)) (Fin (n 2)) (Fin (n 3)) K) (hIa : AntiI Ia) (hIb : AntiI Ib)
    (eoa : Fin (n 0) → K) (eva : Fin (n 1) → K) (eob : Fin (n 2) → K) (evb : Fin (n 3) → K) (g : UGap eoa eva eob evb) (r : ℝ) (hr : 0 < r) :
    ∃ z₀ : ℝ, 0 < z₀ ∧ ∀ z : K, ‖z‖ ≤ z₀ → ∃ (T : UAmp K (Fin (n 0)) (Fin (n 1)) (Fin (n 2)) (Fin (n 3))) (L : UAmp K (Fin (n 1)) (Fin (n 0)) (Fin (n 3)) (Fin (n 2))),
      UAnti T ∧ UAnti L ∧ ‖T‖ ≤ r ∧
      CC.uccsd_stanton ((diagF eoa eva).addMul z fa) ((diagF eob evb).addMul z fb) (Ia.mul z) (Ib.mul z) (J.mul z) T.1 T.2 = 0 ∧
      (CC.uccsd_lambda_opt ((diagF eoa eva).addMul z fa) ((diagF eob evb).addMul z fb) (Ia.mul z) (Ib.mul z) (J.mul z) L.1 L.2 T.1 T.2
        : UAmp K (Fin (n 1)) (Fin (n 0)) (Fin (n 3)) (Fin (n 2))) = 0 ∧
      ∀ (h : Fun) (ds es : List (Desc n K)), Computes h ds es → ds.length = h.params.length →
      ∃ C u₀ Ω₀ : ℝ, 0 ≤ C ∧ 0 < u₀ ∧ u₀ ≤ 1 ∧ ∀ u, 0 < u → u ≤ u₀ → ∃ N : ℕ, ∀ Ω, Ω₀ ≤ Ω → ∀ (O : Overflowing K u η G H Ω), OSign O →
        ∀ (ore : Option K → Option K), (∀ x, ore (some x) = some (re x)) → ∀ (ins insL : List (Arr (Option K))) (d x₀ e y₀ : Fin 5 → Arr (Option K)),
        (∀ a ∈ ins, AllFin a) → (∀ a ∈ insL, AllFin a) → (∀ i, FinOn ((uV n K t).sh i) (d i)) → (∀ i, FinOn ((uW n K t).sh i) (e i)) → (∀ i, AllFin (x₀ i)) → (∀ i, AllFin (y₀ i)) →
        List.Forall₂ (NearIs (c * u)) (uham t ((diagF eoa eva).addMul z fa) ((diagF eob evb).addMul z fb) (Ia.mul z) (Ib.mul z) (J.mul z)) (ins.map fin) →
        List.Forall₂ (NearIs (c * u)) (uhamL t ((diagF eoa eva).addMul z fa) ((diagF eob evb).addMul z fb) (Ia.mul z) (Ib.mul z) (J.mul z)) (insL.map fin) →
        (uV n K t).NearDen (c * u) (uden eoa eva eob evb) (finv d) → (uW n K t).NearDen (c * u) (udenL eoa eva eob evb) (finv e) →
        (uV n K t).Ty (finv x₀) → UAnti ((uV n K t).rd (finv x₀)) → ‖(uV n K t).rd (finv x₀)‖ ≤ r →
        (uW n K t).Ty (finv y₀) → UAnti ((uW n K t).rd (finv y₀)) → ‖(uW n K t).rd (finv y₀)‖ ≤ r →
        (∀ k l, N ≤ k → ∃ x y : ℕ → Fin 5 → Arr (Option K), x 0 = x₀ ∧ y 0 = y₀ ∧ (∀ j < k, UOStep O ore ins d (x j) (x (j + 1))) ∧
          ∀ j < l, ULOStep O ore insL (x k) e (y j) (y (j + 1))) ∧
        ∀ (x : ℕ → Fin 5 → Arr (Option K)) (k : ℕ), x 0 = x₀ → (∀ j < k, UOStep O ore ins d (x j) (x (j + 1))) → (∀ i, AllFin (x k i)) ∧
          (N ≤ k → ‖(uV n K t).rd (finv (x k)) - T‖ ≤ C * u ∧
            ∀ (y : ℕ → Fin 5 → Arr (Option K)) (l : ℕ), y 0 = y₀ → (∀ j < l, ULOStep O ore insL (x k) e (y j) (y (j + 1))) → (∀ i, AllFin (y l i)) ∧
              (N ≤ l → ‖(uW n K t).rd (finv (y l)) - L‖ ≤ C * u ∧
                ∀ bs, (∀ b ∈ bs, AllFin b) → List.Forall₂ ((uV n K t).Arg (uW n K t) (c * u) T L (finv (x k)) (finv (y l))) ds (bs.map fin) →
                  ∃ rs, h.nrun (overflowing O true ore) bs = .ok rs ∧ (∀ r ∈ rs, AllFin r) ∧ List.Forall₂ (NearIs (C * u)) es (rs.map fin))) := by
  obtain ⟨z₁, hz1, h1⟩ := C73_uccsd_converges eoa eva eob evb g fa fb Ia Ib J hIa hIb r hr
  obtain ⟨z₂, hz2, h2⟩ := C73_uccsd_lambda_converges eoa eva eob evb g fa fb Ia Ib J hIa hIb r
  obtain ⟨z₃, hz3, h3⟩ := C73_uccsd_converges eoa eva eob evb g fa fb Ia Ib J hIa hIb (3 * r) (by positivity)
  refine ⟨min z₁ (min z₂ z₃), lt_min hz1 (lt_min hz2 hz3), fun z hz => ?_⟩
  obtain ⟨T, hA, hA', hn, hsol, -, -⟩ := h1 z (hz.trans (min_le_left _ _))
  obtain ⟨T', -, -, -, -, huniq, hcv⟩ := h3 z (hz.trans ((min_le_right _ _).trans (min_le_right _ _)))
  obtain rfl := huniq T hA hA' (by linarith) hsol
  obtain ⟨L, hL, hL', hLs, hLc⟩ := h2 z (hz.trans ((min_le_right _ _).trans (min_le_left _ _))) T hA hA' hn
  refine ⟨T, L, ⟨hA, hA'⟩, ⟨hL, hL'⟩, hn, hsol, (hLs L hL hL').2 rfl, fun h ds es hh hp => ?_⟩
  obtain ⟨C, u₀, Ω₀, hC, hu, hu1, h'⟩ := C110_pipeline re hre hη hG hH hc t ((diagF eoa eva).addMul z fa) ((diagF eob evb).addMul z fb) (Ia.mul z) (Ib.mul z) (J.mul z) eoa eva eob evb g T L
    (2 * r) (1 / 2) (by norm_num) ⟨hA, hA'⟩ ⟨hL, hL'⟩ (r + ‖L‖) (by positivity) (by positivity) (by norm_num)
    (fun X hX hd => by
      have := hcv X hX.1 hX.2 (by have := norm_sub_norm_le X T; linarith) 1
      simpa using this)
    (fun X hX _ => by simpa using hLc X hX.1 hX.2 1) hh hp
  refine ⟨C, u₀, Ω₀, hC, hu, hu1, fun u u0 uu => ?_⟩
  obtain ⟨N, hN⟩ := h' u u0 uu
  exact ⟨N, fun Ω hΩ O hO ore ho ins insL d x₀ e y₀ fi fiL fd fe fx fy hi hiL hd he tx ax nx ty ay ny =>
    hN Ω hΩ O hO ore ho ins insL d x₀ e y₀ fi fiL fd fe fx fy hi hiL hd he tx ax (by have := norm_sub_le ((uV n K t).rd (finv x₀)) T; linarith) ty ay
      (by have := norm_sub_le ((uW n K t).rd (finv y₀)) L; linarith)⟩

/-- Two electrons of spin alpha and one of spin beta, with three and two virtual orbitals, occupied orbitals of energy -1 and virtual ones of energy 1, any integrals
that are weak enough, IEEE arithmetic of `p` bits with largest number `Ω`: amplitudes and multipliers from zero, and the occupied blocks of the one-particle density
matrix, all finite. -/
example (fa : OneE (Fin 2) (Fin 3) ℝ) (fb : OneE (Fin 1) (Fin 2) ℝ) (Ia : TwoE (Fin 2) (Fin 3) ℝ) (Ib : TwoE (Fin 1) (Fin 2) ℝ) (J : TwoEFull (Fin 2) (Fin 3) (Fin 1) (Fin 2) ℝ)
    (hIa : AntiI Ia) (hIb : AntiI Ib) : ∃ z₀ : ℝ, 0 < z₀ ∧ ∀ z : ℝ, |z| ≤ z₀ →
    ∃ (T : UAmp ℝ (Fin 2) (Fin 3) (Fin 1) (Fin 2)) (L : UAmp ℝ (Fin 3) (Fin 2) (Fin 2) (Fin 1)) (C Ω₀ : ℝ) (p₀ : ℕ),
      CC.uccsd_stanton ((diagF (fun _ => -1) fun _ => 1).addMul z fa) ((diagF (fun _ => -1) fun _ => 1).addMul z fb) (Ia.mul z) (Ib.mul z) (J.mul z) T.1 T.2 = 0 ∧
      (CC.uccsd_lambda_opt ((diagF (fun _ => -1) fun _ => 1).addMul z fa) ((diagF (fun _ => -1) fun _ => 1).addMul z fb) (Ia.mul z) (Ib.mul z) (J.mul z) L.1 L.2 T.1 T.2
        : UAmp ℝ (Fin 3) (Fin 2) (Fin 2) (Fin 1)) = 0 ∧
      ∀ (p : ℕ) (hp : 0 < p) (Ω : ℝ) (hΩ : Ω ∈ Binary.F p (-1022 + 1 - p)), p₀ ≤ p → Ω₀ ≤ Ω → ∃ x y : Fin 5 → Arr (Option ℝ), ∃ da db : Arr (Option ℝ),
        Prog.uccsd_1rdm_ji.nrun (overflowing (binaryOver p (-1022 + 1 - p) hp hΩ) true id) (List.ofFn x ++ List.ofFn y) = .ok [da, db] ∧ AllFin da ∧ AllFin db ∧
        (∀ i j : Fin 2, |(fin da).val [i.1, j.1] - (CC.uccsd_1rdm_ji T.1.1 T.1.2 T.2.1 T.2.2.1 T.2.2.2 L.1.1 L.1.2 L.2.1 L.2.2.1 L.2.2.2).1 i j| ≤ C * (1 / 2) ^ p) ∧
        ∀ i j : Fin 1, |(fin db).val [i.1, j.1] - (CC.uccsd_1rdm_ji T.1.1 T.1.2 T.2.1 T.2.2.1 T.2.2.2 L.1.1 L.1.2 L.2.1 L.2.2.1 L.2.2.2).2 i j| ≤ C * (1 / 2) ^ p := by
  let n : ℕ → ℕ := fun | 0 => 2 | 1 => 3 | 2 => 1 | _ => 2
  obtain ⟨z₀, hz, h⟩ := C110_weak (n := n) id (fun _ _ => le_rfl) (Binary.two_pos (-1022)).le (sz_mono (Binary.two_pos (-1022)).le) (pk_mono (Binary.two_pos (-1022)).le) (c := 0) le_rfl
    false fa fb Ia Ib J hIa hIb (fun _ => (-1 : ℝ)) (fun _ => 1) (fun _ => (-1 : ℝ)) (fun _ => 1)
    ⟨fun _ _ => by norm_num, fun _ _ => by norm_num, fun _ _ _ _ => by norm_num, fun _ _ _ _ => by norm_num, fun _ _ _ _ => by norm_num⟩ 1 one_pos
  refine ⟨z₀, hz, fun z hzz => ?_⟩
  obtain ⟨T, L, hA, hL, hn, hsol, hsolL, h'⟩ := h z hzz
  obtain ⟨C, u₀, Ω₀, hC, hu, hu1, h''⟩ := h' Prog.uccsd_1rdm_ji _ _
    (C53_uccsd_1rdm_ji (n := n) (l := false) (t := false) T.1.1 T.1.2 T.2.1 T.2.2.1 T.2.2.2 L.1.1 L.1.2 L.2.1 L.2.2.1 L.2.2.2) rfl
  obtain ⟨p₀, hp₀⟩ := exists_pow_lt_of_lt_one hu (by norm_num : (1 / 2 : ℝ) < 1)
  refine ⟨T, L, C, Ω₀, p₀, hsol, hsolL, fun p hp Ω hΩ hpp hle => ?_⟩
  have pu : ((1 : ℝ) / 2) ^ p ≤ u₀ := (pow_le_pow_of_le_one (by norm_num) (by norm_num) hpp).trans hp₀.le
  obtain ⟨N, hN⟩ := h'' ((1 / 2) ^ p) (by positivity) pu
  have near : ∀ ds : List (Desc n ℝ), List.Forall₂ (NearIs (0 * (1 / 2) ^ p)) ds ((ds.map optArr).map fin) := fun ds => by
    rw [List.map_map, List.forall₂_map_right_iff]
    exact List.forall₂_same.2 fun d _ => ⟨rfl, rfl, fun idx _ => by rw [zero_mul]; exact le_of_eq (by rw [norm_eq_zero]; exact sub_self _)⟩
  have allf : ∀ ds : List (Desc n ℝ), ∀ a ∈ ds.map optArr, AllFin a := fun ds a ha => by
    obtain ⟨d, -, rfl⟩ := List.mem_map.1 ha
    exact fun _ _ => ⟨_, rfl⟩
  have typed : ∀ va oa vb ob, ∃ x : Fin 5 → Arr (Option ℝ), (∀ i, AllFin (x i)) ∧ (uC (n := n) (K := ℝ) false va oa vb ob).Ty (finv x) ∧
      (uC (n := n) (K := ℝ) false va oa vb ob).rd (finv x) = 0 := fun va oa vb ob =>
    ⟨fun i => ⟨false, uSh n va oa vb ob i, fun _ => some 0⟩, fun i _ _ => ⟨0, rfl⟩, fun i => ⟨rfl, rfl⟩, rfl⟩
  have dens : ∀ va oa vb ob (D : UAmp ℝ (Fin (n oa)) (Fin (n va)) (Fin (n ob)) (Fin (n vb))), ∃ d : Fin 5 → Arr (Option ℝ),
      (∀ i, FinOn ((uC (n := n) (K := ℝ) false va oa vb ob).sh i) (d i)) ∧ (uC (n := n) (K := ℝ) false va oa vb ob).NearDen (0 * (1 / 2) ^ p) D (finv d) :=
    fun va oa vb ob D => ⟨fun i => ⟨false, [], fun idx => some (((uC (n := n) (K := ℝ) false va oa vb ob).de i D).at idx)⟩, fun i idx _ => ⟨_, rfl⟩, fun i idx _ => by simp [finv, fin]⟩
  obtain ⟨x₀, fx, tx, rx⟩ := typed 1 0 3 2
  obtain ⟨y₀, fy, ty, ry⟩ := typed 0 1 2 3
  obtain ⟨d, fd, hd⟩ := dens 1 0 3 2 (uden (fun _ => (-1 : ℝ)) (fun _ => 1) (fun _ => (-1 : ℝ)) fun _ => 1)
  obtain ⟨e, fe, he⟩ := dens 0 1 2 3 (udenL (fun _ => (-1 : ℝ)) (fun _ => 1) (fun _ => (-1 : ℝ)) fun _ => 1)
  have gen : ∀ (η : ℝ) (O : Overflowing ℝ ((1 / 2) ^ p) η (szSum η) (pkSum η) Ω), η = 2 ^ (-1022 : ℤ) → OSign O → ∃ x y : Fin 5 → Arr (Option ℝ), ∃ da db : Arr (Option ℝ),
        Prog.uccsd_1rdm_ji.nrun (overflowing O true id) (List.ofFn x ++ List.ofFn y) = .ok [da, db] ∧ AllFin da ∧ AllFin db ∧
        (∀ i j : Fin 2, |(fin da).val [i.1, j.1] - (CC.uccsd_1rdm_ji T.1.1 T.1.2 T.2.1 T.2.2.1 T.2.2.2 L.1.1 L.1.2 L.2.1 L.2.2.1 L.2.2.2).1 i j| ≤ C * (1 / 2) ^ p) ∧
        ∀ i j : Fin 1, |(fin db).val [i.1, j.1] - (CC.uccsd_1rdm_ji T.1.1 T.1.2 T.2.1 T.2.2.1 T.2.2.2 L.1.1 L.1.2 L.2.1 L.2.2.1 L.2.2.2).2 i j| ≤ C * (1 / 2) ^ p := by
    intro η O e' hO
    subst e'
    obtain ⟨e1, e2⟩ := hN Ω hle O hO id (fun _ => rfl) _ _ d x₀ e y₀ (allf _) (allf _) fd fe fx fy (near _) (near _) hd he tx (by rw [rx]; exact uzero_anti)
      (by rw [rx, norm_zero]; exact zero_le_one) ty (by rw [ry]; exact uzero_anti) (by rw [ry, norm_zero]; exact zero_le_one)
    obtain ⟨x, y, x0, y0, hx, hy⟩ := e1 N N le_rfl
    obtain ⟨af, w⟩ := e2 x N x0 hx
    obtain ⟨-, w⟩ := w le_rfl
    obtain ⟨bf, w⟩ := w y N y0 hy
    obtain ⟨-, w⟩ := w le_rfl
    have args : List.Forall₂ ((uV n ℝ false).Arg (uW n ℝ false) (0 * (1 / 2) ^ p) T L (finv (x N)) (finv (y N)))
        ((List.ofFn fun i => (uV n ℝ false).de i T) ++ List.ofFn fun i => (uW n ℝ false).de i L) ((List.ofFn (x N) ++ List.ofFn (y N)).map fin) := by
      rw [List.map_append, List.map_ofFn, List.map_ofFn]
      exact List.rel_append (forall_fn.2 fun i => .inl ⟨i, rfl, rfl⟩) (forall_fn.2 fun i => .inr (.inl ⟨i, rfl, rfl⟩))
    obtain ⟨rs, er, fr, hr⟩ := w (List.ofFn (x N) ++ List.ofFn (y N)) (fun b hb => by
      rcases List.mem_append.1 hb with hb | hb
      · obtain ⟨i, rfl⟩ := List.mem_ofFn.1 hb
        exact af i
      · obtain ⟨i, rfl⟩ := List.mem_ofFn.1 hb
        exact bf i) args
    match rs, hr with
    | [da, db], .cons hda (.cons hdb .nil) =>
      exact ⟨x N, y N, da, db, er, fr da (by simp), fr db (by simp), fun i j => (nearIs_two.1 hda).2.2 i j, fun i j => (nearIs_two.1 hdb).2.2 i j⟩
  exact gen _ (binaryOver p (-1022 + 1 - p) hp hΩ) (by congr 1; ring) (C106_ieee _ _ hp hΩ)

end Heap
