import Verif.Props.RoundRun
/-!
# C60: rounding errors, uniformly in the arguments

The constants of `Verif.Props.Round` are computed along with the exact arrays.  Here they are bounded by a run on bounds of the elements, so that one
constant serves all arguments whose elements are bounded.
-/

namespace Heap
variable {K : Type} [RCLike K]

/-- the operation that bounds an operation -/
def bop : Op → Op
  | .sub => .add
  | o => o

section
variable (η : ℝ) (G : List (List ℝ) → ℝ)

/-- bounds of elements and of constants -/
noncomputable def bnds (warn : Bool) (s : ℝ) : PInterp (EArr ℝ) where
  lit p q := (⟨false, [], fun _ => p / q⟩, fun _ => ‖(p / q : ℝ)‖ + η)
  ein := eEinsum G
  bin o a b := eOp η o a b (arrBin (bop o) a.1 b.1)
  aug o a b := eOp η o a b (arrAug (bop o) a.1 b.1)
  neg a := a
  cast a x := do return (← arrCast warn (fun y => y + s) a.1 x.1, a.2)
  transp p a := do return (← arrTransp p a.1, fun idx => a.2 ((List.range p.length).map fun x => idx.getD (p.idxOf x) 0))
end

section
variable {η : ℝ} {G : List (List ℝ) → ℝ}

/-- An element and its constant are bounded. -/
def BE (x : K × ℝ) (y : ℝ × ℝ) : Prop := ‖x.1‖ ≤ y.1 ∧ 0 ≤ x.2 ∧ x.2 ≤ y.2

theorem BE.abs {x : K × ℝ} {y : ℝ × ℝ} (h : BE x y) : ‖y.1‖ = y.1 := abs_of_nonneg ((norm_nonneg _).trans h.1)

theorem op_bnd (hη : 0 ≤ η) (o : Op) {x y : K × ℝ} {a b : ℝ × ℝ} (ha : BE x a) (hb : BE y b) :
    BE (opVal o x.1 y.1, opErr η o x y) (opVal (bop o) a.1 b.1, opErr η o a b) := by
  have e1 := ha.abs
  have e2 := hb.abs
  obtain ⟨a1, a2, a3⟩ := ha
  obtain ⟨b1, b2, b3⟩ := hb
  have nx := norm_nonneg x.1
  have ny := norm_nonneg y.1
  cases o with
  | add =>
    refine ⟨(norm_add_le _ _).trans (add_le_add a1 b1), by simp only [opErr]; positivity, ?_⟩
    simp only [opErr, e1, e2]
    linarith
  | sub =>
    refine ⟨(norm_sub_le _ _).trans (add_le_add a1 b1), by simp only [opErr]; positivity, ?_⟩
    simp only [opErr, e1, e2]
    linarith
  | mul =>
    have m : ∀ {p q r s : ℝ}, 0 ≤ p → p ≤ q → 0 ≤ r → r ≤ s → p * r ≤ q * s := fun hp hq hr hs => mul_le_mul hq hs hr (hp.trans hq)
    refine ⟨?_, by simp only [opErr]; positivity, ?_⟩
    · change ‖x.1 * y.1‖ ≤ a.1 * b.1
      rw [norm_mul]
      exact m nx a1 ny b1
    · simp only [opErr, e1, e2]
      refine add_le_add (add_le_add (add_le_add (m nx a1 b2 b3) (m ny b1 a2 a3)) (m a2 a3 b2 b3)) (add_le_add (m ?_ ?_ ?_ ?_) le_rfl) <;> first | positivity | linarith

theorem prod_bnd {l : List (K × ℝ)} {m : List (ℝ × ℝ)} (h : List.Forall₂ BE l m) :
    BE ((l.map Prod.fst).prod, prodErr l) ((m.map Prod.fst).prod, prodErr m) ∧ 0 ≤ (l.map fun y => ‖y.1‖ + y.2).prod ∧
      (l.map fun y => ‖y.1‖ + y.2).prod ≤ (m.map fun y => ‖y.1‖ + y.2).prod := by
  induction h with
  | nil => simp [BE, prodErr]
  | @cons x y l m hx _ ih =>
    have e := hx.abs
    obtain ⟨x1, x2, x3⟩ := hx
    obtain ⟨⟨i1, i2, i3⟩, i4, i5⟩ := ih
    have nx := norm_nonneg x.1
    have np := norm_nonneg (l.map Prod.fst).prod
    have m' : ∀ {p q r s : ℝ}, 0 ≤ p → p ≤ q → 0 ≤ r → r ≤ s → p * r ≤ q * s := fun hp hq hr hs => mul_le_mul hq hs hr (hp.trans hq)
    simp only [List.map_cons, List.prod_cons, prodErr]
    refine ⟨⟨by rw [norm_mul]; exact m' nx x1 np i1, by positivity, ?_⟩, by positivity, ?_⟩
    · rw [e]
      exact add_le_add (m' x2 x3 i4 i5) (m' nx x1 i2 i3)
    · rw [e]
      exact m' (by positivity) (add_le_add x1 x3) i4 i5

theorem sop_bnd (hG : GMono G) {L : List (List (K × ℝ))} {M : List (List (ℝ × ℝ))} (h : List.Forall₂ (List.Forall₂ BE) L M) :
    BE ((L.map fun l => (l.map Prod.fst).prod).sum, sopErr G L) ((M.map fun l => (l.map Prod.fst).prod).sum, sopErr G M) := by
  have g : List.Forall₂ (List.Forall₂ fun x y => (0 : ℝ) ≤ x ∧ x ≤ y) (L.map fun t => t.map fun y => ‖y.1‖ + y.2) (M.map fun t => t.map fun y => ‖y.1‖ + y.2) := by
    rw [List.forall₂_map_left_iff, List.forall₂_map_right_iff]
    refine h.imp fun l m hl => ?_
    rw [List.forall₂_map_left_iff, List.forall₂_map_right_iff]
    exact hl.imp fun x y hx => ⟨add_nonneg (norm_nonneg _) hx.2.1, by rw [hx.abs]; exact add_le_add hx.1 hx.2.2⟩
  obtain ⟨g1, g2⟩ := hG _ _ g
  have s : BE ((L.map fun l => (l.map Prod.fst).prod).sum, (L.map prodErr).sum) ((M.map fun l => (l.map Prod.fst).prod).sum, (M.map prodErr).sum) := by
    clear g g1 g2
    induction h with
    | nil => simp [BE]
    | @cons l m L M hl _ ih =>
      have p := (prod_bnd hl).1
      simp only [List.map_cons, List.sum_cons]
      exact ⟨(norm_add_le _ _).trans (add_le_add p.1 ih.1), add_nonneg p.2.1 ih.2.1, add_le_add p.2.2 ih.2.2⟩
  exact ⟨s.1, add_nonneg g1 s.2.1, add_le_add g2 s.2.2⟩

/-- An array and its constants are bounded. -/
def BR (e : EArr K) (b : EArr ℝ) : Prop :=
  b.1.cx = e.1.cx ∧ b.1.shape = e.1.shape ∧ ∀ idx, List.Forall₂ (· < ·) idx e.1.shape → BE (e.el idx) (b.el idx)

theorem BR.shapes {es : List (EArr K)} {bs : List (EArr ℝ)} (h : List.Forall₂ BR es bs) :
    (bs.map Prod.fst).map Arr.shape = (es.map Prod.fst).map Arr.shape ∧ (bs.map Prod.fst).any Arr.cx = (es.map Prod.fst).any Arr.cx := by
  induction h with
  | nil => exact ⟨rfl, rfl⟩
  | cons h _ ih => simp only [List.map_cons, List.any_cons, h.1, h.2.1, ih.1, ih.2, and_self]

theorem BR.at {e : EArr K} {b : EArr ℝ} (h : BR e b) {idx : List ℕ} (hi : e.1.shape = [] ∨ List.Forall₂ (· < ·) idx e.1.shape) :
    BE (e.at idx) (b.at idx) := by
  unfold EArr.at
  rw [h.2.1]
  split_ifs with hs
  · exact h.2.2 [] (by rw [hs]; exact .nil)
  · exact h.2.2 idx (hi.resolve_left hs)

theorem factors_bnd {E : List (ℕ × ℕ)} {ins : List (List ℕ)} {es : List (EArr K)} {bs : List (EArr ℝ)} (h : List.Forall₂ BR es bs)
    (hi : List.Forall₂ (fun ls s => List.Forall₂ (fun l k => E.lookup l = some k) ls s) ins ((es.map Prod.fst).map Arr.shape))
    {ρ : ℕ → ℕ} (hρ : ∀ l k, E.lookup l = some k → ρ l < k) :
    List.Forall₂ BE (factors ins (es.map EArr.el) ρ) (factors ins (bs.map EArr.el) ρ) := by
  induction h generalizing ins with
  | nil => cases hi; exact .nil
  | @cons e b es bs h hs ih =>
    cases hi with
    | @cons ls _ ins _ h1 h2 =>
      refine .cons (h.2.2 _ ?_) (ih h2)
      exact List.forall₂_map_left_iff.mpr (h1.imp fun l k hl => hρ l k hl)

theorem ein_bnd (hG : GMono G) (ins : List (List ℕ)) (out : List ℕ) {es : List (EArr K)}
    {bs : List (EArr ℝ)} (h : List.Forall₂ BR es bs) : RE (fun _ => True) BR (eEinsum G ins out es) (eEinsum G ins out bs) := by
  obtain ⟨hs, hc⟩ := BR.shapes h
  unfold eEinsum einsum
  rw [hs]
  cases hE : einShape ins out ((es.map Prod.fst).map Arr.shape) with
  | none => exact fun _ => rfl
  | some p =>
    obtain ⟨s, D⟩ := p
    refine ⟨_, rfl, hc, rfl, fun idx hi => ?_⟩
    unfold einShape at hE
    cases hA : allDims ins ((es.map Prod.fst).map Arr.shape) [] with
    | none => rw [hA] at hE; cases hE
    | some E =>
      rw [hA] at hE
      cases hO : outDims E out with
      | none => simp [hO] at hE
      | some s' =>
        simp only [hO, Option.some.injEq, Prod.mk.injEq] at hE
        obtain ⟨rfl, hD⟩ := hE
        obtain ⟨a1, -, a3⟩ := allDims_spec hA (by simp)
        obtain ⟨o1, o2⟩ := outDims_spec hO
        have key : List.Forall₂ (List.Forall₂ BE) (terms D (factors ins (es.map EArr.el)) (bindOut out idx))
            (terms D (factors ins (bs.map EArr.el)) (bindOut out idx)) := by
          refine terms_rel (E := E) (fun ρ hρ => factors_bnd h a3 hρ) (fun d hd => ?_) fun l k hl hn => ?_
          · rw [← hD, List.mem_filter] at hd
            exact lookup_of_mem a1 hd.1
          · refine bindOut_range o1 o2 hi hl ?_
            by_contra hm
            refine hn (List.mem_map.mpr ⟨(l, k), ?_, rfl⟩)
            rw [← hD, List.mem_filter]
            exact ⟨mem_of_lookup hl, by simpa using hm⟩
        have := sop_bnd hG key
        rw [terms_map, terms_map] at this
        simp only [el_fst] at this
        simp only [EArr.el]
        rw [sumOver_terms, sumOver_terms]
        simp only [funext (einProd_factors ins (es.map Prod.fst)), funext (einProd_factors ins (bs.map Prod.fst))]
        exact this

/-- Every operation keeps the bounds. -/
theorem errs_bnd (hη : 0 ≤ η) (hG : GMono G) (warn : Bool) {re : K → K} (hre : ∀ x y, ‖re x - re y‖ ≤ ‖x - y‖) :
    Sim (RE fun _ => True) (errs η G warn re) (bnds η G warn ‖re 0‖) BR where
  lit p q := ⟨rfl, rfl, fun _ _ => by
    have e : ‖(p / q : K)‖ = (p / q : ℝ) := by rw [norm_div, RCLike.norm_natCast, RCLike.norm_natCast]
    have e' : ‖(p / q : ℝ)‖ = (p / q : ℝ) := abs_of_nonneg (by positivity)
    refine ⟨le_of_eq e, ?_, ?_⟩
    · change 0 ≤ ‖(p / q : K)‖ + η
      positivity
    · change ‖(p / q : K)‖ + η ≤ ‖(p / q : ℝ)‖ + η
      rw [e, e']⟩
  ein ins out as bs h := ein_bnd hG ins out h
  bin o a b a' b' ha hb := by
    change RE _ _ (eOp η o a b (arrBin o a.1 b.1)) (eOp η o a' b' (arrBin (bop o) a'.1 b'.1))
    unfold arrBin
    rw [ha.2.1, hb.2.1]
    cases hs : bshape a.1.shape b.1.shape with
    | none => exact fun _ => rfl
    | some s =>
      refine ⟨_, rfl, by simp only [ha.1, hb.1], rfl, fun idx hi => ?_⟩
      obtain ⟨i1, i2⟩ := bshape_idx hs hi
      have := op_bnd hη o (ha.at i1) (hb.at i2)
      rw [at_fst, at_fst, at_fst, at_fst] at this
      exact this
  aug o a b a' b' ha hb := by
    change RE _ _ (eOp η o a b (arrAug o a.1 b.1)) (eOp η o a' b' (arrAug (bop o) a'.1 b'.1))
    unfold arrAug
    rw [ha.2.1, hb.2.1, ha.1, hb.1]
    split_ifs with c1 c2
    · exact fun _ => rfl
    · exact fun _ => rfl
    · refine ⟨_, rfl, rfl, rfl, fun idx hi => ?_⟩
      rw [ne_eq, not_not] at c1
      obtain ⟨i1, i2⟩ := bshape_idx c1 hi
      have := op_bnd hη o (ha.at i1) (hb.at i2)
      rw [at_fst, at_fst, at_fst, at_fst] at this
      exact this
  neg a a' h := ⟨h.1, h.2.1, fun idx hi => ⟨by
    have := (h.2.2 idx hi).1
    change ‖-a.1.val idx‖ ≤ _
    rw [norm_neg]; exact this, (h.2.2 idx hi).2⟩⟩
  cast a b a' b' ha hb := by
    change RE _ _ (arrCast warn re a.1 b.1 >>= fun r => .ok (r, a.2)) (arrCast warn _ a'.1 b'.1 >>= fun r => .ok (r, a'.2))
    unfold arrCast
    rw [ha.1, ha.2.1, hb.1]
    split_ifs with c1 c2
    · exact fun _ => rfl
    · refine ⟨_, rfl, rfl, rfl, fun idx hi => ⟨?_, (ha.2.2 idx hi).2⟩⟩
      have h1 := (ha.2.2 idx hi).1
      have h2 := hre (a.1.val idx) 0
      have h3 := norm_sub_norm_le (re (a.1.val idx)) (re 0)
      rw [sub_zero] at h2
      change ‖re (a.1.val idx)‖ ≤ a'.1.val idx + ‖re 0‖
      simp only [EArr.el] at h1
      linarith
    · exact ⟨_, rfl, rfl, rfl, fun idx hi => ha.2.2 idx hi⟩
  transp p a a' h := by
    change RE _ _ (arrTransp p a.1 >>= fun r => .ok (r, _)) (arrTransp p a'.1 >>= fun r => .ok (r, _))
    unfold arrTransp
    rw [h.2.1]
    cases hs : transpShape p a.1.shape with
    | none => exact fun _ => rfl
    | some s => exact ⟨_, rfl, h.1, rfl, fun idx hi => h.2.2 _ (transp_idx hs hi)⟩

/-- An array of a given element type and shape with elements bounded by `M`. -/
def BoundedBy (M : ℝ) (s : Bool × List ℕ) (a : Arr K) : Prop := a.cx = s.1 ∧ a.shape = s.2 ∧ ∀ idx, List.Forall₂ (· < ·) idx s.2 → ‖a.val idx‖ ≤ M

theorem bound_all_uniform (bs : List (EArr ℝ)) : ∃ C, 0 ≤ C ∧ ∀ es : List (EArr K), List.Forall₂ BR es bs → ∀ u, 0 ≤ u → ∀ ys : List (Arr K),
    List.Forall₂ (CloseA u) es ys → List.Forall₂ (Near (C * u)) (es.map Prod.fst) ys := by
  induction bs with
  | nil => exact ⟨0, le_rfl, fun es h u _ ys hy => by cases h; cases hy; exact .nil⟩
  | cons b bs ih =>
    obtain ⟨C, hC, h⟩ := ih
    obtain ⟨B, hB, hb⟩ := bound_idx b.1.shape b.2
    refine ⟨B + C, add_nonneg hB hC, fun es hes u hu ys hys => ?_⟩
    cases hes with
    | cons e1 e2 =>
      cases hys with
      | cons h1 h2 =>
        refine .cons ⟨h1.1, h1.2.1, fun idx hi => ((h1.2.2 idx hi).2.trans (mul_le_mul_of_nonneg_left
            (((e1.2.2 idx hi).2.2).trans (hb idx (by rw [e1.2.1]; exact hi))) hu)).trans ?_⟩
          ((h _ e2 u hu _ h2).imp fun a b hab => ⟨hab.1, hab.2.1, fun idx hi => (hab.2.2 idx hi).trans ?_⟩)
        · have := mul_nonneg hC hu; nlinarith
        · have := mul_nonneg hB hu; nlinarith

/-- C60: one constant for all arguments of given element types and shapes with elements bounded by `M`: every call that returns in exact arithmetic returns in rounded
arithmetic, with arguments wrong by at most `c * u`, arrays that are wrong by at most `C * u`. -/
theorem C60_uniform (f : Fun) (warn : Bool) {re : K → K} (hre : ∀ x y, ‖re x - re y‖ ≤ ‖x - y‖) (ss : List (Bool × List ℕ)) {M : ℝ}
    {η : ℝ} (hη : 0 ≤ η) {G : List (List ℝ) → ℝ} (hG : GMono G) {c : ℝ} (hc : 0 ≤ c) :
    ∃ C, 0 ≤ C ∧ ∀ as rs : List (Arr K), List.Forall₂ (BoundedBy M) ss as → f.nrun (numpy warn re) as = .ok rs →
      ∀ u, 0 ≤ u → u ≤ 1 → ∀ (A : Rounding K u η G) (bs : List (Arr K)), List.Forall₂ (Near (c * u)) as bs →
      ∃ ys, f.nrun (rounded A warn re) bs = .ok ys ∧ List.Forall₂ (Near (C * u)) rs ys := by
  have start : ∀ as : List (Arr K), List.Forall₂ (BoundedBy M) ss as →
      List.Forall₂ BR (as.map fun a => ((a, fun _ => c) : EArr K)) (ss.map fun s => ((⟨s.1, s.2, fun _ => M⟩, fun _ => c) : EArr ℝ)) := by
    intro as h
    rw [List.forall₂_map_left_iff, List.forall₂_map_right_iff]
    refine (h.imp fun s a hs => ?_).flip
    exact ⟨hs.1.symm, hs.2.1.symm, fun idx hi => ⟨hs.2.2 idx (by rw [← hs.2.1]; exact hi), hc, le_rfl⟩⟩
  cases hb : f.nrun (bnds η G warn ‖re 0‖) (ss.map fun s => ((⟨s.1, s.2, fun _ => M⟩, fun _ => c) : EArr ℝ)) with
  | error e =>
    refine ⟨0, le_rfl, fun as rs ha h => ?_⟩
    exfalso
    have s1 := nrun_sim (RE.lifts _) (errs_exact η G warn re) f (as := as) (bs := as.map fun a => (a, fun _ => c))
      (by rw [List.forall₂_map_right_iff]; exact List.forall₂_same.mpr fun _ _ => rfl)
    rw [h] at s1
    obtain ⟨es, he, -⟩ := s1
    have s3 := nrun_sim (RE.lifts _) (errs_bnd hη hG warn hre) f (start as ha)
    rw [he, hb] at s3
    obtain ⟨_, h3, -⟩ := s3
    cases h3
  | ok zs =>
    obtain ⟨C, hC, hz⟩ := bound_all_uniform (K := K) zs
    refine ⟨C, hC, fun as rs ha h u h0 h1 A bs hbs => ?_⟩
    have s1 := nrun_sim (RE.lifts _) (errs_exact η G warn re) f (as := as) (bs := as.map fun a => (a, fun _ => c))
      (by rw [List.forall₂_map_right_iff]; exact List.forall₂_same.mpr fun _ _ => rfl)
    rw [h] at s1
    obtain ⟨es, he, hes⟩ := s1
    have hm : es.map Prod.fst = rs := by
      clear he h
      induction hes with
      | nil => rfl
      | cons h _ ih => rw [List.map_cons, h, ih]
    have s3 := nrun_sim (RE.lifts _) (errs_bnd hη hG warn hre) f (start as ha)
    rw [he, hb] at s3
    obtain ⟨_, h3, h4⟩ := s3
    cases h3
    have s2 := nrun_sim (RE.lifts _) (errs_close h0 h1 hη hG A warn hre) f (as := as.map fun a => (a, fun _ => c)) (bs := bs) (by
      rw [List.forall₂_map_left_iff]
      exact hbs.imp fun a b hab => ⟨hab.1, hab.2.1, fun idx hi => ⟨hc, by rw [mul_comm]; exact hab.2.2 idx hi⟩⟩)
    rw [he] at s2
    obtain ⟨ys, hy, hys⟩ := s2
    exact ⟨ys, hy, hm ▸ hz es h4 u h0 ys hys⟩

end
end Heap
