import Verif.Props.Overflow
/-!
# C105: a call that stays in range is a call in rounded arithmetic without overflow
-/

namespace Heap

section
variable {W W' : Type}

/-- Two interpretations side by side. -/
def side (J : PInterp W) (J' : PInterp W') : PInterp (W × W') where
  lit p q := (J.lit p q, J'.lit p q)
  ein ins out as := do return (← J.ein ins out (as.map Prod.fst), ← J'.ein ins out (as.map Prod.snd))
  bin o a b := do return (← J.bin o a.1 b.1, ← J'.bin o a.2 b.2)
  aug o a b := do return (← J.aug o a.1 b.1, ← J'.aug o a.2 b.2)
  neg a := (J.neg a.1, J'.neg a.2)
  cast a b := do return (← J.cast a.1 b.1, ← J'.cast a.2 b.2)
  transp p a := do return (← J.transp p a.1, ← J'.transp p a.2)

theorem side_ok {x : Except Err W} {y : Except Err W'} :
    RE (fun _ => False) (fun (p : W × W') a => p.1 = a) (x >>= fun a => y >>= fun b => .ok (a, b)) x ∧
    RE (fun _ => False) (fun (p : W × W') b => p.2 = b) (x >>= fun a => y >>= fun b => .ok (a, b)) y := by
  cases x with
  | error e => exact ⟨fun h => h.elim, fun h => h.elim⟩
  | ok a =>
    cases y with
    | error e => exact ⟨fun h => h.elim, fun h => h.elim⟩
    | ok b => exact ⟨⟨a, rfl, rfl⟩, b, rfl, rfl⟩

theorem map_of {A B : Type} {g : A → B} {as : List A} {bs : List B} (h : List.Forall₂ (fun a b => g a = b) as bs) : as.map g = bs := by
  induction h with
  | nil => rfl
  | cons h _ ih => rw [List.map_cons, h, ih]

theorem side_fst (J : PInterp W) (J' : PInterp W') : Sim (RE fun _ => False) (side J J') J fun p a => p.1 = a where
  lit _ _ := rfl
  ein ins out as bs h := by rw [← map_of h]; exact side_ok.1
  bin o a b a' b' h1 h2 := by subst h1 h2; exact side_ok.1
  aug o a b a' b' h1 h2 := by subst h1 h2; exact side_ok.1
  neg a a' h := by subst h; rfl
  cast a b a' b' h1 h2 := by subst h1 h2; exact side_ok.1
  transp p a a' h := by subst h; exact side_ok.1

theorem side_snd (J : PInterp W) (J' : PInterp W') : Sim (RE fun _ => False) (side J J') J' fun p a => p.2 = a where
  lit _ _ := rfl
  ein ins out as bs h := by rw [← map_of h]; exact side_ok.2
  bin o a b a' b' h1 h2 := by subst h1 h2; exact side_ok.2
  aug o a b a' b' h1 h2 := by subst h1 h2; exact side_ok.2
  neg a a' h := by subst h; rfl
  cast a b a' b' h1 h2 := by subst h1 h2; exact side_ok.2
  transp p a a' h := by subst h; exact side_ok.2

/-- What is proved of the two interpretations side by side holds of each. -/
theorem side_run {J : PInterp W} {J' : PInterp W'} {f : Fun} {as : List (W × W')} {rs : List (W × W')} (h : f.nrun (side J J') as = .ok rs) :
    f.nrun J (as.map Prod.fst) = .ok (rs.map Prod.fst) ∧ f.nrun J' (as.map Prod.snd) = .ok (rs.map Prod.snd) := by
  have s1 := nrun_sim (RE.lifts _) (side_fst J J') f (as := as) (bs := as.map Prod.fst) (by rw [List.forall₂_map_right_iff]; exact List.forall₂_same.mpr fun _ _ => rfl)
  have s2 := nrun_sim (RE.lifts _) (side_snd J J') f (as := as) (bs := as.map Prod.snd) (by rw [List.forall₂_map_right_iff]; exact List.forall₂_same.mpr fun _ _ => rfl)
  rw [h] at s1 s2
  obtain ⟨b1, e1, e2⟩ := s1
  obtain ⟨b2, e3, e4⟩ := s2
  exact ⟨by rw [e1, map_of e2], by rw [e3, map_of e4]⟩
end

variable {K : Type} [RCLike K] {u η Ω : ℝ} {G H : List (List ℝ) → ℝ}

/-- The element of the call with overflow is finite and that of the call without overflow, if the largest number needed is in range. -/
def SClose (u Ω : ℝ) (x : (K × ℝ) × ℝ) (y : K × Option K) : Prop := x.2 ≤ Ω → y.2 = some y.1 ∧ Close u x.1 y.1

def SCloseA (u Ω : ℝ) (e : PArr K) (b : Arr K × Arr (Option K)) : Prop :=
  (b.1.cx = e.1.1.cx ∧ b.1.shape = e.1.1.shape) ∧ (b.2.cx = e.1.1.cx ∧ b.2.shape = e.1.1.shape) ∧
    ∀ idx, List.Forall₂ (· < ·) idx e.1.1.shape → SClose u Ω (e.el idx) (b.1.val idx, b.2.val idx)

theorem SCloseA.shapes {es : List (PArr K)} {bs : List (Arr K × Arr (Option K))} (h : List.Forall₂ (SCloseA u Ω) es bs) :
    ((bs.map Prod.fst).map Arr.shape = ((es.map Prod.fst).map Prod.fst).map Arr.shape ∧ (bs.map Prod.fst).any Arr.cx = ((es.map Prod.fst).map Prod.fst).any Arr.cx) ∧
    ((bs.map Prod.snd).map Arr.shape = ((es.map Prod.fst).map Prod.fst).map Arr.shape ∧ (bs.map Prod.snd).any Arr.cx = ((es.map Prod.fst).map Prod.fst).any Arr.cx) := by
  induction h with
  | nil => exact ⟨⟨rfl, rfl⟩, rfl, rfl⟩
  | cons h _ ih => simp only [List.map_cons, List.any_cons, h.1.1, h.1.2, h.2.1.1, h.2.1.2, ih.1.1, ih.1.2, ih.2.1, ih.2.2, and_self]

theorem SCloseA.at {e : PArr K} {b : Arr K × Arr (Option K)} (h : SCloseA u Ω e b) {idx : List ℕ} (hi : e.1.1.shape = [] ∨ List.Forall₂ (· < ·) idx e.1.1.shape) :
    SClose u Ω (e.at idx) (b.1.at idx, b.2.at idx) := by
  unfold PArr.at Arr.at
  rw [h.1.2, h.2.1.2]
  split_ifs with hs
  · exact h.2.2 [] (by rw [hs]; exact .nil)
  · exact h.2.2 idx (hi.resolve_left hs)

theorem op_sclose (h0 : 0 ≤ u) (h1 : u ≤ 1) (hη : 0 ≤ η) (hG : GMono G) (O : Overflowing K u η G H Ω) (o : Op) {x y : (K × ℝ) × ℝ} {a b : K × Option K}
    (ha : SClose u Ω x a) (hb : SClose u Ω y b) :
    SClose u Ω ((opVal o x.1.1 y.1.1, opErr η o x.1 y.1), opPeak o x y) ((O.extend h0 hη hG).op o a.1 b.1, O.op o a.2 b.2) := by
  intro hp
  obtain ⟨a1, a2⟩ := ha ((le_max_left _ _).trans ((le_max_right _ _).trans hp))
  obtain ⟨b1, b2⟩ := hb ((le_max_right _ _).trans ((le_max_right _ _).trans hp))
  rw [a1, b1]
  exact ⟨extend_op O h0 hη hG ((op_size h1 o a2 b2).trans ((le_max_left _ _).trans hp)), op_close h0 h1 hη (O.extend h0 hη hG) o a2 b2⟩

theorem sop_sclose (h0 : 0 ≤ u) (h1 : u ≤ 1) (hη : 0 ≤ η) (hG : GMono G) (hH : GMono H) (O : Overflowing K u η G H Ω) {L : List (List ((K × ℝ) × ℝ))}
    {M : List (List (K × Option K))} (h : List.Forall₂ (List.Forall₂ (SClose u Ω)) L M) :
    SClose u Ω (((L.map fun l => (l.map fun x => x.1.1).prod).sum, sopErr G (L.map fun l => l.map Prod.fst)), sopPeak H L)
      ((O.extend h0 hη hG).sop (M.map fun t => t.map Prod.fst), O.sop (M.map fun t => t.map Prod.snd)) := by
  intro hp
  have hpk : ∀ t ∈ L, ∀ x ∈ t, x.2 ≤ Ω := fun t ht x hx =>
    (le_peak (List.mem_map.mpr ⟨x, List.mem_flatten.mpr ⟨t, ht, hx⟩, rfl⟩)).trans ((le_max_right _ _).trans hp)
  have key : (M.map fun t => t.map Prod.snd) = (M.map fun t => t.map Prod.fst).map (fun t => t.map some) ∧
      List.Forall₂ (List.Forall₂ (Close u)) (L.map fun l => l.map Prod.fst) (M.map fun t => t.map Prod.fst) := by
    clear hp
    induction h with
    | nil => exact ⟨rfl, .nil⟩
    | @cons l m L M hl _ ih =>
      obtain ⟨i1, i2⟩ := ih fun t ht => hpk t (List.mem_cons_of_mem _ ht)
      have hl' := hpk l List.mem_cons_self
      have k : m.map Prod.snd = (m.map Prod.fst).map some ∧ List.Forall₂ (Close u) (l.map Prod.fst) (m.map Prod.fst) := by
        clear i1 i2 ih hpk
        induction hl with
        | nil => exact ⟨rfl, .nil⟩
        | cons hx _ ihl =>
          obtain ⟨j1, j2⟩ := ihl fun x hx => hl' x (List.mem_cons_of_mem _ hx)
          obtain ⟨c1, c2⟩ := hx (hl' _ List.mem_cons_self)
          exact ⟨by simp only [List.map_cons, c1, j1], .cons c2 j2⟩
      exact ⟨by simp only [List.map_cons, i1, k.1], .cons k.2 i2⟩
  obtain ⟨k1, hM⟩ := key
  have g : List.Forall₂ (List.Forall₂ fun x y => (0 : ℝ) ≤ x ∧ x ≤ y) ((M.map fun t => t.map Prod.fst).map fun t => t.map norm)
      (L.map fun t => t.map fun y => ‖y.1.1‖ + y.1.2) := by
    rw [List.forall₂_map_left_iff, List.forall₂_map_right_iff]
    rw [List.forall₂_map_left_iff] at hM
    refine (hM.imp fun l m hl => ?_).flip
    change List.Forall₂ _ (m.map norm) (l.map _)
    rw [List.forall₂_map_left_iff, List.forall₂_map_right_iff]
    rw [List.forall₂_map_left_iff] at hl
    exact (hl.imp fun x y hx => ⟨norm_nonneg _, hx.size h1⟩).flip
  refine ⟨?_, ?_⟩
  · rw [k1]; exact extend_sop O h0 hη hG ((hH _ _ g).2.trans ((le_max_left _ _).trans hp))
  · have := sop_close h0 h1 hG (O.extend h0 hη hG) hM
    rw [List.map_map] at this
    simp only [Function.comp_def, List.map_map] at this ⊢
    exact this

/-- The elements of two arrays side by side. -/
def sideVal (b : Arr K × Arr (Option K)) (idx : List ℕ) : K × Option K := (b.1.val idx, b.2.val idx)

theorem factors_srel {E : List (ℕ × ℕ)} {ins : List (List ℕ)} {es : List (PArr K)} {bs : List (Arr K × Arr (Option K))} (h : List.Forall₂ (SCloseA u Ω) es bs)
    (hi : List.Forall₂ (fun ls s => List.Forall₂ (fun l k => E.lookup l = some k) ls s) ins (((es.map Prod.fst).map Prod.fst).map Arr.shape))
    {ρ : ℕ → ℕ} (hρ : ∀ l k, E.lookup l = some k → ρ l < k) :
    List.Forall₂ (SClose u Ω) (factors ins (es.map PArr.el) ρ) (factors ins (bs.map sideVal) ρ) := by
  induction h generalizing ins with
  | nil => cases hi; exact .nil
  | @cons e b es bs h hs ih =>
    cases hi with
    | @cons ls _ ins _ h1 h2 =>
      refine .cons (h.2.2 _ ?_) (ih h2)
      exact List.forall₂_map_left_iff.mpr (h1.imp fun l k hl => hρ l k hl)

omit [RCLike K] in
theorem side_factors (bs : List (Arr K × Arr (Option K))) (ins : List (List ℕ)) (ρ : ℕ → ℕ) :
    (factors ins (bs.map sideVal) ρ).map Prod.fst = factors ins ((bs.map Prod.fst).map Arr.val) ρ ∧
    (factors ins (bs.map sideVal) ρ).map Prod.snd = factors ins ((bs.map Prod.snd).map Arr.val) ρ := by
  induction bs generalizing ins with
  | nil => cases ins <;> exact ⟨rfl, rfl⟩
  | cons e es ih =>
    cases ins with
    | nil => exact ⟨rfl, rfl⟩
    | cons ls ins => exact ⟨congrArg (_ :: ·) (ih ins).1, congrArg (_ :: ·) (ih ins).2⟩

theorem ein_sclose (h0 : 0 ≤ u) (h1 : u ≤ 1) (hη : 0 ≤ η) (hG : GMono G) (hH : GMono H) (O : Overflowing K u η G H Ω) (ins : List (List ℕ)) (out : List ℕ)
    {es : List (PArr K)} {bs : List (Arr K × Arr (Option K))} (h : List.Forall₂ (SCloseA u Ω) es bs) :
    RE (fun _ => True) (SCloseA u Ω) (pEinsum G H ins out es)
      (flEinsum (O.extend h0 hη hG) ins out (bs.map Prod.fst) >>= fun a => oEinsum O ins out (bs.map Prod.snd) >>= fun b => .ok (a, b)) := by
  obtain ⟨⟨hs, hc⟩, hs', hc'⟩ := SCloseA.shapes h
  unfold pEinsum eEinsum flEinsum oEinsum einsum
  rw [hs, hs']
  cases hE : einShape ins out (((es.map Prod.fst).map Prod.fst).map Arr.shape) with
  | none => exact fun _ => rfl
  | some p =>
    obtain ⟨s, D⟩ := p
    refine ⟨_, rfl, ⟨hc, rfl⟩, ⟨hc', rfl⟩, fun idx hi => ?_⟩
    unfold einShape at hE
    cases hA : allDims ins (((es.map Prod.fst).map Prod.fst).map Arr.shape) [] with
    | none => rw [hA] at hE; cases hE
    | some E =>
      rw [hA] at hE
      cases hO : outDims E out with
      | none => simp [hO] at hE
      | some s' =>
        simp only [hO, Option.some.injEq, Prod.mk.injEq] at hE
        obtain ⟨rfl, hD⟩ := hE
        obtain ⟨a1, -, a3⟩ := allDims_spec hA (by simp)
        obtain ⟨o1, o2⟩ := outDims_spec hO
        have key : List.Forall₂ (List.Forall₂ (SClose u Ω)) (terms D (factors ins (es.map PArr.el)) (bindOut out idx))
            (terms D (factors ins (bs.map sideVal)) (bindOut out idx)) := by
          refine terms_rel (E := E) (fun ρ hρ => factors_srel h a3 hρ) (fun d hd => ?_) fun l k hl hn => ?_
          · rw [← hD, List.mem_filter] at hd
            exact lookup_of_mem a1 hd.1
          · refine bindOut_range o1 o2 hi hl ?_
            by_contra hm
            refine hn (List.mem_map.mpr ⟨(l, k), ?_, rfl⟩)
            rw [← hD, List.mem_filter]
            exact ⟨mem_of_lookup hl, by simpa using hm⟩
        have := sop_sclose h0 h1 hη hG hH O key
        rw [terms_map, terms_map, terms_map, terms_map] at this
        have e1 : (fun ρ => ((factors ins (es.map PArr.el) ρ).map fun x => x.1.1).prod) = fun ρ => einProd ins ((es.map Prod.fst).map Prod.fst) ρ := by
          funext ρ
          rw [einProd_factors, ← el_fst, ← pel_fst, List.map_map]
          rfl
        simp only [pel_fst, e1, fun ρ => (side_factors bs ins ρ).1, fun ρ => (side_factors bs ins ρ).2] at this
        simp only [PArr.el, EArr.el]
        rw [sumOver_terms]
        exact this

theorem peaks_side (h0 : 0 ≤ u) (h1 : u ≤ 1) (hη : 0 ≤ η) (hG : GMono G) (hH : GMono H) (O : Overflowing K u η G H Ω) (warn : Bool) {re : K → K}
    (hre : ∀ x y, ‖re x - re y‖ ≤ ‖x - y‖) {ore : Option K → Option K} (ho : ∀ x, ore (some x) = some (re x)) :
    Sim (RE fun _ => True) (peaks η G H warn re) (side (rounded (O.extend h0 hη hG) warn re) (overflowing O warn ore)) (SCloseA u Ω) where
  lit p q := ⟨⟨rfl, rfl⟩, ⟨rfl, rfl⟩, fun _ _ hp => ⟨extend_lit O h0 hη hG hp, by change 0 ≤ ‖(p / q : K)‖ + η; positivity, (O.extend h0 hη hG).lit_err p q⟩⟩
  ein ins out as bs h := ein_sclose h0 h1 hη hG hH O ins out h
  bin o a b a' b' ha hb := by
    change RE _ _ (pOp o a b (eOp η o a.1 b.1 (arrBin o a.1.1 b.1.1)))
      (flBin (O.extend h0 hη hG) o a'.1 b'.1 >>= fun x => oBin O o a'.2 b'.2 >>= fun y => .ok (x, y))
    unfold arrBin flBin oBin
    rw [ha.1.2, hb.1.2, ha.2.1.2, hb.2.1.2]
    cases hs : bshape a.1.1.shape b.1.1.shape with
    | none => exact fun _ => rfl
    | some s =>
      refine ⟨_, rfl, ⟨by rw [ha.1.1, hb.1.1], rfl⟩, ⟨by rw [ha.2.1.1, hb.2.1.1], rfl⟩, fun idx hi => ?_⟩
      obtain ⟨i1, i2⟩ := bshape_idx hs hi
      have := op_sclose h0 h1 hη hG O o (ha.at i1) (hb.at i2)
      rw [pat_fst, pat_fst, at_fst, at_fst] at this
      exact this
  aug o a b a' b' ha hb := by
    change RE _ _ (pOp o a b (eOp η o a.1 b.1 (arrAug o a.1.1 b.1.1)))
      (flAug (O.extend h0 hη hG) o a'.1 b'.1 >>= fun x => oAug O o a'.2 b'.2 >>= fun y => .ok (x, y))
    unfold arrAug flAug oAug
    rw [ha.1.2, hb.1.2, ha.2.1.2, hb.2.1.2, ha.1.1, hb.1.1, ha.2.1.1, hb.2.1.1]
    split_ifs with c1 c2
    · exact fun _ => rfl
    · exact fun _ => rfl
    · refine ⟨_, rfl, ⟨rfl, rfl⟩, ⟨rfl, rfl⟩, fun idx hi => ?_⟩
      rw [ne_eq, not_not] at c1
      obtain ⟨i1, i2⟩ := bshape_idx c1 hi
      have := op_sclose h0 h1 hη hG O o (ha.at i1) (hb.at i2)
      rw [pat_fst, pat_fst, at_fst, at_fst] at this
      exact this
  neg a a' h := ⟨h.1, h.2.1, fun idx hi hp => by
    obtain ⟨e, h3, h4⟩ := h.2.2 idx hi hp
    change a'.2.val idx = some (a'.1.val idx) at e
    refine ⟨by change (a'.2.val idx).map _ = _; rw [e]; rfl, h3, ?_⟩
    change ‖-a'.1.val idx - -a.1.1.val idx‖ ≤ u * a.1.2 idx
    rwa [neg_sub_neg, norm_sub_rev]⟩
  cast a b a' b' ha hb := by
    change RE _ _ ((arrCast warn re a.1.1 b.1.1 >>= fun r => .ok (r, a.1.2)) >>= fun r => .ok (r, a.2))
      (arrCast warn re a'.1 b'.1 >>= fun x => arrCast warn ore a'.2 b'.2 >>= fun y => .ok (x, y))
    unfold arrCast
    rw [ha.1.1, ha.1.2, hb.1.1, ha.2.1.1, ha.2.1.2, hb.2.1.1]
    split_ifs with c1 c2
    · exact fun _ => rfl
    · refine ⟨_, rfl, ⟨rfl, rfl⟩, ⟨rfl, rfl⟩, fun idx hi hp => ?_⟩
      obtain ⟨e, h3, h4⟩ := ha.2.2 idx hi hp
      change a'.2.val idx = some (a'.1.val idx) at e
      exact ⟨by change ore (a'.2.val idx) = _; rw [e, ho], h3, (hre _ _).trans h4⟩
    · exact ⟨_, rfl, ⟨rfl, rfl⟩, ⟨rfl, rfl⟩, fun idx hi => ha.2.2 idx hi⟩
  transp p a a' h := by
    change RE _ _ ((arrTransp p a.1.1 >>= fun r => .ok (r, _)) >>= fun r => .ok (r, _))
      (arrTransp p a'.1 >>= fun x => arrTransp p a'.2 >>= fun y => .ok (x, y))
    unfold arrTransp
    rw [h.1.2, h.2.1.2]
    cases hs : transpShape p a.1.1.shape with
    | none => exact fun _ => rfl
    | some s => exact ⟨_, rfl, ⟨h.1.1, rfl⟩, ⟨h.2.1.1, rfl⟩, fun idx hi => h.2.2 _ (transp_idx hs hi)⟩

/-- An array of finite numbers, read as an array that may hold others. -/
def SameA (b : Arr K) (b' : Arr (Option K)) : Prop :=
  b'.cx = b.cx ∧ b'.shape = b.shape ∧ ∀ idx, List.Forall₂ (· < ·) idx b.shape → b'.val idx = some (b.val idx)

theorem sbound_all (es : List (PArr K)) : ∃ Ω₀, ∀ u Ω, Ω₀ ≤ Ω → ∀ bs : List (Arr K × Arr (Option K)), List.Forall₂ (SCloseA u Ω) es bs →
    List.Forall₂ SameA (bs.map Prod.fst) (bs.map Prod.snd) := by
  induction es with
  | nil => exact ⟨0, fun u Ω _ bs h => by cases h; exact .nil⟩
  | cons e es ih =>
    obtain ⟨Ω₁, h⟩ := ih
    obtain ⟨P, -, hp⟩ := bound_idx e.1.1.shape e.2
    refine ⟨max P Ω₁, fun u Ω hΩ bs hbs => ?_⟩
    cases hbs with
    | cons h1 h2 =>
      refine .cons ⟨h1.2.1.1.trans h1.1.1.symm, h1.2.1.2.trans h1.1.2.symm, fun idx hi => ?_⟩ (h u Ω ((le_max_right _ _).trans hΩ) _ h2)
      rw [h1.1.2] at hi
      exact (h1.2.2 idx hi ((hp idx hi).trans ((le_max_left _ _).trans hΩ))).1

/-- C105: for every bound `B` on the arguments there is a size such that in an arithmetic whose largest number is at least that size a call with arguments
of at most `B` gives exactly what it gives in an arithmetic of the same roundoff without overflow.  So every theorem about rounded arithmetic applies. -/
theorem C105_refines (f : Fun) (warn : Bool) {re : K → K} (hre : ∀ x y, ‖re x - re y‖ ≤ ‖x - y‖) {as rs : List (Arr K)}
    (h : f.nrun (numpy warn re) as = .ok rs) {η : ℝ} (hη : 0 ≤ η) {G H : List (List ℝ) → ℝ} (hG : GMono G) (hH : GMono H) {B : ℝ} (hB : 0 ≤ B) :
    ∃ Ω₀, ∀ u (h0 : 0 ≤ u), u ≤ 1 → ∀ Ω, Ω₀ ≤ Ω → ∀ (O : Overflowing K u η G H Ω) (ore : Option K → Option K), (∀ x, ore (some x) = some (re x)) →
      ∀ (bs : List (Arr K)) (cs : List (Arr (Option K))),
        List.Forall₂ (fun a b => b.cx = a.cx ∧ b.shape = a.shape ∧ ∀ idx, List.Forall₂ (· < ·) idx a.shape → ‖b.val idx‖ ≤ B) as bs → List.Forall₂ SameA bs cs →
        ∃ xs ys, f.nrun (rounded (O.extend h0 hη hG) warn re) bs = .ok xs ∧ f.nrun (overflowing O warn ore) cs = .ok ys ∧ List.Forall₂ SameA xs ys := by
  obtain ⟨D, hD, hd⟩ := sizes_bounded as
  have s1 := nrun_sim (RE.lifts _) (errs_exact η G warn re) f (as := as) (bs := as.map fun a => (a, fun _ => B + D))
    (by rw [List.forall₂_map_right_iff]; exact List.forall₂_same.mpr fun _ _ => rfl)
  rw [h] at s1
  obtain ⟨es, he, -⟩ := s1
  have s2 := nrun_sim (RE.lifts _) (peaks_errs η G H warn re) f (as := as.map fun a => (a, fun _ => B + D)) (bs := as.map fun a => ((a, fun _ => B + D), fun _ => 0))
    (by rw [List.forall₂_map_left_iff, List.forall₂_map_right_iff]; exact List.forall₂_same.mpr fun _ _ => rfl)
  rw [he] at s2
  obtain ⟨ps, hp, -⟩ := s2
  obtain ⟨Ω₁, hb⟩ := sbound_all ps
  refine ⟨Ω₁, fun u h0 h1 Ω hΩ O ore ho bs cs hbs hcs => ?_⟩
  have s3 := nrun_sim (RE.lifts _) (peaks_side zero_le_one le_rfl hη hG hH (O.weaken h1 hη hG) warn hre ho) f
    (as := as.map fun a => ((a, fun _ => B + D), fun _ => 0)) (bs := bs.zip cs) (by
    rw [List.forall₂_map_left_iff]
    refine List.forall₂_iff_get.mpr ⟨by rw [List.length_zip, ← hcs.length_eq, ← hbs.length_eq, min_self], fun i i1 i2 => ?_⟩
    have l1 : i < bs.length := by rw [← hbs.length_eq]; exact i1
    have l2 : i < cs.length := by rw [← hcs.length_eq]; exact l1
    obtain ⟨c1, c2, c3⟩ := (List.forall₂_iff_get.mp hbs).2 i i1 l1
    obtain ⟨d1, d2, d3⟩ := (List.forall₂_iff_get.mp hcs).2 i l1 l2
    simp only [List.get_eq_getElem, List.getElem_zip] at *
    refine ⟨⟨c1, c2⟩, ⟨d1.trans c1, d2.trans c2⟩, fun idx hi _ => ⟨d3 idx (c2 ▸ hi), add_nonneg hB hD, ?_⟩⟩
    change ‖bs[i].val idx - as[i].val idx‖ ≤ 1 * (B + D)
    rw [one_mul]
    exact (norm_sub_le _ _).trans (add_le_add (c3 idx hi) (hd _ (List.getElem_mem i1) idx hi)))
  rw [hp] at s3
  obtain ⟨zs, hz, hzs⟩ := s3
  obtain ⟨r1, r2⟩ := side_run hz
  rw [List.map_fst_zip hcs.length_eq.le] at r1
  rw [List.map_snd_zip hcs.length_eq.ge] at r2
  exact ⟨_, _, r1, r2, hb 1 Ω hΩ zs hzs⟩

end Heap
