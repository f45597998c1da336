import Verif.Model.Overflow
import Verif.Props.RoundRun
/-!
# C105: overflow in the coupled-cluster routines

Together with the constants of C60 we compute for every element how large the largest number must be.
-/

namespace Heap
variable {K : Type} [RCLike K]

/-! ### The largest number needed -/

section
variable (η : ℝ) (G H : List (List ℝ) → ℝ)

/-- a bound on the size of the result of an operation -/
noncomputable def opSize : Op → K × ℝ → K × ℝ → ℝ
  | .mul, x, y => (‖x.1‖ + x.2) * (‖y.1‖ + y.2)
  | _, x, y => (‖x.1‖ + x.2) + (‖y.1‖ + y.2)

/-- the largest number an operation needs -/
noncomputable def opPeak (o : Op) (x y : (K × ℝ) × ℝ) : ℝ := max (opSize o x.1 y.1) (max x.2 y.2)

/-- the largest number a sum of products needs -/
noncomputable def sopPeak (L : List (List ((K × ℝ) × ℝ))) : ℝ :=
  max (H (L.map fun t => t.map fun y => ‖y.1.1‖ + y.1.2)) ((L.flatten.map Prod.snd).foldr max 0)

/-- An array with constants and the largest numbers needed. -/
abbrev PArr (K : Type) := EArr K × (List ℕ → ℝ)

def PArr.el (a : PArr K) (idx : List ℕ) : (K × ℝ) × ℝ := (a.1.el idx, a.2 idx)
def PArr.at (a : PArr K) (idx : List ℕ) : (K × ℝ) × ℝ := if a.1.1.shape = [] then a.el [] else a.el idx

noncomputable def pEinsum (ins : List (List ℕ)) (out : List ℕ) (as : List (PArr K)) : Except Err (PArr K) :=
  match eEinsum G ins out (as.map Prod.fst), einShape ins out (((as.map Prod.fst).map Prod.fst).map Arr.shape) with
  | .ok r, some (_, D) => .ok (r, fun idx => sopPeak H (terms D (factors ins (as.map PArr.el)) (bindOut out idx)))
  | _, _ => .error .shape

noncomputable def pOp (o : Op) (a b : PArr K) (r : Except Err (EArr K)) : Except Err (PArr K) := do
  return (← r, fun idx => opPeak o (a.at idx) (b.at idx))

/-- numpy, with constants and the largest numbers needed -/
noncomputable def peaks (warn : Bool) (re : K → K) : PInterp (PArr K) where
  lit p q := ((errs η G warn re).lit p q, fun _ => ‖(p / q : K)‖)
  ein := pEinsum G H
  bin o a b := pOp o a b ((errs η G warn re).bin o a.1 b.1)
  aug o a b := pOp o a b ((errs η G warn re).aug o a.1 b.1)
  neg a := ((errs η G warn re).neg a.1, a.2)
  cast a x := do return (← (errs η G warn re).cast a.1 x.1, a.2)
  transp p a := do return (← (errs η G warn re).transp p a.1, fun idx => a.2 ((List.range p.length).map fun x => idx.getD (p.idxOf x) 0))

theorem re_return {A B : Type} (x : Except Err A) (g : A → B) {R : A → B → Prop} (h : ∀ a, R a (g a)) : RE (fun _ => True) R x (x >>= fun a => .ok (g a)) := by
  cases x with
  | error e => exact fun _ => rfl
  | ok r => exact ⟨_, rfl, h r⟩

/-- The arrays and constants of `peaks` are those of `errs`. -/
theorem peaks_errs (warn : Bool) (re : K → K) : Sim (RE fun _ => True) (errs η G warn re) (peaks η G H warn re) fun e p => p.1 = e where
  lit _ _ := rfl
  ein ins out as bs h := by
    have hm : bs.map Prod.fst = as := by
      induction h with
      | nil => rfl
      | cons h _ ih => rw [List.map_cons, h, ih]
    change RE _ _ (eEinsum G ins out as) (pEinsum G H ins out bs)
    unfold pEinsum
    rw [hm]
    unfold eEinsum einsum
    cases einShape ins out ((as.map Prod.fst).map Arr.shape) with
    | none => exact fun _ => rfl
    | some p => exact ⟨_, rfl, rfl⟩
  bin o a b a' b' h1 h2 := by subst h1 h2; exact re_return _ _ fun _ => rfl
  aug o a b a' b' h1 h2 := by subst h1 h2; exact re_return _ _ fun _ => rfl
  neg a a' h := by subst h; rfl
  cast a b a' b' h1 h2 := by subst h1 h2; exact re_return _ _ fun _ => rfl
  transp p a a' h := by subst h; exact re_return _ _ fun _ => rfl
end

/-! ### elements -/

section
variable {u η Ω : ℝ} {G H : List (List ℝ) → ℝ}

theorem le_peak {l : List ℝ} {x : ℝ} (h : x ∈ l) : x ≤ l.foldr max 0 := by
  induction l with
  | nil => cases h
  | cons y l ih =>
    rcases List.mem_cons.mp h with rfl | h
    · exact le_max_left _ _
    · exact (ih h).trans (le_max_right _ _)

open Classical in
/-- The arithmetic continued by exact numbers out of range. -/
noncomputable def Overflowing.extend (O : Overflowing K u η G H Ω) (h0 : 0 ≤ u) (hη : 0 ≤ η) (hG : GMono G) : Rounding K u η G where
  lit p q := if ‖(p / q : K)‖ ≤ Ω then (O.lit p q).getD 0 else p / q
  op o a b := if ‖opVal o a b‖ ≤ Ω then (O.op o (some a) (some b)).getD 0 else opVal o a b
  sop L := if H (L.map fun t => t.map norm) ≤ Ω then (O.sop (L.map fun t => t.map some)).getD 0 else (L.map List.prod).sum
  lit_err p q := by
    split_ifs with h
    · obtain ⟨y, h1, h2⟩ := O.lit_err p q h
      rw [h1]; exact h2
    · rw [sub_self, norm_zero]; positivity
  op_err o a b := by
    split_ifs with h
    · obtain ⟨y, h1, h2⟩ := O.op_err o a b h
      rw [h1]; exact h2
    · rw [sub_self, norm_zero]; positivity
  sop_err L := by
    split_ifs with h
    · obtain ⟨y, h1, h2⟩ := O.sop_err L h
      rw [h1]; exact h2
    · rw [sub_self, norm_zero]
      refine mul_nonneg h0 (hG _ (L.map fun t => t.map norm) ?_).1
      refine List.forall₂_same.mpr fun t ht => List.forall₂_same.mpr fun x hx => ⟨?_, le_rfl⟩
      obtain ⟨t', -, rfl⟩ := List.mem_map.mp ht
      obtain ⟨y, -, rfl⟩ := List.mem_map.mp hx
      exact norm_nonneg y

theorem extend_lit (O : Overflowing K u η G H Ω) (h0 : 0 ≤ u) (hη : 0 ≤ η) (hG : GMono G) {p q : ℕ} (h : ‖(p / q : K)‖ ≤ Ω) :
    O.lit p q = some ((O.extend h0 hη hG).lit p q) := by
  obtain ⟨y, h1, -⟩ := O.lit_err p q h
  simp only [Overflowing.extend, if_pos h, h1, Option.getD_some]

theorem extend_op (O : Overflowing K u η G H Ω) (h0 : 0 ≤ u) (hη : 0 ≤ η) (hG : GMono G) {o : Op} {a b : K} (h : ‖opVal o a b‖ ≤ Ω) :
    O.op o (some a) (some b) = some ((O.extend h0 hη hG).op o a b) := by
  obtain ⟨y, h1, -⟩ := O.op_err o a b h
  simp only [Overflowing.extend, if_pos h, h1, Option.getD_some]

theorem extend_sop (O : Overflowing K u η G H Ω) (h0 : 0 ≤ u) (hη : 0 ≤ η) (hG : GMono G) {L : List (List K)} (h : H (L.map fun t => t.map norm) ≤ Ω) :
    O.sop (L.map fun t => t.map some) = some ((O.extend h0 hη hG).sop L) := by
  obtain ⟨y, h1, -⟩ := O.sop_err L h
  simp only [Overflowing.extend, if_pos h, h1, Option.getD_some]

/-- A finite element with a small error. -/
def FinClose (u : ℝ) (x : K × ℝ) (y : Option K) : Prop := ∃ z, y = some z ∧ Close u x z

/-- An element that is finite and has a small error if the largest number needed is in range. -/
def PClose (u Ω : ℝ) (x : (K × ℝ) × ℝ) (y : Option K) : Prop := x.2 ≤ Ω → FinClose u x.1 y

theorem op_size (h1 : u ≤ 1) (o : Op) {x y : K × ℝ} {a b : K} (ha : Close u x a) (hb : Close u y b) : ‖opVal o a b‖ ≤ opSize o x y := by
  have sa := ha.size h1
  have sb := hb.size h1
  cases o with
  | add => exact (norm_add_le a b).trans (add_le_add sa sb)
  | sub => exact (norm_sub_le a b).trans (add_le_add sa sb)
  | mul =>
    change ‖a * b‖ ≤ _
    rw [norm_mul]; exact mul_le_mul sa sb (norm_nonneg b) ((norm_nonneg a).trans sa)

theorem op_pclose (h0 : 0 ≤ u) (h1 : u ≤ 1) (hη : 0 ≤ η) (hG : GMono G) (O : Overflowing K u η G H Ω) (o : Op) {x y : (K × ℝ) × ℝ} {a b : Option K}
    (ha : PClose u Ω x a) (hb : PClose u Ω y b) : PClose u Ω ((opVal o x.1.1 y.1.1, opErr η o x.1 y.1), opPeak o x y) (O.op o a b) := by
  intro hp
  obtain ⟨a, rfl, ca⟩ := ha ((le_max_left _ _).trans ((le_max_right _ _).trans hp))
  obtain ⟨b, rfl, cb⟩ := hb ((le_max_right _ _).trans ((le_max_right _ _).trans hp))
  exact ⟨_, extend_op O h0 hη hG ((op_size h1 o ca cb).trans ((le_max_left _ _).trans hp)), op_close h0 h1 hη _ o ca cb⟩

theorem finClose_list {l : List (K × ℝ)} {m : List (Option K)} (h : List.Forall₂ (FinClose u) l m) : ∃ m', m = m'.map some ∧ List.Forall₂ (Close u) l m' := by
  induction h with
  | nil => exact ⟨[], rfl, .nil⟩
  | cons h _ ih =>
    obtain ⟨z, rfl, hz⟩ := h
    obtain ⟨m', rfl, hm⟩ := ih
    exact ⟨z :: m', rfl, .cons hz hm⟩

theorem finClose_lists {L : List (List (K × ℝ))} {M : List (List (Option K))} (h : List.Forall₂ (List.Forall₂ (FinClose u)) L M) :
    ∃ M' : List (List K), M = M'.map (fun t => t.map some) ∧ List.Forall₂ (List.Forall₂ (Close u)) L M' := by
  induction h with
  | nil => exact ⟨[], rfl, .nil⟩
  | cons h _ ih =>
    obtain ⟨m, rfl, hm⟩ := finClose_list h
    obtain ⟨M', rfl, hM⟩ := ih
    exact ⟨m :: M', rfl, .cons hm hM⟩

theorem sop_pclose (h0 : 0 ≤ u) (h1 : u ≤ 1) (hη : 0 ≤ η) (hG : GMono G) (hH : GMono H) (O : Overflowing K u η G H Ω) {L : List (List ((K × ℝ) × ℝ))}
    {M : List (List (Option K))} (h : List.Forall₂ (List.Forall₂ (PClose u Ω)) L M) :
    PClose u Ω (((L.map fun l => (l.map fun x => x.1.1).prod).sum, sopErr G (L.map fun l => l.map Prod.fst)), sopPeak H L) (O.sop M) := by
  intro hp
  have hpk : ∀ t ∈ L, ∀ x ∈ t, x.2 ≤ Ω := fun t ht x hx =>
    (le_peak (List.mem_map.mpr ⟨x, List.mem_flatten.mpr ⟨t, ht, hx⟩, rfl⟩)).trans ((le_max_right _ _).trans hp)
  have key : List.Forall₂ (List.Forall₂ (FinClose u)) (L.map fun l => l.map Prod.fst) M := by
    rw [List.forall₂_map_left_iff]
    clear hp
    induction h with
    | nil => exact .nil
    | @cons l m L M hl _ ih =>
      refine .cons ?_ (ih fun t ht => hpk t (List.mem_cons_of_mem _ ht))
      have hl' := hpk l List.mem_cons_self
      clear ih hpk
      rw [List.forall₂_map_left_iff]
      induction hl with
      | nil => exact .nil
      | cons hx _ ihl => exact .cons (hx (hl' _ List.mem_cons_self)) (ihl fun x hx => hl' x (List.mem_cons_of_mem _ hx))
  obtain ⟨M', rfl, hM⟩ := finClose_lists key
  have g : List.Forall₂ (List.Forall₂ fun x y => (0 : ℝ) ≤ x ∧ x ≤ y) (M'.map fun t => t.map norm) (L.map fun t => t.map fun y => ‖y.1.1‖ + y.1.2) := by
    rw [List.forall₂_map_left_iff, List.forall₂_map_right_iff]
    rw [List.forall₂_map_left_iff] at hM
    refine (hM.imp fun l m hl => ?_).flip
    change List.Forall₂ _ (m.map norm) (l.map _)
    rw [List.forall₂_map_left_iff, List.forall₂_map_right_iff]
    rw [List.forall₂_map_left_iff] at hl
    exact (hl.imp fun x y hx => ⟨norm_nonneg _, hx.size h1⟩).flip
  refine ⟨_, extend_sop O h0 hη hG ((hH _ _ g).2.trans ((le_max_left _ _).trans hp)), ?_⟩
  have := sop_close h0 h1 hG (O.extend h0 hη hG) hM
  rw [List.map_map] at this
  simp only [Function.comp_def, List.map_map] at this
  exact this

/-! ### arrays -/

/-- An array of the right element type and shape whose elements are finite and have small errors where the largest number needed is in range. -/
def PCloseA (u Ω : ℝ) (e : PArr K) (b : Arr (Option K)) : Prop :=
  b.cx = e.1.1.cx ∧ b.shape = e.1.1.shape ∧ ∀ idx, List.Forall₂ (· < ·) idx e.1.1.shape → PClose u Ω (e.el idx) (b.val idx)

theorem PCloseA.shapes {es : List (PArr K)} {bs : List (Arr (Option K))} (h : List.Forall₂ (PCloseA u Ω) es bs) :
    bs.map Arr.shape = ((es.map Prod.fst).map Prod.fst).map Arr.shape ∧ bs.any Arr.cx = ((es.map Prod.fst).map Prod.fst).any Arr.cx := by
  induction h with
  | nil => exact ⟨rfl, rfl⟩
  | cons h _ ih => simp only [List.map_cons, List.any_cons, h.1, h.2.1, ih.1, ih.2, and_self]

theorem PCloseA.at {e : PArr K} {b : Arr (Option K)} (h : PCloseA u Ω e b) {idx : List ℕ} (hi : e.1.1.shape = [] ∨ List.Forall₂ (· < ·) idx e.1.1.shape) :
    PClose u Ω (e.at idx) (b.at idx) := by
  unfold PArr.at Arr.at
  rw [h.2.1]
  split_ifs with hs
  · exact h.2.2 [] (by rw [hs]; exact .nil)
  · exact h.2.2 idx (hi.resolve_left hs)

theorem factors_prel {E : List (ℕ × ℕ)} {ins : List (List ℕ)} {es : List (PArr K)} {bs : List (Arr (Option K))} (h : List.Forall₂ (PCloseA u Ω) es bs)
    (hi : List.Forall₂ (fun ls s => List.Forall₂ (fun l k => E.lookup l = some k) ls s) ins (((es.map Prod.fst).map Prod.fst).map Arr.shape))
    {ρ : ℕ → ℕ} (hρ : ∀ l k, E.lookup l = some k → ρ l < k) :
    List.Forall₂ (PClose u Ω) (factors ins (es.map PArr.el) ρ) (factors ins (bs.map Arr.val) ρ) := by
  induction h generalizing ins with
  | nil => cases hi; exact .nil
  | @cons e b es bs h hs ih =>
    cases hi with
    | @cons ls _ ins _ h1 h2 =>
      refine .cons (h.2.2 _ ?_) (ih h2)
      exact List.forall₂_map_left_iff.mpr (h1.imp fun l k hl => hρ l k hl)

omit [RCLike K] in
theorem pel_fst (es : List (PArr K)) (ins : List (List ℕ)) (ρ : ℕ → ℕ) :
    (factors ins (es.map PArr.el) ρ).map Prod.fst = factors ins ((es.map Prod.fst).map EArr.el) ρ := by
  induction es generalizing ins with
  | nil => cases ins <;> rfl
  | cons e es ih =>
    cases ins with
    | nil => rfl
    | cons ls ins => exact congrArg (_ :: ·) (ih ins)

omit [RCLike K] in
theorem pat_fst (e : PArr K) (idx : List ℕ) : (e.at idx).1 = e.1.at idx := by unfold PArr.at EArr.at; split_ifs <;> rfl

theorem ein_pclose (h0 : 0 ≤ u) (h1 : u ≤ 1) (hη : 0 ≤ η) (hG : GMono G) (hH : GMono H) (O : Overflowing K u η G H Ω) (ins : List (List ℕ)) (out : List ℕ)
    {es : List (PArr K)} {bs : List (Arr (Option K))} (h : List.Forall₂ (PCloseA u Ω) es bs) :
    RE (fun _ => True) (PCloseA u Ω) (pEinsum G H ins out es) (oEinsum O ins out bs) := by
  obtain ⟨hs, hc⟩ := PCloseA.shapes h
  unfold pEinsum eEinsum oEinsum einsum
  rw [hs]
  cases hE : einShape ins out (((es.map Prod.fst).map Prod.fst).map Arr.shape) with
  | none => exact fun _ => rfl
  | some p =>
    obtain ⟨s, D⟩ := p
    refine ⟨_, rfl, hc, rfl, fun idx hi => ?_⟩
    unfold einShape at hE
    cases hA : allDims ins (((es.map Prod.fst).map Prod.fst).map Arr.shape) [] with
    | none => rw [hA] at hE; cases hE
    | some E =>
      rw [hA] at hE
      cases hO : outDims E out with
      | none => simp [hO] at hE
      | some s' =>
        simp only [hO, Option.some.injEq, Prod.mk.injEq] at hE
        obtain ⟨rfl, hD⟩ := hE
        obtain ⟨a1, -, a3⟩ := allDims_spec hA (by simp)
        obtain ⟨o1, o2⟩ := outDims_spec hO
        have key : List.Forall₂ (List.Forall₂ (PClose u Ω)) (terms D (factors ins (es.map PArr.el)) (bindOut out idx))
            (terms D (factors ins (bs.map Arr.val)) (bindOut out idx)) := by
          refine terms_rel (E := E) (fun ρ hρ => factors_prel h a3 hρ) (fun d hd => ?_) fun l k hl hn => ?_
          · rw [← hD, List.mem_filter] at hd
            exact lookup_of_mem a1 hd.1
          · refine bindOut_range o1 o2 hi hl ?_
            by_contra hm
            refine hn (List.mem_map.mpr ⟨(l, k), ?_, rfl⟩)
            rw [← hD, List.mem_filter]
            exact ⟨mem_of_lookup hl, by simpa using hm⟩
        have := sop_pclose h0 h1 hη hG hH O key
        rw [terms_map, terms_map] at this
        have e1 : (fun ρ => ((factors ins (es.map PArr.el) ρ).map fun x => x.1.1).prod) = fun ρ => einProd ins ((es.map Prod.fst).map Prod.fst) ρ := by
          funext ρ
          rw [einProd_factors, ← el_fst, ← pel_fst, List.map_map]
          rfl
        simp only [pel_fst, e1] at this
        simp only [PArr.el, EArr.el]
        rw [sumOver_terms]
        exact this

/-- Every operation keeps finite numbers in range finite, with errors below `u` times the constants. -/
theorem peaks_close (h0 : 0 ≤ u) (h1 : u ≤ 1) (hη : 0 ≤ η) (hG : GMono G) (hH : GMono H) (O : Overflowing K u η G H Ω) (warn : Bool) {re : K → K}
    (hre : ∀ x y, ‖re x - re y‖ ≤ ‖x - y‖) {ore : Option K → Option K} (ho : ∀ x, ore (some x) = some (re x)) :
    Sim (RE fun _ => True) (peaks η G H warn re) (overflowing O warn ore) (PCloseA u Ω) where
  lit p q := ⟨rfl, rfl, fun _ _ hp => ⟨_, extend_lit O h0 hη hG hp, by change 0 ≤ ‖(p / q : K)‖ + η; positivity, (O.extend h0 hη hG).lit_err p q⟩⟩
  ein ins out as bs h := ein_pclose h0 h1 hη hG hH O ins out h
  bin o a b a' b' ha hb := by
    change RE _ _ (pOp o a b (eOp η o a.1 b.1 (arrBin o a.1.1 b.1.1))) (oBin O o a' b')
    unfold arrBin oBin
    rw [ha.2.1, hb.2.1]
    cases hs : bshape a.1.1.shape b.1.1.shape with
    | none => exact fun _ => rfl
    | some s =>
      refine ⟨_, rfl, by rw [ha.1, hb.1], rfl, fun idx hi => ?_⟩
      obtain ⟨i1, i2⟩ := bshape_idx hs hi
      have := op_pclose h0 h1 hη hG O o (ha.at i1) (hb.at i2)
      rw [pat_fst, pat_fst, at_fst, at_fst] at this
      exact this
  aug o a b a' b' ha hb := by
    change RE _ _ (pOp o a b (eOp η o a.1 b.1 (arrAug o a.1.1 b.1.1))) (oAug O o a' b')
    unfold arrAug oAug
    rw [ha.2.1, hb.2.1, ha.1, hb.1]
    split_ifs with c1 c2
    · exact fun _ => rfl
    · exact fun _ => rfl
    · refine ⟨_, rfl, rfl, rfl, fun idx hi => ?_⟩
      rw [ne_eq, not_not] at c1
      obtain ⟨i1, i2⟩ := bshape_idx c1 hi
      have := op_pclose h0 h1 hη hG O o (ha.at i1) (hb.at i2)
      rw [pat_fst, pat_fst, at_fst, at_fst] at this
      exact this
  neg a a' h := ⟨h.1, h.2.1, fun idx hi hp => by
    obtain ⟨z, e, h3, h4⟩ := h.2.2 idx hi hp
    refine ⟨-z, by change (a'.val idx).map _ = _; rw [e]; rfl, h3, ?_⟩
    change ‖-z - -a.1.1.val idx‖ ≤ u * a.1.2 idx
    rwa [neg_sub_neg, norm_sub_rev]⟩
  cast a b a' b' ha hb := by
    change RE _ _ ((arrCast warn re a.1.1 b.1.1 >>= fun r => .ok (r, a.1.2)) >>= fun r => .ok (r, a.2)) (arrCast warn ore a' b')
    unfold arrCast
    rw [ha.1, ha.2.1, hb.1]
    split_ifs with c1 c2
    · exact fun _ => rfl
    · refine ⟨_, rfl, rfl, rfl, fun idx hi hp => ?_⟩
      obtain ⟨z, e, h3, h4⟩ := ha.2.2 idx hi hp
      exact ⟨re z, by change ore (a'.val idx) = _; rw [e, ho], h3, (hre _ _).trans h4⟩
    · exact ⟨_, rfl, rfl, rfl, fun idx hi => ha.2.2 idx hi⟩
  transp p a a' h := by
    change RE _ _ ((arrTransp p a.1.1 >>= fun r => .ok (r, _)) >>= fun r => .ok (r, _)) (arrTransp p a')
    unfold arrTransp
    rw [h.2.1]
    cases hs : transpShape p a.1.1.shape with
    | none => exact fun _ => rfl
    | some s => exact ⟨_, rfl, h.1, rfl, fun idx hi => h.2.2 _ (transp_idx hs hi)⟩

/-! ### C105 -/

/-- Same element type and shape, all elements finite and at most `ε` apart. -/
def NearO (ε : ℝ) (a : Arr K) (b : Arr (Option K)) : Prop :=
  b.cx = a.cx ∧ b.shape = a.shape ∧ ∀ idx, List.Forall₂ (· < ·) idx a.shape → ∃ y, b.val idx = some y ∧ ‖y - a.val idx‖ ≤ ε

theorem pbound_all (es : List (PArr K)) : ∃ C Ω₀, 0 ≤ C ∧ ∀ u, 0 ≤ u → ∀ Ω, Ω₀ ≤ Ω → ∀ bs : List (Arr (Option K)), List.Forall₂ (PCloseA u Ω) es bs →
    List.Forall₂ (NearO (C * u)) ((es.map Prod.fst).map Prod.fst) bs := by
  induction es with
  | nil => exact ⟨0, 0, le_rfl, fun u _ Ω _ bs h => by cases h; exact .nil⟩
  | cons e es ih =>
    obtain ⟨C, Ω₁, hC, h⟩ := ih
    obtain ⟨B, hB, hb⟩ := bound_idx e.1.1.shape e.1.2
    obtain ⟨P, -, hp⟩ := bound_idx e.1.1.shape e.2
    refine ⟨B + C, max P Ω₁, add_nonneg hB hC, fun u hu Ω hΩ bs hbs => ?_⟩
    cases hbs with
    | cons h1 h2 =>
      refine .cons ⟨h1.1, h1.2.1, fun idx hi => ?_⟩ ((h u hu Ω ((le_max_right _ _).trans hΩ) _ h2).imp fun a b hab => ⟨hab.1, hab.2.1, fun idx hi => ?_⟩)
      · obtain ⟨z, e1, -, e2⟩ := h1.2.2 idx hi ((hp idx hi).trans ((le_max_left _ _).trans hΩ))
        refine ⟨z, e1, (e2.trans (mul_le_mul_of_nonneg_left (hb idx hi) hu)).trans ?_⟩
        have := mul_nonneg hC hu; nlinarith
      · obtain ⟨z, e1, e2⟩ := hab.2.2 idx hi
        refine ⟨z, e1, e2.trans ?_⟩
        have := mul_nonneg hB hu; nlinarith

theorem fst_eq {A B : Type} {as : List A} {bs : List (A × B)} (h : List.Forall₂ (fun a e => e.1 = a) as bs) : bs.map Prod.fst = as := by
  induction h with
  | nil => rfl
  | cons h _ ih => rw [List.map_cons, h, ih]

/-- C105: for every routine and every call that returns arrays in exact arithmetic there are a constant and a size, depending only on the exact
arguments, such that the call in any arithmetic whose largest number is at least that size, with finite arguments wrong by at most `c * u`, returns
arrays without an infinity or NaN that are wrong by at most `C * u`. -/
theorem C105_range (f : Fun) (warn : Bool) {re : K → K} (hre : ∀ x y, ‖re x - re y‖ ≤ ‖x - y‖) {as rs : List (Arr K)}
    (h : f.nrun (numpy warn re) as = .ok rs) {η : ℝ} (hη : 0 ≤ η) {G H : List (List ℝ) → ℝ} (hG : GMono G) (hH : GMono H) {c : ℝ} (hc : 0 ≤ c) :
    ∃ C Ω₀, 0 ≤ C ∧ ∀ u, 0 ≤ u → u ≤ 1 → ∀ Ω, Ω₀ ≤ Ω → ∀ (O : Overflowing K u η G H Ω) (ore : Option K → Option K), (∀ x, ore (some x) = some (re x)) →
      ∀ bs : List (Arr (Option K)), List.Forall₂ (NearO (c * u)) as bs →
        ∃ ys, f.nrun (overflowing O warn ore) bs = .ok ys ∧ List.Forall₂ (NearO (C * u)) rs ys := by
  have s1 := nrun_sim (RE.lifts _) (errs_exact η G warn re) f (as := as) (bs := as.map fun a => (a, fun _ => c))
    (by rw [List.forall₂_map_right_iff]; exact List.forall₂_same.mpr fun _ _ => rfl)
  rw [h] at s1
  obtain ⟨es, he, hes⟩ := s1
  have s2 := nrun_sim (RE.lifts _) (peaks_errs η G H warn re) f (as := as.map fun a => (a, fun _ => c)) (bs := as.map fun a => ((a, fun _ => c), fun _ => 0))
    (by rw [List.forall₂_map_left_iff, List.forall₂_map_right_iff]; exact List.forall₂_same.mpr fun _ _ => rfl)
  rw [he] at s2
  obtain ⟨ps, hp, hps⟩ := s2
  have hm : (ps.map Prod.fst).map Prod.fst = rs := by rw [fst_eq hps, fst_eq hes]
  obtain ⟨C, Ω₁, hC, hb⟩ := pbound_all ps
  refine ⟨C, Ω₁, hC, fun u h0 h1 Ω hΩ O ore ho bs hbs => ?_⟩
  have s3 := nrun_sim (RE.lifts _) (peaks_close h0 h1 hη hG hH O warn hre ho) f (as := as.map fun a => ((a, fun _ => c), fun _ => 0)) (bs := bs) (by
    rw [List.forall₂_map_left_iff]
    exact hbs.imp fun a b hab => ⟨hab.1, hab.2.1, fun idx hi _ => by
      obtain ⟨y, e1, e2⟩ := hab.2.2 idx hi
      exact ⟨y, e1, hc, by rw [mul_comm]; exact e2⟩⟩)
  rw [hp] at s3
  obtain ⟨ys, hy, hys⟩ := s3
  exact ⟨ys, hy, hm ▸ hb u h0 Ω hΩ ys hys⟩

/-- C105: overflow raises nothing and changes no shape or element type: for arguments of any contents, infinities and NaN included, a call returns
arrays of the element types and shapes of exact arithmetic, and raises what it raises in exact arithmetic. -/
theorem C105_shapes (f : Fun) (warn : Bool) (re : K → K) {as : List (Arr K)} {u η Ω : ℝ} {G H : List (List ℝ) → ℝ} (O : Overflowing K u η G H Ω)
    (ore : Option K → Option K) {bs : List (Arr (Option K))} (hbs : List.Forall₂ (fun a b => b.cx = a.cx ∧ b.shape = a.shape) as bs) :
    (∀ rs, f.nrun (numpy warn re) as = .ok rs → ∃ ys, f.nrun (overflowing O warn ore) bs = .ok ys ∧ List.Forall₂ (fun a b => b.cx = a.cx ∧ b.shape = a.shape) rs ys) ∧
      ∀ e, f.nrun (numpy warn re) as = .error e → f.nrun (overflowing O warn ore) bs = .error e := by
  have S : Sim (RE fun _ => True) (numpy warn re) (overflowing O warn ore) fun a b => b.cx = a.cx ∧ b.shape = a.shape := {
    lit := fun _ _ => ⟨rfl, rfl⟩
    ein := fun ins out as bs h => by
      have hs : bs.map Arr.shape = as.map Arr.shape ∧ bs.any Arr.cx = as.any Arr.cx := by
        induction h with
        | nil => exact ⟨rfl, rfl⟩
        | cons h _ ih => simp only [List.map_cons, List.any_cons, h.1, h.2, ih.1, ih.2, and_self]
      change RE _ _ (einsum ins out as) (oEinsum O ins out bs)
      unfold einsum oEinsum
      rw [hs.1, hs.2]
      cases einShape ins out (as.map Arr.shape) with
      | none => exact fun _ => rfl
      | some p => exact ⟨_, rfl, rfl, rfl⟩
    bin := fun o a b a' b' h1 h2 => by
      change RE _ _ (arrBin o a b) (oBin O o a' b')
      unfold arrBin oBin
      rw [h1.1, h1.2, h2.1, h2.2]
      cases bshape a.shape b.shape with
      | none => exact fun _ => rfl
      | some s => exact ⟨_, rfl, rfl, rfl⟩
    aug := fun o a b a' b' h1 h2 => by
      change RE _ _ (arrAug o a b) (oAug O o a' b')
      unfold arrAug oAug
      rw [h1.1, h1.2, h2.1, h2.2]
      split_ifs
      · exact fun _ => rfl
      · exact fun _ => rfl
      · exact ⟨_, rfl, rfl, rfl⟩
    neg := fun a a' h => h
    cast := fun a b a' b' h1 h2 => by
      change RE _ _ (arrCast warn re a b) (arrCast warn ore a' b')
      unfold arrCast
      rw [h1.1, h1.2, h2.1]
      by_cases c1 : warn ∧ a.cx ∧ !b.cx
      · rw [if_pos c1, if_pos c1]; exact fun _ => rfl
      · rw [if_neg c1, if_neg c1]; exact ⟨_, rfl, rfl, rfl⟩
    transp := fun p a a' h => by
      change RE _ _ (arrTransp p a) (arrTransp p a')
      unfold arrTransp
      rw [h.2]
      cases transpShape p a.shape with
      | none => exact fun _ => rfl
      | some s => exact ⟨_, rfl, h.1, rfl⟩ }
  have s := nrun_sim (RE.lifts _) S f hbs
  refine ⟨fun rs h => ?_, fun e h => ?_⟩
  · rw [h] at s; exact s
  · rw [h] at s; exact s trivial

/-- All elements are finite and at most `B`. -/
def FiniteBy (B : ℝ) (a : Arr K) (b : Arr (Option K)) : Prop :=
  b.cx = a.cx ∧ b.shape = a.shape ∧ ∀ idx, List.Forall₂ (· < ·) idx a.shape → ∃ y, b.val idx = some y ∧ ‖y‖ ≤ B

theorem sizes_bounded (as : List (Arr K)) : ∃ B, 0 ≤ B ∧ ∀ a ∈ as, ∀ idx, List.Forall₂ (· < ·) idx a.shape → ‖a.val idx‖ ≤ B := by
  induction as with
  | nil => exact ⟨0, le_rfl, fun a h => by cases h⟩
  | cons a as ih =>
    obtain ⟨B, hB, hb⟩ := ih
    obtain ⟨D, -, hd⟩ := bound_idx a.shape fun idx => ‖a.val idx‖
    refine ⟨max D B, hB.trans (le_max_right _ _), fun x hx idx hi => ?_⟩
    rcases List.mem_cons.mp hx with rfl | hx
    · exact (hd idx hi).trans (le_max_left _ _)
    · exact (hb x hx idx hi).trans (le_max_right _ _)

/-- An arithmetic of smaller roundoff is one of larger roundoff. -/
def Overflowing.weaken (O : Overflowing K u η G H Ω) (h1 : u ≤ 1) (hη : 0 ≤ η) (hG : GMono G) : Overflowing K 1 η G H Ω where
  lit := O.lit
  op := O.op
  sop := O.sop
  lit_err p q h := (O.lit_err p q h).imp fun _ h => ⟨h.1, h.2.trans (mul_le_mul_of_nonneg_right h1 (by positivity))⟩
  op_err o a b h := (O.op_err o a b h).imp fun _ h => ⟨h.1, h.2.trans (mul_le_mul_of_nonneg_right h1 (by positivity))⟩
  sop_err L h := (O.sop_err L h).imp fun _ h => ⟨h.1, h.2.trans (mul_le_mul_of_nonneg_right h1 (hG _ (L.map fun t => t.map norm) (by
    refine List.forall₂_same.mpr fun t ht => List.forall₂_same.mpr fun x hx => ⟨?_, le_rfl⟩
    obtain ⟨t', -, rfl⟩ := List.mem_map.mp ht
    obtain ⟨y, -, rfl⟩ := List.mem_map.mp hx
    exact norm_nonneg y)).1)⟩

/-- C105: for every bound `B` on the arguments of a routine, of given element types and shapes, there is a size such that no call with arguments of
at most `B` overflows in an arithmetic whose largest number is at least that size, whatever the arguments, the roundoff and the arithmetic. -/
theorem C105_uniform (f : Fun) (warn : Bool) {re : K → K} (hre : ∀ x y, ‖re x - re y‖ ≤ ‖x - y‖) {as rs : List (Arr K)}
    (h : f.nrun (numpy warn re) as = .ok rs) {η : ℝ} (hη : 0 ≤ η) {G H : List (List ℝ) → ℝ} (hG : GMono G) (hH : GMono H) {B : ℝ} (hB : 0 ≤ B) :
    ∃ C Ω₀, ∀ u, 0 ≤ u → u ≤ 1 → ∀ Ω, Ω₀ ≤ Ω → ∀ (O : Overflowing K u η G H Ω) (ore : Option K → Option K), (∀ x, ore (some x) = some (re x)) →
      ∀ bs : List (Arr (Option K)), List.Forall₂ (FiniteBy B) as bs →
        ∃ ys, f.nrun (overflowing O warn ore) bs = .ok ys ∧ List.Forall₂ (FiniteBy C) rs ys := by
  obtain ⟨D, hD, hd⟩ := sizes_bounded as
  obtain ⟨E, -, he⟩ := sizes_bounded rs
  obtain ⟨C, Ω₀, hC, hb⟩ := C105_range f warn hre h hη hG hH (c := B + D) (by positivity)
  refine ⟨C + E, Ω₀, fun u h0 h1 Ω hΩ O ore ho bs hbs => ?_⟩
  obtain ⟨ys, hy, hys⟩ := hb 1 zero_le_one le_rfl Ω hΩ (O.weaken h1 hη hG) ore ho bs (by
    refine List.forall₂_iff_get.mpr ⟨hbs.length_eq, fun i i1 i2 => ?_⟩
    obtain ⟨c1, c2, c3⟩ := (List.forall₂_iff_get.mp hbs).2 i i1 i2
    refine ⟨c1, c2, fun idx hi => ?_⟩
    obtain ⟨y, e1, e2⟩ := c3 idx hi
    refine ⟨y, e1, ?_⟩
    rw [mul_one]
    exact (norm_sub_le _ _).trans (add_le_add e2 (hd _ (List.get_mem as ⟨i, i1⟩) idx hi)))
  refine ⟨ys, hy, List.forall₂_iff_get.mpr ⟨hys.length_eq, fun i i1 i2 => ?_⟩⟩
  obtain ⟨c1, c2, c3⟩ := (List.forall₂_iff_get.mp hys).2 i i1 i2
  refine ⟨c1, c2, fun idx hi => ?_⟩
  obtain ⟨y, e1, e2⟩ := c3 idx hi
  refine ⟨y, e1, ?_⟩
  rw [mul_one] at e2
  have e3 := norm_add_le (y - (rs.get ⟨i, i1⟩).val idx) ((rs.get ⟨i, i1⟩).val idx)
  rw [sub_add_cancel] at e3
  exact e3.trans (add_le_add e2 (he _ (List.get_mem rs ⟨i, i1⟩) idx hi))

/-- An array of the element type and shape described, with finite elements at most `ε` from those described. -/
def NearIsO {n : ℕ → ℕ} (ε : ℝ) (d : Desc n K) (b : Arr (Option K)) : Prop :=
  b.cx = d.cx ∧ b.shape = d.ten.shape.map n ∧ ∀ idx, List.Forall₂ (· < ·) idx b.shape → ∃ y, b.val idx = some y ∧ ‖y - Cur.get d.ten.shape d.ten.val idx‖ ≤ ε

/-- There is a size `Ω₀` such that in every arithmetic whose largest number is at least `Ω₀`, called with references to arrays of finite numbers that are
wrong by at most `c * u`, the routine raises nothing, changes no array that existed before, and returns references to new and different arrays, without
an infinity or NaN, that are wrong by at most `C * u`.  Neither `Ω₀` nor `C` depends on the roundoff, on the arithmetic, on the errors of the
arguments or on the state of the memory. -/
def InRange {n : ℕ → ℕ} (f : Fun) (ds es : List (Desc n K)) : Prop :=
  ∀ (re : K → K), (∀ x y, ‖re x - re y‖ ≤ ‖x - y‖) → ∀ (η : ℝ), 0 ≤ η → ∀ G, GMono G → ∀ H, GMono H → ∀ c : ℝ, 0 ≤ c → ∃ C Ω₀, 0 ≤ C ∧
    ∀ u, 0 ≤ u → u ≤ 1 → ∀ Ω, Ω₀ ≤ Ω → ∀ (O : Overflowing K u η G H Ω) (ore : Option K → Option K), (∀ x, ore (some x) = some (re x)) →
    ∀ (d : Arr (Option K)) (put : List ℕ → Arr (Option K) → Arr (Option K) → Arr (Option K)) (M : Mem (Arr (Option K))) (args : List Ref),
      let J := (overflowing O true ore).total d put
      args.length = f.params.length → (∀ r ∈ args, r.1 < M.next) → List.Forall₂ (NearIsO (c * u)) ds (args.map fun r => seen J r.2 (M.heap r.1)) →
      ∃ rs M', f.nrun (overflowing O true ore) (args.map fun r => seen J r.2 (M.heap r.1)) = .ok (rs.map fun r => seen J r.2 (M'.heap r.1)) ∧
        f.run J args M = some (rs, M') ∧ (∀ l < M.next, M'.heap l = M.heap l) ∧ (∀ r ∈ rs, M.next ≤ r.1) ∧ (rs.map Prod.fst).Nodup ∧
        List.Forall₂ (NearIsO (C * u)) es (rs.map fun r => seen J r.2 (M'.heap r.1))

theorem overflowing_aug (O : Overflowing K u η G H Ω) (warn : Bool) (ore : Option K → Option K) (o : Op) (a b c : Arr (Option K))
    (h : (overflowing O warn ore).aug o a b = .ok c) : (overflowing O warn ore).bin o a b = .ok c := by
  simp only [overflowing, oAug, oBin] at h ⊢
  split_ifs at h with h1 h2
  rw [ne_eq, not_not] at h1
  rw [h1]
  simp only [Except.ok.injEq] at h ⊢
  rw [← h]
  congr 1
  revert h2
  cases a.cx <;> cases b.cx <;> cases a.shape <;> simp

/-- C105: every routine whose results on arrays are known (C53) stays in range. -/
theorem C105_in_range {n : ℕ → ℕ} {f : Fun} {ds es : List (Desc n K)} (h : Computes f ds es) (h0 : LeavesArguments f) (hl : ds.length = f.params.length) :
    InRange f ds es := by
  intro re hre η hη G hG H hH c hc
  obtain ⟨M, args, h1, h2, h3⟩ := exists_args ((numpy true re).total ⟨false, [], fun _ => 0⟩ fun _ a _ => a) ds
  obtain ⟨rs, M', h4, -, -, -, -, h5⟩ := h re ⟨false, [], fun _ => 0⟩ (fun _ a _ => a) M args (h1.trans hl) h2 h3
  obtain ⟨C, Ω₀, hC, hb⟩ := C105_range f true hre h4 hη hG hH hc
  refine ⟨C, Ω₀, hC, fun u u0 u1 Ω hΩ O ore ho d put N brgs hlen hlt hbs => ?_⟩
  have near : List.Forall₂ (NearO (c * u)) (args.map fun r => seen ((numpy true re).total ⟨false, [], fun _ => 0⟩ fun _ a _ => a) r.2 (M.heap r.1))
      (brgs.map fun r => seen ((overflowing O true ore).total d put) r.2 (N.heap r.1)) := by
    refine List.forall₂_iff_get.mpr ⟨by rw [← h3.length_eq, ← hbs.length_eq], fun i i1 i2 => ?_⟩
    have e1 := (List.forall₂_iff_get.mp h3).2 i (by rw [h3.length_eq]; exact i1) i1
    have e2 := (List.forall₂_iff_get.mp hbs).2 i (by rw [hbs.length_eq]; exact i2) i2
    refine ⟨e2.1.trans e1.1.symm, e2.2.1.trans e1.2.1.symm, fun idx hi => ?_⟩
    rw [e1.2.2 idx hi]
    refine e2.2.2 idx ?_
    rw [e2.2.1, ← e1.2.1]; exact hi
  obtain ⟨ys, hy, hys⟩ := hb u u0 u1 Ω hΩ O ore ho _ near
  obtain ⟨qs, N', hr, ha, hn, hd, hp⟩ := h0 _ ((overflowing O true ore).total d put) N brgs hlen hlt
  rw [nrun_prun (overflowing_aug O true ore) hy] at hp
  cases hp
  refine ⟨qs, N', hy, hr, ha, hn, hd, List.forall₂_iff_get.mpr ⟨by rw [h5.length_eq, hys.length_eq], fun i i1 i2 => ?_⟩⟩
  have e1 := (List.forall₂_iff_get.mp h5).2 i i1 (by rw [← h5.length_eq]; exact i1)
  have e2 := (List.forall₂_iff_get.mp hys).2 i (by rw [← h5.length_eq]; exact i1) i2
  refine ⟨e2.1.trans e1.1, e2.2.1.trans e1.2.1, fun idx hi => ?_⟩
  have hi' := hi
  rw [e2.2.1] at hi'
  rw [← e1.2.2 idx hi']
  exact e2.2.2 idx hi'

/-! ### Left to right, with overflow -/

/-- Products and sums evaluated from the left. -/
def ltrProdO (op : Op → Option K → Option K → Option K) : List (Option K) → Option K
  | [] => some 1
  | x :: l => l.foldl (op .mul) x
def ltrSumO (op : Op → Option K → Option K → Option K) (L : List (List (Option K))) : Option K := (L.map (ltrProdO op)).foldl (op .add) (some 0)

/-- The largest number needed, from sizes and constants. -/
noncomputable def pkMul (η : ℝ) : ℝ × ℝ → List ℝ → ℝ
  | _, [] => 0
  | p, t :: l => max ((p.1 + p.2) * t) (pkMul η (szMul η p t) l)
noncomputable def pkProd (η : ℝ) : List ℝ → ℝ
  | [] => 0
  | x :: l => pkMul η (x, 0) l
noncomputable def pkAdd (η : ℝ) : ℝ × ℝ → List (List ℝ) → ℝ
  | _, [] => 0
  | p, t :: L => max (pkProd η t) (max ((p.1 + p.2) + ((szProd η t).1 + (szProd η t).2)) (pkAdd η (szAdd η p (szProd η t)) L))
noncomputable def pkSum (η : ℝ) (L : List (List ℝ)) : ℝ := pkAdd η (0, 0) L

section
variable {op : Op → K → K → K} {oop : Op → Option K → Option K → Option K}

theorem oop_mul (hc : ∀ o a b, ‖opVal o a b‖ ≤ Ω → oop o (some a) (some b) = some (op o a b))
    (h0 : 0 ≤ u) (h1 : u ≤ 1) (hη : 0 ≤ η) (e : ∀ o a b, ‖op o a b - opVal o a b‖ ≤ u * (‖opVal o a b‖ + η)) (l : List K) {p : ℝ × ℝ} {x y : K}
    (h : Bnd u p x y) (hp : pkMul η p (l.map norm) ≤ Ω) : (l.map some).foldl (oop .mul) (some y) = some (l.foldl (op .mul) y) := by
  induction l generalizing p x y with
  | nil => rfl
  | cons z l ih =>
    rw [List.map_cons, pkMul, max_le_iff] at hp
    rw [List.map_cons, List.foldl_cons, List.foldl_cons]
    have hz : oop .mul (some y) (some z) = some (op .mul y z) := by
      refine hc _ _ _ ?_
      change ‖y * z‖ ≤ Ω
      rw [norm_mul]
      exact (mul_le_mul_of_nonneg_right (h.size h1) (norm_nonneg z)).trans hp.1
    rw [hz]
    exact ih (bnd_mul h0 h1 hη e h z) hp.2

theorem oop_prod (hc : ∀ o a b, ‖opVal o a b‖ ≤ Ω → oop o (some a) (some b) = some (op o a b))
    (h0 : 0 ≤ u) (h1 : u ≤ 1) (hη : 0 ≤ η) (e : ∀ o a b, ‖op o a b - opVal o a b‖ ≤ u * (‖opVal o a b‖ + η)) (l : List K)
    (hp : pkProd η (l.map norm) ≤ Ω) : ltrProdO oop (l.map some) = some (ltrProd op l) := by
  cases l with
  | nil => rfl
  | cons x l => exact oop_mul hc h0 h1 hη e l (p := (‖x‖, 0)) (x := x) ⟨le_rfl, le_rfl, by simp⟩ hp

theorem oop_sum (hc : ∀ o a b, ‖opVal o a b‖ ≤ Ω → oop o (some a) (some b) = some (op o a b))
    (h0 : 0 ≤ u) (h1 : u ≤ 1) (hη : 0 ≤ η) (e : ∀ o a b, ‖op o a b - opVal o a b‖ ≤ u * (‖opVal o a b‖ + η)) (L : List (List K))
    (hp : pkSum η (L.map fun t => t.map norm) ≤ Ω) : ltrSumO oop (L.map fun t => t.map some) = some (ltrSum op L) := by
  have key : ∀ (L : List (List K)) (p : ℝ × ℝ) (x y : K), Bnd u p x y → pkAdd η p (L.map fun t => t.map norm) ≤ Ω →
      ((L.map fun t => t.map some).map (ltrProdO oop)).foldl (oop .add) (some y) = some ((L.map (ltrProd op)).foldl (op .add) y) := by
    intro L
    induction L with
    | nil => intro p x y _ _; rfl
    | cons t L ih =>
      intro p x y h hp
      rw [List.map_cons, pkAdd, max_le_iff, max_le_iff] at hp
      have hb := bnd_prod h0 h1 hη e t
      simp only [List.map_cons, List.foldl_cons]
      have hz : oop .add (some y) (some (ltrProd op t)) = some (op .add y (ltrProd op t)) := by
        refine hc _ _ _ ?_
        exact ((norm_add_le _ _).trans (add_le_add (h.size h1) (hb.size h1))).trans hp.2.1
      rw [oop_prod hc h0 h1 hη e t hp.1, hz]
      exact ih _ _ _ (bnd_add h0 h1 hη e h hb) hp.2.2
  exact key L (0, 0) 0 0 (by simp [Bnd]) hp
end

theorem pk_mono (hη : 0 ≤ η) : GMono (pkSum η) := by
  have one : ∀ l l' : List ℝ, List.Forall₂ (fun x y => 0 ≤ x ∧ x ≤ y) l l' → ∀ p q : ℝ × ℝ, (0 ≤ p.1 ∧ p.1 ≤ q.1) → (0 ≤ p.2 ∧ p.2 ≤ q.2) →
      (0 ≤ pkMul η p l ∧ pkMul η p l ≤ pkMul η q l') ∧
      (0 ≤ (l.foldl (szMul η) p).1 ∧ (l.foldl (szMul η) p).1 ≤ (l'.foldl (szMul η) q).1) ∧
      (0 ≤ (l.foldl (szMul η) p).2 ∧ (l.foldl (szMul η) p).2 ≤ (l'.foldl (szMul η) q).2) := by
    intro l l' h
    induction h with
    | nil => intro p q h1 h2; exact ⟨⟨le_rfl, le_rfl⟩, h1, h2⟩
    | @cons x y l l' hx _ ih =>
      intro p q h1 h2
      obtain ⟨a1, a2⟩ := h1
      obtain ⟨b1, b2⟩ := h2
      obtain ⟨c1, c2⟩ := hx
      have e2 := mul_le_mul (add_le_add a2 b2) c2 c1 (by linarith)
      obtain ⟨⟨i1, i2⟩, i3⟩ := ih (szMul η p x) (szMul η q y) ⟨by simp only [szMul]; positivity, mul_le_mul a2 c2 c1 (a1.trans a2)⟩ ⟨by simp only [szMul]; positivity, by
        simp only [szMul]
        have e1 := mul_le_mul c2 b2 b1 (c1.trans c2)
        linarith⟩
      exact ⟨⟨i1.trans (le_max_right _ _), max_le_max e2 i2⟩, i3⟩
  have two : ∀ L L' : List (List ℝ), List.Forall₂ (List.Forall₂ fun x y => 0 ≤ x ∧ x ≤ y) L L' → ∀ p q : ℝ × ℝ,
      (0 ≤ p.1 ∧ p.1 ≤ q.1) → (0 ≤ p.2 ∧ p.2 ≤ q.2) → 0 ≤ pkAdd η p L ∧ pkAdd η p L ≤ pkAdd η q L' := by
    intro L L' h
    induction h with
    | nil => intro p q _ _; exact ⟨le_rfl, le_rfl⟩
    | @cons t t' L L' ht _ ih =>
      intro p q h1 h2
      have hs : (0 ≤ pkProd η t ∧ pkProd η t ≤ pkProd η t') ∧ (0 ≤ (szProd η t).1 ∧ (szProd η t).1 ≤ (szProd η t').1) ∧
          (0 ≤ (szProd η t).2 ∧ (szProd η t).2 ≤ (szProd η t').2) := by
        cases ht with
        | nil => simp [szProd, pkProd]
        | cons hx hl => exact one _ _ hl _ _ hx ⟨le_rfl, le_rfl⟩
      obtain ⟨⟨k1, k2⟩, ⟨s1, s2⟩, s3, s4⟩ := hs
      obtain ⟨a1, a2⟩ := h1
      obtain ⟨b1, b2⟩ := h2
      obtain ⟨i1, i2⟩ := ih (szAdd η p (szProd η t)) (szAdd η q (szProd η t')) ⟨by simp only [szAdd]; positivity, by simp only [szAdd]; linarith⟩
        ⟨by simp only [szAdd]; positivity, by simp only [szAdd]; linarith⟩
      exact ⟨k1.trans (le_max_left _ _), max_le_max k2 (max_le_max (by linarith) i2)⟩
  intro L L' h
  exact two L L' h _ _ ⟨le_rfl, le_rfl⟩ ⟨le_rfl, le_rfl⟩

/-- Rounded operations that may overflow beyond `Ω`, with sums of products evaluated from the left. -/
def ltrO (h0 : 0 ≤ u) (h1 : u ≤ 1) (hη : 0 ≤ η) (Ω : ℝ) (lit : ℕ → ℕ → K) (op : Op → K → K → K) (oop : Op → Option K → Option K → Option K)
    (el : ∀ p q, ‖lit p q - (p / q : K)‖ ≤ u * (‖(p / q : K)‖ + η)) (eo : ∀ o a b, ‖op o a b - opVal o a b‖ ≤ u * (‖opVal o a b‖ + η))
    (hc : ∀ o a b, ‖opVal o a b‖ ≤ Ω → oop o (some a) (some b) = some (op o a b)) : Overflowing K u η (szSum η) (pkSum η) Ω where
  lit p q := some (lit p q)
  op := oop
  sop := ltrSumO oop
  lit_err p q _ := ⟨_, rfl, el p q⟩
  op_err o a b h := ⟨_, hc o a b h, eo o a b⟩
  sop_err L h := ⟨_, oop_sum hc h0 h1 hη eo L h, bnd_sum h0 h1 hη eo L⟩

end
end Heap
