import Verif.Props.NumSim
import Verif.Spec.ArrTypes
import Verif.Spec.Arrays
import Mathlib.Algebra.BigOperators.Fin
import Mathlib.Tactic.NormNum
/-!
# From kinds of axes to extents

A run on element types and kinds of axes, and a run on tensors, determine the run on arrays for all extents.
-/

namespace Heap

/-! ### shapes -/

section
variable (n : ℕ → ℕ)

/-- Extents instead of kinds. -/
def ext (D : List (ℕ × ℕ)) : List (ℕ × ℕ) := D.map fun d => (d.1, n d.2)

theorem lookup_ext (D : List (ℕ × ℕ)) (l : ℕ) : (ext n D).lookup l = (D.lookup l).map n := by
  induction D with
  | nil => rfl
  | cons d D ih =>
    obtain ⟨a, b⟩ := d
    simp only [ext, List.map_cons, List.lookup_cons] at ih ⊢
    cases l == a
    · exact ih
    · rfl

theorem addDims_ext {ls s : List ℕ} {D D' : List (ℕ × ℕ)} (h : addDims ls s D = some D') :
    addDims ls (s.map n) (ext n D) = some (ext n D') := by
  induction ls generalizing s D with
  | nil =>
    cases s with
    | nil => simp only [addDims, Option.some.injEq] at h; subst h; rfl
    | cons k s => simp [addDims] at h
  | cons l ls ih =>
    cases s with
    | nil => simp [addDims] at h
    | cons k s =>
      simp only [addDims, List.map_cons] at h ⊢
      rw [lookup_ext]
      cases hl : D.lookup l with
      | none =>
        rw [hl] at h
        simpa [ext] using ih h
      | some m =>
        rw [hl] at h
        simp only [Option.map_some] at h ⊢
        split_ifs at h with hm
        subst hm
        simpa using ih h

theorem allDims_ext {ins ss : List (List ℕ)} {D D' : List (ℕ × ℕ)} (h : allDims ins ss D = some D') :
    allDims ins (ss.map (List.map n)) (ext n D) = some (ext n D') := by
  induction ins generalizing ss D with
  | nil =>
    cases ss with
    | nil => simp only [allDims, Option.some.injEq] at h; subst h; rfl
    | cons k s => simp [allDims] at h
  | cons ls ins ih =>
    cases ss with
    | nil => simp [allDims] at h
    | cons s ss =>
      simp only [allDims, List.map_cons] at h ⊢
      cases hd : addDims ls s D with
      | none => rw [hd] at h; simp at h
      | some E =>
        rw [hd] at h
        rw [addDims_ext n hd]
        exact ih h

theorem outDims_ext {out s : List ℕ} {D : List (ℕ × ℕ)} (h : outDims D out = some s) : outDims (ext n D) out = some (s.map n) := by
  induction out generalizing s with
  | nil => simp only [outDims, Option.some.injEq] at h; subst h; rfl
  | cons l ls ih =>
    simp only [outDims] at h ⊢
    split_ifs at h ⊢ with hl
    rw [lookup_ext]
    cases hd : D.lookup l with
    | none => rw [hd] at h; simp at h
    | some k =>
      cases ho : outDims D ls with
      | none => rw [hd, ho] at h; simp at h
      | some t =>
        rw [hd, ho] at h
        simp only [Option.some.injEq] at h
        subst h
        rw [ih ho]
        rfl

theorem einShape_ext {ins : List (List ℕ)} {out : List ℕ} {ss : List (List ℕ)} {s D} (h : einShape ins out ss = some (s, D)) :
    einShape ins out (ss.map (List.map n)) = some (s.map n, ext n D) := by
  unfold einShape at h ⊢
  cases ha : allDims ins ss [] with
  | none => rw [ha] at h; simp at h
  | some E =>
    rw [ha] at h
    have := allDims_ext n ha
    simp only [ext, List.map_nil] at this
    rw [this]
    cases ho : outDims E out with
    | none => simp only [ho] at h; simp at h
    | some t =>
      simp only [ho, Option.some.injEq, Prod.mk.injEq] at h
      obtain ⟨rfl, rfl⟩ := h
      have h2 := outDims_ext n ho
      simp only [ext] at h2
      simp only [h2, ext, Option.some.injEq, Prod.mk.injEq, true_and, List.filter_map]
      rfl

theorem bshape_ext {s t u : List ℕ} (h : bshape s t = some u) : bshape (s.map n) (t.map n) = some (u.map n) := by
  unfold bshape at h
  split_ifs at h with h1 h2 h3 <;> simp only [Option.some.injEq] at h <;> subst h
  · subst h1; simp [bshape]
  · subst h2
    unfold bshape
    split_ifs with h4 h5
    · rw [h4]
    · rfl
    · simp at h5
    · simp at h5
  · subst h3
    unfold bshape
    split_ifs with h4 h5 h6
    · rfl
    · rw [h5]; rfl
    · rfl
    · simp at h6

theorem transpShape_ext {p s u : List ℕ} (h : transpShape p s = some u) : transpShape p (s.map n) = some (u.map n) := by
  unfold transpShape at h ⊢
  split_ifs at h with h1
  simp only [Option.some.injEq] at h
  subst h
  simp only [List.length_map]
  rw [if_pos h1]
  congr 1
  rw [List.map_map]
  refine List.map_congr_left fun x hx => ?_
  have hx : x < s.length := by
    -- `p` has as many entries as `s` and contains all of `0, …, s.length - 1`
    have hsub : List.range s.length ⊆ p := by
      intro y hy
      have := List.all_eq_true.1 h1.2 y hy
      simpa using this
    have hperm : (List.range s.length).Perm p :=
      (List.nodup_range.subperm hsub).perm_of_length_le (by simp [h1.1])
    simpa using hperm.mem_iff.2 hx
  simp [List.getD_eq_getElem?_getD, List.getElem?_map, List.getElem?_eq_getElem hx]

/-! ### element types and shapes -/

/-- The element type and shape of an array. -/
def IsTy {K : Type} (τ : Ty) (a : Arr K) : Prop := a.cx = τ.cx ∧ a.shape = τ.shape.map n

variable {K : Type}

theorem IsTy.shapes {τs : List Ty} {as : List (Arr K)} (h : List.Forall₂ (IsTy n) τs as) :
    as.map Arr.shape = (τs.map Ty.shape).map (List.map n) := by
  induction h with
  | nil => rfl
  | cons h _ ih => simp only [List.map_cons, h.2, ih]

theorem IsTy.any {τs : List Ty} {as : List (Arr K)} (h : List.Forall₂ (IsTy n) τs as) : as.any Arr.cx = τs.any Ty.cx := by
  induction h with
  | nil => rfl
  | cons h _ ih => simp only [List.any_cons, h.1, ih]

theorem types_sim [Field K] (warn : Bool) (re : K → K) :
    Sim (RE fun e => e = .cast ∨ e = .loss) (types warn) (numpy warn re) (IsTy n) where
  lit _ _ := ⟨rfl, rfl⟩
  ein ins out τs as h := by
    simp only [types, numpy, tyEin, einsum]
    cases he : einShape ins out (τs.map Ty.shape) with
    | none => exact fun h => by simp at h
    | some sD =>
      obtain ⟨s, D⟩ := sD
      rw [IsTy.shapes n h, einShape_ext n he]
      exact ⟨_, rfl, IsTy.any n h, rfl⟩
  bin o τ σ a b ha hb := by
    simp only [types, numpy, tyBin, arrBin]
    cases he : bshape τ.shape σ.shape with
    | none => exact fun h => by simp at h
    | some s =>
      rw [ha.2, hb.2, bshape_ext n he]
      exact ⟨_, rfl, by simp [ha.1, hb.1], rfl⟩
  aug o τ σ a b ha hb := by
    simp only [types, numpy, tyAug, arrAug]
    by_cases h1 : bshape τ.shape σ.shape = some τ.shape
    · have h3 := bshape_ext n h1
      rw [← ha.2, ← hb.2] at h3
      have h4 : a.shape = [] ↔ τ.shape = [] := by rw [ha.2]; simp
      rw [if_neg (by simpa using h1), if_neg (c := bshape a.shape b.shape ≠ _) (by simpa using h3)]
      by_cases h2 : τ.shape ≠ [] ∧ σ.cx ∧ !τ.cx
      · rw [if_pos h2, if_pos (by rw [ha.1, hb.1, Ne, h4]; exact h2)]
        exact fun _ => rfl
      · rw [if_neg h2, if_neg (by rw [ha.1, hb.1, Ne, h4]; exact h2)]
        refine ⟨_, rfl, ?_, ha.2⟩
        simp only [ha.1, hb.1]
        congr 2
        rw [Bool.eq_iff_iff, List.isEmpty_iff, List.isEmpty_iff]
        exact h4
    · rw [if_pos h1]
      exact fun h => by simp at h
  neg τ a h := h
  cast τ σ a b ha hb := by
    simp only [types, numpy, tyCast, arrCast]
    rw [ha.1, hb.1]
    split_ifs with h1
    · exact fun _ => rfl
    · exact ⟨_, rfl, rfl, ha.2⟩
    · exact ⟨_, rfl, rfl, ha.2⟩
  transp p τ a h := by
    simp only [types, numpy, tyTransp, arrTransp]
    cases he : transpShape p τ.shape with
    | none => exact fun h => by simp at h
    | some s =>
      rw [h.2, transpShape_ext n he]
      exact ⟨_, rfl, h.1, rfl⟩
end

/-! ### contents -/

section
variable {n : ℕ → ℕ} {K : Type} [Field K]

/-- The letters have the same values. -/
def Same (ρ : TEnv fun k => Fin (n k)) (r : ℕ → ℕ) (l k : ℕ) : Prop := ∃ x : Fin (n k), ρ l = some ⟨k, x⟩ ∧ r l = x

theorem app_get {ρ : TEnv fun k => Fin (n k)} {r : ℕ → ℕ} {ls s : List ℕ} (f : Cur (fun k => Fin (n k)) K s)
    (h : List.Forall₂ (Same ρ r) ls s) : Cur.app ρ s f ls = Cur.get s f (ls.map r) := by
  induction h with
  | nil => rfl
  | cons h _ ih =>
    obtain ⟨x, h1, h2⟩ := h
    simp only [Cur.app, Cur.get, List.map_cons, h1, h2, x.2, dif_pos]
    exact ih _

theorem same_range {ρ : TEnv fun k => Fin (n k)} {r : ℕ → ℕ} {ls s : List ℕ} (h : List.Forall₂ (Same ρ r) ls s) :
    List.Forall₂ (· < ·) (ls.map r) (s.map n) := by
  induction h with
  | nil => exact .nil
  | cons h _ ih =>
    obtain ⟨x, h1, h2⟩ := h
    exact .cons (by rw [h2]; exact x.2) ih

/-- The values of the letters after binding those of `ls`. -/
def bindT : List ℕ → (s : List ℕ) → List ℕ → TEnv (fun k => Fin (n k)) → TEnv fun k => Fin (n k)
  | l :: ls, k :: s, i :: idx, ρ => if h : i < n k then bindT ls s idx (ρ.upd l ⟨k, ⟨i, h⟩⟩) else ρ
  | _, _, _, ρ => ρ

theorem get_of {ls s idx : List ℕ} (F : TEnv (fun k => Fin (n k)) → K) (ρ : TEnv fun k => Fin (n k)) (hl : ls.length = s.length)
    (hi : List.Forall₂ (· < ·) idx (s.map n)) : Cur.get s (Cur.of s ls F ρ) idx = F (bindT ls s idx ρ) := by
  induction s generalizing ls idx ρ with
  | nil =>
    cases ls with
    | nil => rfl
    | cons => simp at hl
  | cons k s ih =>
    cases ls with
    | nil => simp at hl
    | cons l ls =>
      rw [List.map_cons] at hi
      cases hi with
      | cons h hs =>
        simp only [Cur.get, Cur.of, bindT, h, dif_pos]
        exact ih _ (by simpa using hl) hs

theorem bindT_notin {ls s idx : List ℕ} {ρ : TEnv fun k => Fin (n k)} {l : ℕ} (h : l ∉ ls) : bindT ls s idx ρ l = ρ l := by
  induction ls generalizing s idx ρ with
  | nil => simp [bindT]
  | cons l' ls ih =>
    cases s with
    | nil => simp [bindT]
    | cons k s =>
      cases idx with
      | nil => simp [bindT]
      | cons i idx =>
        simp only [List.mem_cons, not_or] at h
        simp only [bindT]
        split_ifs
        · rw [ih h.2, TEnv.upd, if_neg h.1]
        · rfl

theorem bindT_mem {ls s idx : List ℕ} {ρ : TEnv fun k => Fin (n k)} (hd : ls.Nodup) (hl : ls.length = s.length)
    (hi : List.Forall₂ (· < ·) idx (s.map n)) {j l k i : ℕ} (h1 : ls[j]? = some l) (h2 : s[j]? = some k) (h3 : idx[j]? = some i) :
    ∃ h : i < n k, bindT ls s idx ρ l = some ⟨k, ⟨i, h⟩⟩ := by
  induction s generalizing ls idx ρ j with
  | nil => simp at h2
  | cons k' s ih =>
    cases ls with
    | nil => simp at hl
    | cons l' ls =>
      rw [List.map_cons] at hi
      cases hi with
      | cons h hs =>
        rw [List.nodup_cons] at hd
        simp only [bindT, h, dif_pos]
        cases j with
        | zero =>
          simp only [List.getElem?_cons_zero, Option.some.injEq] at h1 h2 h3
          subst h1 h2 h3
          exact ⟨h, by rw [bindT_notin hd.1, TEnv.upd, if_pos rfl]⟩
        | succ j =>
          simp only [List.getElem?_cons_succ] at h1 h2 h3
          exact ih hd.2 (by simpa using hl) hs h1 h2 h3

theorem bindOut_mem {ls idx : List ℕ} (hd : ls.Nodup) {j l i : ℕ} (h1 : ls[j]? = some l) (h3 : idx[j]? = some i) :
    bindOut ls idx l = i := by
  induction ls generalizing idx j with
  | nil => simp at h1
  | cons l' ls ih =>
    rw [List.nodup_cons] at hd
    cases idx with
    | nil => simp at h3
    | cons i' idx =>
      cases j with
      | zero =>
        simp only [List.getElem?_cons_zero, Option.some.injEq] at h1 h3
        subst h1 h3
        simp [bindOut]
      | succ j =>
        simp only [List.getElem?_cons_succ] at h1 h3
        have hne : l ≠ l' := by rintro rfl; exact hd.1 (List.mem_of_getElem? h1)
        rw [bindOut, Function.update_of_ne hne]
        exact ih hd.2 h1 h3

/-- Sums over letters. -/
theorem tenSum_eq {F : TEnv (fun k => Fin (n k)) → K} {G : (ℕ → ℕ) → K} {D : List (ℕ × ℕ)} {P : ℕ → ℕ → Prop}
    (h : ∀ ρ r, (∀ l k, P l k → Same ρ r l k) → (∀ d ∈ D, Same ρ r d.1 d.2) → F ρ = G r)
    (hD : (D.map Prod.fst).Nodup) (hP : ∀ l k, P l k → l ∉ D.map Prod.fst)
    {ρ : TEnv fun k => Fin (n k)} {r : ℕ → ℕ} (hρ : ∀ l k, P l k → Same ρ r l k) :
    tenSum D F ρ = sumOver (ext n D) G r := by
  induction D generalizing P ρ r with
  | nil => exact h ρ r hρ (by simp)
  | cons d D ih =>
    obtain ⟨l, k⟩ := d
    rw [List.map_cons, List.nodup_cons] at hD
    simp only [tenSum, ext, List.map_cons, sumOver]
    rw [Finset.sum_range]
    refine Finset.sum_congr rfl fun x _ => ?_
    refine ih (P := fun l' k' => P l' k' ∨ (l' = l ∧ k' = k)) ?_ hD.2 ?_ ?_
    · intro ρ r h1 h2
      refine h ρ r (fun l' k' h' => h1 l' k' (.inl h')) ?_
      intro d hd
      rcases List.mem_cons.1 hd with rfl | hd
      · exact h1 _ _ (.inr ⟨rfl, rfl⟩)
      · exact h2 d hd
    · rintro l' k' (h' | ⟨rfl, rfl⟩)
      · have := hP l' k' h'
        rw [List.map_cons, List.mem_cons, not_or] at this
        exact this.2
      · exact hD.1
    · rintro l' k' (h' | ⟨rfl, rfl⟩)
      · have hne : l' ≠ l := by
          have := hP l' k' h'
          rw [List.map_cons, List.mem_cons, not_or] at this
          exact this.1
        obtain ⟨y, h1, h2⟩ := hρ l' k' h'
        exact ⟨y, by rw [TEnv.upd, if_neg hne, h1], by rw [Function.update_of_ne hne, h2]⟩
      · exact ⟨x, by rw [TEnv.upd, if_pos rfl], by simp⟩

/-! letters of `einsum` -/

theorem lookup_append_of_some {D E : List (ℕ × ℕ)} {l k : ℕ} (h : D.lookup l = some k) : (D ++ E).lookup l = some k := by
  rw [List.lookup_append, h]; rfl

theorem mem_of_lookup {D : List (ℕ × ℕ)} {l k : ℕ} (h : D.lookup l = some k) : (l, k) ∈ D := by
  induction D with
  | nil => simp at h
  | cons d D ih =>
    obtain ⟨a, b⟩ := d
    rw [List.lookup_cons] at h
    cases hl : l == a with
    | true =>
      rw [hl] at h
      simp only [Option.some.injEq] at h
      rw [← h, beq_iff_eq.1 hl]; simp
    | false =>
      rw [hl] at h
      exact List.mem_cons_of_mem _ (ih h)

theorem notin_of_lookup {D : List (ℕ × ℕ)} {l : ℕ} (h : D.lookup l = none) : l ∉ D.map Prod.fst := by
  induction D with
  | nil => simp
  | cons d D ih =>
    obtain ⟨a, b⟩ := d
    rw [List.lookup_cons] at h
    cases hl : l == a with
    | true => rw [hl] at h; simp at h
    | false =>
      rw [hl] at h
      simp only [List.map_cons, List.mem_cons, not_or]
      exact ⟨by simpa using hl, ih h⟩

theorem addDims_spec {ls s : List ℕ} {D D' : List (ℕ × ℕ)} (h : addDims ls s D = some D') (hD : (D.map Prod.fst).Nodup) :
    (D'.map Prod.fst).Nodup ∧ (∀ l k, D.lookup l = some k → D'.lookup l = some k) ∧ List.Forall₂ (fun l k => D'.lookup l = some k) ls s := by
  induction ls generalizing s D with
  | nil =>
    cases s with
    | nil => simp only [addDims, Option.some.injEq] at h; subst h; exact ⟨hD, fun _ _ h => h, .nil⟩
    | cons k s => simp [addDims] at h
  | cons l ls ih =>
    cases s with
    | nil => simp [addDims] at h
    | cons k s =>
      simp only [addDims] at h
      cases hl : D.lookup l with
      | none =>
        rw [hl] at h
        obtain ⟨h1, h2, h3⟩ := ih h (by
          rw [List.map_append, List.nodup_append]
          refine ⟨hD, by simp, ?_⟩
          rintro a ha b hb rfl
          simp only [List.map_cons, List.map_nil, List.mem_singleton] at hb
          subst hb
          exact notin_of_lookup hl ha)
        refine ⟨h1, fun l' k' h' => h2 _ _ (lookup_append_of_some h'), .cons (h2 _ _ ?_) h3⟩
        rw [List.lookup_append, hl]
        simp
      | some m =>
        rw [hl] at h
        simp only at h
        split_ifs at h with hm
        subst hm
        obtain ⟨h1, h2, h3⟩ := ih h hD
        exact ⟨h1, h2, .cons (h2 _ _ hl) h3⟩

theorem allDims_spec {ins ss : List (List ℕ)} {D D' : List (ℕ × ℕ)} (h : allDims ins ss D = some D') (hD : (D.map Prod.fst).Nodup) :
    (D'.map Prod.fst).Nodup ∧ (∀ l k, D.lookup l = some k → D'.lookup l = some k) ∧
      List.Forall₂ (fun ls s => List.Forall₂ (fun l k => D'.lookup l = some k) ls s) ins ss := by
  induction ins generalizing ss D with
  | nil =>
    cases ss with
    | nil => simp only [allDims, Option.some.injEq] at h; subst h; exact ⟨hD, fun _ _ h => h, .nil⟩
    | cons k s => simp [allDims] at h
  | cons ls ins ih =>
    cases ss with
    | nil => simp [allDims] at h
    | cons s ss =>
      simp only [allDims] at h
      cases hd : addDims ls s D with
      | none => rw [hd] at h; simp at h
      | some E =>
        rw [hd] at h
        obtain ⟨h1, h2, h3⟩ := addDims_spec hd hD
        obtain ⟨h4, h5, h6⟩ := ih h h1
        exact ⟨h4, fun l k h => h5 _ _ (h2 _ _ h), .cons (h3.imp fun _ _ h => h5 _ _ h) h6⟩

theorem outDims_spec {out s : List ℕ} {D : List (ℕ × ℕ)} (h : outDims D out = some s) :
    out.Nodup ∧ List.Forall₂ (fun l k => D.lookup l = some k) out s := by
  induction out generalizing s with
  | nil => simp only [outDims, Option.some.injEq] at h; subst h; exact ⟨by simp, .nil⟩
  | cons l ls ih =>
    simp only [outDims] at h
    split_ifs at h with hl
    cases hd : D.lookup l with
    | none => rw [hd] at h; simp at h
    | some k =>
      cases ho : outDims D ls with
      | none => rw [hd, ho] at h; simp at h
      | some t =>
        rw [hd, ho] at h
        simp only [Option.some.injEq] at h
        subst h
        exact ⟨List.nodup_cons.2 ⟨hl, (ih ho).1⟩, .cons hd (ih ho).2⟩

theorem tenMul_eq {ρ : TEnv fun k => Fin (n k)} {r : ℕ → ℕ} {ins : List (List ℕ)} {ts : List (Ten (fun k => Fin (n k)) K)}
    {as : List (Arr K)} (h : List.Forall₂ (fun ls s => List.Forall₂ (Same ρ r) ls s) ins (ts.map Ten.shape))
    (ha : List.Forall₂ Holds ts as) (x : K) : tenMul x ins ts ρ = einMul x ins as r := by
  induction ins generalizing ts as x with
  | nil =>
    cases ha with
    | nil => rfl
    | cons => rfl
  | cons ls ins ih =>
    cases ha with
    | nil => rfl
    | cons ha has =>
      rw [List.map_cons] at h
      cases h with
      | cons h hs =>
        simp only [tenMul, einMul]
        rw [app_get _ h, ← ha.2 _ (by rw [ha.1]; exact same_range h)]
        exact ih hs has _

theorem tenProd_eq {ρ : TEnv fun k => Fin (n k)} {r : ℕ → ℕ} {ins : List (List ℕ)} {ts : List (Ten (fun k => Fin (n k)) K)}
    {as : List (Arr K)} (h : List.Forall₂ (fun ls s => List.Forall₂ (Same ρ r) ls s) ins (ts.map Ten.shape))
    (ha : List.Forall₂ Holds ts as) : tenProd ins ts ρ = einProd ins as r := by
  cases ins with
  | nil =>
    cases ha with
    | nil => rfl
    | cons => rfl
  | cons ls ins =>
    cases ha with
    | nil => rfl
    | cons ha has =>
      rw [List.map_cons] at h
      cases h with
      | cons h hs =>
        simp only [tenProd, einProd]
        rw [app_get _ h, ← ha.2 _ (by rw [ha.1]; exact same_range h)]
        exact tenMul_eq hs has _

theorem Holds.shapes {ts : List (Ten (fun k => Fin (n k)) K)} {as : List (Arr K)} (h : List.Forall₂ Holds ts as) :
    as.map Arr.shape = (ts.map Ten.shape).map (List.map n) := by
  induction h with
  | nil => rfl
  | cons h _ ih => simp only [List.map_cons, h.1, ih]

theorem forall₂_getElem? {A B : Type} {R : A → B → Prop} {as : List A} {bs : List B} (h : List.Forall₂ R as bs) {j : ℕ} {a : A}
    (ha : as[j]? = some a) : ∃ b, bs[j]? = some b ∧ R a b := by
  induction h generalizing j with
  | nil => simp at ha
  | cons h _ ih =>
    cases j with
    | zero => simp only [List.getElem?_cons_zero, Option.some.injEq] at ha; subst ha; exact ⟨_, rfl, h⟩
    | succ j => simp only [List.getElem?_cons_succ] at ha ⊢; exact ih ha

theorem einsum_holds {ins : List (List ℕ)} {out : List ℕ} {ts : List (Ten (fun k => Fin (n k)) K)} {as : List (Arr K)}
    (h : List.Forall₂ Holds ts as) : RB Holds (tenEin ins out ts) (einsum ins out as) := by
  intro t a ht ha
  unfold tenEin at ht
  unfold einsum at ha
  cases he : einShape ins out (ts.map Ten.shape) with
  | none => rw [he] at ht; simp at ht
  | some sD =>
    obtain ⟨s, D⟩ := sD
    rw [he] at ht
    simp only [Except.ok.injEq] at ht
    rw [Holds.shapes h, einShape_ext n he] at ha
    simp only [Except.ok.injEq] at ha
    subst ht ha
    refine ⟨rfl, fun idx hidx => ?_⟩
    simp only at hidx ⊢
    unfold einShape at he
    cases hA : allDims ins (ts.map Ten.shape) [] with
    | none => rw [hA] at he; simp at he
    | some E =>
      rw [hA] at he
      cases hO : outDims E out with
      | none => simp only [hO] at he; simp at he
      | some u =>
        simp only [hO, Option.some.injEq, Prod.mk.injEq] at he
        obtain ⟨rfl, rfl⟩ := he
        obtain ⟨hE, -, hins⟩ := allDims_spec hA (by simp)
        obtain ⟨hnd, hout⟩ := outDims_spec hO
        rw [get_of _ _ hout.length_eq hidx]
        symm
        refine tenSum_eq (P := fun l k => l ∈ out ∧ E.lookup l = some k) ?_ (hE.sublist (List.filter_sublist.map _)) ?_ ?_
        · intro ρ r h1 h2
          refine tenProd_eq (hins.imp fun ls s hls => hls.imp fun l k hl => ?_) h
          by_cases hlo : l ∈ out
          · exact h1 l k ⟨hlo, hl⟩
          · exact h2 (l, k) (List.mem_filter.2 ⟨mem_of_lookup hl, by simpa using hlo⟩)
        · rintro l k ⟨hl, -⟩ hm
          obtain ⟨d, hd, rfl⟩ := List.mem_map.1 hm
          have := (List.mem_filter.1 hd).2
          simp at this
          exact this hl
        · rintro l k ⟨hl, hk⟩
          obtain ⟨j, hj⟩ := List.mem_iff_getElem?.1 hl
          obtain ⟨k', hk', h'⟩ := forall₂_getElem? hout hj
          rw [hk] at h'
          cases h'
          obtain ⟨i, hi⟩ : ∃ i, idx[j]? = some i := by
            have : j < idx.length := by
              rw [hidx.length_eq, List.length_map]
              exact (List.getElem?_eq_some_iff.1 hk').1
            exact ⟨_, List.getElem?_eq_getElem this⟩
          obtain ⟨hlt, hb⟩ := bindT_mem (ρ := fun _ => none) hnd hout.length_eq hidx hj hk' hi
          exact ⟨⟨i, hlt⟩, hb, bindOut_mem hnd hj hi⟩

theorem get_map (f : K → K) (s : List ℕ) (c : Cur (fun k => Fin (n k)) K s) {idx : List ℕ} (h : List.Forall₂ (· < ·) idx (s.map n)) :
    Cur.get s (Cur.map f s c) idx = f (Cur.get s c idx) := by
  induction s generalizing idx with
  | nil => rfl
  | cons k s ih =>
    rw [List.map_cons] at h
    cases h with
    | cons h hs =>
      simp only [Cur.get, Cur.map, h, dif_pos]
      exact ih _ hs

theorem get_zip (f : K → K → K) (s : List ℕ) (c d : Cur (fun k => Fin (n k)) K s) {idx : List ℕ}
    (h : List.Forall₂ (· < ·) idx (s.map n)) : Cur.get s (Cur.zip f s c d) idx = f (Cur.get s c idx) (Cur.get s d idx) := by
  induction s generalizing idx with
  | nil => rfl
  | cons k s ih =>
    rw [List.map_cons] at h
    cases h with
    | cons h hs =>
      simp only [Cur.get, Cur.zip, h, dif_pos]
      exact ih _ _ hs

theorem Holds.at {t : Ten (fun k => Fin (n k)) K} {a : Arr K} (h : Holds t a) {idx : List ℕ}
    (hi : t.shape ≠ [] → List.Forall₂ (· < ·) idx (t.shape.map n)) : a.at idx = Cur.get t.shape t.val idx := by
  unfold Arr.at
  obtain ⟨s, c⟩ := t
  have h1 : a.shape = s.map n := h.1
  cases s with
  | nil =>
    rw [if_pos (by simpa using h1)]
    exact h.2 [] (by rw [h1]; exact .nil)
  | cons k s =>
    rw [if_neg (by rw [h1]; simp)]
    exact h.2 idx (by rw [h1]; exact hi (by simp))

theorem bin_holds (o : Op) {t u : Ten (fun k => Fin (n k)) K} {a b : Arr K} (ht : Holds t a) (hu : Holds u b)
    {c : Ten (fun k => Fin (n k)) K} (hc : tenBin o t u = .ok c) {s : List ℕ} {cx : Bool} (hs : s = c.shape.map n) :
    Holds c ⟨cx, s, fun idx => opVal o (a.at idx) (b.at idx)⟩ := by
  refine ⟨hs, fun idx hidx => ?_⟩
  simp only at hidx ⊢
  rw [hs] at hidx
  obtain ⟨s', f⟩ := t
  obtain ⟨t', g⟩ := u
  have key : s' = [] ∨ t' = [] ∨ (s' ≠ [] ∧ t' ≠ []) := by tauto
  rcases key with rfl | h | ⟨h1, h2⟩
  · simp only [tenBin, Except.ok.injEq] at hc
    subst hc
    rw [get_map _ _ _ hidx, ht.at (by simp), hu.at fun _ => hidx]
    rfl
  · subst h
    cases s' with
    | nil =>
      simp only [tenBin, Except.ok.injEq] at hc
      subst hc
      rw [ht.at (by simp), hu.at (by simp)]
      rfl
    | cons k s' =>
      simp only [tenBin, Except.ok.injEq] at hc
      subst hc
      rw [get_map (n := n) _ (k :: s') f hidx, ht.at fun _ => hidx, hu.at (by simp)]
      rfl
  · obtain ⟨k, s', rfl⟩ := List.exists_cons_of_ne_nil h1
    obtain ⟨l, t', rfl⟩ := List.exists_cons_of_ne_nil h2
    simp only [tenBin] at hc
    split_ifs at hc with h
    simp only [Except.ok.injEq] at hc
    subst hc
    simp only [List.cons.injEq] at h
    obtain ⟨rfl, rfl⟩ := h
    rw [get_zip (n := n) _ (l :: t') f _ hidx, ht.at fun _ => hidx, hu.at fun _ => hidx]

theorem tenBin_shape {o : Op} {t u c : Ten (fun k => Fin (n k)) K} (hc : tenBin o t u = .ok c) : bshape t.shape u.shape = some c.shape := by
  obtain ⟨s', f⟩ := t
  obtain ⟨t', g⟩ := u
  unfold bshape
  cases s' with
  | nil =>
    simp only [tenBin, Except.ok.injEq] at hc
    subst hc
    split_ifs with h <;> simp_all
  | cons k s' =>
    cases t' with
    | nil =>
      simp only [tenBin, Except.ok.injEq] at hc
      subst hc
      simp
    | cons l t' =>
      simp only [tenBin] at hc
      split_ifs at hc with h
      simp only [Except.ok.injEq] at hc
      subst hc
      exact if_pos h.symm

theorem litVal_eq (p q : ℕ) : litVal (K := K) p q = p / q := by
  unfold litVal
  split <;> norm_num

theorem tensors_sim (re : K → K) : Sim RB tensors (numpy true re) (Holds (n := n) (K := K)) where
  lit p q := ⟨rfl, fun idx _ => by
    exact (litVal_eq p q).symm⟩
  ein ins out ts as h := einsum_holds h
  bin o t u a b ht hu := by
    intro c d hc hd
    simp only [numpy, arrBin] at hd
    simp only [tensors] at hc
    have hs := bshape_ext n (tenBin_shape hc)
    rw [← ht.1, ← hu.1] at hs
    rw [hs] at hd
    simp only [Except.ok.injEq] at hd
    subst hd
    exact bin_holds o ht hu hc rfl
  aug o t u a b ht hu := by
    intro c d hc hd
    simp only [numpy, arrAug] at hd
    simp only [tensors, tenAug] at hc
    split_ifs at hc with h0
    have hs := bshape_ext n (tenBin_shape hc)
    rw [← ht.1, ← hu.1] at hs
    rw [hs] at hd
    split_ifs at hd with h1 h2
    simp only [Except.ok.injEq] at hd
    subst hd
    refine bin_holds o ht hu hc ?_
    simp only [ne_eq, Option.some.injEq, not_not] at h1
    exact h1.symm
  neg t a h := ⟨h.1, fun idx hidx => by
    simp only [tensors, numpy] at hidx ⊢
    rw [get_map _ _ _ (by rw [← h.1]; exact hidx), h.2 idx hidx]⟩
  cast t u a b ht hu := by
    intro c d hc hd
    simp only [numpy, arrCast] at hd
    simp only [tensors, Except.ok.injEq] at hc
    subst hc
    split_ifs at hd with h1 h2
    · simp at h1; simp_all
    · simp only [Except.ok.injEq] at hd
      subst hd
      exact ht
  transp p t a h := by
    intro c d hc hd
    simp only [numpy, arrTransp] at hd
    simp only [tensors, tenTransp] at hc
    cases hs : transpShape p t.shape with
    | none => rw [hs] at hc; simp at hc
    | some s =>
      rw [hs] at hc
      rw [h.1, transpShape_ext n hs] at hd
      simp only [Except.ok.injEq] at hc hd
      subst hc hd
      refine ⟨rfl, fun idx hidx => ?_⟩
      simp only at hidx ⊢
      unfold transpShape at hs
      split_ifs at hs with hp
      simp only [Option.some.injEq] at hs
      have hsub : List.range t.shape.length ⊆ p := by
        intro y hy
        have := List.all_eq_true.1 hp.2 y hy
        simpa using this
      have hperm : (List.range t.shape.length).Perm p :=
        (List.nodup_range.subperm hsub).perm_of_length_le (by simp [hp.1])
      have hnd : p.Nodup := hperm.nodup_iff.1 List.nodup_range
      have hlen : p.length = s.length := by rw [← hs]; simp
      rw [get_of _ _ hlen hidx]
      have hsame : List.Forall₂ (Same (n := n) (bindT p s idx fun _ => none) fun x => idx.getD (p.idxOf x) 0) (List.range p.length) t.shape := by
        rw [List.forall₂_iff_get]
        refine ⟨by simp [hp.1], fun x hx1 hx2 => ?_⟩
        simp only [List.get_eq_getElem, List.getElem_range]
        have hxp : x ∈ p := hperm.mem_iff.1 (by simpa using hx2)
        have hj := List.idxOf_lt_length_of_mem hxp
        have h1 : p[p.idxOf x]? = some x := by rw [List.getElem?_eq_getElem hj, List.getElem_idxOf hj]
        have h2 : s[p.idxOf x]? = some t.shape[x] := by
          rw [← hs, List.getElem?_map, h1]
          simp [List.getD_eq_getElem?_getD, List.getElem?_eq_getElem hx2]
        have hji : p.idxOf x < idx.length := by rw [hidx.length_eq, List.length_map, ← hlen]; exact hj
        have h3 : idx[p.idxOf x]? = some idx[p.idxOf x] := List.getElem?_eq_getElem hji
        obtain ⟨hlt, hb⟩ := bindT_mem (ρ := fun _ => none) hnd hlen hidx h1 h2 h3
        refine ⟨⟨_, hlt⟩, hb, ?_⟩
        simp [List.getD_eq_getElem?_getD, h3]
      rw [app_get _ hsame, h.2 _ (by rw [h.1]; exact same_range hsame)]

end
end Heap
