import Verif.Model.Views
import Verif.Model.SpinFin
import Mathlib.Data.List.Range
/-!
# C61: the conversions between spin and spatial orbitals on numpy arrays
-/

set_option linter.unusedSectionVars false

namespace Np
variable {K : Type} [Field K] {α β : Type}

/-! ### programs that do not raise -/

/-- The program returns; `Q` holds of the result and of the memory afterwards. -/
def Ok (x : Run K α) (m : Mem K) (Q : α → Mem K → Prop) : Prop := ∃ r m', x m = .ok (r, m') ∧ Q r m'

theorem Ok.bind {x : Run K α} {f : α → Run K β} {m : Mem K} {Q : α → Mem K → Prop} {R : β → Mem K → Prop} (h : Ok x m Q)
    (h' : ∀ r m', Q r m' → Ok (f r) m' R) : Ok (x >>= f) m R := by
  obtain ⟨r, m', e, q⟩ := h
  obtain ⟨r', m'', e', q'⟩ := h' r m' q
  refine ⟨r', m'', ?_, q'⟩
  change (x m >>= fun p => f p.1 p.2) = _
  rw [e]; exact e'

theorem Ok.pure {r : α} {m : Mem K} {Q : α → Mem K → Prop} (h : Q r m) : Ok (pure r : Run K α) m Q := ⟨r, m, rfl, h⟩

theorem Ok.imp {x : Run K α} {m : Mem K} {Q R : α → Mem K → Prop} (h : Ok x m Q) (h' : ∀ r m', Q r m' → R r m') : Ok x m R := by
  obtain ⟨r, m', e, q⟩ := h
  exact ⟨r, m', e, h' _ _ q⟩

/-- Nothing that existed in `m` has changed. -/
def Keeps (m m' : Mem K) : Prop := m.next ≤ m'.next ∧ ∀ l < m.next, m'.heap l = m.heap l

theorem Keeps.refl (m : Mem K) : Keeps m m := ⟨le_rfl, fun _ _ => rfl⟩
theorem Keeps.trans {m m' m'' : Mem K} (h : Keeps m m') (h' : Keeps m' m'') : Keeps m m'' :=
  ⟨h.1.trans h'.1, fun l hl => (h'.2 l (hl.trans_le h.1)).trans (h.2 l hl)⟩

/-- An array in memory: its element type, shape and elements. -/
structure Has (m : Mem K) (v : View) (c : Bool) (s : List ℕ) (f : List ℕ → K) : Prop where
  loc : v.loc < m.next
  cx : m.cx v = c
  shape : v.shape = s
  read : ∀ idx, InBox s idx → m.read v idx = f idx

theorem Has.keep {m m' : Mem K} {v : View} {c : Bool} {s : List ℕ} {f : List ℕ → K} (h : Has m v c s f) (k : Keeps m m') : Has m' v c s f := by
  have e := k.2 v.loc h.loc
  exact ⟨h.loc.trans_le k.1, by rw [← h.cx]; unfold Mem.cx; rw [e], h.shape, fun idx hi => by rw [← h.read idx hi]; unfold Mem.read; rw [e]⟩

theorem Has.congr {m : Mem K} {v : View} {c : Bool} {s : List ℕ} {f g : List ℕ → K} (h : Has m v c s f) (e : ∀ idx, InBox s idx → f idx = g idx) :
    Has m v c s g := ⟨h.loc, h.cx, h.shape, fun idx hi => (h.read idx hi).trans (e idx hi)⟩

/-- What all operations that make a new array have in common. -/
structure Fresh (m m' : Mem K) (v : View) (c : Bool) (s : List ℕ) (f : List ℕ → K) : Prop where
  keeps : Keeps m m'
  loc : v.loc = m.next
  ix : v.ix = id
  has : Has m' v c s f
  warned : m'.warned = m.warned

theorem alloc_ok (m : Mem K) (c : Bool) (s : List ℕ) (f : List ℕ → K) : Ok (alloc c s f) m fun v m' => Fresh m m' v c s f := by
  refine ⟨_, _, rfl, ⟨⟨Nat.le_succ _, fun l hl => ?_⟩, rfl, rfl, ⟨Nat.lt_succ_self _, ?_, rfl, fun idx _ => ?_⟩, rfl⟩⟩
  · exact Function.update_of_ne (Nat.ne_of_lt hl) _ _
  · simp [Mem.cx]
  · simp [Mem.read]

theorem zeros_ok (m : Mem K) (s : List ℕ) : Ok (zeros s) m fun v m' => Fresh m m' v false s fun _ => 0 := alloc_ok m _ _ _

theorem copy_ok {m : Mem K} {v : View} {c : Bool} {s : List ℕ} {f : List ℕ → K} (h : Has m v c s f) :
    Ok (copy v) m fun w m' => Fresh m m' w c s f := by
  obtain ⟨r, m', e, q⟩ := alloc_ok m (m.cx v) v.shape (m.read v)
  refine ⟨r, m', e, ?_⟩
  rw [h.cx, h.shape] at q
  exact ⟨q.keeps, q.loc, q.ix, q.has.congr h.read, q.warned⟩

theorem neg_ok {m : Mem K} {v : View} {c : Bool} {s : List ℕ} {f : List ℕ → K} (h : Has m v c s f) :
    Ok (neg v) m fun w m' => Fresh m m' w c s fun idx => -f idx := by
  obtain ⟨r, m', e, q⟩ := alloc_ok m (m.cx v) v.shape (fun idx => -m.read v idx)
  refine ⟨r, m', e, ?_⟩
  rw [h.cx, h.shape] at q
  exact ⟨q.keeps, q.loc, q.ix, q.has.congr fun idx hi => by rw [h.read idx hi], q.warned⟩

theorem bcShapeRev_self (s : List ℕ) : bcShapeRev s s = some s := by
  induction s with
  | nil => rfl
  | cons x s ih => simp [bcShapeRev, ih]

theorem bcToRev_self (s : List ℕ) : bcToRev s s = true := by
  induction s with
  | nil => rfl
  | cons x s ih => simp [bcToRev, ih]

theorem bcIxRev_self {s idx : List ℕ} (h : InBox s idx) : bcIxRev s idx = idx := by
  induction h with
  | nil => rfl
  | @cons i x idx s hi _ ih =>
    simp only [bcIxRev, ih]
    split_ifs with h1
    · have : i = 0 := by omega
      rw [this]
    · rfl

theorem bcIx_self {s idx : List ℕ} (h : InBox s idx) : bcIx s idx = idx := by
  unfold bcIx
  have h' : InBox s.reverse idx.reverse := List.forall₂_reverse_iff.mpr h
  rw [bcIxRev_self h', List.reverse_reverse]

theorem sub_ok {m : Mem K} {v w : View} {c d : Bool} {s : List ℕ} {f g : List ℕ → K} (h : Has m v c s f) (h' : Has m w d s g) :
    Ok (sub v w) m fun r m' => Fresh m m' r (c || d) s fun idx => f idx - g idx := by
  obtain ⟨r, m', e, q⟩ := alloc_ok m (m.cx v || m.cx w) s (fun idx => m.read v (bcIx s idx) - m.read w (bcIx s idx))
  refine ⟨r, m', ?_, ?_⟩
  · unfold sub
    rw [h.shape, h'.shape, bcShapeRev_self]
    simp only [List.reverse_reverse]
    exact e
  · rw [h.cx, h'.cx] at q
    exact ⟨q.keeps, q.loc, q.ix, q.has.congr fun idx hi => by rw [bcIx_self hi, h.read idx hi, h'.read idx hi], q.warned⟩

/-! ### views -/

theorem slIx_box {ls : List Sl} {s t idx : List ℕ} (h : slShape ls s = some t) (hi : InBox t idx) : InBox s (slIx ls idx) := by
  induction ls generalizing s t idx with
  | nil => cases h; cases idx <;> exact hi
  | cons l ls ih =>
    cases s with
    | nil => simp [slShape] at h
    | cons n s =>
      simp only [slShape] at h
      cases h' : slShape ls s with
      | none => simp [h'] at h
      | some u =>
        simp only [h', Option.some.injEq] at h
        subst h
        cases hi with
        | @cons i _ idx _ h1 h2 =>
          refine .cons ?_ (ih h' h2)
          cases l <;> simp only [Sl.extent, Sl.shift] at h1 ⊢ <;> omega

/-- Slicing makes a view of the same buffer. -/
theorem slice_ok {m : Mem K} {v : View} {c : Bool} {s t : List ℕ} {f : List ℕ → K} (h : Has m v c s f) {ls : List Sl} (hs : slShape ls s = some t) :
    Ok (slice v ls) m fun w m' => m' = m ∧ w = ⟨v.loc, t, fun idx => v.ix (slIx ls idx)⟩ ∧ Has m w c t fun idx => f (slIx ls idx) := by
  refine ⟨_, _, ?_, rfl, rfl, ⟨h.loc, h.cx, rfl, fun idx hi => h.read _ (slIx_box hs hi)⟩⟩
  unfold slice
  rw [h.shape, hs]

theorem transp_box {p s idx : List ℕ} (hl : p.length = s.length) (hp : (List.range s.length).all p.contains = true)
    (hi : InBox (p.map fun x => s.getD x 0) idx) : InBox s ((List.range p.length).map fun x => idx.getD (p.idxOf x) 0) := by
  unfold InBox at hi ⊢
  rw [List.forall₂_iff_get]
  refine ⟨by simp [hl], fun j hj hj' => ?_⟩
  have hp : j ∈ p := by
    have := List.all_eq_true.mp hp j (List.mem_range.mpr hj')
    simpa using this
  have hx := List.idxOf_lt_length_iff.mpr hp
  have l := hi.length_eq
  rw [List.length_map] at l
  have := (List.forall₂_iff_get.mp hi).2 (p.idxOf j) (by omega) (by rw [List.length_map]; exact hx)
  simp only [List.get_eq_getElem, List.getElem_map, List.getElem_idxOf, List.getElem_range] at this ⊢
  rw [List.getD_eq_getElem?_getD, List.getElem?_eq_getElem (by omega : p.idxOf j < idx.length), Option.getD_some]
  refine this.trans_eq ?_
  rw [List.getD_eq_getElem?_getD, List.getElem?_eq_getElem hj', Option.getD_some]

/-- Transposing makes a view of the same buffer. -/
theorem transpose_ok {m : Mem K} {v : View} {c : Bool} {s : List ℕ} {f : List ℕ → K} (h : Has m v c s f) {p : List ℕ} (hl : p.length = s.length)
    (hp : (List.range s.length).all p.contains = true) :
    Ok (transpose p v) m fun w m' => m' = m ∧ w.loc = v.loc ∧
      Has m w c (p.map fun x => s.getD x 0) fun idx => f ((List.range p.length).map fun x => idx.getD (p.idxOf x) 0) := by
  have e := h.shape
  subst e
  exact ⟨_, _, if_pos ⟨hl, hp⟩, rfl, rfl, ⟨h.loc, h.cx, rfl, fun idx hi => h.read _ (transp_box hl hp hi)⟩⟩

/-! ### assignment to slices -/

/-- Whether an index belongs to a slice, and the index in the slice. -/
def slIn : List Sl → List ℕ → Bool
  | .to k :: ls, j :: js => decide (j < k) && slIn ls js
  | .from k :: ls, j :: js => decide (k ≤ j) && slIn ls js
  | _, _ => true

def unSl : List Sl → List ℕ → List ℕ
  | .to _ :: ls, j :: js => j :: unSl ls js
  | .from k :: ls, j :: js => (j - k) :: unSl ls js
  | _, js => js

theorem unSl_slIx {ls : List Sl} {idx : List ℕ} : unSl ls (slIx ls idx) = idx := by
  induction ls generalizing idx with
  | nil => cases idx <;> rfl
  | cons l ls ih =>
    cases idx with
    | nil => cases l <;> rfl
    | cons i idx => cases l <;> simp [slIx, unSl, Sl.shift, ih]

theorem slIn_slIx {ls : List Sl} {s t idx : List ℕ} (h : slShape ls s = some t) (hi : InBox t idx) : slIn ls (slIx ls idx) = true := by
  induction ls generalizing s t idx with
  | nil => cases idx <;> rfl
  | cons l ls ih =>
    cases s with
    | nil => simp [slShape] at h
    | cons n s =>
      simp only [slShape] at h
      cases h' : slShape ls s with
      | none => simp [h'] at h
      | some u =>
        simp only [h', Option.some.injEq] at h
        subst h
        cases hi with
        | @cons i _ idx _ h1 h2 =>
          cases l <;> simp only [Sl.extent, Sl.shift, slIx, slIn, ih h' h2, Bool.and_true, decide_eq_true_eq] at h1 ⊢ <;> omega

theorem slIx_unSl {ls : List Sl} {s t j : List ℕ} (h : slShape ls s = some t) (hj : InBox s j) (hin : slIn ls j = true) :
    InBox t (unSl ls j) ∧ slIx ls (unSl ls j) = j := by
  induction ls generalizing s t j with
  | nil => cases h; cases j <;> exact ⟨hj, rfl⟩
  | cons l ls ih =>
    cases s with
    | nil => simp [slShape] at h
    | cons n s =>
      simp only [slShape] at h
      cases h' : slShape ls s with
      | none => simp [h'] at h
      | some u =>
        simp only [h', Option.some.injEq] at h
        subst h
        cases hj with
        | @cons i _ j _ h1 h2 =>
          cases l <;> simp only [slIn, Bool.and_eq_true, decide_eq_true_eq] at hin <;> obtain ⟨a, b⟩ := ih h' h2 hin.2 <;>
            refine ⟨.cons ?_ a, ?_⟩ <;> simp only [Sl.extent, slIx, Sl.shift, unSl, b] <;> first | omega | (congr 1; omega)

/-- The value an element of a real array receives. -/
def real (re : K →+ K) (c : Bool) (x : K) : K := if c then re x else x

/-- An array after assignment to a slice. -/
def upd (ls : List Sl) (f X : List ℕ → K) : List ℕ → K := fun j => if slIn ls j then f (unSl ls j) else X j

theorem write_in {t : View} (f old : List ℕ → K) {idx : List ℕ} (hi : InBox t.shape idx)
    (inj : ∀ a b, InBox t.shape a → InBox t.shape b → t.ix a = t.ix b → a = b) : writeVal t f old (t.ix idx) = f idx := by
  have hx : ∃ i, InBox t.shape i ∧ t.ix i = t.ix idx := ⟨idx, hi, rfl⟩
  unfold writeVal
  rw [dif_pos hx, inj _ _ hx.choose_spec.1 hi hx.choose_spec.2]

theorem write_out {t : View} (f old : List ℕ → K) {j : List ℕ} (h : ∀ idx, InBox t.shape idx → t.ix idx ≠ j) : writeVal t f old j = old j := by
  unfold writeVal
  rw [dif_neg]
  rintro ⟨idx, h1, h2⟩
  exact h idx h1 h2

/-- A real array under construction: it is new since `m₀`, and nothing older has changed. -/
structure Build (m₀ m : Mem K) (T : View) (s : List ℕ) (X : List ℕ → K) : Prop where
  keeps : Keeps m₀ m
  loc : m₀.next ≤ T.loc
  ix : T.ix = id
  has : Has m T false s X

theorem Fresh.build {m m' : Mem K} {v : View} {s : List ℕ} {f : List ℕ → K} (h : Fresh m m' v false s f) : Build m m' v s f :=
  ⟨h.keeps, h.loc.ge, h.ix, h.has⟩

theorem Build.keep {m₀ m m' : Mem K} {T : View} {s : List ℕ} {X : List ℕ → K} (h : Build m₀ m T s X) (k : Keeps m m') : Build m₀ m' T s X :=
  ⟨h.keeps.trans k, h.loc, h.ix, h.has.keep k⟩

theorem set_ok (re : K →+ K) {m₀ m : Mem K} {T w : View} {s t : List ℕ} {X f : List ℕ → K} {c : Bool} (h : Build m₀ m T s X) (hw : Has m w c t f)
    {ls : List Sl} (hs : slShape ls s = some t) :
    Ok (setSlice re T ls w) m fun _ m' => Build m₀ m' T s (upd ls (fun i => real re c (f i)) X) ∧ m'.warned = (m.warned || c) ∧ m'.next = m.next := by
  refine (slice_ok h.has hs).bind fun v m' ⟨hm, hv, _⟩ => ?_
  subst hm
  refine ⟨(), _, if_pos (by rw [hw.shape, hv]; exact bcToRev_self _), ?_⟩
  refine ⟨⟨⟨h.keeps.1, fun l hl => ?_⟩, h.loc, h.ix, ⟨h.has.loc, ?_, h.has.shape, fun j hj => ?_⟩⟩, ?_, rfl⟩
  · dsimp only
    rw [hv, Function.update_of_ne (by have := h.loc; dsimp only; omega)]
    exact h.keeps.2 l hl
  · have := h.has.cx
    simp only [Mem.cx] at this ⊢
    rw [hv, Function.update_self]
    exact this
  · have e : v.ix = slIx ls := by rw [hv]; funext idx; simp [h.ix]
    have es : v.shape = t := by rw [hv]
    have el : v.loc = T.loc := by rw [hv]
    have hc : (m'.cx w && !m'.cx v) = c := by
      have : m'.cx v = false := by rw [hv]; exact h.has.cx
      rw [this, hw.cx]; simp
    simp only [Mem.read, h.ix, id, el, Function.update_self]
    rw [hc]
    by_cases hin : slIn ls j = true
    · obtain ⟨h1, h2⟩ := slIx_unSl hs hj hin
      unfold upd
      rw [if_pos hin]
      conv_lhs => rw [← h2, ← e]
      rw [write_in _ _ (by rw [es]; exact h1) fun a b _ _ hab => by
        rw [e] at hab
        have := congrArg (unSl ls) hab
        rwa [unSl_slIx, unSl_slIx] at this]
      rw [hw.shape, bcIx_self h1]
      have := hw.read _ h1
      unfold Mem.read at this
      rw [this]; rfl
    · unfold upd
      rw [if_neg hin, write_out]
      · have := h.has.read j hj
        simp only [Mem.read, h.ix, id] at this
        exact this
      · rintro idx hi rfl
        rw [es] at hi
        exact hin (by rw [e]; exact slIn_slIx hs hi)
  · have : m'.cx v = false := by rw [hv]; exact h.has.cx
    change (m'.warned || (m'.cx w && !m'.cx v)) = _
    rw [this, hw.cx]; simp

end Np
