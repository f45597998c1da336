import Verif.Model.Heap
import Mathlib.Order.Basic
import Mathlib.Order.Nat
/-!
# A checker for array programs and its soundness

`chk` follows a program and keeps track of the names that are certainly bound and of the names that certainly are the only reference to an
array of their own (`owned`); it accepts `x += e` only for owned names.  `chk_sound`: an accepted program never hits an unbound name, writes
only into arrays allocated by itself or owned at the start, and computes the same values as the semantics without references, whatever the
operators compute and however the names alias at the start.
-/

namespace Heap

def Ex.vars : Ex → List ℕ
  | .var x => [x]
  | .lit _ _ => []
  | .ein2 _ _ a b => a.vars ++ b.vars
  | .ein3 _ _ a b c => a.vars ++ b.vars ++ c.vars
  | .ein4 _ _ a b c d => a.vars ++ b.vars ++ c.vars ++ d.vars
  | .ein5 _ _ a b c d e => a.vars ++ b.vars ++ c.vars ++ d.vars ++ e.vars
  | .bin _ a b => a.vars ++ b.vars
  | .neg a => a.vars
  | .copy a => a.vars
  | .astype a x => x :: a.vars
  | .transp _ a => a.vars

/-- The names that a statement binds or deletes. -/
def Stmt.assigned : Stmt → List ℕ
  | .skip => []
  | .seq s t => s.assigned ++ t.assigned
  | .assign x _ => [x]
  | .aug _ _ _ => []
  | .del x => [x]
  | .call _ _ rs => rs.map Prod.fst

structure Abs where
  bound : List ℕ
  owned : List ℕ

/-- `l.elem x` on numbers, written so that it evaluates quickly -/
def mem (x : ℕ) : List ℕ → Bool
  | [] => false
  | y :: l => Nat.beq x y || mem x l

theorem mem_iff {x : ℕ} {l : List ℕ} : mem x l = true ↔ x ∈ l := by
  induction l with
  | nil => simp [mem]
  | cons y l ih => simp [mem, ih]

def drop (x : ℕ) : List ℕ → List ℕ
  | [] => []
  | y :: l => if Nat.beq x y then drop x l else y :: drop x l

theorem mem_drop {x z : ℕ} {l : List ℕ} : z ∈ drop x l ↔ z ∈ l ∧ z ≠ x := by
  induction l with
  | nil => simp [drop]
  | cons y l ih =>
    simp only [drop]
    split_ifs with h
    · obtain rfl : x = y := by simpa using h
      simp only [ih, List.mem_cons]
      constructor
      · rintro ⟨a, b⟩; exact ⟨.inr a, b⟩
      · rintro ⟨rfl | a, b⟩
        · exact absurd rfl b
        · exact ⟨a, b⟩
    · have h : x ≠ y := by simpa using h
      simp only [List.mem_cons, ih]
      constructor
      · rintro (rfl | ⟨a, b⟩)
        · exact ⟨.inl rfl, h.symm⟩
        · exact ⟨.inr a, b⟩
      · rintro ⟨rfl | a, b⟩
        · exact .inl rfl
        · exact .inr ⟨a, b⟩

def add (x : ℕ) (l : List ℕ) : List ℕ := if mem x l then l else x :: l

theorem mem_add {x z : ℕ} {l : List ℕ} : z ∈ add x l ↔ z = x ∨ z ∈ l := by
  unfold add
  split_ifs with h
  · rw [mem_iff] at h
    constructor
    · exact .inr
    · rintro (rfl | h') <;> assumption
  · simp

def closed (A : Abs) (e : Ex) : Bool := e.vars.all fun x => mem x A.bound

/-- the names whose buffers the arguments share -/
def bases (ps : List (ℕ × Ex)) : List ℕ := ps.filterMap fun p => p.2.base

/-- the parameters that are the only reference to an array owned by the caller -/
def ownedParams (A : Abs) (ps : List (ℕ × Ex)) : List ℕ :=
  ps.filterMap fun p => match p.2 with
    | .var y => if mem y A.owned && Nat.beq ((bases ps).count y) 1 then some p.1 else none
    | _ => none

def Ex.isVar : Ex → Bool
  | .var _ => true
  | _ => false

def nodup : List ℕ → Bool
  | [] => true
  | x :: l => !mem x l && nodup l

theorem nodup_iff {l : List ℕ} : nodup l = true ↔ l.Nodup := by
  induction l with
  | nil => simp [nodup]
  | cons x l ih =>
    rw [nodup, Bool.and_eq_true, ih, List.nodup_cons, Bool.not_eq_true', ← Bool.not_eq_true, mem_iff]

def chk : Stmt → Abs → Option Abs
  | .skip, A => some A
  | .seq s t, A => match chk s A with
    | some B => chk t B
    | none => none
  | .assign x e, A =>
    if closed A e then match e.base with
      | some y => some ⟨add x A.bound, drop x (drop y A.owned)⟩
      | none => some ⟨add x A.bound, add x A.owned⟩
    else none
  | .aug x _ e, A => if closed A e && mem x A.owned then some A else none
  | .del x, A => if mem x A.bound then some ⟨drop x A.bound, drop x A.owned⟩ else none
  | .call ps body rs, A =>
    let keys := ps.map Prod.fst
    let op := ownedParams A ps
    if (ps.all fun p => closed A p.2) && nodup keys then
      match chk body ⟨keys, op⟩ with
      | some B =>
        if (op.all fun p => !mem p body.assigned) && (ps.all fun p => !p.2.isVar || !mem p.1 body.augs || mem p.1 op)
          && (rs.all fun r => closed B r.2 && match r.2 with
            | .var y => mem y B.owned && !mem y keys
            | e => e.base.isNone) then
          some ⟨(rs.map Prod.fst).foldr add A.bound, (rs.map Prod.fst).foldr drop A.owned⟩
        else none
      | none => none
    else none

variable {W : Type} (J : Interp W)

/-! ### expressions -/

/-- names have the values of the arrays they refer to, which are allocated -/
structure Rel (M : Mem W) (E : Env) (v : Vals W) : Prop where
  val : ∀ x, v x = (E x).map fun r => seen J r.2 (M.heap r.1)
  lt : ∀ x r, E x = some r → r.1 < M.next

variable {J}

theorem Rel.eval {M : Mem W} {E : Env} {v : Vals W} (h : Rel J M E v) (e : Ex) : eval J M.heap E e = Heap.val J v e := by
  induction e with
  | var x => simp [Heap.eval, Heap.val, h.val]
  | astype a x ih => simp only [Heap.eval, Heap.val, ih, h.val x]
  | _ => simp_all [Heap.eval, Heap.val]

/-- every name of `e` is bound -/
def Ok (E : Env) (e : Ex) : Prop := ∀ x ∈ e.vars, (E x).isSome

theorem Rel.ex {M : Mem W} {E : Env} {v : Vals W} (h : Rel J M E v) (e : Ex) (he : Ok E e) : ∃ w, Heap.val J v e = some w := by
  induction e with
  | var x =>
    have := he x (by simp [Ex.vars])
    obtain ⟨r, hr⟩ := Option.isSome_iff_exists.1 this
    exact ⟨_, by simp only [Heap.val, h.val, hr]; rfl⟩
  | lit p q => exact ⟨_, rfl⟩
  | ein2 s o a b iha ihb =>
    obtain ⟨wa, ha⟩ := iha fun x hx => he x (by simp [Ex.vars, hx])
    obtain ⟨wb, hb⟩ := ihb fun x hx => he x (by simp [Ex.vars, hx])
    exact ⟨_, by simp only [Heap.val, ha, hb]; rfl⟩
  | ein3 s o a b c iha ihb ihc =>
    obtain ⟨wa, ha⟩ := iha fun x hx => he x (by simp [Ex.vars, hx])
    obtain ⟨wb, hb⟩ := ihb fun x hx => he x (by simp [Ex.vars, hx])
    obtain ⟨wc, hc⟩ := ihc fun x hx => he x (by simp [Ex.vars, hx])
    exact ⟨_, by simp only [Heap.val, ha, hb, hc]; rfl⟩
  | ein4 s o a b c d iha ihb ihc ihd =>
    obtain ⟨wa, ha⟩ := iha fun x hx => he x (by simp [Ex.vars, hx])
    obtain ⟨wb, hb⟩ := ihb fun x hx => he x (by simp [Ex.vars, hx])
    obtain ⟨wc, hc⟩ := ihc fun x hx => he x (by simp [Ex.vars, hx])
    obtain ⟨wd, hd⟩ := ihd fun x hx => he x (by simp [Ex.vars, hx])
    exact ⟨_, by simp only [Heap.val, ha, hb, hc, hd]; rfl⟩
  | ein5 s o a b c d e iha ihb ihc ihd ihe =>
    obtain ⟨wa, ha⟩ := iha fun x hx => he x (by simp [Ex.vars, hx])
    obtain ⟨wb, hb⟩ := ihb fun x hx => he x (by simp [Ex.vars, hx])
    obtain ⟨wc, hc⟩ := ihc fun x hx => he x (by simp [Ex.vars, hx])
    obtain ⟨wd, hd⟩ := ihd fun x hx => he x (by simp [Ex.vars, hx])
    obtain ⟨we, he'⟩ := ihe fun x hx => he x (by simp [Ex.vars, hx])
    exact ⟨_, by simp only [Heap.val, ha, hb, hc, hd, he']; rfl⟩
  | bin o a b iha ihb =>
    obtain ⟨wa, ha⟩ := iha fun x hx => he x (by simp [Ex.vars, hx])
    obtain ⟨wb, hb⟩ := ihb fun x hx => he x (by simp [Ex.vars, hx])
    exact ⟨_, by simp only [Heap.val, ha, hb]; rfl⟩
  | neg a iha =>
    obtain ⟨wa, ha⟩ := iha fun x hx => he x (by simpa [Ex.vars] using hx)
    exact ⟨_, by simp only [Heap.val, ha]; rfl⟩
  | copy a iha =>
    obtain ⟨wa, ha⟩ := iha fun x hx => he x (by simpa [Ex.vars] using hx)
    exact ⟨wa, by simp only [Heap.val, ha]⟩
  | astype a x iha =>
    obtain ⟨wa, ha⟩ := iha fun x hx => he x (by simp [Ex.vars, hx])
    obtain ⟨r, hr⟩ := Option.isSome_iff_exists.1 (he x (by simp [Ex.vars]))
    exact ⟨_, by simp only [Heap.val, ha, h.val, hr]; rfl⟩
  | transp p a iha =>
    obtain ⟨wa, ha⟩ := iha fun x hx => he x (by simpa [Ex.vars] using hx)
    exact ⟨_, by simp only [Heap.val, ha]; rfl⟩

/-- a view refers to the buffer of its base and shows its value -/
theorem ref_spec {M : Mem W} {E : Env} {v : Vals W} (h : Rel J M E v) (e : Ex) {y : ℕ} (hb : e.base = some y) (he : Ok E e) :
    ∃ r r0, e.ref E = some r ∧ E y = some r0 ∧ r.1 = r0.1 ∧ Heap.val J v e = some (seen J r.2 (M.heap r.1)) := by
  induction e with
  | var x =>
    obtain rfl : x = y := by simpa [Ex.base] using hb
    obtain ⟨r, hr⟩ := Option.isSome_iff_exists.1 (he x (by simp [Ex.vars]))
    exact ⟨r, r, hr, hr, rfl, by simp only [Heap.val, h.val, hr]; rfl⟩
  | transp p a iha =>
    obtain ⟨r, r0, h1, h2, h3, h4⟩ := iha (by simpa [Ex.base] using hb) fun x hx => he x (by simpa [Ex.vars] using hx)
    exact ⟨(r.1, p :: r.2), r0, by simp [Ex.ref, h1], h2, h3, by simp only [Heap.val, h4]; rfl⟩
  | _ => simp [Ex.base] at hb

theorem mkRef_spec {M : Mem W} {E : Env} {v : Vals W} (h : Rel J M E v) (e : Ex) (he : Ok E e) :
    ∃ r M' w, mkRef J M E e = some (r, M') ∧ Heap.val J v e = some w ∧ seen J r.2 (M'.heap r.1) = w ∧ M.next ≤ M'.next ∧
      (∀ l < M.next, M'.heap l = M.heap l) ∧ r.1 < M'.next ∧ (e.base = none → r = (M.next, [])) ∧
      (∀ y, e.base = some y → ∃ r0, E y = some r0 ∧ r.1 = r0.1) ∧ (∀ y, e = .var y → E y = some r) := by
  cases hb : e.base with
  | none =>
    obtain ⟨w, hw⟩ := h.ex e he
    refine ⟨(M.next, []), ⟨M.next + 1, fun l => if l = M.next then w else M.heap l⟩, w, ?_, hw, ?_, Nat.le_succ _, ?_, Nat.lt_succ_self _,
      fun _ => rfl, ?_, ?_⟩
    · simp only [mkRef, hb, h.eval, hw]; rfl
    · simp [seen]
    · intro l hl
      have : l ≠ M.next := by omega
      simp [this]
    · intro y hy; cases hy
    · rintro y rfl; simp [Ex.base] at hb
  | some y =>
    obtain ⟨r, r0, h1, h2, h3, h4⟩ := ref_spec h e hb he
    refine ⟨r, M, _, by simp only [mkRef, hb, h1]; rfl, h4, rfl, le_rfl, fun _ _ => rfl, ?_, ?_, ?_, ?_⟩
    · rw [h3]; exact h.lt y r0 h2
    · intro h; cases h
    · rintro y' hy'
      obtain rfl : y = y' := by simpa using hy'
      exact ⟨r0, h2, h3⟩
    · rintro y' rfl
      exact h1

/-- `Rel` survives changes of the heap above `next` -/
theorem Rel.mono {M M' : Mem W} {E : Env} {v : Vals W} (h : Rel J M E v) (hn : M.next ≤ M'.next) (hh : ∀ l < M.next, M'.heap l = M.heap l) :
    Rel J M' E v := by
  refine ⟨fun x => ?_, fun x r hr => (h.lt x r hr).trans_le hn⟩
  rw [h.val]
  cases hx : E x with
  | none => rfl
  | some r => simp only [Option.map_some]; rw [hh _ (h.lt x r hx)]

theorem Rel.set {M : Mem W} {E : Env} {v : Vals W} (h : Rel J M E v) (x : ℕ) (r : Ref) (hr : r.1 < M.next) :
    Rel J M (E.set x (some r)) (v.set x (some (seen J r.2 (M.heap r.1)))) := by
  refine ⟨fun y => ?_, fun y s hs => ?_⟩
  · simp only [Vals.set, Env.set]
    split_ifs with hy
    · rfl
    · exact h.val y
  · simp only [Env.set] at hs
    split_ifs at hs with hy
    · cases hs; exact hr
    · exact h.lt y s hs

theorem bindAll_spec {E : Env} {v : Vals W} (ps : List (ℕ × Ex)) (hp : ∀ p ∈ ps, Ok E p.2) :
    ∀ {M : Mem W} {E' : Env} {v' : Vals W}, Rel J M E v → Rel J M E' v' →
    ∃ M' E'' v'', bindAll J E ps M E' = some (M', E'') ∧ valAll J v ps v' = some v'' ∧ Rel J M' E'' v'' ∧ M.next ≤ M'.next ∧
      (∀ l < M.next, M'.heap l = M.heap l) ∧ (∀ x, x ∉ ps.map Prod.fst → E'' x = E' x ∧ v'' x = v' x) ∧
      (∀ x ∈ ps.map Prod.fst, ∃ r e, E'' x = some r ∧ (x, e) ∈ ps ∧ (e.base = none → M.next ≤ r.1 ∧ r.2 = []) ∧
        (∀ y, e.base = some y → ∃ r0, E y = some r0 ∧ r.1 = r0.1) ∧ (∀ y, e = .var y → E y = some r)) := by
  induction ps with
  | nil => intro M E' v' _ h'; exact ⟨M, E', v', rfl, rfl, h', le_rfl, fun _ _ => rfl, fun _ _ => ⟨rfl, rfl⟩, fun x hx => by simp at hx⟩
  | cons p ps ih =>
    obtain ⟨x, e⟩ := p
    intro M E' v' h h'
    obtain ⟨r, M1, w, e1, e2, e3, e4, e5, e6, e7, e8, e9⟩ := mkRef_spec h e (hp (x, e) (by simp))
    have h1 := h.mono e4 e5
    have h1' := (h'.mono e4 e5).set x r e6
    obtain ⟨M2, E2, v2, f1, f2, f3, f4, f5, f6, f7⟩ := ih (fun p hp' => hp p (by simp [hp'])) h1 h1'
    rw [e3] at f2
    refine ⟨M2, E2, v2, ?_, ?_, f3, e4.trans f4, fun l hl => (f5 l (hl.trans_le e4)).trans (e5 l hl), ?_, ?_⟩
    · simp only [bindAll, e1]; exact f1
    · simp only [valAll, e2]; exact f2
    · intro y hy
      simp only [List.map_cons, List.mem_cons, not_or] at hy
      obtain ⟨g1, g2⟩ := f6 y hy.2
      rw [g1, g2]
      simp [Env.set, Vals.set, hy.1]
    · intro y hy
      by_cases hy' : y ∈ ps.map Prod.fst
      · obtain ⟨s, e', g1, g2, g3, g4, g5⟩ := f7 y hy'
        exact ⟨s, e', g1, by simp [g2], fun hb => ⟨e4.trans (g3 hb).1, (g3 hb).2⟩, g4, g5⟩
      · obtain rfl : y = x := by
          simp only [List.map_cons, List.mem_cons] at hy
          exact hy.resolve_right hy'
        refine ⟨r, e, by rw [(f6 y hy').1]; simp [Env.set], by simp, ?_, e8, e9⟩
        intro hb
        rw [e7 hb]
        exact ⟨le_rfl, rfl⟩

/-! ### statements -/

variable (J) in
structure Inv (A : Abs) (M : Mem W) (E : Env) (v : Vals W) : Prop where
  rel : Rel J M E v
  bound : ∀ x ∈ A.bound, (E x).isSome
  owned : ∀ x ∈ A.owned, ∃ l, E x = some (l, []) ∧ ∀ y r, E y = some r → r.1 = l → y = x

theorem Inv.ok {A : Abs} {M : Mem W} {E : Env} {v : Vals W} (h : Inv J A M E v) {e : Ex} (he : closed A e = true) : Ok E e := by
  intro x hx
  have := List.all_eq_true.1 he x hx
  exact h.bound x (mem_iff.1 this)

theorem back_spec {l : List ℕ} {v' : Vals W} (ps : List (ℕ × Ex)) (v : Vals W) (y : ℕ) :
    ((∀ x, (x, Ex.var y) ∈ ps → x ∉ l) → back l v' ps v y = v y) ∧
    (∀ w, (∃ x ∈ l, (x, Ex.var y) ∈ ps) → (∀ x ∈ l, (x, Ex.var y) ∈ ps → v' x = w) → back l v' ps v y = w) := by
  induction ps generalizing v with
  | nil => exact ⟨fun _ => rfl, fun w h => by obtain ⟨x, _, h⟩ := h; simp at h⟩
  | cons p ps ih =>
    obtain ⟨x, e⟩ := p
    by_cases he : ∃ z, e = .var z
    · obtain ⟨z, rfl⟩ := he
      simp only [back]
      constructor
      · intro h
        rw [(ih _).1 fun x' hx' => h x' (by simp [hx'])]
        split_ifs with hx
        · have : y ≠ z := by
            rintro rfl
            exact h x (by simp) hx
          simp [Vals.set, this]
        · rfl
      · intro w hex hall
        by_cases hex' : ∃ x ∈ l, (x, Ex.var y) ∈ ps
        · exact (ih _).2 w hex' fun x' h1 h2 => hall x' h1 (by simp [h2])
        · rw [(ih _).1 fun x' hx' hl => hex' ⟨x', hl, hx'⟩]
          obtain ⟨x', hl, hx'⟩ := hex
          rcases List.mem_cons.1 hx' with hx' | hx'
          · obtain ⟨rfl, rfl⟩ : x' = x ∧ y = z := by simpa using hx'
            rw [if_pos hl]
            simp only [Vals.set, if_true]
            exact hall x' hl (by simp)
          · exact absurd ⟨x', hl, hx'⟩ hex'
    · have hb : back l v' ((x, e) :: ps) v = back l v' ps v := by
        cases e with
        | var z => exact absurd ⟨z, rfl⟩ he
        | _ => rfl
      rw [hb]
      have hm : ∀ x', (x', Ex.var y) ∈ (x, e) :: ps → (x', Ex.var y) ∈ ps := by
        intro x' h
        rcases List.mem_cons.1 h with h | h
        · exact absurd ⟨y, (by simpa using h : x' = x ∧ Ex.var y = e).2.symm⟩ he
        · exact h
      refine ⟨fun h => (ih _).1 fun x' hx' => h x' (by simp [hx']), fun w hex hall => (ih _).2 w ?_ fun x' h1 h2 => hall x' h1 (by simp [h2])⟩
      obtain ⟨x', h1, h2⟩ := hex
      exact ⟨x', h1, hm x' h2⟩

theorem mem_foldr_add {z : ℕ} {xs l : List ℕ} : z ∈ xs.foldr add l ↔ z ∈ xs ∨ z ∈ l := by
  induction xs with
  | nil => simp
  | cons x xs ih => rw [List.foldr_cons, mem_add, ih, List.mem_cons, or_assoc]

theorem mem_foldr_drop {z : ℕ} {xs l : List ℕ} : z ∈ xs.foldr drop l ↔ z ∉ xs ∧ z ∈ l := by
  induction xs with
  | nil => simp
  | cons x xs ih => rw [List.foldr_cons, mem_drop, ih, List.mem_cons, not_or]; tauto

theorem mem_ownedParams {A : Abs} {ps : List (ℕ × Ex)} {p : ℕ} (h : p ∈ ownedParams A ps) :
    ∃ y, (p, Ex.var y) ∈ ps ∧ y ∈ A.owned ∧ (bases ps).count y = 1 := by
  unfold ownedParams at h
  rw [List.mem_filterMap] at h
  obtain ⟨⟨q, e⟩, h1, h2⟩ := h
  cases e with
  | var y =>
    simp only at h2
    split_ifs at h2 with h3
    obtain rfl : q = p := by simpa using h2
    rw [Bool.and_eq_true, mem_iff] at h3
    exact ⟨y, h1, h3.1, by simpa using h3.2⟩
  | _ => simp at h2

/-- if only one of the arguments shares the buffer of `y` then two entries that do are the same -/
theorem unique_base {ps : List (ℕ × Ex)} {y : ℕ} (h : (bases ps).count y = 1) {p q : ℕ × Ex} (hp : p ∈ ps) (hq : q ∈ ps)
    (hpy : p.2.base = some y) (hqy : q.2.base = some y) : p = q := by
  induction ps with
  | nil => simp at hp
  | cons a ps ih =>
    have hpos : ∀ q ∈ ps, q.2.base = some y → 0 < (bases ps).count y := by
      intro q hq hqy
      rw [List.count_pos_iff]
      exact List.mem_filterMap.2 ⟨q, hq, hqy⟩
    by_cases ha : a.2.base = some y
    · have e : bases (a :: ps) = y :: bases ps := by simp [bases, ha]
      rw [e, List.count_cons_self] at h
      rcases List.mem_cons.1 hp with rfl | hp
      · rcases List.mem_cons.1 hq with rfl | hq
        · rfl
        · have := hpos q hq hqy; omega
      · have := hpos p hp hpy; omega
    · have hp' : p ∈ ps := (List.mem_cons.1 hp).resolve_left (by rintro rfl; exact ha hpy)
      have hq' : q ∈ ps := (List.mem_cons.1 hq).resolve_left (by rintro rfl; exact ha hqy)
      refine ih ?_ hp' hq'
      rw [← h]
      unfold bases
      rw [List.filterMap_cons]
      cases hb : a.2.base with
      | none => rfl
      | some z =>
        have : z ≠ y := by rintro rfl; exact ha hb
        simp [this]

/-- What an accepted statement does. -/
structure Post (s : Stmt) (A A' : Abs) (M : Mem W) (E : Env) (v : Vals W) (M' : Mem W) (E' : Env) (v' : Vals W) : Prop where
  inv : Inv J A' M' E' v'
  next : M.next ≤ M'.next
  frame : ∀ l < M.next, (∀ x ∈ A.owned, E x ≠ some (l, [])) → M'.heap l = M.heap l
  own : ∀ x ∈ A'.owned, ∀ l, E' x = some (l, []) → M.next ≤ l ∨ (x ∈ A.owned ∧ E x = some (l, []))
  keep : ∀ x, x ∉ s.assigned → E' x = E x
  same : ∀ x, x ∉ s.assigned → x ∉ s.augs → v' x = v x

theorem chk_sound (s : Stmt) : ∀ {A A' : Abs} {M : Mem W} {E : Env} {v : Vals W}, chk s A = some A' → Inv J A M E v →
    ∃ M' E' v', exec J s M E = some (M', E') ∧ pexec J s v = some v' ∧ Post (J := J) s A A' M E v M' E' v' := by
  induction s with
  | skip =>
    intro A A' M E v hc h
    obtain rfl : A = A' := by simpa [chk] using hc
    exact ⟨M, E, v, rfl, rfl, h, le_rfl, fun _ _ _ => rfl, fun x hx l hl => .inr ⟨hx, hl⟩, fun _ _ => rfl, fun _ _ _ => rfl⟩
  | seq s t ihs iht =>
    intro A A' M E v hc h
    simp only [chk] at hc
    cases hB : chk s A with
    | none => rw [hB] at hc; cases hc
    | some B =>
      rw [hB] at hc
      obtain ⟨M1, E1, v1, e1, p1, h1⟩ := ihs hB h
      obtain ⟨M2, E2, v2, e2, p2, h2⟩ := iht hc h1.inv
      refine ⟨M2, E2, v2, by simp only [exec, e1]; exact e2, by simp only [pexec, p1]; exact p2, h2.inv, h1.next.trans h2.next, ?_, ?_, ?_, ?_⟩
      · intro l hl hn
        rw [h2.frame l (hl.trans_le h1.next), h1.frame l hl hn]
        intro x hx hE
        rcases h1.own x hx l hE with h | ⟨ha, hb⟩
        · omega
        · exact hn x ha hb
      · intro x hx l hl
        rcases h2.own x hx l hl with h | ⟨ha, hb⟩
        · exact .inl (h1.next.trans h)
        · exact h1.own x ha l hb
      · intro x hx
        simp only [Stmt.assigned, List.mem_append, not_or] at hx
        rw [h2.keep x hx.2, h1.keep x hx.1]
      · intro x hx hy
        simp only [Stmt.assigned, Stmt.augs, List.mem_append, not_or] at hx hy
        rw [h2.same x hx.2 hy.2, h1.same x hx.1 hy.1]
  | assign x e =>
    intro A A' M E v hc h
    simp only [chk] at hc
    split_ifs at hc with hcl
    obtain ⟨r, M1, w, e1, e2, e3, e4, e5, e6, e7, e8, e9⟩ := mkRef_spec h.rel e (h.ok hcl)
    have hrel := (h.rel.mono e4 e5).set x r e6
    rw [e3] at hrel
    refine ⟨M1, E.set x (some r), v.set x (some w), by simp only [exec, e1]; rfl, by simp only [pexec, e2]; rfl, ⟨hrel, ?_, ?_⟩, e4,
      fun l hl _ => e5 l hl, ?_, ?_, ?_⟩
    · intro y hy
      have hy : y ∈ add x A.bound := by
        cases hb : e.base with
        | none => rw [hb] at hc; cases hc; exact hy
        | some z => rw [hb] at hc; cases hc; exact hy
      simp only [Env.set]
      split_ifs with hyx
      · rfl
      · exact h.bound y ((mem_add.1 hy).resolve_left hyx)
    · intro y hy
      cases hb : e.base with
      | none =>
        rw [hb] at hc; cases hc
        by_cases hyx : y = x
        · subst hyx
          refine ⟨M.next, by simp [Env.set, e7 hb], fun z s hz hs => ?_⟩
          simp only [Env.set] at hz
          split_ifs at hz with hzx
          · exact hzx
          · have := h.rel.lt z s hz
            omega
        · obtain ⟨l, hl, hu⟩ := h.owned y ((mem_add.1 hy).resolve_left hyx)
          refine ⟨l, by simp [Env.set, hyx, hl], fun z s hz hs => ?_⟩
          simp only [Env.set] at hz
          split_ifs at hz with hzx
          · cases hz
            rw [e7 hb] at hs
            have := h.rel.lt y _ hl
            simp only at hs this
            omega
          · exact hu z s hz hs
      | some z =>
        rw [hb] at hc; cases hc
        simp only [mem_drop] at hy
        obtain ⟨⟨hyo, hyz⟩, hyx⟩ := hy
        obtain ⟨l, hl, hu⟩ := h.owned y hyo
        refine ⟨l, by simp [Env.set, hyx, hl], fun z' s hz hs => ?_⟩
        simp only [Env.set] at hz
        split_ifs at hz with hzx
        · cases hz
          obtain ⟨r0, g1, g2⟩ := e8 z hb
          exact absurd (hu z r0 g1 (g2.symm.trans hs)).symm hyz
        · exact hu z' s hz hs
    · intro y hy l hl
      cases hb : e.base with
      | none =>
        rw [hb] at hc; cases hc
        by_cases hyx : y = x
        · subst hyx
          simp only [Env.set, if_true, e7 hb] at hl
          left
          simp only [Option.some.injEq, Prod.mk.injEq, and_true] at hl
          omega
        · right
          simp only [Env.set, if_neg hyx] at hl
          exact ⟨(mem_add.1 hy).resolve_left hyx, hl⟩
      | some z =>
        rw [hb] at hc; cases hc
        simp only [mem_drop] at hy
        right
        simp only [Env.set, if_neg hy.2] at hl
        exact ⟨hy.1.1, hl⟩
    · intro y hy
      have : y ≠ x := by simpa [Stmt.assigned] using hy
      simp [Env.set, this]
    · intro y hy _
      have : y ≠ x := by simpa [Stmt.assigned] using hy
      simp [Vals.set, this]
  | aug x o e =>
    intro A A' M E v hc h
    simp only [chk] at hc
    split_ifs at hc with hcl
    obtain rfl : A = A' := by simpa using hc
    rw [Bool.and_eq_true, mem_iff] at hcl
    obtain ⟨l, hl, hu⟩ := h.owned x hcl.2
    obtain ⟨w, hw⟩ := h.rel.ex e (h.ok hcl.1)
    have hv : v x = some (M.heap l) := by rw [h.rel.val, hl]; rfl
    refine ⟨⟨M.next, fun l' => if l' = l then J.bin o (M.heap l) w else M.heap l'⟩, E, v.set x (some (J.bin o (M.heap l) w)),
      by simp only [exec, h.rel.eval, hw, hl]; rfl, by simp only [pexec, hw, hv]; rfl, ⟨⟨fun y => ?_, h.rel.lt⟩, h.bound, h.owned⟩, le_rfl, ?_,
      fun y hy l' hl' => .inr ⟨hy, hl'⟩, fun _ _ => rfl, ?_⟩
    · simp only [Vals.set]
      split_ifs with hy
      · subst hy; rw [hl]; simp [seen]
      · rw [h.rel.val]
        cases hE : E y with
        | none => rfl
        | some r =>
          have : r.1 ≠ l := fun hh => hy (hu y r hE hh)
          simp [this]
    · intro l' _ hn
      have : l' ≠ l := by rintro rfl; exact hn x hcl.2 hl
      simp [this]
    · intro y _ hy
      have : y ≠ x := by simpa [Stmt.augs] using hy
      simp [Vals.set, this]
  | del x =>
    intro A A' M E v hc h
    simp only [chk] at hc
    split_ifs at hc with hcl
    cases hc
    obtain ⟨r, hr⟩ := Option.isSome_iff_exists.1 (h.bound x (mem_iff.1 hcl))
    have hv : v x = some (seen J r.2 (M.heap r.1)) := by rw [h.rel.val, hr]; rfl
    refine ⟨M, E.set x none, v.set x none, by simp only [exec, hr]; rfl, by simp only [pexec, hv]; rfl, ⟨⟨fun y => ?_, fun y s hs => ?_⟩, ?_, ?_⟩,
      le_rfl, fun _ _ _ => rfl, ?_, ?_, ?_⟩
    · simp only [Vals.set, Env.set]
      split_ifs
      · rfl
      · exact h.rel.val y
    · simp only [Env.set] at hs
      split_ifs at hs
      exact h.rel.lt y s hs
    · intro y hy
      obtain ⟨h1, h2⟩ := mem_drop.1 hy
      simp only [Env.set, if_neg h2]
      exact h.bound y h1
    · intro y hy
      obtain ⟨h1, h2⟩ := mem_drop.1 hy
      obtain ⟨l, hl, hu⟩ := h.owned y h1
      refine ⟨l, by simp only [Env.set, if_neg h2]; exact hl, fun z s hz hs => ?_⟩
      simp only [Env.set] at hz
      split_ifs at hz
      exact hu z s hz hs
    · intro y hy l hl
      obtain ⟨h1, h2⟩ := mem_drop.1 hy
      simp only [Env.set, if_neg h2] at hl
      exact .inr ⟨h1, hl⟩
    · intro y hy
      have : y ≠ x := by simpa [Stmt.assigned] using hy
      simp [Env.set, this]
    · intro y hy _
      have : y ≠ x := by simpa [Stmt.assigned] using hy
      simp [Vals.set, this]
  | call ps body rs ih =>
    intro A A' M E v hc h
    simp only [chk] at hc
    split_ifs at hc with hcl
    rw [Bool.and_eq_true, nodup_iff] at hcl
    obtain ⟨hcl, hnd⟩ := hcl
    cases hB : chk body ⟨ps.map Prod.fst, ownedParams A ps⟩ with
    | none => rw [hB] at hc; cases hc
    | some B =>
      rw [hB] at hc
      simp only at hc
      split_ifs at hc with hg
      cases hc
      rw [Bool.and_eq_true, Bool.and_eq_true] at hg
      obtain ⟨⟨hg1, hg2⟩, hg3⟩ := hg
      have hg1 : ∀ p ∈ ownedParams A ps, p ∉ body.assigned := by
        intro p hp
        have := List.all_eq_true.1 hg1 p hp
        rw [Bool.not_eq_true', ← Bool.not_eq_true, mem_iff] at this
        exact this
      have hg2 : ∀ p y, (p, Ex.var y) ∈ ps → p ∈ body.augs → p ∈ ownedParams A ps := by
        intro p y hp ha
        have := List.all_eq_true.1 hg2 _ hp
        simpa [Ex.isVar, mem_iff.2 ha, mem_iff] using this
      have hg3 : ∀ r ∈ rs, closed B r.2 = true ∧ (∀ y, r.2 = .var y → y ∈ B.owned ∧ y ∉ ps.map Prod.fst) ∧
          ((∀ y, r.2 ≠ .var y) → r.2.base = none) := by
        rintro ⟨x, e⟩ hr
        have := List.all_eq_true.1 hg3 _ hr
        rw [Bool.and_eq_true] at this
        refine ⟨this.1, ?_, ?_⟩
        · rintro y rfl
          have := this.2
          simp only [Bool.and_eq_true, mem_iff, Bool.not_eq_true'] at this
          rw [← Bool.not_eq_true, mem_iff] at this
          exact this
        · intro hy
          have := this.2
          cases e with
          | var y => exact absurd rfl (hy y)
          | _ => simpa using this
      -- binding the parameters
      have hE0 : Rel J M (fun _ => none) (fun _ => none) := ⟨fun _ => rfl, fun x r hr => by cases hr⟩
      obtain ⟨M1, E1, v1, a1, a2, a3, a4, a5, a6, a7⟩ := bindAll_spec (J := J) ps
        (fun p hp => h.ok (List.all_eq_true.1 hcl p hp)) h.rel hE0
      have key : ∀ p e e', (p, e) ∈ ps → (p, e') ∈ ps → e = e' := by
        intro p e e' h1 h2
        have : ∀ (l : List (ℕ × Ex)), (l.map Prod.fst).Nodup → (p, e) ∈ l → (p, e') ∈ l → e = e' := by
          intro l
          induction l with
          | nil => intro _ h; simp at h
          | cons a l ihl =>
            intro hn h1 h2
            simp only [List.map_cons, List.nodup_cons] at hn
            rcases List.mem_cons.1 h1 with k1 | k1 <;> rcases List.mem_cons.1 h2 with k2 | k2
            · rw [← k1] at k2; exact (Prod.mk.inj k2).2.symm
            · rw [← k1] at hn; exact absurd (List.mem_map.2 ⟨(p, e'), k2, rfl⟩) hn.1
            · rw [← k2] at hn; exact absurd (List.mem_map.2 ⟨(p, e), k1, rfl⟩) hn.1
            · exact ihl hn.2 k1 k2
        exact this ps hnd h1 h2
      have hinv1 : Inv J ⟨ps.map Prod.fst, ownedParams A ps⟩ M1 E1 v1 := by
        refine ⟨a3, fun x hx => ?_, fun p hp => ?_⟩
        · obtain ⟨r, e, g, -⟩ := a7 x hx
          simp [g]
        · obtain ⟨y, hy1, hy2, hy3⟩ := mem_ownedParams hp
          obtain ⟨l, hl, hu⟩ := h.owned y hy2
          have hmem : p ∈ ps.map Prod.fst := List.mem_map.2 ⟨_, hy1, rfl⟩
          obtain ⟨r, e, g1, g2, -, -, g5⟩ := a7 p hmem
          have hr : E y = some r := g5 y (key p _ _ g2 hy1)
          rw [hl] at hr
          cases hr
          refine ⟨l, g1, fun q s hq hs => ?_⟩
          have hqm : q ∈ ps.map Prod.fst := by
            by_contra hcon
            have := (a6 q hcon).1
            rw [hq] at this; cases this
          obtain ⟨s', e', k1, k2, k3, k4, -⟩ := a7 q hqm
          rw [hq] at k1; cases k1
          cases hb : e'.base with
          | none =>
            have := (k3 hb).1
            have := h.rel.lt y _ hl
            simp only at this
            omega
          | some z =>
            obtain ⟨r0, k6, k7⟩ := k4 z hb
            obtain rfl := hu z r0 k6 (k7.symm.trans hs)
            have := unique_base hy3 k2 hy1 hb rfl
            exact (Prod.mk.inj this).1
      -- the body
      obtain ⟨M2, E2, v2, b1, b2, hP⟩ := ih hB hinv1
      -- the callee writes only into owned arrays of the caller
      have hframe : ∀ l < M.next, (∀ x ∈ A.owned, E x ≠ some (l, [])) → M2.heap l = M.heap l := by
        intro l hl hn
        rw [hP.frame l (hl.trans_le a4), a5 l hl]
        intro p hp hE
        obtain ⟨y, hy1, hy2, hy3⟩ := mem_ownedParams hp
        obtain ⟨r, e, g1, g2, -, -, g5⟩ := a7 p (List.mem_map.2 ⟨_, hy1, rfl⟩)
        have hr : E y = some r := g5 y (key p _ _ g2 hy1)
        rw [g1] at hE
        cases hE
        exact hn y hy2 hr
      -- the scope of the caller after the call
      have hrel2 : Rel J M2 E (back body.augs v2 ps v) := by
        refine ⟨fun y => ?_, fun x r hr => (h.rel.lt x r hr).trans_le (a4.trans hP.next)⟩
        -- the value of a parameter that is written into
        have hval : ∀ p ∈ ownedParams A ps, ∀ y, (p, Ex.var y) ∈ ps → v2 p = (E y).map fun r => seen J r.2 (M2.heap r.1) := by
          intro p hp y hy
          obtain ⟨r, e, g1, g2, -, -, g5⟩ := a7 p (List.mem_map.2 ⟨_, hy, rfl⟩)
          have hr : E y = some r := g5 y (key p _ _ g2 hy)
          rw [hP.inv.rel.val, hP.keep p (hg1 p hp), g1, hr]
        by_cases hw : ∃ p ∈ body.augs, (p, Ex.var y) ∈ ps
        · refine (back_spec ps v y).2 _ hw fun p hp hpy => ?_
          exact hval p (hg2 p y hpy hp) y hpy
        · rw [(back_spec ps v y).1 fun p hp hl => hw ⟨p, hl, hp⟩, h.rel.val]
          cases hy : E y with
          | none => rfl
          | some r =>
            simp only [Option.map_some]
            by_cases ho : ∃ z ∈ A.owned, E z = some (r.1, [])
            · obtain ⟨z, hz1, hz2⟩ := ho
              obtain ⟨l, hl, hu⟩ := h.owned z hz1
              rw [hl] at hz2
              obtain rfl : l = r.1 := by simpa using hz2
              obtain rfl := hu y r hy rfl
              have hr2 : r = (r.1, []) := by rw [hy] at hl; simpa using hl
              -- either it is passed as an owned parameter that is not written, or the callee cannot reach it
              by_cases hpz : ∃ p ∈ ownedParams A ps, (p, Ex.var y) ∈ ps
              · obtain ⟨p, hp, hpy⟩ := hpz
                have hna : p ∉ body.augs := fun ha => hw ⟨p, ha, hpy⟩
                have e1 := hval p hp y hpy
                rw [hP.same p (hg1 p hp) hna] at e1
                obtain ⟨r', e, g1, g2, -, -, g5⟩ := a7 p (List.mem_map.2 ⟨_, hpy, rfl⟩)
                have hr' : E y = some r' := g5 y (key p _ _ g2 hpy)
                rw [a3.val, g1] at e1
                rw [hr'] at hy; cases hy
                rw [hr'] at e1
                simp only [Option.map_some, Option.some.injEq] at e1
                rw [a5 r.1 (h.rel.lt y r hr')] at e1
                rw [e1]
              · rw [hP.frame r.1 ((h.rel.lt y r hy).trans_le a4), a5 _ (h.rel.lt y r hy)]
                intro p hp hE
                obtain ⟨y', hy1, hy2, hy3⟩ := mem_ownedParams hp
                obtain ⟨r', e, g1, g2, -, -, g5⟩ := a7 p (List.mem_map.2 ⟨_, hy1, rfl⟩)
                have hr' : E y' = some r' := g5 y' (key p _ _ g2 hy1)
                rw [g1] at hE; cases hE
                obtain rfl := hu y' _ hr' rfl
                exact hpz ⟨p, hp, hy1⟩
            · rw [hframe r.1 (h.rel.lt y r hy) fun z hz hE => ho ⟨z, hz, hE⟩]
      -- binding the results
      obtain ⟨M3, E3, v3, c1, c2, c3, c4, c5, c6, c7⟩ := bindAll_spec (J := J) rs
        (fun r hr => hP.inv.ok (hg3 r hr).1) hP.inv.rel hrel2
      have hnew : ∀ x ∈ rs.map Prod.fst, ∃ r, E3 x = some r ∧ M.next ≤ r.1 := by
        intro x hx
        obtain ⟨r, e, g1, g2, g3, -, g5⟩ := c7 x hx
        refine ⟨r, g1, ?_⟩
        by_cases he : ∃ y, e = .var y
        · obtain ⟨y, rfl⟩ := he
          obtain ⟨ho, hk⟩ := (hg3 _ g2).2.1 y rfl
          obtain ⟨l, hl, -⟩ := hP.inv.owned y ho
          have := g5 y rfl
          rw [hl] at this; cases this
          rcases hP.own y ho l hl with h' | ⟨h', -⟩
          · exact a4.trans h'
          · obtain ⟨z, hz, -⟩ := mem_ownedParams h'
            exact absurd (List.mem_map.2 ⟨_, hz, rfl⟩) hk
        · have := (g3 ((hg3 _ g2).2.2 fun y hy => he ⟨y, hy⟩)).1
          exact (a4.trans hP.next).trans this
      have hn2 : M.next ≤ M2.next := a4.trans hP.next
      refine ⟨M3, E3, v3, by simp only [exec, a1, Option.bind_eq_bind, Option.bind_some, b1]; exact c1,
        by simp only [pexec, a2, Option.bind_eq_bind, Option.bind_some, b2]; exact c2, ⟨c3, ?_, ?_⟩, hn2.trans c4, ?_, ?_, ?_, ?_⟩
      · intro x hx
        by_cases hx' : x ∈ rs.map Prod.fst
        · obtain ⟨r, hr, -⟩ := hnew x hx'
          simp [hr]
        · rw [(c6 x hx').1]
          exact h.bound x ((mem_foldr_add.1 hx).resolve_left hx')
      · intro x hx
        obtain ⟨hx', hxo⟩ := mem_foldr_drop.1 hx
        obtain ⟨l, hl, hu⟩ := h.owned x hxo
        refine ⟨l, by rw [(c6 x hx').1]; exact hl, fun y s hy hs => ?_⟩
        by_cases hy' : y ∈ rs.map Prod.fst
        · obtain ⟨r, hr, hlt⟩ := hnew y hy'
          rw [hr] at hy; cases hy
          have := h.rel.lt x _ hl
          simp only at this
          omega
        · rw [(c6 y hy').1] at hy
          exact hu y s hy hs
      · intro l hl hn
        rw [c5 l (hl.trans_le hn2), hframe l hl hn]
      · intro x hx l hl
        obtain ⟨hx', hxo⟩ := mem_foldr_drop.1 hx
        rw [(c6 x hx').1] at hl
        exact .inr ⟨hxo, hl⟩
      · intro x hx
        exact (c6 x hx).1
      · intro x hx ha
        rw [(c6 x hx).2]
        refine (back_spec ps v x).1 fun p hp hl => ha ?_
        simp only [Stmt.augs, List.mem_filterMap]
        exact ⟨_, hp, by simp [hl]⟩

end Heap
