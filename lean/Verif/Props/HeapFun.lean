import Verif.Props.HeapLemmas
import Mathlib.Data.List.Nodup
/-!
# Routines that leave their arguments alone
-/

namespace Heap
variable {W : Type} {J : Interp W}

/-- C42: whatever arrays the routine is called with — however they share memory — and whatever the array operators compute, the call
succeeds, no array that existed before is changed, the returned arrays are new and share no memory with each other, and their contents are
a function of the contents of the arguments: that of the semantics in which every name has a value of its own. -/
def LeavesArguments (f : Fun) : Prop :=
  ∀ (W : Type) (J : Interp W) (M : Mem W) (args : List Ref), args.length = f.params.length → (∀ r ∈ args, r.1 < M.next) →
    ∃ rs M', f.run J args M = some (rs, M') ∧ (∀ l < M.next, M'.heap l = M.heap l) ∧ (∀ r ∈ rs, M.next ≤ r.1) ∧ (rs.map Prod.fst).Nodup ∧
      f.prun J (args.map fun r => seen J r.2 (M.heap r.1)) = some (rs.map fun r => seen J r.2 (M'.heap r.1))

def retVars (es : List Ex) : List ℕ := es.filterMap Ex.base

def chkFun (f : Fun) : Bool :=
  nodup f.params && match chk f.body ⟨f.params, []⟩ with
    | some B => (f.ret.all fun e => closed B e && match e with
        | .var y => mem y B.owned
        | e => e.base.isNone) && nodup (retVars f.ret)
    | none => false

theorem bindArgs_rel (M : Mem W) (ps : List ℕ) (args : List Ref) (h : ∀ r ∈ args, r.1 < M.next) :
    Rel J M (bindArgs ps args) (pbindArgs ps (args.map fun r => seen J r.2 (M.heap r.1))) := by
  induction ps generalizing args with
  | nil => exact ⟨fun _ => rfl, fun x r hr => by cases args <;> cases hr⟩
  | cons x ps ih =>
    cases args with
    | nil => exact ⟨fun _ => rfl, fun x r hr => by cases hr⟩
    | cons r args => exact (ih args fun r hr => h r (by simp [hr])).set x r (h r (by simp))

theorem bindArgs_some (ps : List ℕ) (args : List Ref) (h : args.length = ps.length) : ∀ x ∈ ps, (bindArgs ps args x).isSome := by
  induction ps generalizing args with
  | nil => simp
  | cons y ps ih =>
    cases args with
    | nil => simp at h
    | cons r args =>
      intro x hx
      simp only [bindArgs, Env.set]
      split_ifs with hxy
      · rfl
      · exact ih args (by simpa using h) x ((List.mem_cons.1 hx).resolve_left hxy)

theorem mkRefs_spec {E : Env} {v : Vals W} {o : List ℕ} (es : List Ex) :
    ∀ {M : Mem W}, Rel J M E v → (∀ e ∈ es, Ok E e) → (∀ e ∈ es, (∃ y ∈ o, e = .var y) ∨ e.base = none) →
      (∀ x ∈ o, ∃ l, E x = some (l, []) ∧ ∀ y r, E y = some r → r.1 = l → y = x) → (retVars es).Nodup →
      ∃ rs M', mkRefs J E es M = some (rs, M') ∧ (∀ l < M.next, M'.heap l = M.heap l) ∧ M.next ≤ M'.next ∧
        (∀ r ∈ rs, r.1 < M'.next ∧ (M.next ≤ r.1 ∨ ∃ x ∈ retVars es, x ∈ o ∧ E x = some r)) ∧ (rs.map Prod.fst).Nodup ∧
        es.mapM (val J v) = some (rs.map fun r => seen J r.2 (M'.heap r.1)) := by
  induction es with
  | nil => intro M _ _ _ _ _; exact ⟨[], M, rfl, fun _ _ => rfl, le_rfl, by simp, by simp, rfl⟩
  | cons e es ih =>
    intro M h hok hes ho hnd
    obtain ⟨r, M1, w, e1, e2, e3, e4, e5, e6, e7, e8, e9⟩ := mkRef_spec h e (hok e (by simp))
    have hnd' : (retVars es).Nodup := by
      unfold retVars at hnd ⊢
      rw [List.filterMap_cons] at hnd
      cases hb : e.base with
      | none => rw [hb] at hnd; exact hnd
      | some y => rw [hb] at hnd; exact (List.nodup_cons.1 hnd).2
    obtain ⟨rs, M2, f1, f2, f3, f4, f5, f6⟩ := ih (h.mono e4 e5) (fun e he => hok e (by simp [he])) (fun e he => hes e (by simp [he])) ho hnd'
    refine ⟨r :: rs, M2, ?_, fun l hl => (f2 l (hl.trans_le e4)).trans (e5 l hl), e4.trans f3, ?_, ?_, ?_⟩
    · simp only [mkRefs, e1, Option.bind_eq_bind, Option.bind_some, f1]; rfl
    · intro s hs
      rcases List.mem_cons.1 hs with rfl | hs
      · refine ⟨e6.trans_le f3, ?_⟩
        rcases hes e (by simp) with ⟨y, hy, rfl⟩ | hb
        · right
          exact ⟨y, by simp [retVars, Ex.base], hy, e9 y rfl⟩
        · left
          rw [e7 hb]
      · obtain ⟨g1, g2⟩ := f4 s hs
        refine ⟨g1, g2.imp (fun g => e4.trans g) ?_⟩
        rintro ⟨x, hx1, hx2⟩
        refine ⟨x, ?_, hx2⟩
        unfold retVars at hx1 ⊢
        rw [List.filterMap_cons]
        cases e.base with
        | none => exact hx1
        | some y => simp [hx1]
    · simp only [List.map_cons, List.nodup_cons]
      refine ⟨fun hm => ?_, f5⟩
      obtain ⟨s, hs1, hs2⟩ := List.mem_map.1 hm
      obtain ⟨g1, g2⟩ := f4 s hs1
      rcases g2 with g2 | ⟨x, hx1, hx2, hx3⟩
      · omega
      · rcases hes e (by simp) with ⟨y, hy, rfl⟩ | hb
        · obtain ⟨l, hl, hu⟩ := ho y hy
          have hr := e9 y rfl
          rw [hl] at hr; cases hr
          have := hu x s hx3 hs2
          subst this
          simp only [retVars, List.filterMap_cons, Ex.base] at hnd hx1
          exact (List.nodup_cons.1 hnd).1 hx1
        · have := h.lt x s hx3
          rw [e7 hb] at hs2
          simp only at hs2
          omega
    · rw [List.mapM_cons, e2, f6]
      simp only [Option.bind_eq_bind, Option.bind_some, List.map_cons, f2 r.1 e6, e3]
      rfl

theorem chkFun_sound {f : Fun} (h : chkFun f = true) : LeavesArguments f := by
  intro W J M args hlen hlt
  unfold chkFun at h
  rw [Bool.and_eq_true, nodup_iff] at h
  obtain ⟨-, h⟩ := h
  cases hB : chk f.body ⟨f.params, []⟩ with
  | none => rw [hB] at h; simp at h
  | some B =>
    rw [hB] at h
    simp only [Bool.and_eq_true, nodup_iff] at h
    obtain ⟨h1, h2⟩ := h
    have hinv : Inv J ⟨f.params, []⟩ M (bindArgs f.params args) (pbindArgs f.params (args.map fun r => seen J r.2 (M.heap r.1))) :=
      ⟨bindArgs_rel M f.params args hlt, bindArgs_some f.params args hlen, by simp⟩
    obtain ⟨M1, E1, v1, a1, a2, hP⟩ := chk_sound f.body hB hinv
    have h1' : ∀ e ∈ f.ret, closed B e = true ∧ ((∃ y ∈ B.owned, e = .var y) ∨ e.base = none) := by
      intro e he
      have := List.all_eq_true.1 h1 e he
      rw [Bool.and_eq_true] at this
      refine ⟨this.1, ?_⟩
      have := this.2
      cases e with
      | var y => left; exact ⟨y, mem_iff.1 (by simpa using this), rfl⟩
      | _ => right; simpa using this
    obtain ⟨rs, M2, b1, b2, b3, b4, b5, b6⟩ := mkRefs_spec f.ret hP.inv.rel (fun e he => hP.inv.ok (h1' e he).1)
      (fun e he => (h1' e he).2) hP.inv.owned h2
    refine ⟨rs, M2, ?_, ?_, ?_, b5, ?_⟩
    · simp only [Fun.run, a1, Option.bind_eq_bind, Option.bind_some]; exact b1
    · intro l hl
      rw [b2 l (hl.trans_le hP.next), hP.frame l hl (by simp)]
    · intro r hr
      rcases (b4 r hr).2 with g | ⟨x, -, hx1, hx2⟩
      · exact hP.next.trans g
      · obtain ⟨l, hl, -⟩ := hP.inv.owned x hx1
        rw [hl] at hx2; cases hx2
        rcases hP.own x hx1 l hl with g | ⟨g, -⟩
        · exact g
        · simp at g
    · simp only [Fun.prun, a2, Option.bind_eq_bind, Option.bind_some]; exact b6

/-! ### the property is not always true -/

/-- `def f(x, y): x += y; return y` writes into its argument -/
example : ¬ LeavesArguments ⟨[0, 1], .aug 0 .add (.var 1), []⟩ := by
  intro h
  obtain ⟨rs, M', h1, h2, -⟩ := h ℤ ⟨fun _ _ => 0, fun _ _ _ => 0, fun _ a b => a + b, id, fun a _ => a, fun _ => id, fun _ _ => id⟩ ⟨2, fun _ => 1⟩
    [(0, []), (1, [])] rfl (by simp)
  have := h2 0 (by decide)
  have e : rs = [] ∧ M' = ⟨2, fun l => if l = 0 then 1 + 1 else 1⟩ := by
    simpa [Fun.run, exec, eval, bindArgs, Env.set, seen, wrote, mkRefs, eq_comm] using h1
  rw [e.2] at this
  simp at this

/-- `def f(x): y = x; y += y; return y` also does, through another name -/
example : ¬ LeavesArguments ⟨[0], .seq (.assign 1 (.var 0)) (.aug 1 .add (.var 1)), [.var 1]⟩ := by
  intro h
  obtain ⟨rs, M', h1, h2, -⟩ := h ℤ ⟨fun _ _ => 0, fun _ _ _ => 0, fun _ a b => a + b, id, fun a _ => a, fun _ => id, fun _ _ => id⟩ ⟨1, fun _ => 1⟩
    [(0, [])] rfl (by simp)
  have := h2 0 (by decide)
  have e : rs = [(0, [])] ∧ M' = ⟨1, fun l => if l = 0 then 1 + 1 else 1⟩ := by
    simpa [Fun.run, exec, eval, bindArgs, Env.set, seen, wrote, mkRefs, mkRef, Ex.base, Ex.ref, eq_comm] using h1
  rw [e.2] at this
  simp at this

end Heap
