import Verif.Model.Cost
import Verif.Props.NumTypes
import Mathlib.Tactic.Ring
/-!
# C89: the work of a routine as a polynomial in the extents

The loops of a run depend only on the shapes of the arguments, so that the run on kinds of axes gives them for all extents.
-/

namespace Heap
variable {W A B C D : Type}

/-! ### shapes without contents and element types -/

def shEin (ins : List (List ℕ)) (out : List ℕ) (ss : List (List ℕ)) : Except Err (List ℕ) :=
  match einShape ins out ss with
  | none => .error .shape
  | some (s, _) => .ok s

def shBin (s t : List ℕ) : Except Err (List ℕ) :=
  match bshape s t with
  | none => .error .shape
  | some u => .ok u

def shAug (s t : List ℕ) : Except Err (List ℕ) := if bshape s t = some s then .ok s else .error .shape

def shTransp (p s : List ℕ) : Except Err (List ℕ) :=
  match transpShape p s with
  | none => .error .shape
  | some u => .ok u

def shapes : PInterp (List ℕ) where
  lit _ _ := []
  ein := shEin
  bin _ := shBin
  aug _ := shAug
  neg := id
  cast s _ := .ok s
  transp := shTransp

/-! ### the loops belong to the run -/

def Traced.val (m : Traced A) : Except Err A := m.map Prod.fst

theorem Traced.val_pure (a : A) : (Traced.pure a).val = .ok a := rfl

theorem Traced.val_bind (m : Traced A) (k : A → Traced B) : (m.bind k).val = m.val >>= fun a => (k a).val := by
  unfold Traced.bind Traced.val
  rcases m with _ | ⟨a, s⟩
  · rfl
  · show Except.map _ _ = (k a).map Prod.fst
    dsimp only
    rcases k a with _ | ⟨b, t⟩ <;> rfl

theorem Traced.val_op (m : Except Err A) (s : A → List Ev) : (Traced.op m s).val = m := by
  cases m <;> rfl

section
variable (J : PInterp W) (sh : W → List ℕ)

theorem trEin_val (ins : List (List ℕ)) (out : List ℕ) (as : List W) : (trEin J sh ins out as).val = J.ein ins out as := Traced.val_op _ _

theorem tval_val (v : Vals W) (e : Ex) : (tval J sh v e).val = nval J v e := by
  induction e with
  | var x => exact Traced.val_op _ _
  | lit p q => rfl
  | copy a iha =>
    simp only [tval, nval, Traced.val_bind, iha, Traced.val_op]
    cases nval J v a <;> rfl
  | _ => simp only [tval, nval, Traced.val_bind, Traced.val_op, trEin_val, *] <;> rfl

theorem tvalAll_val (v : Vals W) (ps : List (ℕ × Ex)) (u : Vals W) : (tvalAll J sh v ps u).val = nvalAll J v ps u := by
  induction ps generalizing u with
  | nil => rfl
  | cons p ps ih => simp only [tvalAll, nvalAll, Traced.val_bind, tval_val, ih]

theorem texec_val (s : Stmt) (v : Vals W) : (texec J sh s v).val = nexec J s v := by
  induction s generalizing v with
  | skip => rfl
  | seq s t ihs iht => simp only [texec, nexec, Traced.val_bind, ihs, iht]
  | call ps body rs ih => simp only [texec, nexec, Traced.val_bind, tvalAll_val, ih]
  | _ => simp only [texec, nexec, Traced.val_bind, Traced.val_op, tval_val, Traced.val_pure]; rfl

theorem trets_val (v : Vals W) (es : List Ex) : (trets J sh v es).val = es.mapM (nval J v) := by
  induction es with
  | nil => rfl
  | cons e es ih => simp only [trets, Traced.val_bind, tval_val, ih, List.mapM_cons, Traced.val_pure]; rfl

/-- Counting does not change what the routine returns. -/
theorem trun_val (f : Fun) (as : List W) : (f.trun J sh as).val = f.nrun J as := by
  simp only [Fun.trun, Fun.nrun, Traced.val_bind, texec_val, trets_val]
end

/-! ### the loops depend on the shapes only -/

section
variable (n : ℕ → ℕ)

/-- Extents instead of kinds. -/
def Ev.ext (e : Ev) : Ev := ⟨e.ops, e.loop.map n, e.new.map (List.map n)⟩

/-- If both runs succeed, they execute the same loops. -/
def TR (R : A → B → Prop) (m : Traced A) (m' : Traced B) : Prop :=
  ∀ a s b t, m = .ok (a, s) → m' = .ok (b, t) → t = s.map (Ev.ext n) ∧ R a b

theorem TR.pure {R : A → B → Prop} {a b} (h : R a b) : TR n R (.pure a) (.pure b) := by
  rintro _ _ _ _ ⟨⟩ ⟨⟩
  exact ⟨rfl, h⟩

variable {n}

theorem TR.bind {R : A → B → Prop} {Q : C → D → Prop} {m : Traced A} {m' : Traced B} {k : A → Traced C} {k' : B → Traced D}
    (h : TR n R m m') (hk : ∀ a b, R a b → TR n Q (k a) (k' b)) : TR n Q (m.bind k) (m'.bind k') := by
  intro c s d t hc hd
  rcases m with e | ⟨a, s1⟩
  · cases hc
  rcases m' with e | ⟨b, t1⟩
  · cases hd
  obtain ⟨rfl, hr⟩ := h _ _ _ _ rfl rfl
  simp only [Traced.bind] at hc hd
  rcases hka : k a with e | ⟨c', s2⟩
  · rw [hka] at hc; cases hc
  rcases hkb : k' b with e | ⟨d', t2⟩
  · rw [hkb] at hd; cases hd
  rw [hka] at hc
  rw [hkb] at hd
  cases hc
  cases hd
  obtain ⟨rfl, hq⟩ := hk a b hr _ _ _ _ hka hkb
  exact ⟨by rw [List.map_append], hq⟩

theorem TR.op {R : A → B → Prop} {m : Except Err A} {m' : Except Err B} {s : A → List Ev} {s' : B → List Ev} (h : RB R m m')
    (hs : ∀ a b, m = .ok a → R a b → s' b = (s a).map (Ev.ext n)) : TR n R (.op m s) (.op m' s') := by
  intro a t b t' ha hb
  rcases m with e | a'
  · cases ha
  rcases m' with e | b'
  · cases hb
  cases ha
  cases hb
  have hr := h _ _ rfl rfl
  exact ⟨hs _ _ rfl hr, hr⟩

variable {K : Type}

/-- The shape of an array. -/
def IsSh (n : ℕ → ℕ) (σ : List ℕ) (a : Arr K) : Prop := a.shape = σ.map n

theorem IsSh.shapes {σs : List (List ℕ)} {as : List (Arr K)} (h : List.Forall₂ (IsSh n) σs as) : as.map Arr.shape = σs.map (List.map n) := by
  induction h with
  | nil => rfl
  | cons h _ ih => rw [List.map_cons, List.map_cons, ih, h]

variable [Field K] {warn : Bool} {re : K → K}

theorem shapes_sim (n : ℕ → ℕ) (warn : Bool) (re : K → K) : Sim RB shapes (numpy warn re) (IsSh n) where
  lit _ _ := rfl
  ein ins out σs as h r b hr hb := by
    simp only [shapes, numpy, shEin, einsum] at hr hb
    rw [IsSh.shapes h] at hb
    cases he : einShape ins out σs with
    | none => rw [he] at hr; cases hr
    | some sD =>
      obtain ⟨s, D⟩ := sD
      rw [he] at hr
      rw [einShape_ext n he] at hb
      cases hr
      cases hb
      rfl
  bin o σ τ a b ha hb r c hr hc := by
    simp only [shapes, numpy, shBin, arrBin] at hr hc
    cases he : bshape σ τ with
    | none => rw [he] at hr; cases hr
    | some s =>
      rw [he] at hr
      rw [ha, hb, bshape_ext n he] at hc
      cases hr
      cases hc
      rfl
  aug o σ τ a b ha hb r c hr hc := by
    simp only [shapes, numpy, shAug, arrAug] at hr hc
    split_ifs at hr hc
    cases hr
    cases hc
    exact ha
  neg σ a h := h
  cast σ τ a b ha hb r c hr hc := by
    simp only [shapes, numpy, arrCast] at hr hc
    split_ifs at hc <;> cases hc <;> cases hr <;> exact ha
  transp p σ a h r c hr hc := by
    simp only [shapes, numpy, shTransp, arrTransp] at hr hc
    cases he : transpShape p σ with
    | none => rw [he] at hr; cases hr
    | some s =>
      rw [he] at hr
      rw [h, transpShape_ext n he] at hc
      cases hr
      cases hc
      rfl

theorem einLoop_ext {ins : List (List ℕ)} {out : List ℕ} {σs : List (List ℕ)} {r : List ℕ} (h : shEin ins out σs = .ok r) :
    einLoop ins (σs.map (List.map n)) = (einLoop ins σs).map n := by
  unfold shEin at h
  unfold einShape at h
  cases ha : allDims ins σs [] with
  | none => rw [ha] at h; simp at h
  | some E =>
    have := allDims_ext n ha
    simp only [ext, List.map_nil] at this
    unfold einLoop
    rw [this, ha, Option.getD_some, Option.getD_some, List.map_map, List.map_map]
    rfl

theorem trEin_sim {ins : List (List ℕ)} {out : List ℕ} {σs : List (List ℕ)} {as : List (Arr K)} (h : List.Forall₂ (IsSh n) σs as) :
    TR n (IsSh n) (trEin shapes id ins out σs) (trEin (numpy warn re) Arr.shape ins out as) := by
  refine TR.op ((shapes_sim n warn re).ein ins out σs as h) fun a b ha hr => ?_
  rw [IsSh.shapes h, einLoop_ext ha, hr, ← h.length_eq, List.map_id]
  rfl

omit [Field K] in
theorem getVal_tr {v : Vals (List ℕ)} {v' : Vals (Arr K)} (h : VR (IsSh n) v v') (x : ℕ) :
    TR n (IsSh n) (.op (getVal v x) fun _ => []) (.op (getVal v' x) fun _ => []) :=
  TR.op (getVal_sim RB.lifts h x) fun _ _ _ _ => rfl

theorem tval_sim {v : Vals (List ℕ)} {v' : Vals (Arr K)} (h : VR (IsSh n) v v') (e : Ex) :
    TR n (IsSh n) (tval shapes id v e) (tval (numpy warn re) Arr.shape v' e) := by
  have hJ := shapes_sim n warn re
  induction e with
  | var x => exact getVal_tr h x
  | lit p q => exact TR.pure n (hJ.lit p q)
  | ein2 ins out a b iha ihb => exact iha.bind fun _ _ ha => ihb.bind fun _ _ hb => trEin_sim (.cons ha (.cons hb .nil))
  | ein3 ins out a b c iha ihb ihc =>
    exact iha.bind fun _ _ ha => ihb.bind fun _ _ hb => ihc.bind fun _ _ hc => trEin_sim (.cons ha (.cons hb (.cons hc .nil)))
  | ein4 ins out a b c d iha ihb ihc ihd =>
    exact iha.bind fun _ _ ha => ihb.bind fun _ _ hb => ihc.bind fun _ _ hc => ihd.bind fun _ _ hd =>
      trEin_sim (.cons ha (.cons hb (.cons hc (.cons hd .nil))))
  | ein5 ins out a b c d e iha ihb ihc ihd ihe =>
    exact iha.bind fun _ _ ha => ihb.bind fun _ _ hb => ihc.bind fun _ _ hc => ihd.bind fun _ _ hd => ihe.bind fun _ _ he =>
      trEin_sim (.cons ha (.cons hb (.cons hc (.cons hd (.cons he .nil)))))
  | bin o a b iha ihb =>
    exact iha.bind fun _ _ ha => ihb.bind fun _ _ hb => TR.op (hJ.bin _ _ _ _ _ ha hb) fun _ _ _ hr => by rw [hr]; rfl
  | neg a iha => exact iha.bind fun _ _ ha => TR.op (RB.lifts.pure (hJ.neg _ _ ha)) fun _ _ _ hr => by rw [hr]; rfl
  | copy a iha => exact iha.bind fun _ _ ha => TR.op (RB.lifts.pure ha) fun _ _ _ hr => by rw [hr]; rfl
  | astype a x iha =>
    exact iha.bind fun _ _ ha => (getVal_tr h x).bind fun _ _ hx => TR.op (hJ.cast _ _ _ _ ha hx) fun _ _ _ hr => by rw [hr]; rfl
  | transp p a iha => exact iha.bind fun _ _ ha => TR.op (hJ.transp _ _ _ ha) fun _ _ _ _ => rfl

theorem tvalAll_sim {v : Vals (List ℕ)} {v' : Vals (Arr K)} (h : VR (IsSh n) v v') (ps : List (ℕ × Ex)) {u : Vals (List ℕ)} {u' : Vals (Arr K)}
    (hu : VR (IsSh n) u u') : TR n (VR (IsSh n)) (tvalAll shapes id v ps u) (tvalAll (numpy warn re) Arr.shape v' ps u') := by
  induction ps generalizing u u' with
  | nil => exact TR.pure n hu
  | cons p ps ih => exact (tval_sim h p.2).bind fun _ _ hw => ih (hu.set p.1 (.some hw))

theorem texec_sim (s : Stmt) {v : Vals (List ℕ)} {v' : Vals (Arr K)} (h : VR (IsSh n) v v') :
    TR n (VR (IsSh n)) (texec shapes id s v) (texec (numpy warn re) Arr.shape s v') := by
  have hJ := shapes_sim n warn re
  induction s generalizing v v' with
  | skip => exact TR.pure n h
  | seq s t ihs iht => exact (ihs h).bind fun _ _ h => iht h
  | assign x e => exact (tval_sim h e).bind fun _ _ hw => TR.pure n (h.set x (.some hw))
  | aug x o e =>
    exact (tval_sim h e).bind fun _ _ hw => (getVal_tr h x).bind fun _ _ hx =>
      (TR.op (hJ.aug o _ _ _ _ hx hw) fun _ _ _ hr => by rw [hr]; rfl).bind fun _ _ hr => TR.pure n (h.set x (.some hr))
  | del x => exact (getVal_tr h x).bind fun _ _ _ => TR.pure n (h.set x .none)
  | call ps body rs ih =>
    exact (tvalAll_sim h ps fun _ => .none).bind fun _ _ h1 => (ih h1).bind fun _ _ h2 => tvalAll_sim h2 rs (back_sim h2 _ ps h)

theorem trets_sim {v : Vals (List ℕ)} {v' : Vals (Arr K)} (h : VR (IsSh n) v v') (es : List Ex) :
    TR n (List.Forall₂ (IsSh n)) (trets shapes id v es) (trets (numpy warn re) Arr.shape v' es) := by
  induction es with
  | nil => exact TR.pure n .nil
  | cons e es ih => exact (tval_sim h e).bind fun _ _ hw => ih.bind fun _ _ hs => TR.pure n (.cons hw hs)

theorem trun_sim (f : Fun) {σs : List (List ℕ)} {as : List (Arr K)} (h : List.Forall₂ (IsSh n) σs as) :
    TR n (List.Forall₂ (IsSh n)) (f.trun shapes id σs) (f.trun (numpy warn re) Arr.shape as) :=
  (texec_sim f.body (pbindArgs_sim f.params h)).bind fun _ _ hv => trets_sim hv f.ret
end

/-! ### polynomials -/

/-- A polynomial in the extents: for every term the kinds of the loops and a coefficient. -/
abbrev Poly := List (List ℕ × ℕ)

def Poly.at (n : ℕ → ℕ) (p : Poly) : ℕ := (p.map fun t => t.2 * (t.1.map n).prod).sum

def insertK (x : ℕ) : List ℕ → List ℕ
  | [] => [x]
  | y :: ys => if x ≤ y then x :: y :: ys else y :: insertK x ys

def sortK (l : List ℕ) : List ℕ := l.foldr insertK []

def addM (m : List ℕ) (c : ℕ) : Poly → Poly
  | [] => [(m, c)]
  | (q, d) :: ps => if q = m then (q, d + c) :: ps else (q, d) :: addM m c ps

def flopsP (s : List Ev) : Poly := s.foldr (fun e p => if e.ops = 0 then p else addM (sortK e.loop) e.ops p) []

def allocatedP (s : List Ev) : Poly := s.foldr (fun e p => match e.new with | some l => addM (sortK l) 1 p | none => p) []

variable (n : ℕ → ℕ)

theorem insertK_prod (x : ℕ) (l : List ℕ) : ((insertK x l).map n).prod = n x * (l.map n).prod := by
  induction l with
  | nil => rfl
  | cons y ys ih =>
    unfold insertK
    split_ifs
    · rfl
    · simp only [List.map_cons, List.prod_cons, ih]; ring

theorem sortK_prod (l : List ℕ) : ((sortK l).map n).prod = (l.map n).prod := by
  induction l with
  | nil => rfl
  | cons y ys ih =>
    show ((insertK y (sortK ys)).map n).prod = _
    rw [insertK_prod, ih]; rfl

theorem addM_at (m : List ℕ) (c : ℕ) (p : Poly) : (addM m c p).at n = c * (m.map n).prod + p.at n := by
  induction p with
  | nil => simp [addM, Poly.at]
  | cons q ps ih =>
    obtain ⟨q, d⟩ := q
    unfold addM
    split_ifs with h
    · subst h
      simp only [Poly.at, List.map_cons, List.sum_cons]; ring
    · simp only [Poly.at, List.map_cons, List.sum_cons] at ih ⊢
      rw [ih]; ring

theorem flops_ext (s : List Ev) : flops (s.map (Ev.ext n)) = (flopsP s).at n := by
  induction s with
  | nil => rfl
  | cons e s ih =>
    simp only [flops, flopsP, List.map_cons, List.sum_cons, List.foldr_cons] at ih ⊢
    rw [ih]
    split_ifs with h
    · simp [Ev.ext, h]
    · rw [addM_at, sortK_prod]; rfl

theorem allocated_ext (s : List Ev) : allocated (s.map (Ev.ext n)) = (allocatedP s).at n := by
  induction s with
  | nil => rfl
  | cons e s ih =>
    simp only [allocated, allocatedP, List.map_cons, List.sum_cons, List.foldr_cons] at ih ⊢
    rw [ih]
    cases h : e.new with
    | none => simp [Ev.ext, h]
    | some l => rw [addM_at, sortK_prod]; simp [Ev.ext, h]

/-! ### the work of a routine -/

/-- Called with arrays of these shapes, of any extents `n` and element types, the routine, if it returns (C53 says when), does `P n`
arithmetic operations on array elements and makes arrays with `Q n` elements in all; no nest of loops has more than `d` loops, no array made
more than `r` axes.  So the work grows with the power `d` of the number of orbitals, and the memory with the power `r`. -/
def Costs (f : Fun) (σs : List (List ℕ)) (P Q : (ℕ → ℕ) → ℕ) (d r : ℕ) : Prop :=
  ∀ (n : ℕ → ℕ) (K : Type) [Field K] (warn : Bool) (re : K → K) (as rs : List (Arr K)), as.map Arr.shape = σs.map (List.map n) →
    f.nrun (numpy warn re) as = .ok rs →
    ∃ s, f.trun (numpy warn re) Arr.shape as = .ok (rs, s) ∧ flops s = P n ∧ allocated s = Q n ∧
      (∀ e ∈ s, e.loop.length ≤ d ∧ ∀ l, e.new = some l → l.length ≤ r) ∧
      ∀ N, 1 ≤ N → (∀ k, n k ≤ N) → flops s ≤ P (fun _ => 1) * N ^ d ∧ allocated s ≤ Q (fun _ => 1) * N ^ r

theorem prod_le_pow {n : ℕ → ℕ} {N d : ℕ} (h1 : 1 ≤ N) (hn : ∀ k, n k ≤ N) (l : List ℕ) (hl : l.length ≤ d) : (l.map n).prod ≤ N ^ d := by
  refine le_trans ?_ (Nat.pow_le_pow_right h1 hl)
  induction l with
  | nil => exact le_rfl
  | cons k l ih =>
    rw [List.map_cons, List.prod_cons, List.length_cons, Nat.pow_succ, Nat.mul_comm (N ^ _)]
    exact Nat.mul_le_mul (hn k) (ih (by simp at hl; omega))

theorem prod_one (l : List ℕ) : (l.map fun _ => 1).prod = 1 := by
  induction l with
  | nil => rfl
  | cons k l ih => rw [List.map_cons, List.prod_cons, ih]

theorem flops_le {n : ℕ → ℕ} {N d : ℕ} (h1 : 1 ≤ N) (hn : ∀ k, n k ≤ N) (s : List Ev) (hs : ∀ e ∈ s, e.loop.length ≤ d) :
    flops (s.map (Ev.ext n)) ≤ flops (s.map (Ev.ext fun _ => 1)) * N ^ d := by
  induction s with
  | nil => exact Nat.zero_le _
  | cons e s ih =>
    have ih := ih fun e he => hs e (List.mem_cons_of_mem _ he)
    have h := prod_le_pow h1 hn e.loop (hs e List.mem_cons_self)
    have h2 := prod_one e.loop
    simp only [flops, List.map_cons, List.sum_cons] at ih ⊢
    simp only [Ev.ext] at ih ⊢
    rw [h2, Nat.add_mul, Nat.mul_one]
    exact Nat.add_le_add (Nat.mul_le_mul_left _ h) ih

theorem allocated_le {n : ℕ → ℕ} {N r : ℕ} (h1 : 1 ≤ N) (hn : ∀ k, n k ≤ N) (s : List Ev) (hs : ∀ e ∈ s, ∀ l, e.new = some l → l.length ≤ r) :
    allocated (s.map (Ev.ext n)) ≤ allocated (s.map (Ev.ext fun _ => 1)) * N ^ r := by
  induction s with
  | nil => exact Nat.zero_le _
  | cons e s ih =>
    have ih := ih fun e he => hs e (List.mem_cons_of_mem _ he)
    have he := hs e List.mem_cons_self
    simp only [allocated, List.map_cons, List.sum_cons] at ih ⊢
    rw [Nat.add_mul]
    refine Nat.add_le_add ?_ ih
    cases hn' : e.new with
    | none => simp [Ev.ext, hn']
    | some l =>
      simp only [Ev.ext, hn', Option.map_some, Option.getD_some, prod_one, Nat.one_mul]
      exact prod_le_pow h1 hn l (he l hn')

/-- The loops of a run on kinds. -/
def loopsOf (f : Fun) (σs : List (List ℕ)) : Option (List Ev) :=
  match f.trun shapes id σs with
  | .ok (_, s) => some s
  | .error _ => none

/-- Everything there is to check: both polynomials and both bounds. -/
def summary (d r : ℕ) (s : List Ev) : Poly × Poly × Bool :=
  (flopsP s, allocatedP s, s.all fun e => Nat.ble e.loop.length d && match e.new with | some l => Nat.ble l.length r | none => true)

theorem isSh_of {σs : List (List ℕ)} {n : ℕ → ℕ} {K : Type} {as : List (Arr K)} (h : as.map Arr.shape = σs.map (List.map n)) :
    List.Forall₂ (IsSh n) σs as := by
  induction σs generalizing as with
  | nil =>
    cases as with
    | nil => exact .nil
    | cons a as => cases h
  | cons σ σs ih =>
    cases as with
    | nil => cases h
    | cons a as =>
      rw [List.map_cons, List.map_cons, List.cons.injEq] at h
      exact .cons h.1 (ih h.2)

theorem costs {f : Fun} {σs : List (List ℕ)} {p q : Poly} {P Q : (ℕ → ℕ) → ℕ} {d r : ℕ}
    (h : (loopsOf f σs).map (summary d r) = some (p, q, true)) (hP : ∀ n, p.at n = P n) (hQ : ∀ n, q.at n = Q n) : Costs f σs P Q d r := by
  intro n K _ warn re as rs has hrs
  unfold loopsOf at h
  split at h
  · rename_i τs s hs
    simp only [summary, Option.map_some, Option.some.injEq, Prod.mk.injEq] at h
    obtain ⟨h1, h2, h3⟩ := h
    rw [← trun_val _ Arr.shape] at hrs
    rcases ht : f.trun (numpy warn re) Arr.shape as with e | ⟨rs', t⟩
    · rw [ht] at hrs; cases hrs
    rw [ht] at hrs
    cases hrs
    obtain ⟨rfl, -⟩ := trun_sim f (isSh_of has) _ _ _ _ hs ht
    have h4 : ∀ e ∈ s, e.loop.length ≤ d ∧ ∀ l, e.new = some l → l.length ≤ r := by
      intro e he
      have := List.all_eq_true.1 h3 e he
      rw [Bool.and_eq_true] at this
      refine ⟨Nat.le_of_ble_eq_true this.1, fun l hl => ?_⟩
      have := this.2
      rw [hl] at this
      exact Nat.le_of_ble_eq_true this
    refine ⟨_, rfl, ?_, ?_, ?_, ?_⟩
    · rw [flops_ext, h1, hP]
    · rw [allocated_ext, h2, hQ]
    · intro e he
      obtain ⟨e', he', rfl⟩ := List.mem_map.1 he
      refine ⟨by simpa [Ev.ext] using (h4 e' he').1, fun l hl => ?_⟩
      simp only [Ev.ext, Option.map_eq_some_iff] at hl
      obtain ⟨m, hm, rfl⟩ := hl
      simpa using (h4 e' he').2 m hm
    · intro N hN hn
      rw [← hP, ← hQ, ← h1, ← h2, ← flops_ext, ← allocated_ext]
      exact ⟨flops_le hN hn s fun e he => (h4 e he).1, allocated_le hN hn s fun e he => (h4 e he).2⟩
  · cases h

end Heap
