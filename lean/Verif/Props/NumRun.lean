import Verif.Props.NumTypes
import Verif.Props.HeapFun
import Lean.Elab.Tactic.Basic
/-!
# Computing what a routine returns

`computes` reduces `Computes f ds es` to two runs that the kernel can do: one on element types and kinds of axes, one on tensors.
-/

namespace Heap
variable {W : Type}

/-! ### runs that do not raise -/

section
variable {J : PInterp W} {d : W} {put : List ℕ → W → W → W}

theorem getVal_ok {v : Vals W} {x : ℕ} {w : W} (h : getVal v x = .ok w) : v x = some w := by
  unfold getVal at h
  cases hv : v x with
  | none => rw [hv] at h; cases h
  | some w' => rw [hv] at h; cases h; rfl

theorem bind_ok {A B : Type} {m : Except Err A} {k : A → Except Err B} {b : B} (h : m >>= k = .ok b) : ∃ a, m = .ok a ∧ k a = .ok b := by
  cases m with
  | error e => cases h
  | ok a => exact ⟨a, rfl, h⟩

theorem total_ein {ins out as w} (h : J.ein ins out as = .ok w) : (J.total d put).ein ins out as = w := by simp only [PInterp.total, h]
theorem total_bin {o a b w} (h : J.bin o a b = .ok w) : (J.total d put).bin o a b = w := by simp only [PInterp.total, h]
theorem total_cast {a b w} (h : J.cast a b = .ok w) : (J.total d put).cast a b = w := by simp only [PInterp.total, h]
theorem total_view {p a w} (h : J.transp p a = .ok w) : (J.total d put).view p a = w := by simp only [PInterp.total, h]

theorem nval_val {v : Vals W} {e : Ex} {w : W} (h : nval J v e = .ok w) : val (J.total d put) v e = some w := by
  induction e generalizing w with
  | var x => exact getVal_ok h
  | lit p q => cases h; rfl
  | ein2 ins out a b iha ihb =>
    obtain ⟨x, hx, h⟩ := bind_ok h
    obtain ⟨y, hy, h⟩ := bind_ok h
    simp [val, iha hx, ihb hy, total_ein h]
  | ein3 ins out a b c iha ihb ihc =>
    obtain ⟨x, hx, h⟩ := bind_ok h
    obtain ⟨y, hy, h⟩ := bind_ok h
    obtain ⟨z, hz, h⟩ := bind_ok h
    simp [val, iha hx, ihb hy, ihc hz, total_ein h]
  | ein4 ins out a b c d iha ihb ihc ihd =>
    obtain ⟨x, hx, h⟩ := bind_ok h
    obtain ⟨y, hy, h⟩ := bind_ok h
    obtain ⟨z, hz, h⟩ := bind_ok h
    obtain ⟨u, hu, h⟩ := bind_ok h
    simp [val, iha hx, ihb hy, ihc hz, ihd hu, total_ein h]
  | ein5 ins out a b c d e iha ihb ihc ihd ihe =>
    obtain ⟨x, hx, h⟩ := bind_ok h
    obtain ⟨y, hy, h⟩ := bind_ok h
    obtain ⟨z, hz, h⟩ := bind_ok h
    obtain ⟨u, hu, h⟩ := bind_ok h
    obtain ⟨t, ht, h⟩ := bind_ok h
    simp [val, iha hx, ihb hy, ihc hz, ihd hu, ihe ht, total_ein h]
  | bin o a b iha ihb =>
    obtain ⟨x, hx, h⟩ := bind_ok h
    obtain ⟨y, hy, h⟩ := bind_ok h
    simp [val, iha hx, ihb hy, total_bin h]
  | neg a iha =>
    obtain ⟨x, hx, h⟩ := bind_ok h
    cases h
    simp only [val, iha hx]; rfl
  | copy a iha => exact iha h
  | astype a x iha =>
    obtain ⟨y, hy, h⟩ := bind_ok h
    obtain ⟨z, hz, h⟩ := bind_ok h
    simp [val, iha hy, getVal_ok hz, total_cast h]
  | transp p a iha =>
    obtain ⟨x, hx, h⟩ := bind_ok h
    simp [val, iha hx, total_view h]

theorem nvalAll_valAll {v : Vals W} {ps : List (ℕ × Ex)} {u w : Vals W} (h : nvalAll J v ps u = .ok w) :
    valAll (J.total d put) v ps u = some w := by
  induction ps generalizing u with
  | nil => cases h; rfl
  | cons p ps ih =>
    obtain ⟨x, hx, h⟩ := bind_ok h
    simp [valAll, nval_val hx, ih h]

theorem nexec_pexec (hJ : ∀ o a b c, J.aug o a b = .ok c → J.bin o a b = .ok c) {s : Stmt} {v w : Vals W} (h : nexec J s v = .ok w) :
    pexec (J.total d put) s v = some w := by
  induction s generalizing v w with
  | skip => cases h; rfl
  | seq s t ihs iht =>
    obtain ⟨x, hx, h⟩ := bind_ok h
    simp [pexec, ihs hx, iht h]
  | assign x e =>
    obtain ⟨y, hy, h⟩ := bind_ok h
    cases h
    simp [pexec, nval_val hy]
  | aug x o e =>
    obtain ⟨y, hy, h⟩ := bind_ok h
    obtain ⟨z, hz, h⟩ := bind_ok h
    obtain ⟨u, hu, h⟩ := bind_ok h
    cases h
    simp [pexec, nval_val hy, getVal_ok hz, total_bin (hJ _ _ _ _ hu)]
  | del x =>
    obtain ⟨y, hy, h⟩ := bind_ok h
    cases h
    simp [pexec, getVal_ok hy]
  | call ps body rs ih =>
    obtain ⟨y, hy, h⟩ := bind_ok h
    obtain ⟨z, hz, h⟩ := bind_ok h
    simp [pexec, nvalAll_valAll hy, ih hz, nvalAll_valAll h]

theorem mapM_val {v : Vals W} {es : List Ex} {rs : List W} (h : es.mapM (nval J v) = .ok rs) : es.mapM (val (J.total d put) v) = some rs := by
  induction es generalizing rs with
  | nil => cases h; rfl
  | cons e es ih =>
    rw [List.mapM_cons] at h
    obtain ⟨x, hx, h⟩ := bind_ok h
    obtain ⟨y, hy, h⟩ := bind_ok h
    cases h
    rw [List.mapM_cons, nval_val hx, ih hy]
    rfl

/-- A run without exceptions gives the values of the run without references. -/
theorem nrun_prun (hJ : ∀ o a b c, J.aug o a b = .ok c → J.bin o a b = .ok c) {f : Fun} {as rs : List W} (h : f.nrun J as = .ok rs) :
    f.prun (J.total d put) as = some rs := by
  obtain ⟨v, hv, h⟩ := bind_ok h
  simp [Fun.prun, nexec_pexec hJ hv, mapM_val h]
end

variable {n : ℕ → ℕ} {K : Type} [Field K]

theorem numpy_aug (warn : Bool) (re : K → K) (o : Op) (a b c : Arr K) (h : (numpy warn re).aug o a b = .ok c) :
    (numpy warn re).bin o a b = .ok c := by
  simp only [numpy, arrAug, arrBin] at h ⊢
  split_ifs at h with h1 h2
  rw [ne_eq, not_not] at h1
  rw [h1]
  simp only [Except.ok.injEq] at h ⊢
  rw [← h]
  congr 1
  revert h2
  cases a.cx <;> cases b.cx <;> cases a.shape <;> simp

def Desc.ty (d : Desc n K) : Ty := ⟨d.cx, d.ten.shape⟩

omit [Field K] in
theorem forall₂_map_left {A B C : Type} {R : A → C → Prop} (g : B → A) {bs : List B} {cs : List C} (h : List.Forall₂ (fun b c => R (g b) c) bs cs) :
    List.Forall₂ R (bs.map g) cs := by
  induction h with
  | nil => exact .nil
  | cons h _ ih => exact .cons h ih

omit [Field K] in
theorem forall₂_of_map_left {A B C : Type} {R : A → C → Prop} (g : B → A) {bs : List B} {cs : List C} (h : List.Forall₂ R (bs.map g) cs) :
    List.Forall₂ (fun b c => R (g b) c) bs cs := by
  induction bs generalizing cs with
  | nil => cases h; exact .nil
  | cons b bs ih => cases h with | cons h hs => exact .cons h (ih hs)

theorem is_tys {ds : List (Desc n K)} {as : List (Arr K)} (h : List.Forall₂ Is ds as) : List.Forall₂ (IsTy n) (ds.map Desc.ty) as :=
  forall₂_map_left _ (h.imp fun _ _ h => ⟨h.1, h.2.1⟩)

theorem is_tens {ds : List (Desc n K)} {as : List (Arr K)} (h : List.Forall₂ Is ds as) : List.Forall₂ Holds (ds.map Desc.ten) as :=
  forall₂_map_left _ (h.imp fun _ _ h => h.2)

theorem is_of {ds : List (Desc n K)} {as : List (Arr K)} (h1 : List.Forall₂ (IsTy n) (ds.map Desc.ty) as)
    (h2 : List.Forall₂ Holds (ds.map Desc.ten) as) : List.Forall₂ Is ds as := by
  have h1 := forall₂_of_map_left _ h1
  have h2 := forall₂_of_map_left _ h2
  induction h1 with
  | nil => exact .nil
  | cons h _ ih =>
    cases h2 with
    | cons h' hs => exact .cons ⟨h.1, h'⟩ (ih (forall₂_map_left _ ‹_›) (forall₂_map_left _ hs) hs)

theorem nrun_is {f : Fun} {ds es : List (Desc n K)} (h1 : f.nrun (types true) (ds.map Desc.ty) = .ok (es.map Desc.ty))
    (h2 : f.nrun tensors (ds.map Desc.ten) = .ok (es.map Desc.ten)) (re : K → K) {as : List (Arr K)} (h : List.Forall₂ Is ds as) :
    ∃ bs, f.nrun (numpy true re) as = .ok bs ∧ List.Forall₂ Is es bs := by
  have s1 := nrun_sim (RE.lifts _) (types_sim n true re) f (is_tys h)
  have s2 := nrun_sim RB.lifts (tensors_sim re) f (is_tens h)
  rw [h1] at s1
  obtain ⟨bs, hb, h3⟩ := s1
  exact ⟨bs, hb, is_of h3 (s2 _ _ h2 hb)⟩

theorem computes {f : Fun} {ds es : List (Desc n K)} (h0 : LeavesArguments f)
    (h1 : f.nrun (types true) (ds.map Desc.ty) = .ok (es.map Desc.ty))
    (h2 : f.nrun tensors (ds.map Desc.ten) = .ok (es.map Desc.ten)) : Computes f ds es := by
  intro re d put M args J hlen hlt h
  obtain ⟨bs, hb, hbs⟩ := nrun_is h1 h2 re h
  obtain ⟨rs, M', hr, ha, hn, hd, hp⟩ := h0 _ J M args hlen hlt
  rw [nrun_prun (numpy_aug true re) hb] at hp
  cases hp
  exact ⟨rs, M', hb, hr, ha, hn, hd, hbs⟩

theorem raisesCast {f : Fun} {ds : List (Desc n K)} (h : ∀ warn, f.nrun (types warn) (ds.map Desc.ty) = .error .cast) : RaisesCast f ds := by
  intro warn re as has
  have s1 := nrun_sim (RE.lifts _) (types_sim n warn re) f (is_tys has)
  rw [h warn] at s1
  exact s1 (.inl rfl)

/-- Closes `a = b` by reflexivity, leaving it to the kernel to see that both sides are the same. -/
elab "krfl" : tactic => do
  let g ← Lean.Elab.Tactic.getMainGoal
  let t ← Lean.instantiateMVars (← g.getType)
  let some (ty, a, _) := t.eq? | throwError "krfl: not an equation"
  g.assign (Lean.mkApp2 (Lean.mkConst ``Eq.refl [← Lean.Meta.getLevel ty]) ty a)

end Heap
