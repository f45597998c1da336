import Verif.Props.Scale
/-!
# C64: linearity in the Hamiltonian

A routine whose result has degree one in the Hamiltonian is linear in it: three runs side by side, on two Hamiltonians and on a linear combination.
-/

namespace Heap
variable {n : ℕ → ℕ} {K : Type} [Field K]

section values
variable (x y : K)

/-- Degree zero: three equal numbers.  Degree one: the third is the combination.  Higher degrees: nothing. -/
def Lin : ℕ → K → K → K → Prop
  | 0, a, b, c => b = a ∧ c = a
  | 1, a, b, c => c = x * a + y * b
  | _, _, _, _ => True

variable {x y}

theorem Lin.zero (w : ℕ) : Lin x y w 0 0 0 := by
  match w with
  | 0 => exact ⟨rfl, rfl⟩
  | 1 => simp [Lin]
  | _ + 2 => trivial

theorem Lin.mul {v w : ℕ} {a b c a' b' c' : K} (h : Lin x y v a b c) (h' : Lin x y w a' b' c') : Lin x y (v + w) (a * a') (b * b') (c * c') := by
  match v, w with
  | 0, 0 => exact ⟨by rw [h.1, h'.1], by rw [h.2, h'.2]⟩
  | 0, 1 =>
    obtain ⟨rfl, rfl⟩ := h
    have : c' = x * a' + y * b' := h'
    subst this
    change _ = _
    ring
  | 1, 0 =>
    obtain ⟨rfl, rfl⟩ := h'
    have : c = x * a + y * b := h
    subst this
    change _ = _
    ring
  | 1, 1 => trivial
  | v + 2, w =>
    rw [show v + 2 + w = v + w + 2 by omega]
    trivial
  | v, w + 2 =>
    rw [show v + (w + 2) = v + w + 2 by omega]
    trivial

theorem Lin.add {w : ℕ} {a b c a' b' c' : K} (h : Lin x y w a b c) (h' : Lin x y w a' b' c') : Lin x y w (a + a') (b + b') (c + c') := by
  match w with
  | 0 => exact ⟨by rw [h.1, h'.1], by rw [h.2, h'.2]⟩
  | 1 =>
    have h : c = x * a + y * b := h
    have h' : c' = x * a' + y * b' := h'
    change _ = _
    rw [h, h']; ring
  | _ + 2 => trivial

theorem Lin.neg {w : ℕ} {a b c : K} (h : Lin x y w a b c) : Lin x y w (-a) (-b) (-c) := by
  match w with
  | 0 => exact ⟨by rw [h.1], by rw [h.2]⟩
  | 1 =>
    have h : c = x * a + y * b := h
    change _ = _
    rw [h]; ring
  | _ + 2 => trivial

theorem Lin.op (o : Op) {v w u : ℕ} (hu : degrees.bin o v w = .ok u) {a b c a' b' c' : K} (h : Lin x y v a b c) (h' : Lin x y w a' b' c') :
    Lin x y u (opVal o a a') (opVal o b b') (opVal o c c') := by
  cases o with
  | add =>
    simp only [degrees] at hu
    split_ifs at hu with e
    cases hu
    subst e
    exact h.add h'
  | sub =>
    simp only [degrees] at hu
    split_ifs at hu with e
    cases hu
    subst e
    simp only [opVal, sub_eq_add_neg]
    exact h.add h'.neg
  | mul =>
    simp only [degrees] at hu
    cases hu
    exact h.mul h'

theorem Lin.sum {w : ℕ} {ι : Type} (t : Finset ι) {f g h : ι → K} (hz : ∀ z ∈ t, Lin x y w (f z) (g z) (h z)) :
    Lin x y w (∑ z ∈ t, f z) (∑ z ∈ t, g z) (∑ z ∈ t, h z) := by
  classical
  induction t using Finset.induction_on with
  | empty => exact Lin.zero w
  | insert z t hn ih =>
    rw [Finset.sum_insert hn, Finset.sum_insert hn, Finset.sum_insert hn]
    exact (hz z (Finset.mem_insert_self ..)).add (ih fun z' hz' => hz z' (Finset.mem_insert_of_mem hz'))

end values

section arrays
variable (x y : K)

/-- Three arrays of the same shape in this relation. -/
def ALin (w : ℕ) (p : Arr K × Arr K × Arr K) : Prop :=
  p.2.1.shape = p.1.shape ∧ p.2.2.shape = p.1.shape ∧ ∀ idx, Lin x y w (p.1.val idx) (p.2.1.val idx) (p.2.2.val idx)

variable {x y}

theorem ALin.at {w : ℕ} {p : Arr K × Arr K × Arr K} (h : ALin x y w p) (idx : List ℕ) : Lin x y w (p.1.at idx) (p.2.1.at idx) (p.2.2.at idx) := by
  unfold Arr.at
  rw [h.1, h.2.1]
  split_ifs <;> exact h.2.2 _

theorem alin_shape {ws : List ℕ} {ps : List (Arr K × Arr K × Arr K)} (h : List.Forall₂ (ALin x y) ws ps) :
    ((ps.map Prod.snd).map Prod.fst).map Arr.shape = (ps.map Prod.fst).map Arr.shape ∧
    ((ps.map Prod.snd).map Prod.snd).map Arr.shape = (ps.map Prod.fst).map Arr.shape := by
  induction h with
  | nil => exact ⟨rfl, rfl⟩
  | cons h _ ih => simp only [List.map_cons] at ih ⊢; rw [h.1, h.2.1, ih.1, ih.2]; exact ⟨rfl, rfl⟩

theorem einMul_lin {ws : List ℕ} {ps : List (Arr K × Arr K × Arr K)} (h : List.Forall₂ (ALin x y) ws ps) (ins : List (List ℕ)) (hl : ins.length = ps.length)
    {v : ℕ} {a b c : K} (ha : Lin x y v a b c) (ρ : ℕ → ℕ) :
    Lin x y (v + ws.sum) (einMul a ins (ps.map Prod.fst) ρ) (einMul b ins ((ps.map Prod.snd).map Prod.fst) ρ)
      (einMul c ins ((ps.map Prod.snd).map Prod.snd) ρ) := by
  induction h generalizing ins v a b c with
  | nil => cases ins <;> exact ha
  | cons h _ ih =>
    cases ins with
    | nil => cases hl
    | cons ls ins =>
      simp only [einMul, List.map_cons, List.sum_cons]
      rw [← add_assoc]
      exact ih ins (by simpa using hl) (ha.mul (h.2.2 _))

theorem einProd_lin {ws : List ℕ} {ps : List (Arr K × Arr K × Arr K)} (h : List.Forall₂ (ALin x y) ws ps) (ins : List (List ℕ)) (hl : ins.length = ps.length)
    (ρ : ℕ → ℕ) : Lin x y ws.sum (einProd ins (ps.map Prod.fst) ρ) (einProd ins ((ps.map Prod.snd).map Prod.fst) ρ)
      (einProd ins ((ps.map Prod.snd).map Prod.snd) ρ) := by
  cases h with
  | nil =>
    cases ins with
    | nil => exact ⟨rfl, rfl⟩
    | cons _ _ => cases hl
  | cons h hs =>
    cases ins with
    | nil => cases hl
    | cons ls ins =>
      simp only [einProd, List.map_cons, List.sum_cons]
      exact einMul_lin hs ins (by simpa using hl) (h.2.2 _) ρ

theorem sumOver_lin (D : List (ℕ × ℕ)) {w : ℕ} {f g h : (ℕ → ℕ) → K} (hz : ∀ ρ, Lin x y w (f ρ) (g ρ) (h ρ)) (ρ : ℕ → ℕ) :
    Lin x y w (sumOver D f ρ) (sumOver D g ρ) (sumOver D h ρ) := by
  induction D generalizing ρ with
  | nil => exact hz ρ
  | cons d D ih =>
    simp only [sumOver]
    exact Lin.sum _ fun z _ => ih _

/-- Three runs side by side. -/
abbrev three (warn : Bool) : PInterp (Arr K × Arr K × Arr K) := both (numpy warn id) (both (numpy warn id) (numpy warn id))

theorem bind3 {A B C : Type} {x : Except Err A} {y : Except Err B} {z : Except Err C} {p : A × B × C}
    (h : (do return (← x, ← (do return (← y, ← z) : Except Err (B × C)))) = Except.ok p) :
    x = .ok p.1 ∧ y = .ok p.2.1 ∧ z = .ok p.2.2 := by
  cases x with
  | error e => cases h
  | ok a =>
    cases y with
    | error e => cases h
    | ok b =>
      cases z with
      | error e => cases h
      | ok c => cases h; exact ⟨rfl, rfl, rfl⟩

theorem lin_sim (warn : Bool) : Sim RB degrees (three (K := K) warn) (ALin x y) where
  lit p q := ⟨rfl, rfl, fun _ => ⟨rfl, rfl⟩⟩
  ein ins out ws ps h := by
    intro w p hw hp
    cases hw
    obtain ⟨ha, hb, hc⟩ := bind3 hp
    change einsum ins out _ = _ at ha hb hc
    unfold einsum at ha hb hc
    rw [(alin_shape h).1] at hb
    rw [(alin_shape h).2] at hc
    revert ha hb hc
    cases he : einShape ins out ((ps.map Prod.fst).map Arr.shape) with
    | none => intro ha; cases ha
    | some q =>
      obtain ⟨a, b, c⟩ := p
      intro ha hb hc
      cases ha; cases hb; cases hc
      have := einShape_length he
      exact ⟨rfl, rfl, fun idx => sumOver_lin _ (fun ρ => einProd_lin h ins (by simpa using this) ρ) _⟩
  bin o v w p q h1 h2 := by
    intro u r hu hr
    obtain ⟨ha, hb, hc⟩ := bind3 hr
    obtain ⟨a, b, c⟩ := r
    change arrBin o _ _ = _ at ha hb hc
    unfold arrBin at ha hb hc
    rw [h1.1, h2.1] at hb
    rw [h1.2.1, h2.2.1] at hc
    revert ha hb hc
    cases bshape p.1.shape q.1.shape with
    | none => intro ha; cases ha
    | some t =>
      intro ha hb hc
      cases ha; cases hb; cases hc
      exact ⟨rfl, rfl, fun idx => Lin.op o hu (h1.at idx) (h2.at idx)⟩
  aug o v w p q h1 h2 := by
    intro u r hu hr
    obtain ⟨ha, hb, hc⟩ := bind3 hr
    obtain ⟨a, b, c⟩ := r
    change arrAug o _ _ = _ at ha hb hc
    unfold arrAug at ha hb hc
    split_ifs at ha hb hc
    cases ha; cases hb; cases hc
    exact ⟨h1.1, h1.2.1, fun idx => Lin.op o (by cases o <;> exact hu) (h1.at idx) (h2.at idx)⟩
  neg w p h := ⟨h.1, h.2.1, fun idx => (h.2.2 idx).neg⟩
  cast v w p q h1 h2 := by
    intro u r hu hr
    cases hu
    obtain ⟨ha, hb, hc⟩ := bind3 hr
    obtain ⟨a, b, c⟩ := r
    change arrCast warn id _ _ = _ at ha hb hc
    unfold arrCast at ha hb hc
    simp only [id, ite_self] at ha hb hc
    split_ifs at ha hb hc
    cases ha; cases hb; cases hc
    exact ⟨h1.1, h1.2.1, h1.2.2⟩
  transp t w p h := by
    intro u r hu hr
    cases hu
    obtain ⟨ha, hb, hc⟩ := bind3 hr
    obtain ⟨a, b, c⟩ := r
    change arrTransp t _ = _ at ha hb hc
    unfold arrTransp at ha hb hc
    rw [h.1] at hb
    rw [h.2.1] at hc
    revert ha hb hc
    cases transpShape t p.1.shape with
    | none => intro ha; cases ha
    | some t =>
      intro ha hb hc
      cases ha; cases hb; cases hc
      exact ⟨rfl, rfl, fun idx => h.2.2 _⟩

end arrays

section tensors
variable (x y : K)

/-- Three tensors in this relation. -/
structure DLin (w : ℕ) (d d' e : Desc n K) : Prop where
  cx : d'.cx = d.cx ∧ e.cx = d.cx
  shape' : d'.ten.shape = d.ten.shape
  shape : e.ten.shape = d.ten.shape
  val : ∀ idx, List.Forall₂ (· < ·) idx (d.ten.shape.map n) →
    Lin x y w (Cur.get d.ten.shape d.ten.val idx) (Cur.get d'.ten.shape d'.ten.val idx) (Cur.get e.ten.shape e.ten.val idx)

inductive DLins : List ℕ → List (Desc n K) → List (Desc n K) → List (Desc n K) → Prop
  | nil : DLins [] [] [] []
  | cons {w d d' e ws ds ds' es} : DLin x y w d d' e → DLins ws ds ds' es → DLins (w :: ws) (d :: ds) (d' :: ds') (e :: es)

variable {x y}

theorem DLin.alin {w : ℕ} {d d' e : Desc n K} (h : DLin x y w d d' e) : ALin x y w (d.exact, d'.exact, e.exact) := by
  refine ⟨by simp only [Desc.exact, h.shape'], by simp only [Desc.exact, h.shape], fun idx => ?_⟩
  simp only [Desc.exact]
  by_cases hi : List.Forall₂ (· < ·) idx (d.ten.shape.map n)
  · rw [if_pos hi, if_pos (by rw [h.shape']; exact hi), if_pos (by rw [h.shape]; exact hi)]
    exact h.val idx hi
  · rw [if_neg hi, if_neg (by rw [h.shape']; exact hi), if_neg (by rw [h.shape]; exact hi)]
    exact Lin.zero w

/-- The relation of the first run to the other two. -/
abbrev Beside (a : Arr K) (p : Arr K × Arr K × Arr K) : Prop := a = p.1 ∧ Twin a p.2.1 ∧ Twin a p.2.2

theorem exact_twin {d e : Desc n K} (h : e.ten.shape = d.ten.shape) (hc : e.cx = d.cx) : Twin d.exact e.exact := ⟨by simp only [Desc.exact, h], hc⟩

theorem exact_all (ds : List (Desc n K)) : List.Forall₂ Is ds (ds.map Desc.exact) := by
  induction ds with
  | nil => exact .nil
  | cons d ds ih => exact .cons d.exact_is ih

theorem DLins.args {ws : List ℕ} {ds ds' es : List (Desc n K)} (h : DLins x y ws ds ds' es) :
    ∃ ps : List (Arr K × Arr K × Arr K), List.Forall₂ Beside (ds.map Desc.exact) ps ∧ (ps.map Prod.snd).map Prod.fst = ds'.map Desc.exact ∧
      (ps.map Prod.snd).map Prod.snd = es.map Desc.exact ∧ List.Forall₂ (ALin x y) ws ps := by
  induction h with
  | nil => exact ⟨[], .nil, rfl, rfl, .nil⟩
  | @cons w d d' e ws ds ds' es h _ ih =>
    obtain ⟨ps, h3, h4, h5, h6⟩ := ih
    exact ⟨(d.exact, d'.exact, e.exact) :: ps, .cons ⟨rfl, exact_twin h.shape' h.cx.1, exact_twin h.shape h.cx.2⟩ h3,
      by simp only [List.map_cons, h4], by simp only [List.map_cons, h5], .cons h.alin h6⟩

theorem rv_fst {A B : Type} (x : Except Err A) (y : Except Err B) : RV (fun p a => p.1 = a) (do return (← x, ← y)) x := by
  cases x with
  | error e => exact fun h => h.elim
  | ok a =>
    cases y with
    | error e => exact fun h => h.elim
    | ok b => exact ⟨a, rfl, rfl⟩

/-- The first of two runs. -/
theorem fst_sim {A B : Type} (J₁ : PInterp A) (J₂ : PInterp B) : Sim RV (both J₁ J₂) J₁ fun p a => p.1 = a where
  lit _ _ := rfl
  ein ins out ps as h := by
    have e : ps.map Prod.fst = as := by
      induction h with
      | nil => rfl
      | cons h _ ih => rw [List.map_cons, h, ih]
    change RV _ (do return (← J₁.ein ins out (ps.map Prod.fst), ← J₂.ein ins out (ps.map Prod.snd))) _
    rw [e]
    exact rv_fst _ _
  bin o p q a b h1 h2 := by subst h1 h2; exact rv_fst _ _
  aug o p q a b h1 h2 := by subst h1 h2; exact rv_fst _ _
  neg p a h := by subst h; rfl
  cast p q a b h1 h2 := by subst h1 h2; exact rv_fst _ _
  transp r p a h := by subst h; exact rv_fst _ _

theorem forall₂_fst' {A B : Type} (ps : List (A × B)) : List.Forall₂ (fun p a => p.1 = a) ps (ps.map Prod.fst) := by
  induction ps with
  | nil => exact .nil
  | cons p ps ih => exact .cons rfl ih

theorem nrun_fst {A B : Type} {J₁ : PInterp A} {J₂ : PInterp B} {f : Fun} {ps qs : List (A × B)} (h : f.nrun (both J₁ J₂) ps = .ok qs) :
    f.nrun J₁ (ps.map Prod.fst) = .ok (qs.map Prod.fst) := by
  have := nrun_sim (RE.lifts _) (fst_sim J₁ J₂) f (forall₂_fst' ps)
  rw [h] at this
  obtain ⟨zs, hz, k⟩ := this
  rw [hz]
  congr 1
  clear h hz
  induction k with
  | nil => rfl
  | cons h _ ih => rw [List.map_cons, h, ih]

theorem nrun_snd {A B : Type} {J₁ : PInterp A} {J₂ : PInterp B} {f : Fun} {ps qs : List (A × B)} (h : f.nrun (both J₁ J₂) ps = .ok qs) :
    f.nrun J₂ (ps.map Prod.snd) = .ok (qs.map Prod.snd) := by
  have := nrun_sim (RE.lifts _) (snd_sim J₁ J₂) f (forall₂_snd ps)
  rw [h] at this
  obtain ⟨zs, hz, k⟩ := this
  rw [hz, eq_of_forall₂_snd k]

theorem DLins.of {us : List ℕ} {es es' fs : List (Desc n K)} {ps : List (Arr K × Arr K × Arr K)}
    (h1 : List.Forall₂ Is es (ps.map Prod.fst)) (h2 : List.Forall₂ Is es' ((ps.map Prod.snd).map Prod.fst))
    (h3 : List.Forall₂ Is fs ((ps.map Prod.snd).map Prod.snd))
    (h4 : List.Forall₂ (ALin x y) us ps) (he : es'.map Desc.ty = es.map Desc.ty) (hf : fs.map Desc.ty = es.map Desc.ty) :
    DLins x y us es es' fs := by
  induction ps generalizing us es es' fs with
  | nil =>
    cases h1; cases h2; cases h3; cases h4
    exact .nil
  | cons p ps ih =>
    cases h1 with
    | @cons d _ ds _ i1 h1 =>
    cases h2 with
    | @cons d' _ ds' _ i2 h2 =>
    cases h3 with
    | @cons e _ es _ i3 h3 =>
    cases h4 with
    | @cons u _ us _ i4 h4 =>
    simp only [List.map_cons, List.cons.injEq, Desc.ty, Ty.mk.injEq] at he hf
    refine .cons ⟨⟨he.1.1, hf.1.1⟩, he.1.2, hf.1.2, fun idx hi => ?_⟩ (ih h1 h2 h3 h4 he.2 hf.2)
    rw [← i1.2.2 idx (by rw [i1.2.1]; exact hi), ← i2.2.2 idx (by rw [i2.2.1, he.1.2]; exact hi), ← i3.2.2 idx (by rw [i3.2.1, hf.1.2]; exact hi)]
    exact i4.2.2 idx

/-- A routine whose result has degree one is linear in the Hamiltonian. -/
theorem linear {f : Fun} {ds ds' ds'' es es' es'' : List (Desc n K)} {ws us : List ℕ} (hk : Computes f ds es) (hk' : Computes f ds' es')
    (hk'' : Computes f ds'' es'') (hf : f.params.length = ds.length) (hf' : f.params.length = ds'.length) (hf'' : f.params.length = ds''.length)
    (hd : f.nrun degrees ws = .ok us) (he : es'.map Desc.ty = es.map Desc.ty) (he' : es''.map Desc.ty = es.map Desc.ty)
    (h : DLins x y ws ds ds' ds'') : DLins x y us es es' es'' := by
  obtain ⟨ps, h3, h4, h5, h6⟩ := h.args
  obtain ⟨xs, hx, ix⟩ := hk.nrun hf (exact_all ds)
  obtain ⟨ys, hy, iy⟩ := hk'.nrun hf' (exact_all ds')
  obtain ⟨zs, hz, iz⟩ := hk''.nrun hf'' (exact_all ds'')
  have k1 := nrun_sim (RE.lifts _) (both_sim (eq_sim (numpy (K := K) true id)) (both_sim (twin_sim (K := K) (L := K) true id id)
    (twin_sim (K := K) (L := K) true id id))) f h3
  rw [hx] at k1
  obtain ⟨qs, hq, k2⟩ := k1
  have e1 := nrun_snd hq
  have e2 := nrun_fst e1
  have e3 := nrun_snd e1
  rw [h4, hy] at e2
  rw [h5, hz] at e3
  cases e2
  cases e3
  refine .of (ps := qs) ?_ iy iz (nrun_sim RB.lifts (lin_sim (x := x) (y := y) true) f h6 _ _ hd hq) he he'
  have : qs.map Prod.fst = xs := by
    clear hq hx ix iy iz e1 h4 h5 hy hz
    induction k2 with
    | nil => rfl
    | cons h _ ih => rw [List.map_cons, ← h.1, ih]
  rw [this]
  exact ix

/-! ### reading the statement -/

theorem dlin_num {c : Bool} {a b e : K} : DLin (n := n) x y 1 (.num c a) (.num c b) (.num c e) ↔ e = x * a + y * b :=
  ⟨fun h => h.val [] .nil, fun h => ⟨⟨rfl, rfl⟩, rfl, rfl, fun idx _ => h⟩⟩

theorem dlin_two {c : Bool} {k l : ℕ} {f g h : Fin (n k) → Fin (n l) → K} :
    DLin x y 1 (.two c k l f) (.two c k l g) (.two c k l h) ↔ h = fun i j => x * f i j + y * g i j := by
  constructor
  · intro h
    funext i j
    have := h.val [i, j] (.cons i.2 (.cons j.2 .nil))
    simpa [Cur.get, Lin] using this
  · rintro rfl
    refine ⟨⟨rfl, rfl⟩, rfl, rfl, fun idx h => ?_⟩
    rcases h with _ | ⟨h1, _ | ⟨h2, _ | _⟩⟩
    simp [Cur.get, Lin, h1, h2]

theorem dlin_four {c : Bool} {k l p q : ℕ} {f g h : Fin (n k) → Fin (n l) → Fin (n p) → Fin (n q) → K} :
    DLin x y 1 (.four c k l p q f) (.four c k l p q g) (.four c k l p q h) ↔ h = fun i j a b => x * f i j a b + y * g i j a b := by
  constructor
  · intro h
    funext i j a b
    have := h.val [i, j, a, b] (.cons i.2 (.cons j.2 (.cons a.2 (.cons b.2 .nil))))
    simpa [Cur.get, Lin] using this
  · rintro rfl
    refine ⟨⟨rfl, rfl⟩, rfl, rfl, fun idx h => ?_⟩
    rcases h with _ | ⟨h1, _ | ⟨h2, _ | ⟨h3, _ | ⟨h4, _ | _⟩⟩⟩⟩
    simp [Cur.get, Lin, h1, h2, h3, h4]

theorem dlin_same (d : Desc n K) : DLin x y 0 d d d := ⟨⟨rfl, rfl⟩, rfl, rfl, fun _ _ => ⟨rfl, rfl⟩⟩

theorem DLins.inv {w : ℕ} {d d' e : Desc n K} {ws ds ds' es} (h : DLins x y (w :: ws) (d :: ds) (d' :: ds') (e :: es)) :
    DLin x y w d d' e ∧ DLins x y ws ds ds' es := by
  cases h with
  | cons h h' => exact ⟨h, h'⟩

end tensors

end Heap
