import Verif.Props.Morph
import Verif.Props.NumEx
/-!
# C63: units of energy and homomorphisms of the numbers, for tensors

A routine is homogeneous in the Hamiltonian.  Its degree is found by running the program on degrees: sums need equal degrees, products add them.
-/

namespace Heap
variable {n : ℕ → ℕ} {K L : Type} [Field K] [Field L]

/-- The degree of an array in the Hamiltonian. -/
def degrees : PInterp ℕ where
  lit _ _ := 0
  ein _ _ ws := .ok ws.sum
  bin o a b := match o with
    | .mul => .ok (a + b)
    | _ => if a = b then .ok a else .error .shape
  aug o a b := match o with
    | .mul => .ok (a + b)
    | _ => if a = b then .ok a else .error .shape
  neg a := a
  cast a _ := .ok a
  transp _ a := .ok a

/-- `s ^ w * x`, with no factors if `w` is zero. -/
def pw (s : L) : ℕ → L → L
  | 0, x => x
  | w + 1, x => s * pw s w x

theorem pw_eq (s : L) (w : ℕ) (x : L) : pw s w x = s ^ w * x := by
  induction w with
  | zero => simp [pw]
  | succ w ih => rw [pw, ih]; ring

theorem pw_add (s : L) (w : ℕ) (x y : L) : pw s w (x + y) = pw s w x + pw s w y := by simp only [pw_eq]; ring
theorem pw_sub (s : L) (w : ℕ) (x y : L) : pw s w (x - y) = pw s w x - pw s w y := by simp only [pw_eq]; ring
theorem pw_neg (s : L) (w : ℕ) (x : L) : pw s w (-x) = -pw s w x := by simp only [pw_eq]; ring
theorem pw_mul (s : L) (v w : ℕ) (x y : L) : pw s (v + w) (x * y) = pw s v x * pw s w y := by simp only [pw_eq]; ring
theorem pw_sum (s : L) (w : ℕ) {ι : Type} (t : Finset ι) (f : ι → L) : pw s w (∑ z ∈ t, f z) = ∑ z ∈ t, pw s w (f z) := by
  simp only [pw_eq, Finset.mul_sum]

/-! ### two runs side by side -/

def both {A B : Type} (J₁ : PInterp A) (J₂ : PInterp B) : PInterp (A × B) where
  lit p q := (J₁.lit p q, J₂.lit p q)
  ein ins out as := do return (← J₁.ein ins out (as.map Prod.fst), ← J₂.ein ins out (as.map Prod.snd))
  bin o a b := do return (← J₁.bin o a.1 b.1, ← J₂.bin o a.2 b.2)
  aug o a b := do return (← J₁.aug o a.1 b.1, ← J₂.aug o a.2 b.2)
  neg a := (J₁.neg a.1, J₂.neg a.2)
  cast a b := do return (← J₁.cast a.1 b.1, ← J₂.cast a.2 b.2)
  transp p a := do return (← J₁.transp p a.1, ← J₂.transp p a.2)

/-- If the run returns, so does the other. -/
abbrev RV {A B : Type} : (A → B → Prop) → Except Err A → Except Err B → Prop := RE fun _ => False

theorem rv_both {A B C : Type} {R₁ : A → B → Prop} {R₂ : A → C → Prop} {x : Except Err A} {y : Except Err B} {z : Except Err C}
    (h1 : RV R₁ x y) (h2 : RV R₂ x z) : RV (fun a p => R₁ a p.1 ∧ R₂ a p.2) x (do return (← y, ← z)) := by
  cases x with
  | error e => exact fun h => h.elim
  | ok a =>
    obtain ⟨c, rfl, h3⟩ := h1
    obtain ⟨d, rfl, h4⟩ := h2
    exact ⟨(c, d), rfl, h3, h4⟩

theorem forall₂_fst {A B C : Type} {R₁ : A → B → Prop} {R₂ : A → C → Prop} {as : List A} {ps : List (B × C)}
    (h : List.Forall₂ (fun a p => R₁ a p.1 ∧ R₂ a p.2) as ps) : List.Forall₂ R₁ as (ps.map Prod.fst) ∧ List.Forall₂ R₂ as (ps.map Prod.snd) := by
  induction h with
  | nil => exact ⟨.nil, .nil⟩
  | cons h _ ih => exact ⟨.cons h.1 ih.1, .cons h.2 ih.2⟩

theorem both_sim {A B C : Type} {J : PInterp A} {J₁ : PInterp B} {J₂ : PInterp C} {R₁ : A → B → Prop} {R₂ : A → C → Prop}
    (h1 : Sim RV J J₁ R₁) (h2 : Sim RV J J₂ R₂) : Sim RV J (both J₁ J₂) fun a p => R₁ a p.1 ∧ R₂ a p.2 where
  lit p q := ⟨h1.lit p q, h2.lit p q⟩
  ein ins out as ps h := rv_both (h1.ein ins out as _ (forall₂_fst h).1) (h2.ein ins out as _ (forall₂_fst h).2)
  bin o a b p q h h' := rv_both (h1.bin o a b _ _ h.1 h'.1) (h2.bin o a b _ _ h.2 h'.2)
  aug o a b p q h h' := rv_both (h1.aug o a b _ _ h.1 h'.1) (h2.aug o a b _ _ h.2 h'.2)
  neg a p h := ⟨h1.neg a _ h.1, h2.neg a _ h.2⟩
  cast a b p q h h' := rv_both (h1.cast a b _ _ h.1 h'.1) (h2.cast a b _ _ h.2 h'.2)
  transp t a p h := rv_both (h1.transp t a _ h.1) (h2.transp t a _ h.2)

theorem rv_eq {A : Type} (x : Except Err A) : RV Eq x x := by
  cases x with
  | error e => exact fun h => h.elim
  | ok a => exact ⟨a, rfl, rfl⟩

theorem eq_sim {A : Type} (J : PInterp A) : Sim RV J J Eq where
  lit _ _ := rfl
  ein ins out as bs h := by
    have : as = bs := by
      induction h with
      | nil => rfl
      | cons h _ ih => rw [h, ih]
    rw [this]
    exact rv_eq _
  bin o a b p q h h' := by subst h h'; exact rv_eq _
  aug o a b p q h h' := by subst h h'; exact rv_eq _
  neg a p h := by subst h; rfl
  cast a b p q h h' := by subst h h'; exact rv_eq _
  transp t a p h := by subst h; exact rv_eq _

/-- Arrays over both fields of the same shape and element type. -/
def Twin (a : Arr K) (b : Arr L) : Prop := b.shape = a.shape ∧ b.cx = a.cx

theorem twin_shape {as : List (Arr K)} {ps : List (Arr L)} (h : List.Forall₂ Twin as ps) : ps.map Arr.shape = as.map Arr.shape := by
  induction h with
  | nil => rfl
  | cons h _ ih => simp only [List.map_cons] at ih ⊢; rw [h.1, ih]

theorem twin_any {as : List (Arr K)} {ps : List (Arr L)} (h : List.Forall₂ Twin as ps) : ps.any Arr.cx = as.any Arr.cx := by
  induction h with
  | nil => rfl
  | cons h _ ih => simp only [List.any_cons] at ih ⊢; rw [h.2, ih]

/-- Shapes and element types decide whether a run returns. -/
theorem twin_sim (warn : Bool) (re : K → K) (re' : L → L) : Sim RV (numpy warn re) (numpy warn re') Twin where
  lit _ _ := ⟨rfl, rfl⟩
  ein ins out as ps h := by
    change RV Twin (einsum ins out as) (einsum ins out ps)
    unfold einsum
    rw [twin_shape h, twin_any h]
    cases einShape ins out (as.map Arr.shape) with
    | none => exact fun h => h.elim
    | some q => exact ⟨_, rfl, rfl, rfl⟩
  bin o a b p q h1 h2 := by
    change RV Twin (arrBin o a b) (arrBin o p q)
    unfold arrBin
    rw [h1.1, h2.1, h1.2, h2.2]
    cases bshape a.shape b.shape with
    | none => exact fun h => h.elim
    | some s => exact ⟨_, rfl, rfl, rfl⟩
  aug o a b p q h1 h2 := by
    change RV Twin (arrAug o a b) (arrAug o p q)
    unfold arrAug
    rw [h1.1, h2.1, h1.2, h2.2]
    split_ifs
    all_goals first | exact fun h => h.elim | exact ⟨_, rfl, rfl, rfl⟩
  neg a p h := h
  cast a b p q h1 h2 := by
    change RV Twin (arrCast warn re a b) (arrCast warn re' p q)
    unfold arrCast
    rw [h1.2, h2.2]
    split_ifs
    all_goals first | exact fun h => h.elim | exact ⟨_, rfl, h1.1, rfl⟩
  transp t a p h := by
    change RV Twin (arrTransp t a) (arrTransp t p)
    unfold arrTransp
    rw [h.1, h.2]
    cases transpShape t a.shape with
    | none => exact fun h => h.elim
    | some s => exact ⟨_, rfl, rfl, rfl⟩

theorem bind2 {A B C : Type} {x : Except Err A} {y : Except Err B} {f : A → B → C} {c : C} (h : (do return f (← x) (← y)) = Except.ok c) :
    ∃ a b, x = .ok a ∧ y = .ok b ∧ c = f a b := by
  cases x with
  | error e => cases h
  | ok a =>
    cases y with
    | error e => cases h
    | ok b => cases h; exact ⟨a, b, rfl, rfl, rfl⟩

/-! ### scaling -/

variable (σ : K →+* L) (s : L)

/-- The second array has the elements of the first, mapped and scaled. -/
def Sc (w : ℕ) (p : Arr K × Arr L) : Prop := p.2.shape = p.1.shape ∧ ∀ idx, p.2.val idx = pw s w (σ (p.1.val idx))

variable {σ s}

theorem Sc.at {w : ℕ} {p : Arr K × Arr L} (h : Sc σ s w p) (idx : List ℕ) : p.2.at idx = pw s w (σ (p.1.at idx)) := by
  unfold Arr.at
  rw [h.1]
  split_ifs <;> exact h.2 _

theorem sc_shape {ws : List ℕ} {ps : List (Arr K × Arr L)} (h : List.Forall₂ (Sc σ s) ws ps) :
    (ps.map Prod.snd).map Arr.shape = (ps.map Prod.fst).map Arr.shape := by
  induction h with
  | nil => rfl
  | cons h _ ih => simp only [List.map_cons] at ih ⊢; rw [h.1, ih]

theorem einMul_sc {ws : List ℕ} {ps : List (Arr K × Arr L)} (h : List.Forall₂ (Sc σ s) ws ps) (ins : List (List ℕ)) (hl : ins.length = ps.length)
    (v : ℕ) (x : K) (ρ : ℕ → ℕ) :
    einMul (pw s v (σ x)) ins (ps.map Prod.snd) ρ = pw s (v + ws.sum) (σ (einMul x ins (ps.map Prod.fst) ρ)) := by
  induction h generalizing ins v x with
  | nil => cases ins <;> rfl
  | cons h _ ih =>
    cases ins with
    | nil => cases hl
    | cons ls ins =>
      simp only [einMul, List.map_cons, List.sum_cons]
      rw [h.2, ← pw_mul, ← map_mul, ih ins (by simpa using hl), add_assoc]

theorem einProd_sc {ws : List ℕ} {ps : List (Arr K × Arr L)} (h : List.Forall₂ (Sc σ s) ws ps) (ins : List (List ℕ)) (hl : ins.length = ps.length)
    (ρ : ℕ → ℕ) : einProd ins (ps.map Prod.snd) ρ = pw s ws.sum (σ (einProd ins (ps.map Prod.fst) ρ)) := by
  cases h with
  | nil =>
    cases ins with
    | nil => exact (map_one σ).symm
    | cons _ _ => cases hl
  | cons h hs =>
    cases ins with
    | nil => cases hl
    | cons ls ins =>
      simp only [einProd, List.map_cons, List.sum_cons]
      rw [h.2, einMul_sc hs ins (by simpa using hl)]

theorem sumOver_sc (D : List (ℕ × ℕ)) {w : ℕ} {f : (ℕ → ℕ) → K} {g : (ℕ → ℕ) → L} (h : ∀ ρ, g ρ = pw s w (σ (f ρ))) (ρ : ℕ → ℕ) :
    sumOver D g ρ = pw s w (σ (sumOver D f ρ)) := by
  induction D generalizing ρ with
  | nil => exact h ρ
  | cons d D ih =>
    simp only [sumOver]
    rw [map_sum, pw_sum]
    exact Finset.sum_congr rfl fun z _ => ih _

theorem allDims_length {ins ss : List (List ℕ)} {D D' : List (ℕ × ℕ)} (h : allDims ins ss D = some D') : ins.length = ss.length := by
  induction ins generalizing ss D with
  | nil =>
    cases ss with
    | nil => rfl
    | cons _ _ => cases h
  | cons l ins ih =>
    cases ss with
    | nil => cases h
    | cons t ss =>
      simp only [allDims] at h
      split at h
      · rw [List.length_cons, List.length_cons, ih h]
      · cases h

theorem einShape_length {ins ss : List (List ℕ)} {out : List ℕ} {r} (h : einShape ins out ss = some r) : ins.length = ss.length := by
  unfold einShape at h
  split at h
  · exact allDims_length ‹_›
  · cases h

theorem op_sc (o : Op) {v w u : ℕ} (h : degrees.bin o v w = .ok u) (x y : K) :
    opVal o (pw s v (σ x)) (pw s w (σ y)) = pw s u (σ (opVal o x y)) := by
  cases o with
  | add =>
    simp only [degrees] at h
    split_ifs at h with e
    cases h
    subst e
    simp only [opVal, map_add, pw_add]
  | sub =>
    simp only [degrees] at h
    split_ifs at h with e
    cases h
    subst e
    simp only [opVal, map_sub, pw_sub]
  | mul =>
    simp only [degrees] at h
    cases h
    simp only [opVal, map_mul, pw_mul]

theorem sc_sim (warn : Bool) : Sim RB degrees (both (numpy (K := K) warn id) (numpy (K := L) warn id)) (Sc σ s) where
  lit p q := ⟨rfl, fun _ => lit_img p q⟩
  ein ins out ws ps h := by
    intro w p hw hp
    cases hw
    obtain ⟨a, b, ha, hb, rfl⟩ := bind2 (f := Prod.mk) hp
    change einsum ins out _ = _ at ha hb
    unfold einsum at ha hb
    rw [sc_shape h] at hb
    revert ha hb
    cases he : einShape ins out ((ps.map Prod.fst).map Arr.shape) with
    | none => intro ha; cases ha
    | some q =>
      intro ha hb
      cases ha; cases hb
      have := einShape_length he
      exact ⟨rfl, fun idx => sumOver_sc _ (fun ρ => einProd_sc h ins (by simpa using this) ρ) _⟩
  bin o v w p q h1 h2 := by
    intro u r hu hr
    obtain ⟨a, b, ha, hb, rfl⟩ := bind2 (f := Prod.mk) hr
    change arrBin o _ _ = _ at ha hb
    unfold arrBin at ha hb
    rw [h1.1, h2.1] at hb
    revert ha hb
    cases bshape p.1.shape q.1.shape with
    | none => intro ha; cases ha
    | some t =>
      intro ha hb
      cases ha; cases hb
      exact ⟨rfl, fun idx => (congrArg₂ (opVal o) (h1.at idx) (h2.at idx)).trans (op_sc o hu _ _)⟩
  aug o v w p q h1 h2 := by
    intro u r hu hr
    obtain ⟨a, b, ha, hb, rfl⟩ := bind2 (f := Prod.mk) hr
    change arrAug o _ _ = _ at ha hb
    unfold arrAug at ha hb
    split_ifs at ha hb
    cases ha; cases hb
    exact ⟨h1.1, fun idx => (congrArg₂ (opVal o) (h1.at idx) (h2.at idx)).trans (op_sc o (by cases o <;> exact hu) _ _)⟩
  neg w p h := ⟨h.1, fun idx => by
    change -p.2.val idx = pw s w (σ (-p.1.val idx))
    rw [h.2, map_neg, pw_neg]⟩
  cast v w p q h1 h2 := by
    intro u r hu hr
    cases hu
    obtain ⟨a, b, ha, hb, rfl⟩ := bind2 (f := Prod.mk) hr
    change arrCast warn id _ _ = _ at ha hb
    unfold arrCast at ha hb
    simp only [id, ite_self] at ha hb
    split_ifs at ha hb
    cases ha; cases hb
    exact ⟨h1.1, h1.2⟩
  transp t w p h := by
    intro u r hu hr
    cases hu
    obtain ⟨a, b, ha, hb, rfl⟩ := bind2 (f := Prod.mk) hr
    change arrTransp t _ = _ at ha hb
    unfold arrTransp at ha hb
    rw [h.1] at hb
    revert ha hb
    cases transpShape t p.1.shape with
    | none => intro ha; cases ha
    | some t =>
      intro ha hb
      cases ha; cases hb
      exact ⟨rfl, fun idx => h.2 _⟩

/-! ### tensors -/

variable (σ s)

/-- The second tensor is the first, mapped and scaled. -/
def DSc (w : ℕ) (d : Desc n K) (d' : Desc n L) : Prop :=
  d'.cx = d.cx ∧ d'.ten.shape = d.ten.shape ∧ ∀ idx, List.Forall₂ (· < ·) idx (d.ten.shape.map n) →
    Cur.get d'.ten.shape d'.ten.val idx = pw s w (σ (Cur.get d.ten.shape d.ten.val idx))

inductive DScs : List ℕ → List (Desc n K) → List (Desc n L) → Prop
  | nil : DScs [] [] []
  | cons {w d d' ws ds ds'} : DSc σ s w d d' → DScs ws ds ds' → DScs (w :: ws) (d :: ds) (d' :: ds')

variable {σ s}

theorem DSc.twin {w : ℕ} {d : Desc n K} {d' : Desc n L} (h : DSc σ s w d d') {a : Arr K} {b : Arr L} (ha : Is d a) (hb : Is d' b) :
    Twin a b := ⟨by rw [hb.2.1, ha.2.1, h.2.1], by rw [hb.1, ha.1, h.1]⟩

/-- Some memory holds exactly these arrays. -/
theorem exists_arrs (J : Interp (Arr K)) (as : List (Arr K)) : ∃ (M : Mem (Arr K)) (args : List Ref),
    args.length = as.length ∧ (∀ r ∈ args, r.1 < M.next) ∧ (args.map fun r => seen J r.2 (M.heap r.1)) = as := by
  refine ⟨⟨as.length, fun l => (as[l]?).getD ⟨false, [], fun _ => 0⟩⟩, (List.range as.length).map fun l => (l, []),
    by simp, by simp, ?_⟩
  refine List.ext_getElem (by simp) fun i h1 h2 => ?_
  simp [seen, List.getElem?_eq_getElem h2]

/-- A run on arrays with exactly the elements of the tensors. -/
theorem Computes.nrun {f : Fun} {ds es : List (Desc n K)} (h : Computes f ds es) (hf : f.params.length = ds.length) {as : List (Arr K)}
    (ha : List.Forall₂ Is ds as) : ∃ rs, f.nrun (numpy true id) as = .ok rs ∧ List.Forall₂ Is es rs := by
  obtain ⟨M, args, h1, h2, h3⟩ := exists_arrs ((numpy true id).total ⟨false, [], fun _ => 0⟩ fun _ a _ => a) as
  obtain ⟨rs, M', h4, _, _, _, _, h5⟩ := h id ⟨false, [], fun _ => 0⟩ (fun _ a _ => a) M args (by rw [h1, hf, ha.length_eq]) h2 (by rw [h3]; exact ha)
  rw [h3] at h4
  exact ⟨_, h4, h5⟩

/-- An array with the elements of the tensor that is zero outside. -/
noncomputable def Desc.exact (d : Desc n K) : Arr K :=
  open Classical in ⟨d.cx, d.ten.shape.map n, fun idx => if List.Forall₂ (· < ·) idx (d.ten.shape.map n) then Cur.get d.ten.shape d.ten.val idx else 0⟩

theorem Desc.exact_is (d : Desc n K) : Is d d.exact := ⟨rfl, rfl, fun _ h => if_pos h⟩

theorem pw_zero (w : ℕ) : pw s w (0 : L) = 0 := by rw [pw_eq, mul_zero]

theorem DSc.sc {w : ℕ} {d : Desc n K} {d' : Desc n L} (h : DSc σ s w d d') : Sc σ s w (d.exact, d'.exact) := by
  refine ⟨by simp only [Desc.exact, h.2.1], fun idx => ?_⟩
  simp only [Desc.exact]
  by_cases hi : List.Forall₂ (· < ·) idx (d.ten.shape.map n)
  · rw [if_pos hi, if_pos (by rw [h.2.1]; exact hi), h.2.2 idx hi]
  · rw [if_neg hi, if_neg (by rw [h.2.1]; exact hi), map_zero, pw_zero]

theorem DScs.args {ws : List ℕ} {ds : List (Desc n K)} {ds' : List (Desc n L)} (h : DScs σ s ws ds ds') :
    List.Forall₂ Is ds (ds.map Desc.exact) ∧ List.Forall₂ Is ds' (ds'.map Desc.exact) ∧
    ∃ ps : List (Arr K × Arr L), List.Forall₂ (fun a p => a = p.1 ∧ Twin a p.2) (ds.map Desc.exact) ps ∧ ps.map Prod.snd = ds'.map Desc.exact ∧
      List.Forall₂ (Sc σ s) ws ps := by
  induction h with
  | nil => exact ⟨.nil, .nil, [], .nil, rfl, .nil⟩
  | @cons w d d' ws ds ds' h _ ih =>
    obtain ⟨h1, h2, ps, h3, h4, h5⟩ := ih
    exact ⟨.cons d.exact_is h1, .cons d'.exact_is h2, (d.exact, d'.exact) :: ps, .cons ⟨rfl, h.twin d.exact_is d'.exact_is⟩ h3,
      by rw [List.map_cons, List.map_cons, h4], .cons h.sc h5⟩

theorem rv_snd {A B : Type} (x : Except Err A) (y : Except Err B) : RV (fun p b => p.2 = b) (do return (← x, ← y)) y := by
  cases x with
  | error e => exact fun h => h.elim
  | ok a =>
    cases y with
    | error e => exact fun h => h.elim
    | ok b => exact ⟨b, rfl, rfl⟩

/-- The second of two runs. -/
theorem snd_sim {A B : Type} (J₁ : PInterp A) (J₂ : PInterp B) : Sim RV (both J₁ J₂) J₂ fun p b => p.2 = b where
  lit _ _ := rfl
  ein ins out ps bs h := by
    have e : ps.map Prod.snd = bs := by
      induction h with
      | nil => rfl
      | cons h _ ih => rw [List.map_cons, h, ih]
    change RV _ (do return (← J₁.ein ins out (ps.map Prod.fst), ← J₂.ein ins out (ps.map Prod.snd))) _
    rw [e]
    exact rv_snd _ _
  bin o p q a b h1 h2 := by subst h1 h2; exact rv_snd _ _
  aug o p q a b h1 h2 := by subst h1 h2; exact rv_snd _ _
  neg p a h := by subst h; rfl
  cast p q a b h1 h2 := by subst h1 h2; exact rv_snd _ _
  transp r p a h := by subst h; exact rv_snd _ _

theorem forall₂_snd {A B : Type} (ps : List (A × B)) : List.Forall₂ (fun p b => p.2 = b) ps (ps.map Prod.snd) := by
  induction ps with
  | nil => exact .nil
  | cons p ps ih => exact .cons rfl ih

theorem eq_of_forall₂_snd {A B : Type} {ps : List (A × B)} {bs : List B} (h : List.Forall₂ (fun p b => p.2 = b) ps bs) : ps.map Prod.snd = bs := by
  induction h with
  | nil => rfl
  | cons h _ ih => rw [List.map_cons, h, ih]

theorem DScs.of {us : List ℕ} {es : List (Desc n K)} {es' : List (Desc n L)} {xs : List (Arr K)} {ps : List (Arr K × Arr L)}
    (h1 : List.Forall₂ Is es xs) (h2 : List.Forall₂ (fun a p => a = p.1 ∧ Twin a p.2) xs ps) (h3 : List.Forall₂ Is es' (ps.map Prod.snd))
    (h4 : List.Forall₂ (Sc σ s) us ps) (he : es'.map (fun d => d.ten.shape) = es.map fun d => d.ten.shape) : DScs σ s us es es' := by
  induction h2 generalizing us es es' with
  | nil =>
    cases h1; cases h3; cases h4
    exact .nil
  | @cons x p xs ps h _ ih =>
    cases h1 with
    | @cons d _ ds _ i1 h1 =>
    cases h3 with
    | @cons d' _ ds' _ i3 h3 =>
    cases h4 with
    | @cons u _ us _ i4 h4 =>
    obtain ⟨rfl, hx⟩ := h
    simp only [List.map_cons, List.cons.injEq] at he
    refine .cons ⟨by rw [← i1.1, ← i3.1, hx.2], he.1, fun idx hi => ?_⟩ (ih h1 h3 h4 he.2)
    rw [← i3.2.2 idx (by rw [i3.2.1, he.1]; exact hi), ← i1.2.2 idx (by rw [i1.2.1]; exact hi)]
    exact i4.2 idx

/-- A routine that runs on degrees is homogeneous and commutes with the homomorphism. -/
theorem scales {f : Fun} {ds es : List (Desc n K)} {ds' es' : List (Desc n L)} {ws us : List ℕ} (hk : Computes f ds es) (hl : Computes f ds' es')
    (hf : f.params.length = ds.length) (hf' : f.params.length = ds'.length) (hd : f.nrun degrees ws = .ok us)
    (he : es'.map (fun d => d.ten.shape) = es.map fun d => d.ten.shape) (h : DScs σ s ws ds ds') : DScs σ s us es es' := by
  obtain ⟨h1, h2, ps, h3, h4, h5⟩ := h.args
  obtain ⟨xs, hx, ix⟩ := hk.nrun hf h1
  obtain ⟨ys, hy, iy⟩ := hl.nrun hf' h2
  have k1 := nrun_sim (RE.lifts _) (both_sim (eq_sim (numpy (K := K) true id)) (twin_sim (K := K) (L := L) true id id)) f h3
  rw [hx] at k1
  obtain ⟨qs, hq, k2⟩ := k1
  have k3 := nrun_sim (RE.lifts _) (snd_sim (numpy (K := K) true id) (numpy (K := L) true id)) f (forall₂_snd ps)
  rw [h4, hy, hq] at k3
  obtain ⟨zs, hz, k4⟩ := k3
  cases hz
  exact .of ix k2 (by rw [eq_of_forall₂_snd k4]; exact iy) (nrun_sim RB.lifts (sc_sim (σ := σ) (s := s) true) f h5 _ _ hd hq) he

/-! ### reading the statement -/

theorem dsc_num {c : Bool} {w : ℕ} {x : K} {y : L} : DSc (n := n) σ s w (.num c x) (.num c y) ↔ y = pw s w (σ x) :=
  ⟨fun h => h.2.2 [] .nil, fun h => ⟨rfl, rfl, fun idx _ => h⟩⟩

theorem dsc_two {c : Bool} {w k l : ℕ} {f : Fin (n k) → Fin (n l) → K} {g : Fin (n k) → Fin (n l) → L} :
    DSc σ s w (.two c k l f) (.two c k l g) ↔ g = fun i j => pw s w (σ (f i j)) := by
  constructor
  · intro h
    funext i j
    have := h.2.2 [i, j] (.cons i.2 (.cons j.2 .nil))
    simpa [Cur.get] using this
  · rintro rfl
    refine ⟨rfl, rfl, fun idx h => ?_⟩
    rcases h with _ | ⟨h1, _ | ⟨h2, _ | _⟩⟩
    simp [Cur.get, h1, h2]

theorem dsc_four {c : Bool} {w k l p q : ℕ} {f : Fin (n k) → Fin (n l) → Fin (n p) → Fin (n q) → K} {g : Fin (n k) → Fin (n l) → Fin (n p) → Fin (n q) → L} :
    DSc σ s w (.four c k l p q f) (.four c k l p q g) ↔ g = fun i j a b => pw s w (σ (f i j a b)) := by
  constructor
  · intro h
    funext i j a b
    have := h.2.2 [i, j, a, b] (.cons i.2 (.cons j.2 (.cons a.2 (.cons b.2 .nil))))
    simpa [Cur.get] using this
  · rintro rfl
    refine ⟨rfl, rfl, fun idx h => ?_⟩
    rcases h with _ | ⟨h1, _ | ⟨h2, _ | ⟨h3, _ | ⟨h4, _ | _⟩⟩⟩⟩
    simp [Cur.get, h1, h2, h3, h4]

theorem DScs.inv {w : ℕ} {d : Desc n K} {d' : Desc n L} {ws ds ds'} (h : DScs σ s (w :: ws) (d :: ds) (d' :: ds')) : DSc σ s w d d' ∧ DScs σ s ws ds ds' := by
  cases h with
  | cons h h' => exact ⟨h, h'⟩

end Heap
