import Verif.Props.NumSim
import Verif.Model.HeapProg
import Mathlib.Data.Complex.Basic
import Mathlib.Data.Complex.BigOperators
/-!
# C63: homomorphisms of the numbers

All routines are made of field operations with rational literals.  Hence complex conjugation of all arguments conjugates the results, and real data stored in complex
arrays give the real results.
-/

namespace Heap
variable {K L : Type} [Field K] [Field L] (σ : K →+* L)

/-- The same array with `σ` applied to the elements. -/
def Arr.map (a : Arr K) : Arr L := ⟨a.cx, a.shape, fun idx => σ (a.val idx)⟩

/-- SameUpTo shape, elements mapped by `σ`. -/
def Img (a : Arr K) (b : Arr L) : Prop := b.shape = a.shape ∧ ∀ idx, b.val idx = σ (a.val idx)

variable {σ}

theorem img_shapes {as : List (Arr K)} {bs : List (Arr L)} (h : List.Forall₂ (Img σ) as bs) : bs.map Arr.shape = as.map Arr.shape := by
  induction h with
  | nil => rfl
  | cons h _ ih => rw [List.map_cons, List.map_cons, h.1, ih]

theorem einMul_img {as : List (Arr K)} {bs : List (Arr L)} (h : List.Forall₂ (Img σ) as bs) (ins : List (List ℕ)) (x : K) (ρ : ℕ → ℕ) :
    einMul (σ x) ins bs ρ = σ (einMul x ins as ρ) := by
  induction h generalizing ins x with
  | nil => cases ins <;> rfl
  | cons h _ ih =>
    cases ins with
    | nil => rfl
    | cons ls ins =>
      simp only [einMul]
      rw [h.2, ← map_mul, ih]

theorem einProd_img {as : List (Arr K)} {bs : List (Arr L)} (h : List.Forall₂ (Img σ) as bs) (ins : List (List ℕ)) (ρ : ℕ → ℕ) :
    einProd ins bs ρ = σ (einProd ins as ρ) := by
  cases h with
  | nil => cases ins <;> exact (map_one σ).symm
  | cons h hs =>
    cases ins with
    | nil => exact (map_one σ).symm
    | cons ls ins =>
      simp only [einProd]
      rw [h.2, einMul_img hs]

theorem sumOver_img (D : List (ℕ × ℕ)) {f : (ℕ → ℕ) → K} {g : (ℕ → ℕ) → L} (h : ∀ ρ, g ρ = σ (f ρ)) (ρ : ℕ → ℕ) : sumOver D g ρ = σ (sumOver D f ρ) := by
  induction D generalizing ρ with
  | nil => exact h ρ
  | cons d D ih =>
    simp only [sumOver]
    rw [map_sum]
    exact Finset.sum_congr rfl fun z _ => ih _

theorem opVal_img (o : Op) (x y : K) : opVal o (σ x) (σ y) = σ (opVal o x y) := by
  cases o
  · exact (map_add σ x y).symm
  · exact (map_sub σ x y).symm
  · exact (map_mul σ x y).symm

theorem Img.at {a : Arr K} {b : Arr L} (h : Img σ a b) (idx : List ℕ) : b.at idx = σ (a.at idx) := by
  unfold Arr.at
  rw [h.1]
  split_ifs <;> exact h.2 _

theorem lit_img (p q : ℕ) : ((p : L) / q) = σ ((p : K) / q) := by rw [map_div₀, map_natCast, map_natCast]

/-- SameUpTo element type, too. -/
def SameUpTo (σ : K →+* L) (a : Arr K) (b : Arr L) : Prop := b.cx = a.cx ∧ Img σ a b

theorem sameUpTo_iff {a : Arr K} {b : Arr L} : SameUpTo σ a b ↔ b = a.map σ := by
  constructor
  · rintro ⟨h1, h2, h3⟩
    obtain ⟨c, s, v⟩ := b
    simp only at h1 h2 h3
    subst h1 h2
    rw [Arr.map, funext h3]
  · rintro rfl
    exact ⟨rfl, rfl, fun _ => rfl⟩

theorem sameUpTo_any {as : List (Arr K)} {bs : List (Arr L)} (h : List.Forall₂ (SameUpTo σ) as bs) : bs.any Arr.cx = as.any Arr.cx := by
  induction h with
  | nil => rfl
  | cons h _ ih => rw [List.any_cons, List.any_cons, h.1, ih]

theorem sameUpTo_sim (warn : Bool) {re : K → K} {re' : L → L} (hre : ∀ x, re' (σ x) = σ (re x)) :
    Sim (RE fun _ => True) (numpy warn re) (numpy warn re') (SameUpTo σ) where
  lit p q := ⟨rfl, rfl, fun _ => lit_img p q⟩
  ein ins out as bs h := by
    have hi : List.Forall₂ (Img σ) as bs := h.imp fun _ _ h => h.2
    change RE _ _ (einsum ins out as) (einsum ins out bs)
    unfold einsum
    rw [img_shapes hi]
    cases einShape ins out (as.map Arr.shape) with
    | none => exact fun _ => rfl
    | some p => exact ⟨_, rfl, sameUpTo_any h, rfl, fun idx => sumOver_img _ (fun ρ => einProd_img hi ins ρ) _⟩
  bin o a b a' b' h1 h2 := by
    change RE _ _ (arrBin o a b) (arrBin o a' b')
    unfold arrBin
    rw [h1.2.1, h2.2.1, h1.1, h2.1]
    cases bshape a.shape b.shape with
    | none => exact fun _ => rfl
    | some s => exact ⟨_, rfl, rfl, rfl, fun idx => (congrArg₂ (opVal o) (h1.2.at idx) (h2.2.at idx)).trans (opVal_img o _ _)⟩
  aug o a b a' b' h1 h2 := by
    change RE _ _ (arrAug o a b) (arrAug o a' b')
    unfold arrAug
    rw [h1.2.1, h2.2.1, h1.1, h2.1]
    split_ifs
    · exact fun _ => rfl
    · exact fun _ => rfl
    · exact ⟨_, rfl, rfl, rfl, fun idx => (congrArg₂ (opVal o) (h1.2.at idx) (h2.2.at idx)).trans (opVal_img o _ _)⟩
  neg a a' h := ⟨h.1, h.2.1, fun idx => by
    change -a'.val idx = σ (-a.val idx)
    rw [h.2.2, map_neg]⟩
  cast a b a' b' h1 h2 := by
    change RE _ _ (arrCast warn re a b) (arrCast warn re' a' b')
    unfold arrCast
    rw [h1.1, h2.1]
    split_ifs
    · exact fun _ => rfl
    · exact ⟨_, rfl, rfl, h1.2.1, fun idx => by
        change re' (a'.val idx) = σ (re (a.val idx))
        rw [h1.2.2, hre]⟩
    · exact ⟨_, rfl, rfl, h1.2.1, h1.2.2⟩
  transp p a a' h := by
    change RE _ _ (arrTransp p a) (arrTransp p a')
    unfold arrTransp
    rw [h.2.1, h.1]
    cases transpShape p a.shape with
    | none => exact fun _ => rfl
    | some s => exact ⟨_, rfl, rfl, rfl, fun idx => h.2.2 _⟩

theorem forall₂_map {A B : Type} {f : A → B} {R : A → B → Prop} (h : ∀ a b, R a b ↔ b = f a) {as : List A} {bs : List B} :
    List.Forall₂ R as bs ↔ bs = as.map f := by
  constructor
  · intro h'
    induction h' with
    | nil => rfl
    | cons h1 _ ih => rw [List.map_cons, (h _ _).1 h1, ih]
  · rintro rfl
    induction as with
    | nil => exact .nil
    | cons a as ih => exact .cons ((h _ _).2 rfl) ih

/-- C63: calling any routine with the images of its arguments under a homomorphism of fields (that commutes with taking real parts) returns the images of the results,
or raises the same exception. -/
theorem C63_homomorphism (warn : Bool) {re : K → K} {re' : L → L} (hre : ∀ x, re' (σ x) = σ (re x)) (f : Fun) (args : List (Arr K)) :
    f.nrun (numpy warn re') (args.map (Arr.map σ)) = (f.nrun (numpy warn re) args).map (List.map (Arr.map σ)) := by
  have h := nrun_sim (RE.lifts fun _ => True) (sameUpTo_sim (σ := σ) warn hre) f (as := args) ((forall₂_map fun _ _ => sameUpTo_iff).2 rfl)
  revert h
  cases f.nrun (numpy warn re) args with
  | error e => exact fun h => h trivial
  | ok rs =>
    rintro ⟨b, hb, hr⟩
    rw [hb, (forall₂_map fun _ _ => sameUpTo_iff).1 hr]
    rfl

/-- C63: complex conjugation of all arguments of a routine conjugates its results. -/
theorem C63_conjugation (warn : Bool) (f : Fun) (args : List (Arr ℂ)) :
    f.nrun (numpy warn fun x => (x.re : ℂ)) (args.map (Arr.map (starRingEnd ℂ))) =
      (f.nrun (numpy warn fun x => (x.re : ℂ)) args).map (List.map (Arr.map (starRingEnd ℂ))) :=
  C63_homomorphism warn (fun x => by simp) f args

/-! ### real data in complex arrays -/

/-- If the casts do nothing to the elements that occur, element types do not matter. -/
theorem img_sim (warn warn' : Bool) {re : K → K} {re' : L → L} (hre : ∀ x, re x = x) (hre' : ∀ x, re' (σ x) = σ x) :
    Sim RB (numpy warn re) (numpy warn' re') (Img σ) where
  lit p q := ⟨rfl, fun _ => lit_img p q⟩
  ein ins out as bs h := by
    change RB _ (einsum ins out as) (einsum ins out bs)
    unfold einsum
    rw [img_shapes h]
    cases einShape ins out (as.map Arr.shape) with
    | none => intro a b ha; cases ha
    | some p =>
      intro a b ha hb
      cases ha; cases hb
      exact ⟨rfl, fun idx => sumOver_img _ (fun ρ => einProd_img h ins ρ) _⟩
  bin o a b a' b' h1 h2 := by
    change RB _ (arrBin o a b) (arrBin o a' b')
    unfold arrBin
    rw [h1.1, h2.1]
    cases bshape a.shape b.shape with
    | none => intro a b ha; cases ha
    | some s =>
      intro x y ha hb
      cases ha; cases hb
      exact ⟨rfl, fun idx => (congrArg₂ (opVal o) (h1.at idx) (h2.at idx)).trans (opVal_img o _ _)⟩
  aug o a b a' b' h1 h2 := by
    change RB _ (arrAug o a b) (arrAug o a' b')
    intro x y hx hy
    unfold arrAug at hx hy
    split_ifs at hx hy
    cases hx; cases hy
    exact ⟨h1.1, fun idx => (congrArg₂ (opVal o) (h1.at idx) (h2.at idx)).trans (opVal_img o _ _)⟩
  neg a a' h := ⟨h.1, fun idx => by
    change -a'.val idx = σ (-a.val idx)
    rw [h.2, map_neg]⟩
  cast a b a' b' h1 h2 := by
    change RB _ (arrCast warn re a b) (arrCast warn' re' a' b')
    intro x y hx hy
    unfold arrCast at hx hy
    have e : (fun idx => re (a.val idx)) = a.val := funext fun _ => hre _
    have e' : (fun idx => re' (a'.val idx)) = a'.val := funext fun _ => by rw [h1.2, hre']
    rw [e, ite_self] at hx
    rw [e', ite_self] at hy
    split_ifs at hx hy
    cases hx; cases hy
    exact ⟨h1.1, h1.2⟩
  transp p a a' h := by
    change RB _ (arrTransp p a) (arrTransp p a')
    unfold arrTransp
    rw [h.1]
    cases transpShape p a.shape with
    | none => intro a b ha; cases ha
    | some s =>
      intro x y ha hb
      cases ha; cases hb
      exact ⟨rfl, fun idx => h.2 _⟩

/-- C63: real data stored in arrays of any element types (real, complex or mixed) give the real results, with imaginary parts zero, whenever the call returns. -/
theorem C63_real_data (warn warn' : Bool) (f : Fun) {args : List (Arr ℝ)} {args' : List (Arr ℂ)} (h : List.Forall₂ (Img Complex.ofRealHom) args args')
    {rs : List (Arr ℝ)} {rs' : List (Arr ℂ)} (hr : f.nrun (numpy warn id) args = .ok rs) (hr' : f.nrun (numpy warn' fun x => (x.re : ℂ)) args' = .ok rs') :
    List.Forall₂ (Img Complex.ofRealHom) rs rs' :=
  nrun_sim RB.lifts (img_sim warn warn' (fun _ => rfl) fun x => by simp) f h rs rs' hr hr'

end Heap
