import Verif.Model.Numpy
import Mathlib.Data.List.Forall2
/-!
# Relations between runs

If two meanings of the operators respect a relation between their values, so do the runs of every program.  Everything proved about all
routines at once is an instance.
-/

namespace Heap
variable {W W₁ W₂ A B C D : Type}

/-- A relation between outcomes for every relation between values, respected by sequential composition; both may raise `NameError`. -/
structure Lifts (E : {A B : Type} → (A → B → Prop) → Except Err A → Except Err B → Prop) : Prop where
  pure : ∀ {A B : Type} {R : A → B → Prop} {a b}, R a b → E R (.ok a) (.ok b)
  bind : ∀ {A B C D : Type} {R : A → B → Prop} {Q : C → D → Prop} {m : Except Err A} {n : Except Err B}
    {k : A → Except Err C} {l : B → Except Err D}, E R m n → (∀ a b, R a b → E Q (k a) (l b)) → E Q (m >>= k) (n >>= l)
  name : ∀ {A B : Type} {R : A → B → Prop}, E R (.error .name) (.error .name)

/-- A value is matched by a related value; the exceptions in `S` by the same exception. -/
def RE (S : Err → Prop) (R : A → B → Prop) : Except Err A → Except Err B → Prop
  | .ok a, y => ∃ b, y = .ok b ∧ R a b
  | .error e, y => S e → y = .error e

theorem RE.lifts (S : Err → Prop) : Lifts (RE S) where
  pure h := ⟨_, rfl, h⟩
  bind {_ _ _ _ _ _ m _ _ _} h hk := by
    cases m with
    | ok a =>
      obtain ⟨b, rfl, hr⟩ := h
      exact hk a b hr
    | error e =>
      intro he
      rw [h he]; rfl
  name _ := rfl

/-- If neither raises, the values are related. -/
def RB (R : A → B → Prop) (m : Except Err A) (n : Except Err B) : Prop := ∀ a b, m = .ok a → n = .ok b → R a b

theorem RB.lifts : Lifts RB where
  pure h _ _ ha hb := by cases ha; cases hb; exact h
  bind {_ _ _ _ _ _ m n _ _} h hk := by
    intro c d hc hd
    cases m with
    | error e => cases hc
    | ok a =>
      cases n with
      | error e => cases hd
      | ok b => exact hk a b (h a b rfl rfl) c d hc hd
  name _ _ h := by cases h

variable (E : {A B : Type} → (A → B → Prop) → Except Err A → Except Err B → Prop)

structure Sim (J₁ : PInterp W₁) (J₂ : PInterp W₂) (R : W₁ → W₂ → Prop) : Prop where
  lit : ∀ p q, R (J₁.lit p q) (J₂.lit p q)
  ein : ∀ ins out as bs, List.Forall₂ R as bs → E R (J₁.ein ins out as) (J₂.ein ins out bs)
  bin : ∀ o a b a' b', R a a' → R b b' → E R (J₁.bin o a b) (J₂.bin o a' b')
  aug : ∀ o a b a' b', R a a' → R b b' → E R (J₁.aug o a b) (J₂.aug o a' b')
  neg : ∀ a a', R a a' → R (J₁.neg a) (J₂.neg a')
  cast : ∀ a b a' b', R a a' → R b b' → E R (J₁.cast a b) (J₂.cast a' b')
  transp : ∀ p a a', R a a' → E R (J₁.transp p a) (J₂.transp p a')

/-- Related values of all names. -/
def VR (R : W₁ → W₂ → Prop) (v : Vals W₁) (v' : Vals W₂) : Prop := ∀ x, Option.Rel R (v x) (v' x)

theorem VR.set {R : W₁ → W₂ → Prop} {v : Vals W₁} {v' : Vals W₂} (h : VR R v v') (x : ℕ) {w w'} (hw : Option.Rel R w w') :
    VR R (v.set x w) (v'.set x w') := by
  intro y
  unfold Vals.set
  split_ifs
  · exact hw
  · exact h y

section
variable {E} (hE : Lifts E)
variable {J₁ : PInterp W₁} {J₂ : PInterp W₂} {R : W₁ → W₂ → Prop}
include hE

theorem getVal_sim {v : Vals W₁} {v' : Vals W₂} (h : VR R v v') (x : ℕ) : E R (getVal v x) (getVal v' x) := by
  have := h x
  unfold getVal
  revert this
  cases v x <;> cases v' x <;> intro h
  · exact hE.name
  · cases h
  · cases h
  · cases h with | some h => exact hE.pure h

theorem nval_sim (hJ : Sim E J₁ J₂ R) {v : Vals W₁} {v' : Vals W₂} (h : VR R v v') (e : Ex) : E R (nval J₁ v e) (nval J₂ v' e) := by
  induction e with
  | var x => exact getVal_sim hE h x
  | lit p q => exact hE.pure (hJ.lit p q)
  | ein2 ins out a b iha ihb =>
    exact hE.bind iha fun _ _ ha => hE.bind ihb fun _ _ hb => hJ.ein _ _ _ _ (.cons ha (.cons hb .nil))
  | ein3 ins out a b c iha ihb ihc =>
    exact hE.bind iha fun _ _ ha => hE.bind ihb fun _ _ hb => hE.bind ihc fun _ _ hc => hJ.ein _ _ _ _ (.cons ha (.cons hb (.cons hc .nil)))
  | ein4 ins out a b c d iha ihb ihc ihd =>
    exact hE.bind iha fun _ _ ha => hE.bind ihb fun _ _ hb => hE.bind ihc fun _ _ hc => hE.bind ihd fun _ _ hd =>
      hJ.ein _ _ _ _ (.cons ha (.cons hb (.cons hc (.cons hd .nil))))
  | ein5 ins out a b c d e iha ihb ihc ihd ihe =>
    exact hE.bind iha fun _ _ ha => hE.bind ihb fun _ _ hb => hE.bind ihc fun _ _ hc => hE.bind ihd fun _ _ hd => hE.bind ihe fun _ _ he =>
      hJ.ein _ _ _ _ (.cons ha (.cons hb (.cons hc (.cons hd (.cons he .nil)))))
  | bin o a b iha ihb => exact hE.bind iha fun _ _ ha => hE.bind ihb fun _ _ hb => hJ.bin _ _ _ _ _ ha hb
  | neg a iha => exact hE.bind iha fun _ _ ha => hE.pure (hJ.neg _ _ ha)
  | copy a iha => exact iha
  | astype a x iha => exact hE.bind iha fun _ _ ha => hE.bind (getVal_sim hE h x) fun _ _ hx => hJ.cast _ _ _ _ ha hx
  | transp p a iha => exact hE.bind iha fun _ _ ha => hJ.transp _ _ _ ha

theorem nvalAll_sim (hJ : Sim E J₁ J₂ R) {v : Vals W₁} {v' : Vals W₂} (h : VR R v v') (ps : List (ℕ × Ex)) {u : Vals W₁} {u' : Vals W₂}
    (hu : VR R u u') : E (VR R) (nvalAll J₁ v ps u) (nvalAll J₂ v' ps u') := by
  induction ps generalizing u u' with
  | nil => exact hE.pure hu
  | cons p ps ih => exact hE.bind (nval_sim hE hJ h p.2) fun _ _ hw => ih (hu.set p.1 (.some hw))

omit hE in
theorem back_sim {v : Vals W₁} {v' : Vals W₂} (h : VR R v v') (l : List ℕ) (ps : List (ℕ × Ex)) {u : Vals W₁} {u' : Vals W₂}
    (hu : VR R u u') : VR R (back l v ps u) (back l v' ps u') := by
  induction ps generalizing u u' with
  | nil => exact hu
  | cons p ps ih =>
    obtain ⟨x, e⟩ := p
    cases e with
    | var y =>
      refine ih ?_
      split_ifs
      · exact hu.set y (h x)
      · exact hu
    | _ => exact ih hu

theorem nexec_sim (hJ : Sim E J₁ J₂ R) (s : Stmt) {v : Vals W₁} {v' : Vals W₂} (h : VR R v v') :
    E (VR R) (nexec J₁ s v) (nexec J₂ s v') := by
  induction s generalizing v v' with
  | skip => exact hE.pure h
  | seq s t ihs iht => exact hE.bind (ihs h) fun _ _ h => iht h
  | assign x e => exact hE.bind (nval_sim hE hJ h e) fun _ _ hw => hE.pure (h.set x (.some hw))
  | aug x o e =>
    exact hE.bind (nval_sim hE hJ h e) fun _ _ hw => hE.bind (getVal_sim hE h x) fun _ _ hx => hE.bind (hJ.aug o _ _ _ _ hx hw) fun _ _ hr =>
      hE.pure (h.set x (.some hr))
  | del x => exact hE.bind (getVal_sim hE h x) fun _ _ _ => hE.pure (h.set x .none)
  | call ps body rs ih =>
    exact hE.bind (nvalAll_sim hE hJ h ps fun _ => .none) fun _ _ h1 => hE.bind (ih h1) fun _ _ h2 => nvalAll_sim hE hJ h2 rs (back_sim h2 _ ps h)

omit hE in
theorem pbindArgs_sim (ps : List ℕ) {as : List W₁} {bs : List W₂} (h : List.Forall₂ R as bs) : VR R (pbindArgs ps as) (pbindArgs ps bs) := by
  induction ps generalizing as bs with
  | nil => exact fun _ => by cases h <;> exact .none
  | cons x ps ih =>
    cases h with
    | nil => exact fun _ => .none
    | cons h hs => exact (ih hs).set x (.some h)

theorem mapM_sim {f : C → Except Err A} {g : C → Except Err B} {Q : A → B → Prop} (l : List C) (h : ∀ c ∈ l, E Q (f c) (g c)) :
    E (List.Forall₂ Q) (l.mapM f) (l.mapM g) := by
  induction l with
  | nil => exact hE.pure .nil
  | cons c l ih =>
    rw [List.mapM_cons, List.mapM_cons]
    exact hE.bind (h c (by simp)) fun _ _ h1 => hE.bind (ih fun c hc => h c (by simp [hc])) fun _ _ h2 => hE.pure (.cons h1 h2)

/-- Related arguments give related outcomes of a call. -/
theorem nrun_sim (hJ : Sim E J₁ J₂ R) (f : Fun) {as : List W₁} {bs : List W₂} (h : List.Forall₂ R as bs) :
    E (List.Forall₂ R) (f.nrun J₁ as) (f.nrun J₂ bs) :=
  hE.bind (nexec_sim hE hJ f.body (pbindArgs_sim f.params h)) fun _ _ hv => mapM_sim hE f.ret fun e _ => nval_sim hE hJ hv e
end

end Heap
