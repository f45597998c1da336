import Verif.Props.Rotate
import Verif.Props.NumRun
import Verif.Spec.Basis
/-!
# Changes of basis for the routines
-/

namespace Heap
open CC
variable {X Y : ℕ → Type} {K : Type} [Field K] [∀ k, Fintype (X k)] [∀ k, Fintype (Y k)] [∀ k, DecidableEq (X k)]

/-- The matrices of changes of all sorts of orbitals. -/
def chW (c : ∀ k, Change (X k) (Y k) K) (v : Bool) (k : ℕ) (y : Y k) (x : X k) : K := if v then (c k).bra y x else (c k).ket x y

theorem chW_inv (c : ∀ k, Change (X k) (Y k) K) : Inverse (chW c) := by
  intro k x x'
  simp only [chW, if_true, Bool.false_eq_true, if_false]
  exact (c k).inv x x'

theorem rotates (c : ∀ k, Change (X k) (Y k) K) (f : Fun) {as cs : List (List Bool × Ten X K)} {bs ds : List (Ten Y K)}
    (h1 : f.nrun sorted as = .ok cs) (h2 : f.nrun tensors bs = .ok ds) (h : List.Forall₂ (RotOf (chW c)) as bs) :
    List.Forall₂ (RotOf (chW c)) cs ds := by
  have s := nrun_sim (RE.lifts _) (sorted_sim (chW_inv c)) f h
  rw [h1, h2] at s
  obtain ⟨_, hb, hr⟩ := s
  cases hb
  exact hr

abbrev snum (x : K) : List Bool × Ten X K := ([], ⟨[], x⟩)
abbrev stwo (k l : ℕ) (f : X k → X l → K) : List Bool × Ten X K := ([true, false], ⟨[k, l], f⟩)
abbrev sfour (k l m n : ℕ) (f : X k → X l → X m → X n → K) : List Bool × Ten X K := ([true, true, false, false], ⟨[k, l, m, n], f⟩)
abbrev sring (b : Bool) (k l m n : ℕ) (f : X k → X l → X m → X n → K) : List Bool × Ten X K := ([b, !b, !b, b], ⟨[k, l, m, n], f⟩)
abbrev tnum (x : K) : Ten Y K := ⟨[], x⟩
abbrev ttwo (k l : ℕ) (f : Y k → Y l → K) : Ten Y K := ⟨[k, l], f⟩
abbrev tfour (k l m n : ℕ) (f : Y k → Y l → Y m → Y n → K) : Ten Y K := ⟨[k, l, m, n], f⟩

theorem rot_num (c : ∀ k, Change (X k) (Y k) K) (x y : K) : RotOf (chW c) (snum x) (tnum y) ↔ y = x :=
  ⟨fun h => h.2.2 [] .nil, fun h => ⟨rfl, rfl, fun os _ => by subst h; rfl⟩⟩

theorem rot_two (c : ∀ k, Change (X k) (Y k) K) {k l : ℕ} (f : X k → X l → K) (g : Y k → Y l → K) :
    RotOf (chW c) (stwo k l f) (ttwo k l g) ↔ g = rot2 (c k) (c l) f := by
  have key : ∀ y z, rotS (chW c) [true, false] [k, l] f [some ⟨k, y⟩, some ⟨l, z⟩] = rot2 (c k) (c l) f y z := by
    intro y z
    simp only [rotS, List.headD_cons, List.tail_cons, wt_some, chW, if_true, Bool.false_eq_true, if_false, rot2, Finset.mul_sum, mul_assoc]
  constructor
  · intro h
    funext y z
    rw [← key]
    have := h.2.2 [some ⟨k, y⟩, some ⟨l, z⟩] (.cons ⟨y, rfl⟩ (.cons ⟨z, rfl⟩ .nil))
    simpa [Cur.at] using this
  · intro h
    refine ⟨rfl, rfl, fun os hos => ?_⟩
    cases hos with
    | cons h1 hos =>
      cases hos with
      | cons h2 hos =>
        cases hos
        obtain ⟨y, rfl⟩ := h1
        obtain ⟨z, rfl⟩ := h2
        rw [key, ← h]
        simp [Cur.at]

theorem rot_sorts (c : ∀ k, Change (X k) (Y k) K) {k l m n : ℕ} {s₁ s₂ s₃ s₄ : Bool} (f : X k → X l → X m → X n → K)
    (g : Y k → Y l → Y m → Y n → K) :
    RotOf (chW c) ([s₁, s₂, s₃, s₄], ⟨[k, l, m, n], f⟩) (tfour k l m n g) ↔ g = fun y z u w => ∑ i, ∑ j, ∑ p, ∑ q,
      chW c s₁ k y i * chW c s₂ l z j * chW c s₃ m u p * chW c s₄ n w q * f i j p q := by
  have key : ∀ y z u w, rotS (chW c) [s₁, s₂, s₃, s₄] [k, l, m, n] f [some ⟨k, y⟩, some ⟨l, z⟩, some ⟨m, u⟩, some ⟨n, w⟩] =
      ∑ i, ∑ j, ∑ p, ∑ q, chW c s₁ k y i * chW c s₂ l z j * chW c s₃ m u p * chW c s₄ n w q * f i j p q := by
    intro y z u w
    simp only [rotS, List.headD_cons, List.tail_cons, wt_some, Finset.mul_sum, mul_assoc]
  constructor
  · intro h
    funext y z u w
    rw [← key]
    have := h.2.2 [some ⟨k, y⟩, some ⟨l, z⟩, some ⟨m, u⟩, some ⟨n, w⟩]
      (.cons ⟨y, rfl⟩ (.cons ⟨z, rfl⟩ (.cons ⟨u, rfl⟩ (.cons ⟨w, rfl⟩ .nil))))
    simpa [Cur.at] using this
  · intro h
    refine ⟨rfl, rfl, fun os hos => ?_⟩
    cases hos with
    | cons h1 hos =>
      cases hos with
      | cons h2 hos =>
        cases hos with
        | cons h3 hos =>
          cases hos with
          | cons h4 hos =>
            cases hos
            obtain ⟨y, rfl⟩ := h1
            obtain ⟨z, rfl⟩ := h2
            obtain ⟨u, rfl⟩ := h3
            obtain ⟨w, rfl⟩ := h4
            rw [key]
            simp [Cur.at, h]

theorem rot_four (c : ∀ k, Change (X k) (Y k) K) {k l m n : ℕ} (f : X k → X l → X m → X n → K) (g : Y k → Y l → Y m → Y n → K) :
    RotOf (chW c) (sfour k l m n f) (tfour k l m n g) ↔ g = rot4 (c k) (c l) (c m) (c n) f := rot_sorts c f g

/-! ### four sorts of orbitals -/

/-- The orbitals of the kinds 0 to 3. -/
def fam (O V P Q : Type) : ℕ → Type
  | 0 => O
  | 1 => V
  | 2 => P
  | _ => Q

variable {O V P Q O' V' P' Q' : Type}

instance [Fintype O] [Fintype V] [Fintype P] [Fintype Q] : ∀ k, Fintype (fam O V P Q k)
  | 0 => inferInstanceAs (Fintype O)
  | 1 => inferInstanceAs (Fintype V)
  | 2 => inferInstanceAs (Fintype P)
  | _ + 3 => inferInstanceAs (Fintype Q)

instance [DecidableEq O] [DecidableEq V] [DecidableEq P] [DecidableEq Q] : ∀ k, DecidableEq (fam O V P Q k)
  | 0 => inferInstanceAs (DecidableEq O)
  | 1 => inferInstanceAs (DecidableEq V)
  | 2 => inferInstanceAs (DecidableEq P)
  | _ + 3 => inferInstanceAs (DecidableEq Q)

variable [DecidableEq O] [DecidableEq V] [DecidableEq P] [DecidableEq Q] [Fintype O'] [Fintype V'] [Fintype P'] [Fintype Q']

def chg (o : Change O O' K) (v : Change V V' K) (p : Change P P' K) (q : Change Q Q' K) : ∀ k, Change (fam O V P Q k) (fam O' V' P' Q' k) K
  | 0 => o
  | 1 => v
  | 2 => p
  | _ + 3 => q

theorem rotRes1 {A B : Type} {R : A → B → Prop} {a0 : A} {b0 : B} (h : List.Forall₂ R [a0] [b0]) :
    R a0 b0 := by
  simpa using h

theorem rotRes2 {A B : Type} {R : A → B → Prop} {a0 a1 : A} {b0 b1 : B} (h : List.Forall₂ R [a0, a1] [b0, b1]) :
    R a0 b0 ∧ R a1 b1 := by
  simpa using h

theorem rotRes3 {A B : Type} {R : A → B → Prop} {a0 a1 a2 : A} {b0 b1 b2 : B} (h : List.Forall₂ R [a0, a1, a2] [b0, b1, b2]) :
    R a0 b0 ∧ R a1 b1 ∧ R a2 b2 := by
  simpa using h

theorem rotRes4 {A B : Type} {R : A → B → Prop} {a0 a1 a2 a3 : A} {b0 b1 b2 b3 : B} (h : List.Forall₂ R [a0, a1, a2, a3] [b0, b1, b2, b3]) :
    R a0 b0 ∧ R a1 b1 ∧ R a2 b2 ∧ R a3 b3 := by
  simpa using h

theorem rotRes5 {A B : Type} {R : A → B → Prop} {a0 a1 a2 a3 a4 : A} {b0 b1 b2 b3 b4 : B} (h : List.Forall₂ R [a0, a1, a2, a3, a4] [b0, b1, b2, b3, b4]) :
    R a0 b0 ∧ R a1 b1 ∧ R a2 b2 ∧ R a3 b3 ∧ R a4 b4 := by
  simpa using h

theorem rotRes6 {A B : Type} {R : A → B → Prop} {a0 a1 a2 a3 a4 a5 : A} {b0 b1 b2 b3 b4 b5 : B} (h : List.Forall₂ R [a0, a1, a2, a3, a4, a5] [b0, b1, b2, b3, b4, b5]) :
    R a0 b0 ∧ R a1 b1 ∧ R a2 b2 ∧ R a3 b3 ∧ R a4 b4 ∧ R a5 b5 := by
  simpa using h

theorem rotRes16 {A B : Type} {R : A → B → Prop} {a0 a1 a2 a3 a4 a5 a6 a7 a8 a9 a10 a11 a12 a13 a14 a15 : A} {b0 b1 b2 b3 b4 b5 b6 b7 b8 b9 b10 b11 b12 b13 b14 b15 : B} (h : List.Forall₂ R [a0, a1, a2, a3, a4, a5, a6, a7, a8, a9, a10, a11, a12, a13, a14, a15] [b0, b1, b2, b3, b4, b5, b6, b7, b8, b9, b10, b11, b12, b13, b14, b15]) :
    R a0 b0 ∧ R a1 b1 ∧ R a2 b2 ∧ R a3 b3 ∧ R a4 b4 ∧ R a5 b5 ∧ R a6 b6 ∧ R a7 b7 ∧ R a8 b8 ∧ R a9 b9 ∧ R a10 b10 ∧ R a11 b11 ∧ R a12 b12 ∧ R a13 b13 ∧ R a14 b14 ∧ R a15 b15 := by
  simpa using h

end Heap
