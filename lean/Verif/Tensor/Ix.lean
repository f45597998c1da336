import Verif.Tensor.Canon
import Mathlib.Algebra.CharZero.Defs

/-!
# Concrete environments: up to four index types, tensors of rank at most four
-/

namespace Verif.Tensor

/-- The disjoint union of (up to) four index types. -/
inductive Ix (A B C D : Type)
  | nil
  | a (x : A)
  | b (x : B)
  | c (x : C)
  | d (x : D)

namespace Ix
variable {A B C D : Type}
def pa : Ix A B C D → Option A | .a x => some x | _ => none
def pb : Ix A B C D → Option B | .b x => some x | _ => none
def pc : Ix A B C D → Option C | .c x => some x | _ => none
def pd : Ix A B C D → Option D | .d x => some x | _ => none
end Ix

section
variable {K : Type} [Field K] {A B C D : Type} [Fintype A] [Fintype B] [Fintype C] [Fintype D]

def sumIx (s : Nat) (f : Ix A B C D → K) : K :=
  match s with
  | 0 => ∑ x : A, f (.a x)
  | 1 => ∑ x : B, f (.b x)
  | 2 => ∑ x : C, f (.c x)
  | _ => ∑ x : D, f (.d x)

def nthT {X : Type} : List (List X → K) → Nat → List X → K
  | [], _, _ => 0
  | f :: _, 0, l => f l
  | _ :: fs, n + 1, l => nthT fs n l

def mkEnv (ts : List (List (Ix A B C D) → K)) : Env K (Ix A B C D) where
  sumS := sumIx
  tens := nthT ts
  sumS_add := by
    intro s f g
    unfold sumIx
    split <;> exact Finset.sum_add_distrib
  sumS_mul := by
    intro s c f
    unfold sumIx
    split <;> exact (Finset.mul_sum ..).symm
  sumS_comm := by
    intro s t f
    unfold sumIx
    split <;> split <;> exact Finset.sum_comm

end

section
variable {K X P Q R S : Type} [Field K]

def t0 (k : K) : List X → K
  | [] => k
  | _ => 0

def t1 (p : X → Option P) (f : P → K) : List X → K
  | [x] => match p x with
    | none => 0
    | some x => f x
  | _ => 0

def t2 (p : X → Option P) (q : X → Option Q) (f : P → Q → K) : List X → K
  | [x, y] => match p x with
    | none => 0
    | some x => match q y with
      | none => 0
      | some y => f x y
  | _ => 0

def t3 (p : X → Option P) (q : X → Option Q) (r : X → Option R) (f : P → Q → R → K) :
    List X → K
  | [x, y, z] => match p x with
    | none => 0
    | some x => match q y with
      | none => 0
      | some y => match r z with
        | none => 0
        | some z => f x y z
  | _ => 0

def t4 (p : X → Option P) (q : X → Option Q) (r : X → Option R) (s : X → Option S)
    (f : P → Q → R → S → K) : List X → K
  | [x, y, z, w] => match p x with
    | none => 0
    | some x => match q y with
      | none => 0
      | some y => match r z with
        | none => 0
        | some z => match s w with
          | none => 0
          | some w => f x y z w
  | _ => 0

/-! ### Index symmetries, as used in statements -/

/-- `f` changes sign when its first two indices are exchanged. -/
def Anti12 (f : P → P → Q → R → K) : Prop := ∀ a b c d, f b a c d = -f a b c d
/-- `f` changes sign when its last two indices are exchanged. -/
def Anti34 (f : P → Q → R → R → K) : Prop := ∀ a b c d, f a b d c = -f a b c d
/-- `f` is unchanged when both index pairs are exchanged simultaneously. -/
def PairSym (f : P → P → Q → Q → K) : Prop := ∀ a b c d, f b a d c = f a b c d
/-- `f` is unchanged when the first pair is exchanged with the last pair. -/
def BraKet (f : P → Q → P → Q → K) : Prop := ∀ a b c d, f c d a b = f a b c d
/-- Symmetric matrix. -/
def Sym2 (f : P → P → K) : Prop := ∀ a b, f b a = f a b

def SymsFor (f : List X → K) (ss : List Sym) : Prop :=
  ∀ s ∈ ss, ∀ l : List X, l.length = s.perm.length → f (permute s.perm l) = sgn K s.neg * f l

theorem SymsFor.nil (f : List X → K) : SymsFor f [] := by
  intro s hs; simp at hs

theorem SymsFor.cons {f : List X → K} {s : Sym} {ss : List Sym}
    (h : ∀ l : List X, l.length = s.perm.length → f (permute s.perm l) = sgn K s.neg * f l)
    (hs : SymsFor f ss) : SymsFor f (s :: ss) := by
  intro s' hs'
  rcases List.mem_cons.1 hs' with rfl | hs'
  · exact h
  · exact hs s' hs'

theorem t4_anti12 {p : X → Option P} {q : X → Option Q} {r : X → Option R}
    {f : P → P → Q → R → K} (h : Anti12 f) (l : List X) (hl : l.length = 4) :
    t4 p p q r f (permute [1, 0, 2, 3] l) = sgn K true * t4 p p q r f l := by
  match l, hl with
  | [x, y, z, w], _ =>
    simp only [permute, nth, t4, sgn]
    cases p x with
    | none => cases p y <;> simp
    | some x => cases p y with
      | none => simp
      | some y => cases q z with
        | none => simp
        | some z => cases r w with
          | none => simp
          | some w => simp [h x y]

theorem t4_anti34 {p : X → Option P} {q : X → Option Q} {r : X → Option R}
    {f : P → Q → R → R → K} (h : Anti34 f) (l : List X) (hl : l.length = 4) :
    t4 p q r r f (permute [0, 1, 3, 2] l) = sgn K true * t4 p q r r f l := by
  match l, hl with
  | [x, y, z, w], _ =>
    simp only [permute, nth, t4, sgn]
    cases p x with
    | none => simp
    | some x => cases q y with
      | none => simp
      | some y => cases r z with
        | none => cases r w <;> simp
        | some z => cases r w with
          | none => simp
          | some w => simp [h x y z w]

theorem t4_pairSym {p : X → Option P} {q : X → Option Q}
    {f : P → P → Q → Q → K} (h : PairSym f) (l : List X) (hl : l.length = 4) :
    t4 p p q q f (permute [1, 0, 3, 2] l) = sgn K false * t4 p p q q f l := by
  match l, hl with
  | [x, y, z, w], _ =>
    simp only [permute, nth, t4, sgn]
    cases p x with
    | none => cases p y <;> simp
    | some x => cases p y with
      | none => simp
      | some y => cases q z with
        | none => cases q w <;> simp
        | some z => cases q w with
          | none => simp
          | some w => simp [h x y z w]

theorem t4_braKet {p : X → Option P} {q : X → Option Q}
    {f : P → Q → P → Q → K} (h : BraKet f) (l : List X) (hl : l.length = 4) :
    t4 p q p q f (permute [2, 3, 0, 1] l) = sgn K false * t4 p q p q f l := by
  match l, hl with
  | [x, y, z, w], _ =>
    simp only [permute, nth, t4, sgn]
    cases p x with
    | none => cases p z <;> cases q w <;> simp
    | some x => cases q y with
      | none => cases p z <;> cases q w <;> simp
      | some y => cases p z with
        | none => simp
        | some z => cases q w with
          | none => simp
          | some w => simp [h x y z w]

theorem t2_sym2 {p : X → Option P}
    {f : P → P → K} (h : Sym2 f) (l : List X) (hl : l.length = 2) :
    t2 p p f (permute [1, 0] l) = sgn K false * t2 p p f l := by
  match l, hl with
  | [x, y], _ =>
    simp only [permute, nth, t2, sgn]
    cases p x with
    | none => cases p y <;> simp
    | some x => cases p y with
      | none => simp
      | some y => simp [h x y]

/-- The symmetry table is correct for the list of tensors. -/
def SymAll : List (List X → K) → List (List Sym) → Prop
  | _, [] => True
  | [], _ :: _ => False
  | f :: fs, ss :: sss => SymsFor f ss ∧ SymAll fs sss

theorem SymAll.nil (fs : List (List X → K)) : SymAll fs [] := by cases fs <;> trivial

theorem SymAll.cons {f : List X → K} {fs ss sss} (h : SymsFor f ss) (h' : SymAll fs sss) :
    SymAll (f :: fs) (ss :: sss) := ⟨h, h'⟩

theorem SymAll.get (fs : List (List X → K)) (sss) (h : SymAll fs sss) (t : Nat) :
    SymsFor (nthT fs t) (getSyms sss t) := by
  induction sss generalizing fs t with
  | nil => cases t <;> exact SymsFor.nil _
  | cons ss sss ih => cases fs with
    | nil => exact absurd h id
    | cons f fs => cases t with
      | zero => exact h.1
      | succ t => exact ih fs h.2 t

end

section
variable {K : Type} [Field K] {A B C D : Type} [Fintype A] [Fintype B] [Fintype C] [Fintype D]

theorem SymAll.ok {ts : List (List (Ix A B C D) → K)} {sss} (h : SymAll ts sss) :
    SymOK (mkEnv ts) sss := fun t => h.get _ _ t

/-- Entry point of the `tensor` tactic. -/
theorem tensor_eq [CharZero K] (ts : List (List (Ix A B C D) → K)) (sss) (hs : SymAll ts sss)
    (n0 e : Nat) (a b : TE) (hints) (h : check n0 e sss (.sub a b) hints = true)
    (ρ : Nat → Ix A B C D) : a.eval (mkEnv ts) ρ = b.eval (mkEnv ts) ρ :=
  haveI : NeZero (2 : K) := ⟨by
    have : ((2 : ℕ) : K) ≠ ((0 : ℕ) : K) := fun h => absurd (Nat.cast_injective h) (by decide)
    exact_mod_cast this⟩
  check_eq (mkEnv ts) n0 e sss hs.ok a b hints h ρ

end
end Verif.Tensor
