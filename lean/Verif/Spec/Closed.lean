import Verif.Spec.SymU
/-!
# Closed-shell data

For the restricted (closed-shell) routines the alpha and beta orbitals coincide, the mixed-spin tensors are
symmetric under simultaneous exchange of the two electrons, and a same-spin tensor is the mixed-spin one minus
its exchange.
-/
namespace CC
open Verif.Tensor

/-- `⟨pq|rs⟩ = ⟨qp|sr⟩` for every block. -/
structure PairI {O V K : Type} (I : TwoEFull O V O V K) : Prop where
  oooo : ∀ i j k l, I.oooo i j k l = I.oooo j i l k
  oovo : ∀ i j a k, I.oovo i j a k = I.ooov j i k a
  oovv : ∀ i j a b, I.oovv i j a b = I.oovv j i b a
  ovoo : ∀ i a j k, I.ovoo i a j k = I.vooo a i k j
  ovov : ∀ i a j b, I.ovov i a j b = I.vovo a i b j
  ovvo : ∀ i a b j, I.ovvo i a b j = I.voov a i j b
  ovvv : ∀ i a b c, I.ovvv i a b c = I.vovv a i c b
  vvoo : ∀ a b i j, I.vvoo a b i j = I.vvoo b a j i
  vvov : ∀ a b i c, I.vvov a b i c = I.vvvo b a c i
  vvvv : ∀ a b c d, I.vvvv a b c d = I.vvvv b a d c

/-- The antisymmetrised same-spin integrals `⟨pq|rs⟩ - ⟨pq|sr⟩`. -/
def asymI {O V K : Type} [Field K] (I : TwoEFull O V O V K) : TwoE O V K where
  vvvv := fun a b c d => I.vvvv a b c d - I.vvvv a b d c
  vvvo := fun a b c i => I.vvvo a b c i - I.vvov a b i c
  vovv := fun a i b c => I.vovv a i b c - I.vovv a i c b
  vvoo := fun a b i j => I.vvoo a b i j - I.vvoo a b j i
  vovo := fun a i b j => I.vovo a i b j - I.voov a i j b
  oovv := fun i j a b => I.oovv i j a b - I.oovv i j b a
  vooo := fun a i j k => I.vooo a i j k - I.vooo a i k j
  ooov := fun i j k a => I.ooov i j k a - I.oovo i j a k
  oooo := fun i j k l => I.oooo i j k l - I.oooo i j l k

/-- A same-spin doubles tensor from the mixed-spin one. -/
def asym2 {A B K : Type} [Field K] (T : A → A → B → B → K) : A → A → B → B → K :=
  fun a b i j => T a b i j - T a b j i

/-- Replace the dependent blocks of pair-symmetric integrals by the independent ones. -/
macro "pair_elim" hI:ident I:ident : tactic => `(tactic| (
  obtain ⟨oooo, ooov, oovo, oovv, ovoo, ovov, ovvo, ovvv, vooo, voov, vovo, vovv, vvoo, vvov, vvvo, vvvv⟩ := $I
  obtain ⟨h_1, h_2, h_3, h_4, h_5, h_6, h_7, h_8, h_9, h_10⟩ := $hI
  dsimp only at h_1 h_2 h_3 h_4 h_5 h_6 h_7 h_8 h_9 h_10
  have hs : oovo = fun i j a k => ooov j i k a := by funext i j a k; exact h_2 i j a k
  subst hs
  have hs : ovoo = fun i a j k => vooo a i k j := by funext i a j k; exact h_4 i a j k
  subst hs
  have hs : ovov = fun i a j b => vovo a i b j := by funext i a j b; exact h_5 i a j b
  subst hs
  have hs : ovvo = fun i a b j => voov a i j b := by funext i a b j; exact h_6 i a b j
  subst hs
  have hs : ovvv = fun i a b c => vovv a i c b := by funext i a b c; exact h_7 i a b c
  subst hs
  have hs : vvov = fun a b i c => vvvo b a c i := by funext a b i c; exact h_9 a b i c
  subst hs
  clear h_2 h_4 h_5 h_6 h_7 h_9
  replace h_1 : PairSym oooo := fun p q r s => (h_1 p q r s).symm
  replace h_3 : PairSym oovv := fun p q r s => (h_3 p q r s).symm
  replace h_8 : PairSym vvoo := fun p q r s => (h_8 p q r s).symm
  replace h_10 : PairSym vvvv := fun p q r s => (h_10 p q r s).symm))

/-- closed-shell example integrals -/
def IR (n m : ℕ) : TwoEFull (Fin n) (Fin m) (Fin n) (Fin m) ℚ :=
  let g : ℕ → ℕ → ℕ → ℕ → ℕ → ℚ := fun s p q r t => s + p * q - 2 * r * t + p * p + q * q - (p * r + q * t)
  { oooo := fun i j k l => g 1 i j k l
    ooov := fun i j k a => g 2 i j k (a + 2)
    oovo := fun i j a k => g 2 j i k (a + 2)
    oovv := fun i j a b => g 3 i j a b
    ovoo := fun i a j k => g 4 (a + 1) i k j
    ovov := fun i a j b => g 5 a i b j
    ovvo := fun i a b j => g 6 a i j b
    ovvv := fun i a b c => g 7 a i c b
    vooo := fun a i j k => g 4 (a + 1) i j k
    voov := fun a i j b => g 6 a i j b
    vovo := fun a i b j => g 5 a i b j
    vovv := fun a i b c => g 7 a i b c
    vvoo := fun a b i j => g 8 a b i j
    vvov := fun a b i c => g 9 b a c i
    vvvo := fun a b c i => g 9 a b c i
    vvvv := fun a b c d => g 0 a b c d }

theorem IR_pair (n m) : PairI (IR n m) := by
  constructor <;> intro p q r s <;> simp only [IR] <;> ring

/-- closed-shell doubles -/
def TR (m n : ℕ) (s : ℚ) : Fin m → Fin m → Fin n → Fin n → ℚ :=
  fun a b i j => s + (a : ℕ) * (b : ℕ) - (a : ℕ) * (i : ℕ) - (b : ℕ) * (j : ℕ) + (i : ℕ) * (j : ℕ)

theorem TR_pair (m n s) : PairSym (TR m n s) := by
  intro a b i j; simp only [TR]; ring

end CC
