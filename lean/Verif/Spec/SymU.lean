import Verif.Spec.Sym
/-!
# Data for the non-vacuity examples of the unrestricted and restricted properties
-/
namespace CC
open Verif.Tensor

/-- antisymmetric integrals for any number of orbitals; `s` is a scale -/
def IG (n m : ℕ) (s : ℚ) : TwoE (Fin n) (Fin m) ℚ where
  vvvv := fun a b c d => s * ((a : ℕ) - (b : ℕ) : ℚ) * ((c : ℕ) - (d : ℕ) : ℚ)
  vvvo := fun a b c i => ((a : ℕ) - (b : ℕ) : ℚ) * ((c : ℕ) + 2 * (i : ℕ) : ℚ)
  vovv := fun a i c d => ((a : ℕ) + 3 * (i : ℕ) + 1 : ℚ) * ((c : ℕ) - (d : ℕ) : ℚ)
  vvoo := fun a b i j => ((a : ℕ) - (b : ℕ) : ℚ) * ((i : ℕ) - (j : ℕ) : ℚ)
  vovo := fun a i b j => s * ((a : ℕ) + 2 * (i : ℕ) - (b : ℕ) * (j : ℕ) : ℚ)
  oovv := fun i j a b => 5 * ((i : ℕ) - (j : ℕ) : ℚ) * ((a : ℕ) - (b : ℕ) : ℚ)
  vooo := fun a i j k => ((a : ℕ) + (i : ℕ) : ℚ) * ((j : ℕ) - (k : ℕ) : ℚ)
  ooov := fun i j k a => s * ((i : ℕ) - (j : ℕ) : ℚ) * ((k : ℕ) + (a : ℕ) : ℚ)
  oooo := fun i j k l => 7 * ((i : ℕ) - (j : ℕ) : ℚ) * ((k : ℕ) - (l : ℕ) : ℚ)

theorem IG_anti (n m s) : AntiI (IG n m s) := by
  constructor <;> intro a b c d <;> simp only [IG] <;> ring

/-- doubles amplitudes or multipliers -/
def TG (m n : ℕ) (s : ℚ) : Fin m → Fin m → Fin n → Fin n → ℚ :=
  fun a b i j => ((a : ℕ) - (b : ℕ) : ℚ) * ((i : ℕ) - (j : ℕ) : ℚ) * (s + (i : ℕ) + (j : ℕ))

theorem TG_anti (n m s) : Anti (TG n m s) := by
  constructor <;> intro a b c d <;> simp only [TG] <;> ring

/-- mixed-spin doubles (no symmetry) -/
def TM (m n m' n' : ℕ) (s : ℚ) : Fin m → Fin m' → Fin n → Fin n' → ℚ :=
  fun a b i j => s + (a : ℕ) + 2 * (b : ℕ) - (i : ℕ) * (j : ℕ)

/-- singles -/
def SG (m n : ℕ) (s : ℚ) : Fin m → Fin n → ℚ := fun a i => s + (a : ℕ) - 2 * (i : ℕ)

/-- Fock blocks -/
def FG (n m : ℕ) (s : ℚ) : OneE (Fin n) (Fin m) ℚ where
  oo := fun i j => s * (i : ℕ) + 2 * (j : ℕ)
  ov := fun i a => 1 + (i : ℕ) - (a : ℕ)
  vo := fun a i => 1 + (a : ℕ) * (i : ℕ)
  vv := fun a b => 3 + s * (a : ℕ) - (b : ℕ)

/-- mixed-spin integrals (no symmetry) -/
def IM (n m n' m' : ℕ) : TwoEFull (Fin n) (Fin m) (Fin n') (Fin m') ℚ where
  oooo := fun p q r s => 1 + (p : ℕ) - 2 * (q : ℕ) + (r : ℕ) * (s : ℕ)
  ooov := fun p q r s => 2 + (p : ℕ) - 2 * (q : ℕ) + (r : ℕ) * (s : ℕ)
  oovo := fun p q r s => 3 + (p : ℕ) - 2 * (q : ℕ) + (r : ℕ) * (s : ℕ)
  oovv := fun p q r s => 4 + (p : ℕ) - 2 * (q : ℕ) + (r : ℕ) * (s : ℕ)
  ovoo := fun p q r s => 5 + (p : ℕ) - 2 * (q : ℕ) + (r : ℕ) * (s : ℕ)
  ovov := fun p q r s => 6 + (p : ℕ) - 2 * (q : ℕ) + (r : ℕ) * (s : ℕ)
  ovvo := fun p q r s => 7 + (p : ℕ) - 2 * (q : ℕ) + (r : ℕ) * (s : ℕ)
  ovvv := fun p q r s => 8 + (p : ℕ) - 2 * (q : ℕ) + (r : ℕ) * (s : ℕ)
  vooo := fun p q r s => 9 + (p : ℕ) - 2 * (q : ℕ) + (r : ℕ) * (s : ℕ)
  voov := fun p q r s => 10 + (p : ℕ) - 2 * (q : ℕ) + (r : ℕ) * (s : ℕ)
  vovo := fun p q r s => 11 + (p : ℕ) - 2 * (q : ℕ) + (r : ℕ) * (s : ℕ)
  vovv := fun p q r s => 12 + (p : ℕ) - 2 * (q : ℕ) + (r : ℕ) * (s : ℕ)
  vvoo := fun p q r s => 13 + (p : ℕ) - 2 * (q : ℕ) + (r : ℕ) * (s : ℕ)
  vvov := fun p q r s => 14 + (p : ℕ) - 2 * (q : ℕ) + (r : ℕ) * (s : ℕ)
  vvvo := fun p q r s => 15 + (p : ℕ) - 2 * (q : ℕ) + (r : ℕ) * (s : ℕ)
  vvvv := fun p q r s => 16 + (p : ℕ) - 2 * (q : ℕ) + (r : ℕ) * (s : ℕ)

/-- Exchange the two electrons: the mixed integrals `⟨βα|βα⟩` from `⟨αβ|αβ⟩`. -/
def TwoEFull.flip {O₁ V₁ O₂ V₂ K : Type} (I : TwoEFull O₁ V₁ O₂ V₂ K) : TwoEFull O₂ V₂ O₁ V₁ K where
  oooo := fun p q r s => I.oooo q p s r
  ooov := fun p q r s => I.oovo q p s r
  oovo := fun p q r s => I.ooov q p s r
  oovv := fun p q r s => I.oovv q p s r
  ovoo := fun p q r s => I.vooo q p s r
  ovov := fun p q r s => I.vovo q p s r
  ovvo := fun p q r s => I.voov q p s r
  ovvv := fun p q r s => I.vovv q p s r
  vooo := fun p q r s => I.ovoo q p s r
  voov := fun p q r s => I.ovvo q p s r
  vovo := fun p q r s => I.ovov q p s r
  vovv := fun p q r s => I.ovvv q p s r
  vvoo := fun p q r s => I.vvoo q p s r
  vvov := fun p q r s => I.vvvo q p s r
  vvvo := fun p q r s => I.vvov q p s r
  vvvv := fun p q r s => I.vvvv q p s r

end CC
