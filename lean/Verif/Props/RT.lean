import Verif.Tensor.Tactic
import Verif.Model.CCUT
import Verif.Model.CCRT
import Verif.Model.CCEnergy
import Verif.Spec.Closed
/-!
# C14, C12, C43: restricted amplitude equations and energy
-/
set_option linter.unusedVariables false
namespace CC
open Verif.Tensor

variable {K : Type} [Field K] [CharZero K] {O V : Type} [Fintype O] [Fintype V]

variable (F : OneE O V K) (I : TwoEFull O V O V K) (T1 : V → O → K) (T2 : V → V → O → O → K)
variable (hI : PairI I) (hT : PairSym T2)
include hI hT

/-- C14, singles. -/
theorem C14_singles :
    (uccsd_stanton F F (asymI I) (asymI I) I (T1, T1) (asym2 T2, T2, asym2 T2)).1
    = ((rccsd_stanton F I T1 T2).1, (rccsd_stanton F I T1 T2).1) := by
  pair_elim hI I
  refine Prod.ext ?_ ?_
  · funext a i; tensor
  · funext a i; tensor

/-- C14, doubles: the mixed-spin part is the restricted result, the same-spin parts its antisymmetrisation. -/
theorem C14_doubles :
    (uccsd_stanton F F (asymI I) (asymI I) I (T1, T1) (asym2 T2, T2, asym2 T2)).2
    = (asym2 (rccsd_stanton F I T1 T2).2, (rccsd_stanton F I T1 T2).2, asym2 (rccsd_stanton F I T1 T2).2) := by
  pair_elim hI I
  refine Prod.ext ?_ (Prod.ext ?_ ?_)
  · funext a b i j; tensor
  · funext a b i j; tensor
  · funext a b i j; tensor

/-- C14: on closed-shell input the unrestricted update is the restricted one. -/
theorem C14_rccsd :
    uccsd_stanton F F (asymI I) (asymI I) I (T1, T1) (asym2 T2, T2, asym2 T2)
    = (((rccsd_stanton F I T1 T2).1, (rccsd_stanton F I T1 T2).1),
       (asym2 (rccsd_stanton F I T1 T2).2, (rccsd_stanton F I T1 T2).2, asym2 (rccsd_stanton F I T1 T2).2)) :=
  Prod.ext (C14_singles F I T1 T2 hI hT) (C14_doubles F I T1 T2 hI hT)

/-- C43: the doubles returned are again symmetric under exchange of the electrons. -/
theorem C43_rccsd_pair : PairSym (rccsd_stanton F I T1 T2).2 := by
  pair_elim hI I
  intro a b i j
  tensor

omit hI hT in
/-- C12: the restricted energy is the unrestricted energy of closed-shell input. -/
theorem C12_rcc_energy (f : O → V → K) (I : O → O → V → V → K) (hI : PairSym I) (hT : PairSym T2) :
    ucc_energy (T1, T1) (asym2 T2, T2, asym2 T2) f f (asym2 I) (asym2 I) I = rcc_energy T1 T2 f I := by
  tensor

omit hI hT in
/-- C43, histories: closed-shell symmetry holds along any damped, denominator-weighted iteration. -/
theorem C43_rccsd_iterates (hI : PairI I) (d : V → V → O → O → K) (hd : PairSym d) (w v : ℕ → K)
    (t1 : ℕ → V → O → K) (t2 : ℕ → V → V → O → O → K) (h0 : PairSym (t2 0))
    (hs : ∀ n a b i j, t2 (n+1) a b i j = w n * t2 n a b i j
      + v n * ((rccsd_stanton F I (t1 n) (t2 n)).2 a b i j * d a b i j)) :
    ∀ n, PairSym (t2 n) := by
  intro n
  induction n with
  | zero => exact h0
  | succ n ih =>
    intro a b i j
    rw [hs, hs, ih a b i j, C43_rccsd_pair F I (t1 n) (t2 n) hI ih a b i j, hd a b i j]

omit hI hT in
/-- C14, histories: a restricted iteration and the unrestricted iteration started from the corresponding closed-shell
amplitudes correspond at every step. -/
theorem C14_rccsd_iterates (hI : PairI I) (e : V → O → K) (d : V → V → O → O → K) (hd : PairSym d)
    (hd' : ∀ a b i j, d a b j i = d a b i j)
    (t1 : ℕ → V → O → K) (t2 : ℕ → V → V → O → O → K) (h0 : PairSym (t2 0))
    (hs1 : ∀ n a i, t1 (n+1) a i = (rccsd_stanton F I (t1 n) (t2 n)).1 a i * e a i)
    (hs2 : ∀ n a b i j, t2 (n+1) a b i j = (rccsd_stanton F I (t1 n) (t2 n)).2 a b i j * d a b i j)
    (u1 : ℕ → (V → O → K) × (V → O → K))
    (u2 : ℕ → (V → V → O → O → K) × (V → V → O → O → K) × (V → V → O → O → K))
    (hu1 : u1 0 = (t1 0, t1 0)) (hu2 : u2 0 = (asym2 (t2 0), t2 0, asym2 (t2 0)))
    (hr1 : ∀ n, u1 (n+1) =
      (fun a i => (uccsd_stanton F F (asymI I) (asymI I) I (u1 n) (u2 n)).1.1 a i * e a i,
       fun a i => (uccsd_stanton F F (asymI I) (asymI I) I (u1 n) (u2 n)).1.2 a i * e a i))
    (hr2 : ∀ n, u2 (n+1) =
      (fun a b i j => (uccsd_stanton F F (asymI I) (asymI I) I (u1 n) (u2 n)).2.1 a b i j * d a b i j,
       fun a b i j => (uccsd_stanton F F (asymI I) (asymI I) I (u1 n) (u2 n)).2.2.1 a b i j * d a b i j,
       fun a b i j => (uccsd_stanton F F (asymI I) (asymI I) I (u1 n) (u2 n)).2.2.2 a b i j * d a b i j)) :
    ∀ n, u1 n = (t1 n, t1 n) ∧ u2 n = (asym2 (t2 n), t2 n, asym2 (t2 n)) := by
  have hp : ∀ n, PairSym (t2 n) := by
    apply C43_rccsd_iterates F I hI d hd (fun _ => 0) (fun _ => 1) t1 t2 h0
    intro n a b i j
    rw [hs2]; ring
  intro n
  induction n with
  | zero => exact ⟨hu1, hu2⟩
  | succ n ih =>
    obtain ⟨h1, h2⟩ := ih
    rw [hr1, hr2, h1, h2, C14_rccsd F I (t1 n) (t2 n) hI (hp n)]
    refine ⟨?_, ?_⟩
    · refine Prod.ext ?_ ?_ <;> funext a i <;> exact (hs1 n a i).symm
    · refine Prod.ext ?_ (Prod.ext ?_ ?_)
      · funext a b i j; simp only [asym2]; rw [hs2, hs2, hd' a b i j]; ring
      · funext a b i j; exact (hs2 n a b i j).symm
      · funext a b i j; simp only [asym2]; rw [hs2, hs2, hd' a b i j]; ring

/-! Concrete closed-shell data with a non-zero result. -/
omit [CharZero K] [Fintype O] [Fintype V] hI hT in
example : PairI (IR 2 3) ∧ PairSym (TR 3 2 1) ∧
    (rccsd_stanton (FG 2 3 1) (IR 2 3) (SG 3 2 1) (TR 3 2 1)).2 0 1 0 1 ≠ 0 :=
  ⟨IR_pair .., TR_pair _ _ _, by decide +kernel⟩

end CC
