import Verif.Model.Blocks
import Mathlib.Algebra.Module.LinearMap.End
import Mathlib.Algebra.Algebra.Basic
import Mathlib.Algebra.BigOperators.Group.Finset.Basic
import Mathlib.Algebra.Field.Basic
import Mathlib.RingTheory.Nilpotent.Defs
import Mathlib.Data.Nat.Factorial.Basic
import Mathlib.Data.Fintype.Sum
/-!
# Specification: coupled-cluster theory in second quantisation

Textbook definitions, independent of the code: operators with the canonical anticommutation relations on some vector space, a
reference determinant, the Hamiltonian, the cluster operator and the exponential.  The Jordan-Wigner operators of
`Verif.Spec.Fock` are an instance (`Verif.Props.GSecond`), but nothing below depends on a representation.
Orbitals are `O ⊕ V`: occupied (`Sum.inl`) or virtual (`Sum.inr`) in the reference.
-/
namespace Sq
open Finset

/-- Annihilation and creation operators on `M` with the canonical anticommutation relations. -/
structure CAR (K ι M : Type) [Field K] [DecidableEq ι] [AddCommGroup M] [Module K M] where
  ann : ι → Module.End K M
  cre : ι → Module.End K M
  ann_ann : ∀ p q, ann p * ann q = -(ann q * ann p)
  cre_cre : ∀ p q, cre p * cre q = -(cre q * cre p)
  ann_cre : ∀ p q, ann p * cre q + cre q * ann p = if p = q then 1 else 0

variable {K O V M : Type} [Field K] [DecidableEq O] [DecidableEq V] [AddCommGroup M] [Module K M]

/-- A reference determinant `|0⟩` (`ket`) with the occupied orbitals filled and the virtual ones empty, and the functional `⟨0|` (`bra`). -/
structure Ref (C : CAR K (O ⊕ V) M) where
  ket : M
  bra : M →ₗ[K] K
  norm : bra ket = 1
  ann_ket : ∀ a, C.ann (.inr a) ket = 0
  cre_ket : ∀ i, C.cre (.inl i) ket = 0
  bra_cre : ∀ a m, bra (C.cre (.inr a) m) = 0
  bra_ann : ∀ i m, bra (C.ann (.inl i) m) = 0

/-- `⟨0| A |0⟩` -/
def Ref.vev {C : CAR K (O ⊕ V) M} (R : Ref C) (A : Module.End K M) : K := R.bra (A R.ket)

section
variable {A : Type} [Ring A] [Algebra K A]
/-- Exponential of a nilpotent element: the finite sum `∑ x^n / n!`. -/
noncomputable def nexp (K : Type) [Field K] [Algebra K A] (x : A) : A :=
  ∑ n ∈ range (nilpotencyClass x), ((n.factorial : K)⁻¹) • x ^ n
end

variable [Fintype O] [Fintype V] (C : CAR K (O ⊕ V) M)

/-- One-electron operator `∑ h_pq p† q`. -/
def op1 (h : O ⊕ V → O ⊕ V → K) : Module.End K M := ∑ p, ∑ q, h p q • (C.cre p * C.ann q)

/-- Two-electron operator `1/4 ∑ ⟨pq||rs⟩ p† q† s r`. -/
def op2 (v : O ⊕ V → O ⊕ V → O ⊕ V → O ⊕ V → K) : Module.End K M :=
  (1/4 : K) • ∑ p, ∑ q, ∑ r, ∑ s, v p q r s • (C.cre p * C.cre q * C.ann s * C.ann r)

/-- The Hamiltonian. -/
def ham (h : O ⊕ V → O ⊕ V → K) (v : O ⊕ V → O ⊕ V → O ⊕ V → O ⊕ V → K) : Module.End K M := op1 C h + op2 C v

/-- Cluster operator `∑ t_i^a a† i + 1/4 ∑ t_ij^ab a† b† j i`. -/
def cluster (t : V → O → K) (t2 : V → V → O → O → K) : Module.End K M :=
  (∑ a, ∑ i, t a i • (C.cre (.inr a) * C.ann (.inl i)))
    + (1/4 : K) • ∑ a, ∑ b, ∑ i, ∑ j, t2 a b i j • (C.cre (.inr a) * C.cre (.inr b) * C.ann (.inl j) * C.ann (.inl i))

/-- De-excitation operator `∑ λ_a^i i† a + 1/4 ∑ λ_ab^ij i† j† b a`. -/
def deexc (l : O → V → K) (l2 : O → O → V → V → K) : Module.End K M :=
  (∑ i, ∑ a, l i a • (C.cre (.inl i) * C.ann (.inr a)))
    + (1/4 : K) • ∑ i, ∑ j, ∑ a, ∑ b, l2 i j a b • (C.cre (.inl i) * C.cre (.inl j) * C.ann (.inr b) * C.ann (.inr a))

/-- The similarity-transformed operator `e^{-T} A e^{T}`. -/
noncomputable def bar (t : V → O → K) (t2 : V → V → O → O → K) (A : Module.End K M) : Module.End K M :=
  nexp K (-cluster C t t2) * A * nexp K (cluster C t t2)

variable {C}
omit [DecidableEq O] [DecidableEq V]

/-- Antisymmetric two-electron integrals `⟨pq||rs⟩`. -/
structure AntiV (v : O ⊕ V → O ⊕ V → O ⊕ V → O ⊕ V → K) : Prop where
  bra : ∀ p q r s, v q p r s = - v p q r s
  ket : ∀ p q r s, v p q s r = - v p q r s

/-- Fock matrix `f_pq = h_pq + ∑_k ⟨pk||qk⟩`, as the blocks the code works with. -/
def fock (h : O ⊕ V → O ⊕ V → K) (v : O ⊕ V → O ⊕ V → O ⊕ V → O ⊕ V → K) : CC.OneE O V K where
  oo := fun i j => h (.inl i) (.inl j) + ∑ k, v (.inl i) (.inl k) (.inl j) (.inl k)
  ov := fun i a => h (.inl i) (.inr a) + ∑ k, v (.inl i) (.inl k) (.inr a) (.inl k)
  vo := fun a i => h (.inr a) (.inl i) + ∑ k, v (.inr a) (.inl k) (.inl i) (.inl k)
  vv := fun a b => h (.inr a) (.inr b) + ∑ k, v (.inr a) (.inl k) (.inr b) (.inl k)

/-- The nine blocks of the two-electron integrals the code works with. -/
def blocks (v : O ⊕ V → O ⊕ V → O ⊕ V → O ⊕ V → K) : CC.TwoE O V K where
  vvvv := fun a b c d => v (.inr a) (.inr b) (.inr c) (.inr d)
  vvvo := fun a b c i => v (.inr a) (.inr b) (.inr c) (.inl i)
  vovv := fun a i c d => v (.inr a) (.inl i) (.inr c) (.inr d)
  vvoo := fun a b i j => v (.inr a) (.inr b) (.inl i) (.inl j)
  vovo := fun a i b j => v (.inr a) (.inl i) (.inr b) (.inl j)
  oovv := fun i j a b => v (.inl i) (.inl j) (.inr a) (.inr b)
  vooo := fun a i j k => v (.inr a) (.inl i) (.inl j) (.inl k)
  ooov := fun i j k a => v (.inl i) (.inl j) (.inl k) (.inr a)
  oooo := fun i j k l => v (.inl i) (.inl j) (.inl k) (.inl l)

/-- Energy of the reference determinant, `∑ h_ii + 1/2 ∑ ⟨ij||ij⟩`. -/
def refEnergy (h : O ⊕ V → O ⊕ V → K) (v : O ⊕ V → O ⊕ V → O ⊕ V → O ⊕ V → K) : K :=
  ∑ i, h (.inl i) (.inl i) + (1/2) * ∑ i, ∑ j, v (.inl i) (.inl j) (.inl i) (.inl j)

end Sq
