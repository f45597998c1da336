import Verif.Spec.Second
import Verif.Spec.Fock
import Mathlib.LinearAlgebra.Pi
import Mathlib.Logic.Equiv.Defs
import Mathlib.Data.FunLike.Embedding
import Mathlib.Order.Fin.Basic
import Mathlib.Data.Sum.Order
/-!
# The Jordan-Wigner operators are an instance of the second-quantised setting

For every injective map `σ` of the occupied and virtual orbitals into a linear order.
-/
set_option linter.unusedSectionVars false
namespace Sq
open Finset

variable {K O V ι : Type} [Field K] [DecidableEq O] [DecidableEq V] [LinearOrder ι] [Fintype O]
  {F : Type} [FunLike F (O ⊕ V) ι] [EmbeddingLike F (O ⊕ V) ι] (σ : F)

/-- Jordan-Wigner operators on the Fock space over `ι`. -/
def fockCAR (K : Type) [Field K] : CAR K (O ⊕ V) (Finset ι → K) where
  ann p := Fock.ann (σ p)
  cre p := Fock.cre (σ p)
  ann_ann p q := Fock.ann_ann _ _
  cre_cre p q := Fock.cre_cre _ _
  ann_cre p q := by rw [Fock.ann_cre]; simp only [EmbeddingLike.apply_eq_iff_eq σ]

/-- the occupied orbitals -/
def occSet : Finset ι := univ.image fun i : O => σ (.inl i)

theorem inl_mem (i : O) : σ (.inl i) ∈ occSet σ := mem_image_of_mem _ (mem_univ i)
theorem inr_notMem (a : V) : σ (.inr a) ∉ occSet σ := by
  intro h
  obtain ⟨i, -, hi⟩ := mem_image.mp h
  exact Sum.inl_ne_inr (EmbeddingLike.injective σ hi)

/-- the reference determinant -/
def fockRef (K : Type) [Field K] : Ref (fockCAR σ K) where
  ket := Fock.det (occSet σ)
  bra := LinearMap.proj (occSet σ)
  norm := by simp [Fock.det]
  ann_ket a := by
    funext S
    change Fock.ann (σ (.inr a)) _ S = _
    rw [Fock.ann_apply, Fock.det_apply]
    split_ifs with h1 h2
    · rfl
    · exact absurd (h2 ▸ mem_insert_self _ _) (inr_notMem σ a)
    · simp
  cre_ket i := by
    funext S
    change Fock.cre (σ (.inl i)) _ S = _
    rw [Fock.cre_apply, Fock.det_apply]
    split_ifs with h1 h2
    · exact absurd (h2 ▸ inl_mem σ i) (notMem_erase _ _)
    · simp
    · rfl
  bra_cre a m := by
    change Fock.cre (σ (.inr a)) m (occSet σ) = _
    rw [Fock.cre_apply, if_neg (inr_notMem σ a)]
  bra_ann i m := by
    change Fock.ann (σ (.inl i)) m (occSet σ) = _
    rw [Fock.ann_apply, if_pos (inl_mem σ i)]

end Sq
