import Verif.Spec.Second
import Verif.Spec.Sym
import Mathlib.Algebra.BigOperators.Ring.Finset
import Mathlib.Algebra.BigOperators.Pi
import Mathlib.Algebra.Module.BigOperators
import Mathlib.Algebra.Module.LinearMap.Basic
import Mathlib.Data.Fintype.BigOperators
import Mathlib.Tactic.Module
import Mathlib.Tactic.Abel
/-!
# Contractions of the quasi-particle operators with the cluster operator
-/
set_option linter.unusedSectionVars false
namespace Sq
open Finset CC Verif.Tensor

variable {K O V M : Type} [Field K] [DecidableEq O] [DecidableEq V] [AddCommGroup M] [Module K M]

namespace CAR
variable (C : CAR K (O ⊕ V) M)

/-- quasi-particle creators `a†`, `i` and annihilators `a`, `i†` -/
def e (a : V) : Module.End K M := C.cre (.inr a)
def f (i : O) : Module.End K M := C.ann (.inl i)
def d (a : V) : Module.End K M := C.ann (.inr a)
def g (i : O) : Module.End K M := C.cre (.inl i)

theorem ee (a b : V) (m : M) : C.e a (C.e b m) = -(C.e b (C.e a m)) :=
  LinearMap.congr_fun (C.cre_cre (.inr a) (.inr b)) m
theorem ff (i j : O) (m : M) : C.f i (C.f j m) = -(C.f j (C.f i m)) :=
  LinearMap.congr_fun (C.ann_ann (.inl i) (.inl j)) m
theorem dd (a b : V) (m : M) : C.d a (C.d b m) = -(C.d b (C.d a m)) :=
  LinearMap.congr_fun (C.ann_ann (.inr a) (.inr b)) m
theorem gg (i j : O) (m : M) : C.g i (C.g j m) = -(C.g j (C.g i m)) :=
  LinearMap.congr_fun (C.cre_cre (.inl i) (.inl j)) m
theorem fe (i : O) (a : V) (m : M) : C.f i (C.e a m) = -(C.e a (C.f i m)) := by
  have := LinearMap.congr_fun (C.ann_cre (.inl i) (.inr a)) m
  simp at this
  exact eq_neg_of_add_eq_zero_left this
theorem de (a b : V) (m : M) : C.d a (C.e b m) = (if a = b then m else 0) - C.e b (C.d a m) := by
  have := LinearMap.congr_fun (C.ann_cre (.inr a) (.inr b)) m
  simp only [Sum.inr.injEq, LinearMap.add_apply, Module.End.mul_apply] at this
  rw [eq_sub_iff_add_eq]
  refine this.trans ?_
  split_ifs <;> rfl
theorem df (a : V) (i : O) (m : M) : C.d a (C.f i m) = -(C.f i (C.d a m)) :=
  LinearMap.congr_fun (C.ann_ann (.inr a) (.inl i)) m
theorem gf (i j : O) (m : M) : C.g i (C.f j m) = (if i = j then m else 0) - C.f j (C.g i m) := by
  have := LinearMap.congr_fun (C.ann_cre (.inl j) (.inl i)) m
  simp only [Sum.inl.injEq, LinearMap.add_apply, Module.End.mul_apply] at this
  rw [eq_sub_iff_add_eq, add_comm]
  refine this.trans ?_
  simp only [eq_comm (a := j)]
  split_ifs <;> rfl
theorem ge (i : O) (a : V) (m : M) : C.g i (C.e a m) = -(C.e a (C.g i m)) :=
  LinearMap.congr_fun (C.cre_cre (.inl i) (.inr a)) m

theorem e_ite (a : V) (c : Prop) [Decidable c] (m : M) : C.e a (if c then m else 0) = if c then C.e a m else 0 := by
  split_ifs <;> simp
theorem f_ite (a : O) (c : Prop) [Decidable c] (m : M) : C.f a (if c then m else 0) = if c then C.f a m else 0 := by
  split_ifs <;> simp

end CAR

theorem sum_ite_irrel' {ι : Type} (s : Finset ι) {A : Type} [AddCommMonoid A] (c : Prop) [Decidable c] (F : ι → A) :
    (∑ x ∈ s, if c then F x else 0) = if c then ∑ x ∈ s, F x else 0 := by
  split_ifs <;> simp

variable [Fintype O] [Fintype V] (C : CAR K (O ⊕ V) M) (t : V → O → K) (t2 : V → V → O → O → K)

/-- first derivatives of the cluster operator -/
def X (c : V) : Module.End K M :=
  (∑ i, t c i • C.f i) + (1/2 : K) • ∑ b, ∑ i, ∑ j, t2 c b i j • (C.e b * C.f j * C.f i)
def Y (k : O) : Module.End K M :=
  -(∑ a, t a k • C.e a) - (1/2 : K) • ∑ a, ∑ b, ∑ j, t2 a b k j • (C.e a * C.e b * C.f j)
/-- second derivatives -/
def Z (c : V) (k : O) : Module.End K M := t c k • 1 + ∑ b, ∑ j, t2 c b k j • (C.e b * C.f j)
def W (b c : V) : Module.End K M := (1/2 : K) • ∑ i, ∑ j, t2 c b i j • (C.f j * C.f i)
def U (k l : O) : Module.End K M := (1/2 : K) • ∑ a, ∑ b, t2 a b k l • (C.e a * C.e b)
/-- third derivatives -/
def P (b c : V) (k : O) : Module.End K M := ∑ j, t2 b c k j • C.f j
def R (c : V) (k l : O) : Module.End K M := ∑ b, t2 c b k l • C.e b

section
variable {t t2}
local macro "wick" : tactic => `(tactic| simp only [X, Y, Z, W, U, P, R, LinearMap.add_apply, LinearMap.sub_apply, LinearMap.neg_apply,
  LinearMap.sum_apply, LinearMap.smul_apply, Module.End.mul_apply, Module.End.one_apply, map_add, map_sub, map_sum, map_smul, C.df, C.de, C.gf, C.ge,
  C.fe, C.e_ite, C.f_ite, smul_sub, smul_add, smul_ite, smul_zero, sum_sub_distrib, sum_add_distrib, sum_ite_irrel', sum_ite_eq, mem_univ, if_true,
  smul_neg, map_neg, sum_neg_distrib, neg_neg, neg_zero, ite_self, neg_sub, neg_add_rev, sub_neg_eq_add])

theorem dX (b c : V) (m : M) : C.d b (X C t t2 c m) = W C t2 b c m - X C t t2 c (C.d b m) := by
  wick; abel

theorem gX [CharZero K] (hT : Anti t2) (k : O) (c : V) (m : M) : C.g k (X C t t2 c m) = Z C t t2 c k m - X C t t2 c (C.g k m) := by
  have h : ∀ b i, t2 c b i k = - t2 c b k i := fun b i => hT.a34 c b k i
  wick; simp only [h, neg_smul, sum_neg_distrib]
  module

theorem dY [CharZero K] (hT : Anti t2) (c : V) (k : O) (m : M) : C.d c (Y C t t2 k m) = -(Z C t t2 c k m) - Y C t t2 k (C.d c m) := by
  have h : ∀ b j, t2 b c k j = - t2 c b k j := fun b i => hT.a12 c b k i
  wick; simp only [h, neg_smul, sum_neg_distrib]
  module

theorem gY (hT : Anti t2) (k l : O) (m : M) : C.g k (Y C t t2 l m) = U C t2 k l m - Y C t t2 l (C.g k m) := by
  have h : ∀ a b, t2 a b l k = - t2 a b k l := fun b i => hT.a34 b i k l
  wick; simp only [h, neg_smul, sum_neg_distrib]
  module

theorem dZ (b c : V) (k : O) (m : M) : C.d b (Z C t t2 c k m) = P C t2 c b k m + Z C t t2 c k (C.d b m) := by
  wick; abel

theorem gZ (l : O) (c : V) (k : O) (m : M) : C.g l (Z C t t2 c k m) = -(R C t2 c k l m) + Z C t t2 c k (C.g l m) := by
  wick; abel

theorem dW (a b c : V) (m : M) : C.d a (W C t2 b c m) = W C t2 b c (C.d a m) := by
  wick

theorem gW [CharZero K] (hT : Anti t2) (k : O) (b c : V) (m : M) : C.g k (W C t2 b c m) = P C t2 b c k m + W C t2 b c (C.g k m) := by
  have h : ∀ i, t2 c b i k = t2 b c k i := fun i => by rw [hT.a34 c b k i, hT.a12 b c]; simp
  have h' : ∀ i, t2 c b k i = - t2 b c k i := fun i => hT.a12 b c k i
  wick; simp only [h, h', neg_smul, sum_neg_distrib]
  module

theorem dU [CharZero K] (hT : Anti t2) (c : V) (k l : O) (m : M) : C.d c (U C t2 k l m) = R C t2 c k l m + U C t2 k l (C.d c m) := by
  have h : ∀ a, t2 a c k l = - t2 c a k l := fun a => hT.a12 c a k l
  wick; simp only [h, neg_smul, sum_neg_distrib]
  module

theorem gU (j k l : O) (m : M) : C.g j (U C t2 k l m) = U C t2 k l (C.g j m) := by
  wick

theorem dP (a b c : V) (k : O) (m : M) : C.d a (P C t2 b c k m) = -(P C t2 b c k (C.d a m)) := by
  wick
theorem gP (l : O) (b c : V) (k : O) (m : M) : C.g l (P C t2 b c k m) = t2 b c k l • m - P C t2 b c k (C.g l m) := by
  wick
theorem dR (b c : V) (k l : O) (m : M) : C.d b (R C t2 c k l m) = t2 c b k l • m - R C t2 c k l (C.d b m) := by
  wick
theorem gR (j : O) (c : V) (k l : O) (m : M) : C.g j (R C t2 c k l m) = -(R C t2 c k l (C.g j m)) := by
  wick
end
end Sq
