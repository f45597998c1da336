import Verif.Props.Wick
import Mathlib.RingTheory.Nilpotent.Exp
import Mathlib.Algebra.Algebra.Rat
import Mathlib.Algebra.Algebra.Subalgebra.Lattice
import Mathlib.Algebra.Module.Rat
import Mathlib.Algebra.CharP.Invertible
/-!
# Similarity transformation with the cluster operator

`o e^T = e^T (o + [o, T])` for the four kinds of quasi-particle operators, so `e^{-T} A e^T` is `A` with dressed operators.
-/
set_option linter.unusedSectionVars false
namespace Sq
open Finset CC Verif.Tensor

section exp
variable {K A : Type} [Field K] [CharZero K] [Ring A] [Algebra K A]

theorem nexp_eq {x : A} {N : ℕ} (h : x ^ N = 0) : nexp K x = ∑ n ∈ range N, ((n.factorial : K)⁻¹) • x ^ n := by
  have h1 : ∑ i ∈ range N, ((i.factorial : K)⁻¹) • (x ^ i) =
      ∑ i ∈ range (nilpotencyClass x), ((i.factorial : K)⁻¹) • (x ^ i) +
        ∑ i ∈ Ico (nilpotencyClass x) N, ((i.factorial : K)⁻¹) • (x ^ i) :=
    (sum_range_add_sum_Ico _ (csInf_le' h)).symm
  have h2 : ∑ i ∈ Ico (nilpotencyClass x) N, ((i.factorial : K)⁻¹) • (x ^ i) = 0 :=
    sum_eq_zero fun _ h₂ => by rw [pow_eq_zero_of_le (mem_Ico.1 h₂).1 (pow_nilpotencyClass ⟨N, h⟩), smul_zero]
  rw [h1, h2, add_zero, nexp]

theorem nexp_neg_mul {x : A} (h : IsNilpotent x) : nexp K (-x) * nexp K x = 1 := by
  let : Module ℚ A := Module.compHom A (algebraMap ℚ K)
  have e : ∀ y : A, nexp K y = IsNilpotent.exp y := fun y => by
    unfold nexp IsNilpotent.exp
    refine sum_congr rfl fun n _ => ?_
    change _ = (algebraMap ℚ K ((n.factorial : ℚ)⁻¹)) • y ^ n
    simp
  rw [e, e]; exact IsNilpotent.exp_neg_mul_exp_self h

theorem mul_pow_comm {T o X : A} (h : o * T = T * o + X) (hX : X * T = T * X) (n : ℕ) :
    o * T ^ (n + 1) = T ^ (n + 1) * o + ((n + 1 : ℕ) : K) • (T ^ n * X) := by
  have hXn : ∀ n, X * T ^ n = T ^ n * X := fun n => ((show Commute X T from hX).pow_right n).eq
  induction n with
  | zero => simp [h]
  | succ n ih =>
    rw [pow_succ, ← mul_assoc, ih, add_mul, mul_assoc, h, mul_add, ← mul_assoc, smul_mul_assoc, mul_assoc (T ^ n), hX,
      ← mul_assoc, ← pow_succ, add_assoc, ← pow_succ]
    congr 1
    push_cast
    rw [add_smul (_ + 1 : K), one_smul, add_comm]

/-- `o e^T = e^T (o + X)` when `[o, T] = X` commutes with `T`. -/
theorem mul_nexp {T o X : A} (hT : IsNilpotent T) (h : o * T = T * o + X) (hX : X * T = T * X) :
    o * nexp K T = nexp K T * (o + X) := by
  obtain ⟨N, hN⟩ := hT
  have e1 : nexp K T = ∑ n ∈ range (N + 1), ((n.factorial : K)⁻¹) • T ^ n := nexp_eq (by rw [pow_succ, hN, zero_mul])
  have e2 : nexp K T * X = ∑ n ∈ range N, ((n.factorial : K)⁻¹) • (T ^ n * X) := by
    rw [nexp_eq hN, sum_mul]; simp only [smul_mul_assoc]
  rw [mul_add, e2, e1, sum_range_succ', mul_add, add_mul, mul_sum, sum_mul]
  simp only [mul_smul_comm, mul_pow_comm (K := K) h hX, smul_add, sum_add_distrib, pow_zero, mul_one, smul_mul_assoc, one_mul]
  rw [add_assoc, add_assoc]
  congr 1
  rw [add_comm]
  congr 1
  refine sum_congr rfl fun n _ => ?_
  rw [smul_smul, Nat.factorial_succ]
  congr 1
  have h1 : ((n + 1 : ℕ) : K) ≠ 0 := Nat.cast_ne_zero.mpr (Nat.succ_ne_zero n)
  push_cast at h1 ⊢
  rw [mul_inv, mul_comm, ← mul_assoc, mul_inv_cancel₀ h1, one_mul]
end exp

section cluster
variable {K O V M : Type} [Field K] [CharZero K] [DecidableEq O] [DecidableEq V] [AddCommGroup M] [Module K M]
variable (C : CAR K (O ⊕ V) M)

/-- products of anticommuting pairs commute -/
theorem commute_of_anti {A : Type} [Ring A] {x y z : A} (h1 : x * y = -(y * x)) (h2 : x * z = -(z * x)) : Commute x (y * z) := by
  change x * (y * z) = y * z * x
  rw [← mul_assoc, h1, neg_mul, mul_assoc, h2, mul_neg, neg_neg, mul_assoc]

theorem ee' (a b : V) : C.e a * C.e b = -(C.e b * C.e a) := C.cre_cre _ _
theorem ff' (i j : O) : C.f i * C.f j = -(C.f j * C.f i) := C.ann_ann _ _
theorem fe' (i : O) (a : V) : C.f i * C.e a = -(C.e a * C.f i) := LinearMap.ext fun m => C.fe i a m
theorem ef' (i : O) (a : V) : C.e a * C.f i = -(C.f i * C.e a) := by rw [fe', neg_neg]

/-- quasi-particle creators -/
def creators : Set (Module.End K M) := Set.range C.e ∪ Set.range C.f

/-- even elements of the algebra of creators that are nilpotent -/
def Good (x : Module.End K M) : Prop :=
  x ∈ Algebra.adjoin K (creators C) ∧ x ∈ Subalgebra.centralizer K (creators C) ∧ IsNilpotent x

theorem commute_of_cent {x y : Module.End K M} (hx : x ∈ Algebra.adjoin K (creators C))
    (hy : y ∈ Subalgebra.centralizer K (creators C)) : Commute x y := by
  have : Algebra.adjoin K (creators C) ≤ Subalgebra.centralizer K {y} :=
    Algebra.adjoin_le fun z hz => by
      rw [SetLike.mem_coe, Subalgebra.mem_centralizer_iff]
      rintro _ rfl
      exact ((Subalgebra.mem_centralizer_iff K).mp hy z hz).symm
  exact ((Subalgebra.mem_centralizer_iff K).mp (this hx) y rfl).symm

theorem Good.add {x y : Module.End K M} (hx : Good C x) (hy : Good C y) : Good C (x + y) :=
  ⟨add_mem hx.1 hy.1, add_mem hx.2.1 hy.2.1, (commute_of_cent C hx.1 hy.2.1).isNilpotent_add hx.2.2 hy.2.2⟩
theorem Good.zero : Good C (0 : Module.End K M) := ⟨zero_mem _, zero_mem _, IsNilpotent.zero⟩
theorem Good.smul {x : Module.End K M} (hx : Good C x) (c : K) : Good C (c • x) :=
  ⟨Subalgebra.smul_mem _ hx.1 c, Subalgebra.smul_mem _ hx.2.1 c, hx.2.2.smul c⟩
theorem Good.sum {ι : Type} (s : Finset ι) (F : ι → Module.End K M) (h : ∀ x ∈ s, Good C (F x)) : Good C (∑ x ∈ s, F x) :=
  Finset.sum_induction F (Good C) (fun _ _ => Good.add C) (Good.zero C) h

theorem e_mem (a : V) : C.e a ∈ Algebra.adjoin K (creators C) := Algebra.subset_adjoin (.inl ⟨a, rfl⟩)
theorem f_mem (i : O) : C.f i ∈ Algebra.adjoin K (creators C) := Algebra.subset_adjoin (.inr ⟨i, rfl⟩)

theorem sq_e (a : V) : C.e a * C.e a = 0 := by
  have h := ee' C a a
  have h2 : (2 : K) • (C.e a * C.e a) = 0 := by rw [two_smul]; nth_rw 1 [h]; simp
  exact (smul_eq_zero.mp h2).resolve_left two_ne_zero

theorem good_ef (a : V) (i : O) : Good C (C.e a * C.f i) := by
  have hc : C.e a * C.f i ∈ Subalgebra.centralizer K (creators C) := by
    rw [Subalgebra.mem_centralizer_iff]
    rintro _ (⟨b, rfl⟩ | ⟨j, rfl⟩)
    · exact commute_of_anti (ee' C _ _) (ef' C _ _)
    · exact commute_of_anti (fe' C _ _) (ff' C _ _)
  refine ⟨mul_mem (e_mem C a) (f_mem C i), hc, 2, ?_⟩
  have := commute_of_cent C (e_mem C a) hc
  rw [sq, mul_assoc, (commute_of_cent C (f_mem C i) hc).eq, ← mul_assoc, ← mul_assoc, sq_e, zero_mul, zero_mul]

variable [Fintype O] [Fintype V] (t : V → O → K) (t2 : V → V → O → O → K)

theorem good_cluster : Good C (cluster C t t2) := by
  refine Good.add C (Good.sum C _ _ fun a _ => Good.sum C _ _ fun i _ => Good.smul C (good_ef C a i) _)
    (Good.smul C (Good.sum C _ _ fun a _ => Good.sum C _ _ fun b _ => Good.sum C _ _ fun i _ => Good.sum C _ _ fun j _ =>
      Good.smul C ?_ _) _)
  change Good C (C.e a * C.e b * C.f j * C.f i)
  have h1 := good_ef C a i
  have h2 := good_ef C b j
  have : C.e a * C.e b * C.f j * C.f i = (C.e a * C.f i) * (C.e b * C.f j) := by
    have h3 : Commute (C.f i) (C.e b * C.f j) := commute_of_cent C (f_mem C i) h2.2.1
    rw [mul_assoc (C.e a) (C.f i), h3.eq]; simp only [mul_assoc]
  rw [this]
  exact ⟨mul_mem h1.1 h2.1, mul_mem h1.2.1 h2.2.1, (commute_of_cent C h1.1 h2.2.1).isNilpotent_mul_right h1.2.2⟩

/-- The cluster operator is nilpotent, so the exponential is a finite sum. -/
theorem cluster_nilpotent : IsNilpotent (cluster C t t2) := (good_cluster C t t2).2.2

theorem X_mem (c : V) : X C t t2 c ∈ Algebra.adjoin K (creators C) :=
  add_mem (sum_mem fun i _ => Subalgebra.smul_mem _ (f_mem C i) _) (Subalgebra.smul_mem _ (sum_mem fun b _ => sum_mem fun i _ => sum_mem fun j _ =>
    Subalgebra.smul_mem _ (mul_mem (mul_mem (e_mem C b) (f_mem C j)) (f_mem C i)) _) _)
theorem Y_mem (k : O) : Y C t t2 k ∈ Algebra.adjoin K (creators C) :=
  sub_mem (neg_mem (sum_mem fun i _ => Subalgebra.smul_mem _ (e_mem C i) _)) (Subalgebra.smul_mem _ (sum_mem fun b _ => sum_mem fun i _ => sum_mem fun j _ =>
    Subalgebra.smul_mem _ (mul_mem (mul_mem (e_mem C b) (e_mem C i)) (f_mem C j)) _) _)

local macro "wick" : tactic => `(tactic| simp only [cluster, X, Y, LinearMap.add_apply, LinearMap.sub_apply, LinearMap.neg_apply,
  LinearMap.sum_apply, LinearMap.smul_apply, Module.End.mul_apply, Module.End.one_apply, map_add, map_sub, map_sum, map_smul, C.df, C.de, C.gf, C.ge,
  C.fe, C.e_ite, C.f_ite, smul_sub, smul_add, smul_ite, smul_zero, sum_sub_distrib, sum_add_distrib, sum_ite_irrel', sum_ite_eq, mem_univ, if_true,
  smul_neg, map_neg, sum_neg_distrib, neg_neg, neg_zero, ite_self, neg_sub, neg_add_rev, sub_neg_eq_add])

theorem cluster_eq : cluster C t t2 = (∑ a, ∑ i, t a i • (C.e a * C.f i))
    + (1/4 : K) • ∑ a, ∑ b, ∑ i, ∑ j, t2 a b i j • (C.e a * C.e b * C.f j * C.f i) := rfl

theorem d_cluster (hT : Anti t2) (c : V) : C.d c * cluster C t t2 = cluster C t t2 * C.d c + X C t t2 c := by
  ext m
  have h : ∀ b i j, t2 b c i j = - t2 c b i j := fun b i j => hT.a12 c b i j
  rw [cluster_eq]
  wick
  simp only [h, neg_smul, sum_neg_distrib]
  module

theorem g_cluster (hT : Anti t2) (k : O) : C.g k * cluster C t t2 = cluster C t t2 * C.g k + Y C t t2 k := by
  ext m
  have h : ∀ a b i, t2 a b i k = - t2 a b k i := fun a b i => hT.a34 a b k i
  rw [cluster_eq]
  wick
  simp only [h, neg_smul, sum_neg_distrib]
  module

/-- dressed operators -/
def creD (t : V → O → K) (t2 : V → V → O → O → K) : O ⊕ V → Module.End K M
  | .inl i => C.g i + Y C t t2 i
  | .inr a => C.e a
def annD (t : V → O → K) (t2 : V → V → O → O → K) : O ⊕ V → Module.End K M
  | .inl i => C.f i
  | .inr a => C.d a + X C t t2 a

theorem cre_nexp (hT : Anti t2) (p : O ⊕ V) :
    C.cre p * nexp K (cluster C t t2) = nexp K (cluster C t t2) * creD C t t2 p := by
  have hn := cluster_nilpotent C t t2
  cases p with
  | inl i => exact mul_nexp hn (g_cluster C t t2 hT i) (commute_of_cent C (Y_mem C t t2 i) (good_cluster C t t2).2.1).eq
  | inr a =>
    have := mul_nexp (K := K) hn (o := C.e a) (X := 0) (by rw [add_zero]; exact (commute_of_cent C (e_mem C a) (good_cluster C t t2).2.1).eq) (by simp)
    rw [add_zero] at this; exact this
theorem ann_nexp (hT : Anti t2) (p : O ⊕ V) :
    C.ann p * nexp K (cluster C t t2) = nexp K (cluster C t t2) * annD C t t2 p := by
  have hn := cluster_nilpotent C t t2
  cases p with
  | inr i => exact mul_nexp hn (d_cluster C t t2 hT i) (commute_of_cent C (X_mem C t t2 i) (good_cluster C t t2).2.1).eq
  | inl a =>
    have := mul_nexp (K := K) hn (o := C.f a) (X := 0) (by rw [add_zero]; exact (commute_of_cent C (f_mem C a) (good_cluster C t t2).2.1).eq) (by simp)
    rw [add_zero] at this; exact this

theorem bar_of {A B : Module.End K M} (h : A * nexp K (cluster C t t2) = nexp K (cluster C t t2) * B) : bar C t t2 A = B := by
  rw [bar, mul_assoc, h, ← mul_assoc, nexp_neg_mul (cluster_nilpotent C t t2), one_mul]

theorem bar_add (A B : Module.End K M) : bar C t t2 (A + B) = bar C t t2 A + bar C t t2 B := by simp only [bar, mul_add, add_mul]
theorem bar_smul (c : K) (A : Module.End K M) : bar C t t2 (c • A) = c • bar C t t2 A := by
  simp only [bar, mul_smul_comm, smul_mul_assoc]
theorem bar_sum {ι : Type} (s : Finset ι) (F : ι → Module.End K M) : bar C t t2 (∑ x ∈ s, F x) = ∑ x ∈ s, bar C t t2 (F x) := by
  simp only [bar, mul_sum, sum_mul]
theorem bar_mul (hT : Anti t2) (p q : O ⊕ V) : bar C t t2 (C.cre p * C.ann q) = creD C t t2 p * annD C t t2 q :=
  bar_of C t t2 (by rw [mul_assoc, ann_nexp C t t2 hT, ← mul_assoc, cre_nexp C t t2 hT, mul_assoc])
theorem bar_mul2 (hT : Anti t2) (p q r s : O ⊕ V) : bar C t t2 (C.cre p * C.cre q * C.ann s * C.ann r)
    = creD C t t2 p * creD C t t2 q * annD C t t2 s * annD C t t2 r :=
  bar_of C t t2 (by
    rw [mul_assoc, ann_nexp C t t2 hT, ← mul_assoc, mul_assoc _ (C.ann s), ann_nexp C t t2 hT, ← mul_assoc, mul_assoc (C.cre p),
      cre_nexp C t t2 hT, ← mul_assoc, cre_nexp C t t2 hT]; simp only [mul_assoc])

theorem bar_ham (hT : Anti t2) (h : O ⊕ V → O ⊕ V → K) (v : O ⊕ V → O ⊕ V → O ⊕ V → O ⊕ V → K) :
    bar C t t2 (ham C h v) = (∑ p, ∑ q, h p q • (creD C t t2 p * annD C t t2 q))
      + (1/4 : K) • ∑ p, ∑ q, ∑ r, ∑ s, v p q r s • (creD C t t2 p * creD C t t2 q * annD C t t2 s * annD C t t2 r) := by
  simp only [ham, op1, op2, bar_add, bar_smul, bar_sum, bar_mul C t t2 hT, bar_mul2 C t t2 hT]
end cluster
end Sq
