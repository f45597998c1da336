import Verif.Props.Dress
import Verif.Tensor.Tactic
import Verif.Spec.CCSD
import Verif.Spec.Lagrangian
/-!
# Expectation values and projections of the dressed Hamiltonian
-/
set_option linter.unusedSectionVars false
namespace Sq
open Finset CC Verif.Tensor

variable {K O V M : Type} [Field K] [CharZero K] [DecidableEq O] [DecidableEq V] [AddCommGroup M] [Module K M]
  [Fintype O] [Fintype V] {C : CAR K (O ⊕ V) M} (Φ : Ref C) {t : V → O → K} {t2 : V → V → O → O → K}

/-- all sixteen blocks of the integrals in terms of the nine the code uses -/
def full (I : TwoE O V K) : O ⊕ V → O ⊕ V → O ⊕ V → O ⊕ V → K
  | .inl i, .inl j, .inl k, .inl l => I.oooo i j k l
  | .inl i, .inl j, .inl k, .inr d => I.ooov i j k d
  | .inl i, .inl j, .inr c, .inl l => - I.ooov i j l c
  | .inl i, .inl j, .inr c, .inr d => I.oovv i j c d
  | .inl i, .inr b, .inl k, .inl l => - I.vooo b i k l
  | .inl i, .inr b, .inl k, .inr d => I.vovo b i d k
  | .inl i, .inr b, .inr c, .inl l => - I.vovo b i c l
  | .inl i, .inr b, .inr c, .inr d => - I.vovv b i c d
  | .inr a, .inl j, .inl k, .inl l => I.vooo a j k l
  | .inr a, .inl j, .inl k, .inr d => - I.vovo a j d k
  | .inr a, .inl j, .inr c, .inl l => I.vovo a j c l
  | .inr a, .inl j, .inr c, .inr d => I.vovv a j c d
  | .inr a, .inr b, .inl k, .inl l => I.vvoo a b k l
  | .inr a, .inr b, .inl k, .inr d => - I.vvvo a b d k
  | .inr a, .inr b, .inr c, .inl l => I.vvvo a b c l
  | .inr a, .inr b, .inr c, .inr d => I.vvvv a b c d

/-- a one-electron matrix from its four blocks -/
def one (A : OneE O V K) : O ⊕ V → O ⊕ V → K
  | .inl i, .inl j => A.oo i j
  | .inl i, .inr a => A.ov i a
  | .inr a, .inl i => A.vo a i
  | .inr a, .inr b => A.vv a b

theorem one_blocks (h : O ⊕ V → O ⊕ V → K) : one ⟨fun i j => h (.inl i) (.inl j), fun i a => h (.inl i) (.inr a), fun a i => h (.inr a) (.inl i),
    fun a b => h (.inr a) (.inr b)⟩ = h := by
  funext p q; cases p <;> cases q <;> rfl

theorem full_blocks {v : O ⊕ V → O ⊕ V → O ⊕ V → O ⊕ V → K} (hv : AntiV v) : full (blocks v) = v := by
  have h : ∀ p q r s, v p q r s = v q p s r := fun p q r s => by rw [hv.bra, hv.ket, neg_neg]
  funext p q r s
  cases p <;> cases q <;> cases r <;> cases s <;> simp only [full, blocks] <;>
    first
    | exact (hv.ket _ _ _ _).symm
    | exact (hv.bra _ _ _ _).symm
    | exact h _ _ _ _

theorem blocks_anti {v : O ⊕ V → O ⊕ V → O ⊕ V → O ⊕ V → K} (hv : AntiV v) : AntiI (blocks v) := by
  constructor <;> intro a b c d <;> first | exact hv.bra _ _ _ _ | exact hv.ket _ _ _ _

theorem bra_e (a : V) (m : M) : Φ.bra (C.e a m) = 0 := Φ.bra_cre a m
theorem bra_f (i : O) (m : M) : Φ.bra (C.f i m) = 0 := Φ.bra_ann i m
theorem d_ket (a : V) : C.d a Φ.ket = 0 := Φ.ann_ket a
theorem g_ket (i : O) : C.g i Φ.ket = 0 := Φ.cre_ket i

local macro "braz" : tactic => `(tactic| simp only [X, Y, Z, W, U, P, R, LinearMap.add_apply, LinearMap.sub_apply, LinearMap.neg_apply,
  LinearMap.sum_apply, LinearMap.smul_apply, Module.End.mul_apply, Module.End.one_apply, map_add, map_sub, map_neg, map_sum, map_smul, bra_e, bra_f, smul_zero, mul_zero, sum_const_zero, add_zero,
  neg_zero, sub_zero, smul_eq_mul])

theorem bra_X (c : V) (m : M) : Φ.bra (X C t t2 c m) = 0 := by braz
theorem bra_Y (c : O) (m : M) : Φ.bra (Y C t t2 c m) = 0 := by braz
theorem bra_Z (c : V) (k : O) (m : M) : Φ.bra (Z C t t2 c k m) = t c k * Φ.bra m := by braz
theorem bra_W (b c : V) (m : M) : Φ.bra (W C t2 b c m) = 0 := by braz
theorem bra_U (k l : O) (m : M) : Φ.bra (U C t2 k l m) = 0 := by braz
theorem bra_P (b c : V) (k : O) (m : M) : Φ.bra (P C t2 b c k m) = 0 := by braz
theorem bra_R (b : V) (k l : O) (m : M) : Φ.bra (R C t2 b k l m) = 0 := by braz

/-- Kronecker delta -/
def dl {ι : Type} [DecidableEq ι] (K : Type) [Field K] (a b : ι) : K := if a = b then 1 else 0
theorem dl_mul {ι : Type} [DecidableEq ι] (a b : ι) (x : K) : dl K a b * x = if a = b then x else 0 := by simp [dl]
theorem mul_dl {ι : Type} [DecidableEq ι] (a b : ι) (x : K) : x * dl K a b = if a = b then x else 0 := by simp [dl]
section
variable (c : Prop) [Decidable c] (x y : K)
theorem mul_ite0 : x * (if c then y else 0) = if c then x * y else 0 := by split_ifs <;> simp
theorem ite0_mul : (if c then y else 0) * x = if c then y * x else 0 := by split_ifs <;> simp
theorem add_ite0 : (if c then x + y else 0) = (if c then x else 0) + if c then y else 0 := by split_ifs <;> simp
theorem sub_ite0 : (if c then x - y else 0) = (if c then x else 0) - if c then y else 0 := by split_ifs <;> simp
theorem neg_ite0 : (if c then -x else 0) = -(if c then x else 0) := by split_ifs <;> simp
end
theorem de' (a b : V) (m : M) : C.d a (C.e b m) = dl K a b • m - C.e b (C.d a m) := by rw [C.de]; simp [dl]
theorem gf' (a b : O) (m : M) : C.g a (C.f b m) = dl K a b • m - C.f b (C.g a m) := by rw [C.gf]; simp [dl]

set_option linter.unusedSimpArgs false
macro "vev_simp" C:ident hT:ident : tactic => `(tactic| simp (maxSteps := 100000000) only [Ref.vev, Fintype.sum_sum_type, creD, annD, full, one, LinearMap.add_apply, LinearMap.sum_apply, LinearMap.smul_apply, Module.End.mul_apply, 
    map_add, map_sub, map_neg, map_zero, neg_zero, map_sum, map_smul, smul_eq_mul, de', CAR.df $C, gf', CAR.ge $C,
    dX, gX $C $hT, dY $C $hT, gY $C $hT, dZ, gZ, dW, gW $C $hT, dU $C $hT, gU, dP, gP, dR, gR, bra_X, bra_Y, bra_Z, bra_W, bra_U, bra_P, bra_R, bra_e, bra_f, d_ket, g_ket, Ref.norm,
    mul_zero, sum_const_zero, zero_add, add_zero, sub_zero, zero_sub])
macro "dl_simp" : tactic => `(tactic| simp (maxSteps := 100000000) only [mul_add, mul_sub, mul_neg, neg_mul, neg_neg, sum_add_distrib, sum_sub_distrib, sum_neg_distrib, mul_dl, dl_mul,
   mul_ite0, ite0_mul, add_ite0, sub_ite0, neg_ite0, sum_ite_irrel', sum_ite_eq, sum_ite_eq', mem_univ, if_true, mul_one])

theorem proj_e (A : OneE O V K) (I : TwoE O V K) (hI : AntiI I) (hT : Anti t2) :
    Φ.vev (bar C t t2 (ham C (one A) (full I))) = refEnergy (one A) (full I) + Spec.energy (fock (one A) (full I)) I t t2 := by
  rw [bar_ham C t t2 hT]
  vev_simp C hT
  dl_simp
  obtain ⟨h1, h2⟩ := hT
  obtain ⟨_, _, _, _, _, _, _, _, _, _, _, _⟩ := hI
  simp only [refEnergy, fock, one, full]
  tensor

end Sq
