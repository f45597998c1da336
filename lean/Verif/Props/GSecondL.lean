import Verif.Props.GSecond
import Verif.Props.LDeriv
import Mathlib.Algebra.Polynomial.Roots
/-!
# C50: the Lambda equations against second quantisation

The residuals of the generalized Lambda equations are `⟨0|(1+Λ) [e^{-T} H e^{T}, τ]|0⟩` for `τ = a† i` and `τ = a† b† j i`.
-/
set_option linter.unusedSectionVars false
set_option linter.unusedSimpArgs false
namespace Sq
open Finset CC Verif.Tensor

variable {K O V M : Type} [Field K] [CharZero K] [DecidableEq O] [DecidableEq V] [AddCommGroup M] [Module K M]
  [Fintype O] [Fintype V] {C : CAR K (O ⊕ V) M} (Φ : Ref C) {t : V → O → K} {t2 : V → V → O → O → K}
  (h : O ⊕ V → O ⊕ V → K) (v : O ⊕ V → O ⊕ V → O ⊕ V → O ⊕ V → K) (l : O → V → K) (l2 : O → O → V → V → K)

theorem nexp_add {A : Type} [Ring A] [Algebra K A] {x y : A} (h : Commute x y) (hx : IsNilpotent x) (hy : IsNilpotent y) :
    nexp K (x + y) = nexp K x * nexp K y := by
  let : Module ℚ A := Module.compHom A (algebraMap ℚ K)
  have e : ∀ y : A, nexp K y = IsNilpotent.exp y := fun y => by
    unfold nexp IsNilpotent.exp
    refine sum_congr rfl fun n _ => ?_
    change _ = (algebraMap ℚ K ((n.factorial : ℚ)⁻¹)) • y ^ n
    simp
  rw [e, e, e]; exact IsNilpotent.exp_add_of_commute h hx hy

theorem nexp_sq {A : Type} [Ring A] [Algebra K A] {x : A} (hx : x * x = 0) : nexp K x = 1 + x := by
  rw [nexp_eq (N := 2) (by rw [sq, hx])]
  simp [sum_range_succ]

/-- `e^{-(T+τ)} A e^{T+τ} = (1-τ) e^{-T} A e^{T} (1+τ)` when `τ² = 0`. -/
theorem bar_shift {T τ A : Module.End K M} (hT : Good C T) (hτ : Good C τ) (h2 : τ * τ = 0) :
    nexp K (-(T + τ)) * A * nexp K (T + τ) = (1 - τ) * (nexp K (-T) * A * nexp K T) * (1 + τ) := by
  have hc : Commute T τ := commute_of_cent C hT.1 hτ.2.1
  have e1 : nexp K (T + τ) = nexp K T * (1 + τ) := by rw [nexp_add hc hT.2.2 hτ.2.2, nexp_sq h2]
  have e2 : nexp K (-(T + τ)) = (1 - τ) * nexp K (-T) := by
    rw [neg_add, add_comm, nexp_add hc.symm.neg_left.neg_right hτ.2.2.neg hT.2.2.neg, nexp_sq (by simpa using h2), sub_eq_add_neg]
  rw [e1, e2]; simp only [mul_assoc]

/-- A polynomial identity determines the coefficient of the first power. -/
theorem linear_unique {f : K → K} {A B A' B' : K} (h1 : EqMod 2 f fun ε => A + ε * B) (h2 : EqMod 2 f fun ε => A' + ε * B') : B = B' := by
  obtain ⟨N, c, h1⟩ := h1
  obtain ⟨N', c', h2⟩ := h2
  let p : Polynomial K := Polynomial.C (A - A') + Polynomial.X * Polynomial.C (B - B')
    + ∑ k ∈ range N, Polynomial.C (c k) * Polynomial.X ^ (2 + k) - ∑ k ∈ range N', Polynomial.C (c' k) * Polynomial.X ^ (2 + k)
  have hp : p = 0 := by
    have : Infinite K := Infinite.of_injective _ (Nat.cast_injective (R := K))
    apply Polynomial.funext
    intro ε
    have := (h1 ε).symm.trans (h2 ε)
    simp only [p, Polynomial.eval_add, Polynomial.eval_sub, Polynomial.eval_mul, Polynomial.eval_C, Polynomial.eval_X, Polynomial.eval_finsetSum,
      Polynomial.eval_pow, Polynomial.eval_zero]
    linear_combination this
  have := congrArg (fun q => Polynomial.coeff q 1) hp
  simp only [p, Polynomial.coeff_add, Polynomial.coeff_sub, Polynomial.finsetSum_coeff, Polynomial.coeff_C_mul, Polynomial.coeff_X_pow,
    Polynomial.coeff_zero] at this
  have z : ∀ k, ((1 : ℕ) = 2 + k) = False := fun k => by simp; omega
  simp only [z, if_false, mul_zero, sum_const_zero, add_zero, sub_zero, Polynomial.coeff_C, Polynomial.coeff_X_mul, one_ne_zero, if_true, zero_add] at this
  exact sub_eq_zero.1 this

/-- the expansion of the shifted expectation value -/
theorem shift_expand {x : V → O → K} {x2 : V → V → O → O → K} (hx : cluster C x x2 * cluster C x x2 = 0) (A : Module.End K M) :
    EqMod 2 (fun ε => ccExp Φ l l2 (fun a i => t a i + ε * x a i) (fun a b i j => t2 a b i j + ε * x2 a b i j) A)
      (fun ε => ccExp Φ l l2 t t2 A + ε * Φ.vev ((1 + deexc C l l2) * (bar C t t2 A * cluster C x x2 - cluster C x x2 * bar C t t2 A))) := by
  refine ⟨1, fun _ => - Φ.vev ((1 + deexc C l l2) * (cluster C x x2 * bar C t t2 A * cluster C x x2)), fun ε => ?_⟩
  have e : cluster C (fun a i => t a i + ε * x a i) (fun a b i j => t2 a b i j + ε * x2 a b i j) = cluster C t t2 + ε • cluster C x x2 := by
    simp only [cluster, add_smul, sum_add_distrib, smul_add, mul_smul, smul_sum]
    simp only [smul_comm (1 / 4 : K) ε]
    abel
  have h2 : (ε • cluster C x x2) * (ε • cluster C x x2) = 0 := by simp [hx]
  have b : bar C (fun a i => t a i + ε * x a i) (fun a b i j => t2 a b i j + ε * x2 a b i j) A
      = bar C t t2 A + ε • (bar C t t2 A * cluster C x x2 - cluster C x x2 * bar C t t2 A) + (-(ε ^ 2)) • (cluster C x x2 * bar C t t2 A * cluster C x x2) := by
    rw [bar, e, bar_shift (good_cluster C t t2) ((good_cluster C x x2).smul C ε) h2, ← bar]
    simp only [sub_mul, mul_add, one_mul, mul_one, smul_mul_assoc, mul_smul_comm, smul_sub, smul_smul, neg_smul, sq]
    abel
  simp only [ccExp, b, mul_add, mul_smul_comm, vev_add, vev_smul]
  simp
  ring

/-- C50 for a direction `(x, x2)` whose excitation operator squares to zero. -/
theorem lambda_direction (hv : AntiV v) (hT : Anti t2) (hL : Anti l2) {x : V → O → K} {x2 : V → V → O → O → K} (hX : Anti x2)
    (hx : cluster C x x2 * cluster C x x2 = 0) :
    Φ.vev ((1 + deexc C l l2) * (bar C t t2 (ham C h v) * cluster C x x2 - cluster C x x2 * bar C t t2 (ham C h v)))
      = (∑ i, ∑ a, x a i * (ccsd_lambda_simple (fock h v) (blocks v) l l2 t t2).1 i a)
        + (1/4) * (∑ i, ∑ j, ∑ a, ∑ b, x2 a b i j * (ccsd_lambda_simple (fock h v) (blocks v) l l2 t t2).2 i j a b) := by
  refine linear_unique (shift_expand (t := t) (t2 := t2) Φ l l2 hx (ham C h v)) (A' := refEnergy h v + Spec.lagrangian (fock h v) (blocks v) l l2 t t2) ?_
  obtain ⟨N, c, hc⟩ := C06_expansion (fock h v) (blocks v) (blocks_anti hv) l l2 hL t x t2 x2 hT hX
  refine ⟨N, c, fun ε => ?_⟩
  have hc := hc ε
  beta_reduce at hc ⊢
  rw [C48_lagrangian Φ h v l l2 hv ⟨fun a b i j => by rw [hT.1 a b, hX.1 a b]; ring, fun a b i j => by rw [hT.2 a b i j, hX.2 a b i j]; ring⟩, hc]
  ring

theorem sq_ef (a : V) (i : O) : (C.e a * C.f i) * (C.e a * C.f i) = 0 := by
  have h : Commute (C.f i) (C.e a * C.f i) := commute_of_cent C (f_mem C i) (good_ef C a i).2.1
  rw [mul_assoc, h.eq, ← mul_assoc, ← mul_assoc, sq_e, zero_mul, zero_mul]

theorem sq_eeff (a b : V) (i j : O) : (C.e a * C.e b * C.f j * C.f i) * (C.e a * C.e b * C.f j * C.f i) = 0 := by
  have h2 := good_ef C b j
  have : C.e a * C.e b * C.f j * C.f i = (C.e a * C.f i) * (C.e b * C.f j) := by
    have h3 : Commute (C.f i) (C.e b * C.f j) := commute_of_cent C (f_mem C i) h2.2.1
    rw [mul_assoc (C.e a) (C.f i), h3.eq]; simp only [mul_assoc]
  have hc : Commute (C.e b * C.f j) (C.e a * C.f i) := commute_of_cent C h2.1 (good_ef C a i).2.1
  rw [this]
  generalize hx : C.e a * C.f i = x at hc
  generalize C.e b * C.f j = y at hc
  calc x * y * (x * y) = x * (y * x) * y := by simp only [mul_assoc]
    _ = x * (x * y) * y := by rw [hc.eq]
    _ = (x * x) * (y * y) := by simp only [mul_assoc]
    _ = 0 := by rw [← hx, sq_ef, zero_mul]

/-- C50: the `Λ1` residual is `⟨0|(1+Λ) [e^{-T} H e^{T}, a† i]|0⟩`. -/
theorem C50_lambda1 (hv : AntiV v) (hT : Anti t2) (hL : Anti l2) (i : O) (a : V) :
    (ccsd_lambda_simple (fock h v) (blocks v) l l2 t t2).1 i a
      = Φ.vev ((1 + deexc C l l2) * (bar C t t2 (ham C h v) * (C.cre (.inr a) * C.ann (.inl i))
          - (C.cre (.inr a) * C.ann (.inl i)) * bar C t t2 (ham C h v))) := by
  have e : cluster C (fun b j => dl K b a * dl K j i) (fun _ _ _ _ => 0) = C.cre (.inr a) * C.ann (.inl i) := by
    simp [cluster, dl]
  have := lambda_direction (C := C) (t := t) (t2 := t2) Φ h v l l2 hv hT hL (x := fun b j => dl K b a * dl K j i) (x2 := fun _ _ _ _ => 0)
    ⟨fun _ _ _ _ => by simp, fun _ _ _ _ => by simp⟩ (by rw [e]; exact sq_ef a i)
  rw [e] at this
  rw [this]
  simp [dl]

/-- C50: the `Λ2` residual is `⟨0|(1+Λ) [e^{-T} H e^{T}, a† b† j i]|0⟩`. -/
theorem C50_lambda2 (hv : AntiV v) (hT : Anti t2) (hL : Anti l2) (i j : O) (a b : V) :
    (ccsd_lambda_simple (fock h v) (blocks v) l l2 t t2).2 i j a b
      = Φ.vev ((1 + deexc C l l2) * (bar C t t2 (ham C h v) * (C.cre (.inr a) * C.cre (.inr b) * C.ann (.inl j) * C.ann (.inl i))
          - (C.cre (.inr a) * C.cre (.inr b) * C.ann (.inl j) * C.ann (.inl i)) * bar C t t2 (ham C h v))) := by
  have hx2 : Anti (fun a' b' i' j' => (dl K a a' * dl K b b' - dl K a b' * dl K b a') * (dl K i i' * dl K j j' - dl K i j' * dl K j i')) :=
    ⟨fun _ _ _ _ => by ring, fun _ _ _ _ => by ring⟩
  have e : cluster C (fun _ _ => 0) (fun a' b' i' j' => (dl K a a' * dl K b b' - dl K a b' * dl K b a') * (dl K i i' * dl K j j' - dl K i j' * dl K j i'))
      = C.e a * C.e b * C.f j * C.f i := by
    simp only [cluster, zero_smul, sum_const_zero, zero_add, dl, sub_mul, mul_sub, sub_smul, sum_sub_distrib, ite_mul, one_mul, zero_mul, mul_ite,
      mul_one, mul_zero, ite_smul, one_smul, sum_ite_irrel', sum_ite_eq, mem_univ, if_true]
    change (1 / 4 : K) • (C.e a * C.e b * C.f j * C.f i - C.e b * C.e a * C.f j * C.f i - (C.e a * C.e b * C.f i * C.f j - C.e b * C.e a * C.f i * C.f j)) = _
    rw [ee' C b a, mul_assoc _ (C.f i), ff' C i j, mul_assoc _ (C.f i), ff' C i j]
    simp only [neg_mul, mul_neg, neg_neg, mul_assoc]
    module
  have := lambda_direction (C := C) (t := t) (t2 := t2) Φ h v l l2 hv hT hL (x := fun _ _ => 0) hx2 (by rw [e]; exact sq_eeff a b i j)
  rw [e] at this
  refine Eq.trans ?_ this.symm
  obtain ⟨h1, h2⟩ := C08_simple (fock h v) (blocks v) (blocks_anti hv) l l2 hL t t2 hT
  simp only [dl, sub_mul, mul_sub, sum_sub_distrib, ite_mul, one_mul, zero_mul, mul_ite,
      mul_one, mul_zero, sum_ite_irrel', sum_ite_eq, mem_univ, if_true, sum_const_zero, zero_add]
  rw [h2 i j a b, h1 i j b a, h1 i j a b, h2 i j a b]
  ring

/-- C50 for the other three implementations. -/
theorem C50_all (hv : AntiV v) (hT : Anti t2) (hL : Anti l2) (R : (O → V → K) × (O → O → V → V → K))
    (hR : R = ccsd_lambda_opt (fock h v) (blocks v) l l2 t t2 ∨ R = ccsd_lambda_stanton (fock h v) (blocks v) l l2 t t2
      ∨ R = ccsd_lambda_opt_int (fock h v) (blocks v) l l2 t t2 (lambda_int (fock h v) (blocks v) t t2)) :
    R = (fun i a => Φ.vev ((1 + deexc C l l2) * (bar C t t2 (ham C h v) * (C.cre (.inr a) * C.ann (.inl i))
          - (C.cre (.inr a) * C.ann (.inl i)) * bar C t t2 (ham C h v))),
      fun i j a b => Φ.vev ((1 + deexc C l l2) * (bar C t t2 (ham C h v) * (C.cre (.inr a) * C.cre (.inr b) * C.ann (.inl j) * C.ann (.inl i))
          - (C.cre (.inr a) * C.cre (.inr b) * C.ann (.inl j) * C.ann (.inl i)) * bar C t t2 (ham C h v)))) := by
  have e : R = ccsd_lambda_simple (fock h v) (blocks v) l l2 t t2 := by
    rcases hR with rfl | rfl | rfl
    · exact C05_opt_eq_simple _ _ (blocks_anti hv) _ _ hL _ _ hT
    · exact C05_stanton_eq_simple _ _ (blocks_anti hv) _ _ hL _ _ hT
    · exact C05_opt_int_eq_simple _ _ (blocks_anti hv) _ _ hL _ _ hT
  rw [e]
  refine Prod.ext ?_ ?_
  · funext i a; exact C50_lambda1 Φ h v l l2 hv hT hL i a
  · funext i j a b; exact C50_lambda2 Φ h v l l2 hv hT hL i j a b

example : (∀ i a, (ccsd_lambda_simple (fock (one F0) (full I0)) (blocks (full I0)) L10 L20 T10 T20).1 i a
      = R32.vev ((1 + deexc C32 L10 L20) * (bar C32 T10 T20 (ham C32 (one F0) (full I0)) * (C32.cre (.inr a) * C32.ann (.inl i))
          - (C32.cre (.inr a) * C32.ann (.inl i)) * bar C32 T10 T20 (ham C32 (one F0) (full I0))))) ∧
    (ccsd_lambda_simple (fock (one F0) (full I0)) (blocks (full I0)) L10 L20 T10 T20).1 0 1 ≠ 0 ∧
    (ccsd_lambda_simple (fock (one F0) (full I0)) (blocks (full I0)) L10 L20 T10 T20).2 0 1 0 1 ≠ 0 :=
  ⟨C50_lambda1 _ _ _ _ _ (full_anti I0 I0_anti) T20_anti L20_anti, by decide +kernel, by decide +kernel⟩

end Sq
