import Verif.Props.Response
import Verif.Props.GSecond
/-!
# C56 in second quantisation: the derivative of the energy is the expectation value of the derivative of the Hamiltonian
-/
set_option linter.unusedSectionVars false
namespace Sq
open Finset CC

variable {𝕜 O V M : Type} [NontriviallyNormedField 𝕜] [CharZero 𝕜] [DecidableEq O] [DecidableEq V] [AddCommGroup M] [Module 𝕜 M]
  [Fintype O] [Fintype V] {C : CAR 𝕜 (O ⊕ V) M} (Φ : Ref C)

theorem fock_deriv {h : 𝕜 → O ⊕ V → O ⊕ V → 𝕜} {h' : O ⊕ V → O ⊕ V → 𝕜} {v : 𝕜 → O ⊕ V → O ⊕ V → O ⊕ V → O ⊕ V → 𝕜}
    {v' : O ⊕ V → O ⊕ V → O ⊕ V → O ⊕ V → 𝕜} {x : 𝕜} (hh : ∀ p q, HasDerivAt (fun ε => h ε p q) (h' p q) x)
    (hv : ∀ p q r s, HasDerivAt (fun ε => v ε p q r s) (v' p q r s) x) : OneE.HasDeriv (fun ε => fock (h ε) (v ε)) (fock h' v') x :=
  ⟨fun _ _ => (hh _ _).fun_add (HasDerivAt.fun_sum fun _ _ => hv _ _ _ _), fun _ _ => (hh _ _).fun_add (HasDerivAt.fun_sum fun _ _ => hv _ _ _ _),
   fun _ _ => (hh _ _).fun_add (HasDerivAt.fun_sum fun _ _ => hv _ _ _ _), fun _ _ => (hh _ _).fun_add (HasDerivAt.fun_sum fun _ _ => hv _ _ _ _)⟩

theorem ref_deriv {h : 𝕜 → O ⊕ V → O ⊕ V → 𝕜} {h' : O ⊕ V → O ⊕ V → 𝕜} {v : 𝕜 → O ⊕ V → O ⊕ V → O ⊕ V → O ⊕ V → 𝕜}
    {v' : O ⊕ V → O ⊕ V → O ⊕ V → O ⊕ V → 𝕜} {x : 𝕜} (hh : ∀ p q, HasDerivAt (fun ε => h ε p q) (h' p q) x)
    (hv : ∀ p q r s, HasDerivAt (fun ε => v ε p q r s) (v' p q r s) x) :
    HasDerivAt (fun ε => refEnergy (h ε) (v ε)) (refEnergy h' v') x :=
  (HasDerivAt.fun_sum fun _ _ => hh _ _).fun_add ((HasDerivAt.fun_sum fun _ _ => HasDerivAt.fun_sum fun _ _ => hv _ _ _ _).const_mul _)

theorem antiV_deriv {v : 𝕜 → O ⊕ V → O ⊕ V → O ⊕ V → O ⊕ V → 𝕜} {v' : O ⊕ V → O ⊕ V → O ⊕ V → O ⊕ V → 𝕜} {x : 𝕜}
    (hv : ∀ p q r s, HasDerivAt (fun ε => v ε p q r s) (v' p q r s) x) (aV : ∀ ε, AntiV (v ε)) : AntiV v' where
  bra p q r s := (hv _ _ _ _).unique (by simpa only [(aV _).bra p q r s] using (hv p q r s).fun_neg)
  ket p q r s := (hv _ _ _ _).unique (by simpa only [(aV _).ket p q r s] using (hv p q r s).fun_neg)

/-- C56: the derivative of the total coupled-cluster energy `⟨0|e^{-T} H e^{T}|0⟩`, for amplitudes that solve the equations of the code, is
`⟨0|(1+Λ) e^{-T} H' e^{T}|0⟩` with the derivative `H'` of the Hamiltonian and multipliers that solve the Lambda equations of the code. -/
theorem C56_hellmann_feynman {h : 𝕜 → O ⊕ V → O ⊕ V → 𝕜} {h' : O ⊕ V → O ⊕ V → 𝕜} {v : 𝕜 → O ⊕ V → O ⊕ V → O ⊕ V → O ⊕ V → 𝕜}
    {v' : O ⊕ V → O ⊕ V → O ⊕ V → O ⊕ V → 𝕜} {t : 𝕜 → V → O → 𝕜} {t2 : 𝕜 → V → V → O → O → 𝕜} (l : O → V → 𝕜) (l2 : O → O → V → V → 𝕜) {x : 𝕜}
    (hh : ∀ p q, HasDerivAt (fun ε => h ε p q) (h' p q) x) (hv : ∀ p q r s, HasDerivAt (fun ε => v ε p q r s) (v' p q r s) x)
    (h1 : ∀ a i, DifferentiableAt 𝕜 (fun ε => t ε a i) x) (h2 : ∀ a b i j, DifferentiableAt 𝕜 (fun ε => t2 ε a b i j) x)
    (aV : ∀ ε, AntiV (v ε)) (aT : ∀ ε, Anti (t2 ε)) (aL : Anti l2)
    (hR : ∀ᶠ ε in nhds x, ccsd_simple (fock (h ε) (v ε)) (blocks (v ε)) (t ε) (t2 ε) = (fun _ _ => 0, fun _ _ _ _ => 0))
    (hL : ccsd_lambda_simple (fock (h x) (v x)) (blocks (v x)) l l2 (t x) (t2 x) = (fun _ _ => 0, fun _ _ _ _ => 0)) :
    HasDerivAt (fun ε => Φ.vev (bar C (t ε) (t2 ε) (ham C (h ε) (v ε)))) (ccExp Φ l l2 (t x) (t2 x) (ham C h' v')) x := by
  have aV' := antiV_deriv hv aV
  rw [C48_lagrangian Φ h' v' l l2 aV' (aT x), ← C10_densities_give_lagrangian _ _ (aT x) _ _ aL _ _ (blocks_anti aV')]
  simp only [fun ε => C48_energy Φ (h ε) (v ε) (aV ε) (aT ε)]
  refine (ref_deriv hh hv).fun_add (C56_energy_derivative (F := fun ε => fock (h ε) (v ε)) (I := fun ε => blocks (v ε)) l l2 (fock_deriv hh hv) ?_
    h1 h2 (fun ε => blocks_anti (aV ε)) aT aL hR hL)
  exact ⟨fun _ _ _ _ => hv _ _ _ _, fun _ _ _ _ => hv _ _ _ _, fun _ _ _ _ => hv _ _ _ _, fun _ _ _ _ => hv _ _ _ _,
    fun _ _ _ _ => hv _ _ _ _, fun _ _ _ _ => hv _ _ _ _, fun _ _ _ _ => hv _ _ _ _, fun _ _ _ _ => hv _ _ _ _, fun _ _ _ _ => hv _ _ _ _⟩

/-! ### Non-vacuity: two electrons in four spin orbitals -/

theorem one_hfF_fock (c d : ℝ) : fock (one hfF) (full (hfI c d)) = hfF := by
  simp [fock, one, full, hfI, hfF]

theorem full_hfI_deriv (p q r s : Fin 2 ⊕ Fin 2) :
    HasDerivAt (fun ε : ℝ => full (hfI (ε ^ 2 - 2 * ε) 1) p q r s) (full (hfI (-2) 0) p q r s) 0 := by
  rcases p with p | p <;> rcases q with q | q <;> rcases r with r | r <;> rcases s with s | s
  all_goals first
    | exact hfI_deriv.oovv _ _ _ _ | exact hfI_deriv.vvoo _ _ _ _ | (simp only [full, hfI, neg_zero]; exact hasDerivAt_const _ _)

example {M : Type} [AddCommGroup M] [Module ℝ M] (C : CAR ℝ (Fin 2 ⊕ Fin 2) M) (Φ : Ref C) :
    HasDerivAt (fun ε : ℝ => Φ.vev (bar C (fun _ _ => 0) (prodT hfEps hfEps ε) (ham C (one hfF) (full (hfI (ε ^ 2 - 2 * ε) 1)))))
      (ccExp Φ (fun _ _ => 0) (prodT hfEps hfEps (-1/2)) (fun _ _ => 0) (prodT hfEps hfEps 0) (ham C (fun _ _ => 0) (full (hfI (-2) 0)))) 0 :=
  C56_hellmann_feynman Φ (h := fun _ => one hfF) (v := fun ε => full (hfI (ε ^ 2 - 2 * ε) 1)) (t := fun _ _ _ => 0) (t2 := fun ε => prodT hfEps hfEps ε)
    (fun _ _ => 0) (prodT hfEps hfEps (-1/2)) (fun _ _ => hasDerivAt_const _ _) full_hfI_deriv (fun _ _ => differentiableAt_const _)
    (fun _ _ _ _ => differentiableAt_id.mul_const _) (fun _ => full_anti _ (hfI_anti _ _)) (fun _ => prodT_anti _) (prodT_anti _)
    (Filter.Eventually.of_forall fun ε => by rw [one_hfF_fock]; exact hfI_solved ε) (by rw [one_hfF_fock]; exact hfI_lambda)

/-- The representation on occupation-number vectors meets the hypotheses. -/
example : Nonempty (Ref (fockCAR (finSumFinEquiv : Fin 2 ⊕ Fin 2 ≃ Fin 4) ℝ)) := ⟨fockRef finSumFinEquiv ℝ⟩

end Sq
