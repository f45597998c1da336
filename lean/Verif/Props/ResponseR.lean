import Verif.Props.ResponseU
import Verif.Props.RT
import Verif.Props.RL
import Verif.Props.RRdm
/-!
# C56 for the restricted routines
-/
set_option linter.unusedSectionVars false
set_option linter.unusedVariables false
namespace CC
open Finset Verif.Tensor

section algebra
variable {K : Type} [Field K] [CharZero K] {O V : Type} [Fintype O] [Fintype V]

theorem asym2_anti {A B : Type} {T : A → A → B → B → K} (h : PairSym T) : Anti (asym2 T) where
  a12 a b i j := by simp only [asym2]; rw [← h b a j i, ← h b a i j]; ring
  a34 a b i j := by simp only [asym2]; ring

theorem asymI_anti {I : TwoEFull O V O V K} (h : PairI I) : AntiI (asymI I) := by
  constructor <;> intro p q r s <;> simp only [asymI]
  · rw [h.vvvv p q s r, h.vvvv p q r s]; ring
  · ring
  · rw [h.vvov q p s r, h.vvov p q s r]; ring
  · ring
  · rw [h.vvoo p q s r, h.vvoo p q r s]; ring
  · ring
  · rw [h.oovv p q s r, h.oovv p q r s]; ring
  · ring
  · ring
  · rw [h.oovo q p s r, h.oovo p q s r]; ring
  · rw [h.oooo p q s r, h.oooo p q r s]; ring
  · ring

/-- Contraction of one- and two-electron integrals with the density matrices returned by the restricted routines. -/
def rtraceRdm (F : OneE O V K) (I : TwoEFull O V O V K) (L1 : O → V → K) (L2 : O → O → V → V → K) (T1 : V → O → K) (T2 : V → V → O → O → K) : K :=
  2 * (∑ a, ∑ b, F.vv a b * rccsd_1rdm_ba T1 T2 L1 L2 1 b a) + 2 * (∑ i, ∑ j, F.oo i j * rccsd_1rdm_ji T1 T2 L1 L2 1 j i)
    + 2 * (∑ a, ∑ i, F.vo a i * L1 i a) + 2 * (∑ i, ∑ a, F.ov i a * rccsd_1rdm_ai T1 T2 L1 L2 1 a i)
    + (∑ a, ∑ b, ∑ i, ∑ j, I.vvoo a b i j * (2 * L2 i j a b - L2 i j b a))
    + (∑ i, ∑ j, ∑ a, ∑ b, I.oovv i j a b * (2 * rccsd_2rdm_abij T1 T2 L1 L2 a b i j - rccsd_2rdm_abij T1 T2 L1 L2 a b j i))
    + (∑ a, ∑ b, ∑ c, ∑ d, I.vvvv a b c d * (2 * rccsd_2rdm_cdab T1 T2 L1 L2 c d a b - rccsd_2rdm_cdab T1 T2 L1 L2 c d b a))
    + 2 * (∑ a, ∑ b, ∑ c, ∑ i, I.vvvo a b c i * (2 * rccsd_2rdm_ciab T1 T2 L1 L2 c i a b - rccsd_2rdm_ciab T1 T2 L1 L2 c i b a))
    + 2 * (∑ a, ∑ i, ∑ b, ∑ c, I.vovv a i b c * (2 * rccsd_2rdm_bcai T1 T2 L1 L2 b c a i - rccsd_2rdm_bcai T1 T2 L1 L2 c b a i))
    + 2 * (∑ a, ∑ i, ∑ b, ∑ j, I.vovo a i b j * (2 * rccsd_2rdm_bjai T1 T2 L1 L2 b j a i - rccsd_2rdm_bjia T1 T2 L1 L2 b j i a))
    + 2 * (∑ a, ∑ i, ∑ j, ∑ b, I.voov a i j b * (2 * rccsd_2rdm_bjia T1 T2 L1 L2 b j i a - rccsd_2rdm_bjai T1 T2 L1 L2 b j a i))
    + 2 * (∑ a, ∑ i, ∑ j, ∑ k, I.vooo a i j k * (2 * rccsd_2rdm_jkai T1 T2 L1 L2 j k a i - rccsd_2rdm_jkai T1 T2 L1 L2 k j a i))
    + 2 * (∑ i, ∑ j, ∑ k, ∑ a, I.ooov i j k a * (2 * rccsd_2rdm_kaij T1 T2 L1 L2 k a i j - rccsd_2rdm_kaij T1 T2 L1 L2 k a j i))
    + (∑ i, ∑ j, ∑ k, ∑ l, I.oooo i j k l * (2 * rccsd_2rdm_klij T1 T2 L1 L2 k l i j - rccsd_2rdm_klij T1 T2 L1 L2 k l j i))

set_option maxHeartbeats 4000000 in
theorem trace_closed (F : OneE O V K) (I : TwoEFull O V O V K) (L1 : O → V → K) (L2 : O → O → V → V → K) (T1 : V → O → K) (T2 : V → V → O → O → K)
    (hI : PairI I) (hL : PairSym L2) (hT : PairSym T2) :
    utraceRdm F F (asymI I) (asymI I) I L1 L1 (asym2 L2) L2 (asym2 L2) T1 T1 (asym2 T2) T2 (asym2 T2) = rtraceRdm F I L1 L2 T1 T2 := by
  unfold utraceRdm
  rw [C19_1rdm_ba T1 T2 L1 L2 1 hL hT, C19_1rdm_ji T1 T2 L1 L2 1 hL hT, C19_1rdm_ai T1 T2 L1 L2 1 hL hT, C19_2rdm_abij T1 T2 L1 L2 hL hT,
    C19_2rdm_cdab T1 T2 L1 L2 hL hT, C19_2rdm_ciab T1 T2 L1 L2 hL hT, C19_2rdm_bcai T1 T2 L1 L2 hL hT, C19_2rdm_bjai T1 T2 L1 L2 hL hT,
    C19_2rdm_jkai T1 T2 L1 L2 hL hT, C19_2rdm_kaij T1 T2 L1 L2 hL hT, C19_2rdm_klij T1 T2 L1 L2 hL hT]
  pair_elim hI I
  dsimp only
  unfold rtraceRdm
  refine Eq.trans ?_ (Eq.refl _)
  tensor

end algebra

section analysis
open Filter
variable {𝕜 : Type} [NontriviallyNormedField 𝕜] [CharZero 𝕜] {O V : Type} [Fintype O] [Fintype V]

theorem asymI_deriv {I : 𝕜 → TwoEFull O V O V 𝕜} {I' : TwoEFull O V O V 𝕜} {x : 𝕜} (h : TwoEFull.HasDeriv I I' x) :
    TwoE.HasDeriv (fun ε => asymI (I ε)) (asymI I') x := by
  constructor <;> intro p q r s
  exacts [(h.vvvv _ _ _ _).fun_sub (h.vvvv _ _ _ _), (h.vvvo _ _ _ _).fun_sub (h.vvov _ _ _ _), (h.vovv _ _ _ _).fun_sub (h.vovv _ _ _ _),
    (h.vvoo _ _ _ _).fun_sub (h.vvoo _ _ _ _), (h.vovo _ _ _ _).fun_sub (h.voov _ _ _ _), (h.oovv _ _ _ _).fun_sub (h.oovv _ _ _ _),
    (h.vooo _ _ _ _).fun_sub (h.vooo _ _ _ _), (h.ooov _ _ _ _).fun_sub (h.oovo _ _ _ _), (h.oooo _ _ _ _).fun_sub (h.oooo _ _ _ _)]

theorem pairI_deriv {I : 𝕜 → TwoEFull O V O V 𝕜} {I' : TwoEFull O V O V 𝕜} {x : 𝕜} (h : TwoEFull.HasDeriv I I' x) (hI : ∀ ε, PairI (I ε)) : PairI I' := by
  constructor <;> intro p q r s
  · exact (h.oooo _ _ _ _).unique (by simpa only [← (hI _).oooo] using h.oooo q p s r)
  · exact (h.oovo _ _ _ _).unique (by simpa only [(hI _).oovo] using h.ooov q p s r)
  · exact (h.oovv _ _ _ _).unique (by simpa only [← (hI _).oovv] using h.oovv q p s r)
  · exact (h.ovoo _ _ _ _).unique (by simpa only [(hI _).ovoo] using h.vooo q p s r)
  · exact (h.ovov _ _ _ _).unique (by simpa only [(hI _).ovov] using h.vovo q p s r)
  · exact (h.ovvo _ _ _ _).unique (by simpa only [(hI _).ovvo] using h.voov q p s r)
  · exact (h.ovvv _ _ _ _).unique (by simpa only [(hI _).ovvv] using h.vovv q p s r)
  · exact (h.vvoo _ _ _ _).unique (by simpa only [← (hI _).vvoo] using h.vvoo q p s r)
  · exact (h.vvov _ _ _ _).unique (by simpa only [(hI _).vvov] using h.vvvo q p s r)
  · exact (h.vvvv _ _ _ _).unique (by simpa only [← (hI _).vvvv] using h.vvvv q p s r)

/-- C56, restricted: if the residuals of `rccsd_stanton` vanish along a differentiable family of closed-shell integrals and amplitudes and
`rccsd_lambda_opt` vanishes at `x`, the derivative of `rcc_energy` is the contraction of the differentiated integrals with the density
matrices returned by the restricted routines. -/
theorem C56_restricted {F : 𝕜 → OneE O V 𝕜} {F' : OneE O V 𝕜} {I : 𝕜 → TwoEFull O V O V 𝕜} {I' : TwoEFull O V O V 𝕜}
    {T1 : 𝕜 → V → O → 𝕜} {T2 : 𝕜 → V → V → O → O → 𝕜} (L1 : O → V → 𝕜) (L2 : O → O → V → V → 𝕜) {x : 𝕜}
    (hF : OneE.HasDeriv F F' x) (hI : TwoEFull.HasDeriv I I' x)
    (h1 : ∀ a i, DifferentiableAt 𝕜 (fun ε => T1 ε a i) x) (h2 : ∀ a b i j, DifferentiableAt 𝕜 (fun ε => T2 ε a b i j) x)
    (pI : ∀ ε, PairI (I ε)) (pT : ∀ ε, PairSym (T2 ε)) (pL : PairSym L2)
    (hR : ∀ᶠ ε in nhds x, rccsd_stanton (F ε) (I ε) (T1 ε) (T2 ε) = (fun _ _ => 0, fun _ _ _ _ => 0))
    (hL : rccsd_lambda_opt (F x) (I x) L1 L2 (T1 x) (T2 x) = (fun _ _ => 0, fun _ _ _ _ => 0)) :
    HasDerivAt (fun ε => rcc_energy (T1 ε) (T2 ε) (F ε).ov (I ε).oovv) (rtraceRdm F' I' L1 L2 (T1 x) (T2 x)) x := by
  have z2 : ∀ {A B : Type}, asym2 (K := 𝕜) (fun (_ : A) (_ : A) (_ : B) (_ : B) => 0) = fun _ _ _ _ => 0 := fun {A B} => by
    funext a b i j; simp [asym2]
  rw [← trace_closed F' I' L1 L2 _ _ (pairI_deriv hI pI) pL (pT x)]
  have e : (fun ε => rcc_energy (T1 ε) (T2 ε) (F ε).ov (I ε).oovv) = fun ε => ucc_energy (T1 ε, T1 ε) (asym2 (T2 ε), T2 ε, asym2 (T2 ε)) (F ε).ov (F ε).ov
      (asymI (I ε)).oovv (asymI (I ε)).oovv (I ε).oovv := by
    funext ε
    exact (C12_rcc_energy (T1 ε) (T2 ε) (F ε).ov (I ε).oovv (fun p q r s => ((pI ε).oovv p q r s).symm) (pT ε)).symm
  rw [e]
  refine C56_unrestricted (Fa := F) (Fb := F) (Ia := fun ε => asymI (I ε)) (Ib := fun ε => asymI (I ε)) (Iab := I) (T1a := T1) (T1b := T1)
    (T2aa := fun ε => asym2 (T2 ε)) (T2ab := T2) (T2bb := fun ε => asym2 (T2 ε)) L1 L1 (asym2 L2) L2 (asym2 L2) hF hF (asymI_deriv hI) (asymI_deriv hI) hI
    h1 h1 (fun a b i j => (h2 a b i j).fun_sub (h2 a b j i)) h2 (fun a b i j => (h2 a b i j).fun_sub (h2 a b j i))
    (fun ε => asymI_anti (pI ε)) (fun ε => asymI_anti (pI ε)) (fun ε => asym2_anti (pT ε)) (fun ε => asym2_anti (pT ε)) (asym2_anti pL) (asym2_anti pL) ?_ ?_
  · filter_upwards [hR] with ε hε
    rw [C14_rccsd _ _ _ _ (pI ε) (pT ε), hε]
    simp only [z2]
  · rw [C16_rccsd_lambda _ _ _ _ _ _ (pI x) pL (pT x), hL]
    simp only [z2]

end analysis

/-! ### Non-vacuity: two electrons in two orbitals -/

theorem IUab_pair (c d : ℝ) : PairI (IUab c d) := by constructor <;> intro p q r s <;> rfl

set_option maxHeartbeats 2000000 in
example : HasDerivAt (fun ε : ℝ => rcc_energy (fun (_ _ : U1) => 0) (fun (_ _ _ _ : U1) => ε) FU.ov (IUab (ε ^ 2 - 2 * ε) 1).oovv) 1 0 := by
  have key := C56_restricted (𝕜 := ℝ) (x := 0) (F := fun _ => FU) (F' := ⟨fun _ _ => 0, fun _ _ => 0, fun _ _ => 0, fun _ _ => 0⟩)
    (I := fun ε => IUab (ε ^ 2 - 2 * ε) 1) (I' := IUab (-2) 0) (T1 := fun _ _ _ => 0) (T2 := fun ε _ _ _ _ => ε) (fun _ _ => 0) (fun _ _ _ _ => -1/2)
    ⟨fun _ _ => hasDerivAt_const _ _, fun _ _ => hasDerivAt_const _ _, fun _ _ => hasDerivAt_const _ _, fun _ _ => hasDerivAt_const _ _⟩ IUab_deriv
    (fun _ _ => differentiableAt_const _) (fun _ _ _ _ => differentiableAt_id) (fun _ => IUab_pair _ _) (fun _ _ _ _ _ => rfl) (fun _ _ _ _ => rfl)
    (Filter.Eventually.of_forall fun ε => ?_) ?_
  · have e : rtraceRdm (⟨fun _ _ => 0, fun _ _ => 0, fun _ _ => 0, fun _ _ => 0⟩ : OneE U1 U1 ℝ) (IUab (-2) 0) (fun _ _ => 0) (fun _ _ _ _ => -1/2)
        (fun _ _ => 0) (fun _ _ _ _ => 0) = 1 := by
      simp [rtraceRdm, IUab]
      norm_num
    rw [e] at key
    exact key
  · simp [rccsd_stanton, r_Stanton, FU, IUab]
    funext a b i j
    ring
  · simp [rccsd_lambda_opt, rccsd_Lambda_opt, r_LS_TS, FU, IUab]
    funext a b i j
    norm_num
end CC
