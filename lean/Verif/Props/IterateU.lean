import Verif.Props.Lagrange
import Verif.Props.ResponseR
/-!
# C73: the unrestricted and restricted iterations converge

The updates `T - residual / D` with the residuals of `uccsd_stanton`, `rccsd_stanton`, `uccsd_lambda_opt`, `rccsd_lambda_opt`.
-/
set_option linter.unusedSectionVars false
set_option synthInstance.maxHeartbeats 400000
set_option synthInstance.maxSize 2000
set_option maxHeartbeats 1000000
namespace CC
open Finset Filter Topology Metric Verif.Tensor
open scoped NNReal

/-! ### contractions -/

section
variable {𝕜 : Type} [RCLike 𝕜] {E : Type} [NormedAddCommGroup E] [NormedSpace 𝕜 E] [FiniteDimensional 𝕜 E]

/-- A map of a closed set into itself that halves distances has one fixed point, and its iterates converge to it. -/
theorem halving {E : Type} [NormedAddCommGroup E] [CompleteSpace E] {s : Set E} (closed : IsClosed s) {x : E} (hx : x ∈ s) {U : E → E} (maps : Set.MapsTo U s s)
    (lip : ∀ T ∈ s, ∀ T' ∈ s, ‖U T' - U T‖ ≤ 1 / 2 * ‖T' - T‖) :
    ∃ T ∈ s, U T = T ∧ (∀ T' ∈ s, U T' = T' → T' = T) ∧ ∀ T₀ ∈ s, ∀ k : ℕ, ‖U^[k] T₀ - T‖ ≤ (1 / 2) ^ k * ‖T₀ - T‖ := by
  have contr : ContractingWith (1 / 2 : ℝ≥0) (maps.restrict U s s) := by
    refine ⟨by norm_num, LipschitzWith.of_dist_le_mul fun x y => ?_⟩
    have := lip y.1 y.2 x.1 x.2
    simpa [Subtype.dist_eq, dist_eq_norm] using this
  obtain ⟨T, hT, hfix, -, -⟩ := ContractingWith.exists_fixedPoint' closed.isComplete maps contr hx (edist_ne_top _ _)
  refine ⟨T, hT, hfix, fun T' h' hf' => ?_, fun T₀ h0 k => ?_⟩
  · have := lip T hT T' h'
    rw [hf', hfix.eq] at this
    have h0 := norm_nonneg (T' - T)
    exact sub_eq_zero.1 (norm_eq_zero.1 (by linarith))
  · induction k with
    | zero => simp
    | succ k ih =>
      have h1 := lip T hT _ (maps.iterate k h0)
      rw [hfix.eq] at h1
      rw [Function.iterate_succ_apply']
      calc _ ≤ _ := h1
        _ ≤ 1 / 2 * ((1 / 2) ^ k * ‖T₀ - T‖) := by linarith
        _ = _ := by ring

/-- A map `-c G` with smooth `G` halves distances on a ball when `c` is small. -/
theorem weak_halving {s : Set E} (closed : IsClosed s) (zero : (0 : E) ∈ s) {G : E → E} (hG : ContDiff 𝕜 1 G) {U : 𝕜 → E → E}
    (hU : ∀ c, ∀ T ∈ s, U c T = -(c • G T)) (maps : ∀ c, Set.MapsTo (U c) s s) {r : ℝ} (hr : 0 < r) :
    ∃ c₀ : ℝ, 0 < c₀ ∧ ∀ c : 𝕜, ‖c‖ ≤ c₀ → ∃ T ∈ s, ‖T‖ ≤ r ∧ U c T = T ∧ (∀ T' ∈ s, ‖T'‖ ≤ r → U c T' = T' → T' = T) ∧
      ∀ T₀ ∈ s, ‖T₀‖ ≤ r → ∀ k : ℕ, ‖(U c)^[k] T₀ - T‖ ≤ (1 / 2) ^ k * ‖T₀ - T‖ := by
  obtain ⟨M, hM, b1, b2⟩ := ball_bounds hG r
  refine ⟨min (1 / (2 * M)) (r / M), lt_min (by positivity) (by positivity), fun c hc => ?_⟩
  have c1 : ‖c‖ * M ≤ 1 / 2 := by
    have := mul_le_mul_of_nonneg_right (hc.trans (min_le_left _ _)) hM.le
    rwa [show 1 / (2 * M) * M = 1 / 2 by field_simp] at this
  have c2 : ‖c‖ * M ≤ r := by
    have := mul_le_mul_of_nonneg_right (hc.trans (min_le_right _ _)) hM.le
    rwa [show r / M * M = r by field_simp] at this
  have maps' : Set.MapsTo (U c) (s ∩ closedBall 0 r) (s ∩ closedBall 0 r) := by
    rintro T ⟨hT, hn⟩
    refine ⟨maps c hT, ?_⟩
    rw [mem_closedBall, dist_zero_right, hU c T hT, norm_neg, norm_smul]
    exact (mul_le_mul_of_nonneg_left (b1 T hn) (norm_nonneg _)).trans c2
  have lip : ∀ T ∈ s ∩ closedBall 0 r, ∀ T' ∈ s ∩ closedBall 0 r, ‖U c T' - U c T‖ ≤ 1 / 2 * ‖T' - T‖ := by
    rintro T ⟨hT, hn⟩ T' ⟨hT', hn'⟩
    rw [hU c T hT, hU c T' hT', neg_sub_neg, ← smul_sub, norm_smul, norm_sub_rev (G T) (G T')]
    refine (mul_le_mul_of_nonneg_left (b2 T hn T' hn') (norm_nonneg c)).trans ?_
    rw [← mul_assoc]
    exact mul_le_mul_of_nonneg_right c1 (norm_nonneg _)
  have : CompleteSpace E := FiniteDimensional.complete 𝕜 E
  obtain ⟨T, hT, hf, uniq, it⟩ := halving (closed.inter isClosed_closedBall) ⟨zero, by simpa using hr.le⟩ maps' lip
  exact ⟨T, hT.1, by simpa using hT.2, hf, fun T' h' hn => uniq T' ⟨h', by simpa using hn⟩, fun T₀ h0 hn => it T₀ ⟨h0, by simpa using hn⟩⟩
end

/-! ### amplitudes with spin -/

section
variable {𝕜 : Type} [RCLike 𝕜] {Oa Va Ob Vb : Type} [Fintype Oa] [Fintype Va] [Fintype Ob] [Fintype Vb]

/-- The tuples of amplitudes of the unrestricted routines: `(T1a, T1b)` and `(T2aa, T2ab, T2bb)`. -/
abbrev UAmp (𝕜 Oa Va Ob Vb : Type) :=
  ((Va → Oa → 𝕜) × (Vb → Ob → 𝕜)) × ((Va → Va → Oa → Oa → 𝕜) × (Va → Vb → Oa → Ob → 𝕜) × (Vb → Vb → Ob → Ob → 𝕜))

def asSpinL : UAmp 𝕜 Oa Va Ob Vb →ₗ[𝕜] Amp 𝕜 (Oa ⊕ Ob) (Va ⊕ Vb) where
  toFun T := (T1_to_spin T.1.1 T.1.2, T2_to_spin T.2.1 T.2.2.1 T.2.2.2)
  map_add' S T := by
    refine Prod.ext ?_ ?_
    · funext a i
      rcases a with a | a <;> rcases i with i | i <;> simp [T1_to_spin, blk2]
    · funext a b i j
      rcases a with a | a <;> rcases b with b | b <;> rcases i with i | i <;> rcases j with j | j <;> simp [T2_to_spin, add_comm]
  map_smul' c T := by
    refine Prod.ext ?_ ?_
    · funext a i
      rcases a with a | a <;> rcases i with i | i <;> simp [T1_to_spin, blk2]
    · funext a b i j
      rcases a with a | a <;> rcases b with b | b <;> rcases i with i | i <;> rcases j with j | j <;> simp [T2_to_spin]

def ofSpinL : Amp 𝕜 (Oa ⊕ Ob) (Va ⊕ Vb) →ₗ[𝕜] UAmp 𝕜 Oa Va Ob Vb where
  toFun A := (T1_to_spatial A.1, T2_to_spatial A.2)
  map_add' _ _ := rfl
  map_smul' _ _ := rfl

noncomputable def asSpin : UAmp 𝕜 Oa Va Ob Vb →L[𝕜] Amp 𝕜 (Oa ⊕ Ob) (Va ⊕ Vb) := asSpinL.toContinuousLinearMap
noncomputable def ofSpin : Amp 𝕜 (Oa ⊕ Ob) (Va ⊕ Vb) →L[𝕜] UAmp 𝕜 Oa Va Ob Vb := ofSpinL.toContinuousLinearMap

theorem asSpin_apply (T : UAmp 𝕜 Oa Va Ob Vb) : asSpin T = (T1_to_spin T.1.1 T.1.2, T2_to_spin T.2.1 T.2.2.1 T.2.2.2) := rfl
theorem ofSpin_apply (A : Amp 𝕜 (Oa ⊕ Ob) (Va ⊕ Vb)) : ofSpin A = (T1_to_spatial A.1, T2_to_spatial A.2) := rfl
theorem of_asSpin (T : UAmp 𝕜 Oa Va Ob Vb) : ofSpin (asSpin T) = T := rfl

/-- both same-spin parts antisymmetric -/
def UAnti (T : UAmp 𝕜 Oa Va Ob Vb) : Prop := Anti T.2.1 ∧ Anti T.2.2.2

theorem asSpin_anti {T : UAmp 𝕜 Oa Va Ob Vb} (h : UAnti T) : Anti (asSpin T).2 := T2_spin_anti T.2.2.1 h.1 h.2

theorem closed_anti {E A B : Type} [TopologicalSpace E] {f : E → A → A → B → B → 𝕜} (hf : Continuous f) : IsClosed {x | Anti (f x)} := by
  have c : ∀ a b i j, Continuous fun x => f x a b i j := fun a b i j =>
    (continuous_apply j).comp ((continuous_apply i).comp ((continuous_apply b).comp ((continuous_apply a).comp hf)))
  have e : {x | Anti (f x)} = (⋂ a, ⋂ b, ⋂ i, ⋂ j, {x | f x b a i j = -f x a b i j}) ∩ ⋂ a, ⋂ b, ⋂ i, ⋂ j, {x | f x a b j i = -f x a b i j} := by
    ext x
    simp only [Set.mem_inter_iff, Set.mem_iInter, Set.mem_ofPred_eq]
    exact ⟨fun h => ⟨h.a12, h.a34⟩, fun h => ⟨h.1, h.2⟩⟩
  rw [e]
  exact (isClosed_iInter fun a => isClosed_iInter fun b => isClosed_iInter fun i => isClosed_iInter fun j => isClosed_eq (c _ _ _ _) (c _ _ _ _).neg).inter
    (isClosed_iInter fun a => isClosed_iInter fun b => isClosed_iInter fun i => isClosed_iInter fun j => isClosed_eq (c _ _ _ _) (c _ _ _ _).neg)

theorem closed_pair {E A B : Type} [TopologicalSpace E] {f : E → A → A → B → B → 𝕜} (hf : Continuous f) : IsClosed {x | PairSym (f x)} := by
  have c : ∀ a b i j, Continuous fun x => f x a b i j := fun a b i j =>
    (continuous_apply j).comp ((continuous_apply i).comp ((continuous_apply b).comp ((continuous_apply a).comp hf)))
  have e : {x | PairSym (f x)} = ⋂ a, ⋂ b, ⋂ i, ⋂ j, {x | f x b a j i = f x a b i j} := by
    ext x
    simp only [Set.mem_iInter, Set.mem_ofPred_eq]
    exact Iff.rfl
  rw [e]
  exact isClosed_iInter fun a => isClosed_iInter fun b => isClosed_iInter fun i => isClosed_iInter fun j => isClosed_eq (c _ _ _ _) (c _ _ _ _)

theorem closed_uanti : IsClosed {T : UAmp 𝕜 Oa Va Ob Vb | UAnti T} :=
  (closed_anti (continuous_fst.comp continuous_snd)).inter (closed_anti (continuous_snd.comp (continuous_snd.comp continuous_snd)))

/-! ### integrals with spin -/

/-- `c I`, block by block -/
def TwoEFull.mul {O V P Q K : Type} [Field K] (c : K) (I : TwoEFull O V P Q K) : TwoEFull O V P Q K where
  oooo p q r s := c * I.oooo p q r s
  ooov p q r s := c * I.ooov p q r s
  oovo p q r s := c * I.oovo p q r s
  oovv p q r s := c * I.oovv p q r s
  ovoo p q r s := c * I.ovoo p q r s
  ovov p q r s := c * I.ovov p q r s
  ovvo p q r s := c * I.ovvo p q r s
  ovvv p q r s := c * I.ovvv p q r s
  vooo p q r s := c * I.vooo p q r s
  voov p q r s := c * I.voov p q r s
  vovo p q r s := c * I.vovo p q r s
  vovv p q r s := c * I.vovv p q r s
  vvoo p q r s := c * I.vvoo p q r s
  vvov p q r s := c * I.vvov p q r s
  vvvo p q r s := c * I.vvvo p q r s
  vvvv p q r s := c * I.vvvv p q r s

theorem mul_spin (c : 𝕜) (Ia : TwoE Oa Va 𝕜) (Ib : TwoE Ob Vb 𝕜) (Iab : TwoEFull Oa Va Ob Vb 𝕜) :
    int_to_spin2 (Ia.mul c) (Ib.mul c) (Iab.mul c) = (int_to_spin2 Ia Ib Iab).mul c := by
  simp only [int_to_spin2, TwoE.mul, TwoEFull.mul, TwoE.mk.injEq]
  refine ⟨?_, ?_, ?_, ?_, ?_, ?_, ?_, ?_, ?_⟩ <;> funext x y z w <;> rcases x with x | x <;> rcases y with y | y <;> rcases z with z | z <;>
    rcases w with w | w <;> simp [int_to_spin_block]

theorem addMul_spin (c : 𝕜) (Fa fa : OneE Oa Va 𝕜) (Fb fb : OneE Ob Vb 𝕜) :
    F_to_spin (Fa.addMul c fa) (Fb.addMul c fb) = (F_to_spin Fa Fb).addMul c (F_to_spin fa fb) := by
  simp only [F_to_spin, OneE.addMul, OneE.mk.injEq]
  refine ⟨?_, ?_, ?_, ?_⟩ <;> funext x y <;> rcases x with x | x <;> rcases y with y | y <;> simp [blk2]

theorem mul_zero_noI (I : TwoE Oa Va 𝕜) : I.mul 0 = Heap.noI Oa Va 𝕜 := by simp only [TwoE.mul, zero_mul, Heap.noI]
theorem mul_zero_noJ (I : TwoEFull Oa Va Ob Vb 𝕜) : I.mul 0 = Heap.noJ Oa Va Ob Vb 𝕜 := by simp only [TwoEFull.mul, zero_mul, Heap.noJ]

theorem mul_pair {O V : Type} {I : TwoEFull O V O V 𝕜} (h : PairI I) (c : 𝕜) : PairI (I.mul c) := by
  constructor <;> intro p q r s <;> simp only [TwoEFull.mul]
  · rw [h.oooo]
  · rw [h.oovo]
  · rw [h.oovv]
  · rw [h.ovoo]
  · rw [h.ovov]
  · rw [h.ovvo]
  · rw [h.ovvv]
  · rw [h.vvoo]
  · rw [h.vvov]
  · rw [h.vvvv]

theorem mul_asym {O V : Type} (I : TwoEFull O V O V 𝕜) (c : 𝕜) : asymI (I.mul c) = (asymI I).mul c := by
  simp only [asymI, TwoE.mul, TwoEFull.mul, mul_sub]

/-! ### residuals -/

/-- the residual of `uccsd_stanton`, of amplitudes antisymmetrised first -/
noncomputable def uRes (Fa : OneE Oa Va 𝕜) (Fb : OneE Ob Vb 𝕜) (Ia : TwoE Oa Va 𝕜) (Ib : TwoE Ob Vb 𝕜) (Iab : TwoEFull Oa Va Ob Vb 𝕜)
    (T : UAmp 𝕜 Oa Va Ob Vb) : UAmp 𝕜 Oa Va Ob Vb :=
  ofSpin (resPt ((flat1 (F_to_spin Fa Fb), flat2 (int_to_spin2 Ia Ib Iab)), antiP (asSpin T)))

theorem uRes_smooth (Fa : OneE Oa Va 𝕜) (Fb : OneE Ob Vb 𝕜) (Ia : TwoE Oa Va 𝕜) (Ib : TwoE Ob Vb 𝕜) (Iab : TwoEFull Oa Va Ob Vb 𝕜) :
    ContDiff 𝕜 1 (uRes Fa Fb Ia Ib Iab) := by
  have h : ContDiff 𝕜 1 (fun u : UAmp 𝕜 Oa Va Ob Vb => antiP (asSpin u)) := (antiPC (𝕜 := 𝕜) (O := Oa ⊕ Ob) (V := Va ⊕ Vb)).contDiff.comp
    (asSpin (𝕜 := 𝕜) (Oa := Oa) (Va := Va) (Ob := Ob) (Vb := Vb)).contDiff
  exact (ofSpin (𝕜 := 𝕜) (Oa := Oa) (Va := Va) (Ob := Ob) (Vb := Vb)).contDiff.comp (res_smooth.comp (contDiff_const.prodMk h))

variable (Fa fa : OneE Oa Va 𝕜) (Fb fb : OneE Ob Vb 𝕜) (Ia : TwoE Oa Va 𝕜) (Ib : TwoE Ob Vb 𝕜) (Iab : TwoEFull Oa Va Ob Vb 𝕜)
  (hIa : AntiI Ia) (hIb : AntiI Ib)

include hIa hIb
theorem ures_code {T : UAmp 𝕜 Oa Va Ob Vb} (h : UAnti T) :
    uccsd_stanton Fa Fb Ia Ib Iab T.1 T.2 = ofSpin (ccsd_simple (F_to_spin Fa Fb) (int_to_spin2 Ia Ib Iab) (asSpin T).1 (asSpin T).2) :=
  (C13_uccsd_extract Fa Fb Ia Ib Iab T.1.1 T.1.2 T.2.1 T.2.2.1 T.2.2.2 hIa hIb h.1 h.2).symm

theorem uRes_eq {T : UAmp 𝕜 Oa Va Ob Vb} (h : UAnti T) : uRes Fa Fb Ia Ib Iab T = uccsd_stanton Fa Fb Ia Ib Iab T.1 T.2 := by
  rw [ures_code Fa Fb Ia Ib Iab hIa hIb h, uRes, antiP_of_anti (asSpin_anti h), resPt_flat _ _ (int_spin_anti Iab hIa hIb) _ (asSpin_anti h)]

theorem ures_anti {T : UAmp 𝕜 Oa Va Ob Vb} (h : UAnti T) : UAnti (uccsd_stanton Fa Fb Ia Ib Iab T.1 T.2) :=
  C44_uccsd_anti Fa Fb Ia Ib Iab T.1.1 T.1.2 T.2.1 T.2.2.1 T.2.2.2 hIa hIb h.1 h.2

theorem ures_split (c : 𝕜) {T : UAmp 𝕜 Oa Va Ob Vb} (h : UAnti T) :
    uccsd_stanton (Fa.addMul c fa) (Fb.addMul c fb) (Ia.mul c) (Ib.mul c) (Iab.mul c) T.1 T.2
      = uccsd_stanton Fa Fb (Heap.noI Oa Va 𝕜) (Heap.noI Ob Vb 𝕜) (Heap.noJ Oa Va Ob Vb 𝕜) T.1 T.2 + c • uccsd_stanton fa fb Ia Ib Iab T.1 T.2 := by
  rw [← mul_zero_noI Ia, ← mul_zero_noI Ib, ← mul_zero_noJ Iab, ures_code fa fb Ia Ib Iab hIa hIb h,
    ures_code Fa Fb _ _ _ (TwoE.mul_anti hIa 0) (TwoE.mul_anti hIb 0) h, ures_code _ _ _ _ _ (TwoE.mul_anti hIa c) (TwoE.mul_anti hIb c) h,
    mul_spin, mul_spin, addMul_spin, ← map_smul, ← map_add]
  congr 1
  refine Prod.ext ?_ ?_
  · funext a i; exact simple_split1 _ _ _ _ _ _ a i
  · funext a b i j; exact simple_split2 _ _ _ _ _ _ a b i j
end

/-! ### unrestricted amplitudes -/

section
variable {𝕜 : Type} [RCLike 𝕜] {Oa Va Ob Vb : Type} [Fintype Oa] [Fintype Va] [Fintype Ob] [Fintype Vb]

/-- No energy denominator vanishes; only those denominators which the unrestricted update divides by. -/
structure UGap (eoa : Oa → 𝕜) (eva : Va → 𝕜) (eob : Ob → 𝕜) (evb : Vb → 𝕜) : Prop where
  a : ∀ a i, eva a - eoa i ≠ 0
  b : ∀ a i, evb a - eob i ≠ 0
  aa : ∀ a b i j, eva a + eva b - eoa i - eoa j ≠ 0
  ab : ∀ a b i j, eva a + evb b - eoa i - eob j ≠ 0
  bb : ∀ a b i j, evb a + evb b - eob i - eob j ≠ 0

/-- Division by the denominators. -/
def divUL (eoa : Oa → 𝕜) (eva : Va → 𝕜) (eob : Ob → 𝕜) (evb : Vb → 𝕜) : UAmp 𝕜 Oa Va Ob Vb →ₗ[𝕜] UAmp 𝕜 Oa Va Ob Vb where
  toFun y := ((fun a i => y.1.1 a i / (eva a - eoa i), fun a i => y.1.2 a i / (evb a - eob i)),
    (fun a b i j => y.2.1 a b i j / (eva a + eva b - eoa i - eoa j), fun a b i j => y.2.2.1 a b i j / (eva a + evb b - eoa i - eob j),
     fun a b i j => y.2.2.2 a b i j / (evb a + evb b - eob i - eob j)))
  map_add' x y := by
    refine Prod.ext (Prod.ext ?_ ?_) (Prod.ext ?_ (Prod.ext ?_ ?_)) <;> funext <;> simp [add_div]
  map_smul' c x := by
    refine Prod.ext (Prod.ext ?_ ?_) (Prod.ext ?_ (Prod.ext ?_ ?_)) <;> funext <;> simp [mul_div_assoc]

noncomputable def divU (eoa : Oa → 𝕜) (eva : Va → 𝕜) (eob : Ob → 𝕜) (evb : Vb → 𝕜) : UAmp 𝕜 Oa Va Ob Vb →L[𝕜] UAmp 𝕜 Oa Va Ob Vb :=
  (divUL eoa eva eob evb).toContinuousLinearMap

variable (eoa : Oa → 𝕜) (eva : Va → 𝕜) (eob : Ob → 𝕜) (evb : Vb → 𝕜)

theorem divU_apply (y : UAmp 𝕜 Oa Va Ob Vb) :
    divU eoa eva eob evb y = ((fun a i => y.1.1 a i / (eva a - eoa i), fun a i => y.1.2 a i / (evb a - eob i)),
      (fun a b i j => y.2.1 a b i j / (eva a + eva b - eoa i - eoa j), fun a b i j => y.2.2.1 a b i j / (eva a + evb b - eoa i - eob j),
       fun a b i j => y.2.2.2 a b i j / (evb a + evb b - eob i - eob j))) := rfl

theorem divU_anti {y : UAmp 𝕜 Oa Va Ob Vb} (h : UAnti y) : UAnti (divU eoa eva eob evb y) :=
  by classical exact ⟨divD_anti eoa eva (y := (y.1.1, y.2.1)) h.1, divD_anti eob evb (y := (y.1.2, y.2.2.2)) h.2⟩

variable {eoa eva eob evb}

theorem divU_injective (g : UGap eoa eva eob evb) {y : UAmp 𝕜 Oa Va Ob Vb} (h : divU eoa eva eob evb y = 0) : y = 0 := by
  rw [divU_apply] at h
  obtain ⟨h1, h2⟩ := Prod.ext_iff.1 h
  obtain ⟨ha, hb⟩ := Prod.ext_iff.1 h1
  obtain ⟨haa, h2'⟩ := Prod.ext_iff.1 h2
  obtain ⟨hab, hbb⟩ := Prod.ext_iff.1 h2'
  refine Prod.ext (Prod.ext ?_ ?_) (Prod.ext ?_ (Prod.ext ?_ ?_))
  · funext a i; exact (div_eq_zero_iff.1 (congrFun (congrFun ha a) i)).resolve_right (g.a a i)
  · funext a i; exact (div_eq_zero_iff.1 (congrFun (congrFun hb a) i)).resolve_right (g.b a i)
  · funext a b i j; exact (div_eq_zero_iff.1 (congrFun (congrFun (congrFun (congrFun haa a) b) i) j)).resolve_right (g.aa a b i j)
  · funext a b i j; exact (div_eq_zero_iff.1 (congrFun (congrFun (congrFun (congrFun hab a) b) i) j)).resolve_right (g.ab a b i j)
  · funext a b i j; exact (div_eq_zero_iff.1 (congrFun (congrFun (congrFun (congrFun hbb a) b) i) j)).resolve_right (g.bb a b i j)

theorem usub_anti {S T : UAmp 𝕜 Oa Va Ob Vb} (hS : UAnti S) (hT : UAnti T) : UAnti (S - T) := ⟨sub_anti hS.1 hT.1, sub_anti hS.2 hT.2⟩

theorem uzero_anti : UAnti (0 : UAmp 𝕜 Oa Va Ob Vb) := ⟨zero_anti', zero_anti'⟩

/-- One update of the unrestricted amplitudes. -/
def uupdate (Fa : OneE Oa Va 𝕜) (Fb : OneE Ob Vb 𝕜) (Ia : TwoE Oa Va 𝕜) (Ib : TwoE Ob Vb 𝕜) (Iab : TwoEFull Oa Va Ob Vb 𝕜)
    (eoa : Oa → 𝕜) (eva : Va → 𝕜) (eob : Ob → 𝕜) (evb : Vb → 𝕜) (T : UAmp 𝕜 Oa Va Ob Vb) : UAmp 𝕜 Oa Va Ob Vb :=
  ((fun a i => T.1.1 a i - (uccsd_stanton Fa Fb Ia Ib Iab T.1 T.2).1.1 a i / (eva a - eoa i),
    fun a i => T.1.2 a i - (uccsd_stanton Fa Fb Ia Ib Iab T.1 T.2).1.2 a i / (evb a - eob i)),
   (fun a b i j => T.2.1 a b i j - (uccsd_stanton Fa Fb Ia Ib Iab T.1 T.2).2.1 a b i j / (eva a + eva b - eoa i - eoa j),
    fun a b i j => T.2.2.1 a b i j - (uccsd_stanton Fa Fb Ia Ib Iab T.1 T.2).2.2.1 a b i j / (eva a + evb b - eoa i - eob j),
    fun a b i j => T.2.2.2 a b i j - (uccsd_stanton Fa Fb Ia Ib Iab T.1 T.2).2.2.2 a b i j / (evb a + evb b - eob i - eob j)))

theorem uupdate_eq (Fa : OneE Oa Va 𝕜) (Fb : OneE Ob Vb 𝕜) (Ia : TwoE Oa Va 𝕜) (Ib : TwoE Ob Vb 𝕜) (Iab : TwoEFull Oa Va Ob Vb 𝕜) (T : UAmp 𝕜 Oa Va Ob Vb) :
    uupdate Fa Fb Ia Ib Iab eoa eva eob evb T = T - divU eoa eva eob evb (uccsd_stanton Fa Fb Ia Ib Iab T.1 T.2) := rfl

theorem uupdate_fixed (Fa : OneE Oa Va 𝕜) (Fb : OneE Ob Vb 𝕜) (Ia : TwoE Oa Va 𝕜) (Ib : TwoE Ob Vb 𝕜) (Iab : TwoEFull Oa Va Ob Vb 𝕜)
    (g : UGap eoa eva eob evb) (T : UAmp 𝕜 Oa Va Ob Vb) :
    uupdate Fa Fb Ia Ib Iab eoa eva eob evb T = T ↔ uccsd_stanton Fa Fb Ia Ib Iab T.1 T.2 = 0 := by
  rw [uupdate_eq, sub_eq_self]
  exact ⟨divU_injective g, fun h => by rw [h]; exact map_zero _⟩

variable [DecidableEq Oa] [DecidableEq Va] [DecidableEq Ob] [DecidableEq Vb]

/-- dividing the residual of uncoupled orbitals by the denominators returns the amplitudes -/
theorem divU_diag (g : UGap eoa eva eob evb) {T : UAmp 𝕜 Oa Va Ob Vb} (h : UAnti T) :
    divU eoa eva eob evb (uccsd_stanton (diagF eoa eva) (diagF eob evb) (Heap.noI Oa Va 𝕜) (Heap.noI Ob Vb 𝕜) (Heap.noJ Oa Va Ob Vb 𝕜) T.1 T.2) = T := by
  rw [show diagF eoa eva = Heap.diagE eoa eva from rfl, show diagF eob evb = Heap.diagE eob evb from rfl,
    Heap.uccsd_stanton_diag eoa eva eob evb T.1 T.2 h.1 h.2, divU_apply]
  refine Prod.ext (Prod.ext ?_ ?_) (Prod.ext ?_ (Prod.ext ?_ ?_))
  · funext a i; exact mul_div_cancel_left₀ _ (g.a a i)
  · funext a i; exact mul_div_cancel_left₀ _ (g.b a i)
  · funext a b i j; exact mul_div_cancel_left₀ _ (g.aa a b i j)
  · funext a b i j; exact mul_div_cancel_left₀ _ (g.ab a b i j)
  · funext a b i j; exact mul_div_cancel_left₀ _ (g.bb a b i j)

theorem uupdate_weak (fa : OneE Oa Va 𝕜) (fb : OneE Ob Vb 𝕜) (Ia : TwoE Oa Va 𝕜) (Ib : TwoE Ob Vb 𝕜) (Iab : TwoEFull Oa Va Ob Vb 𝕜)
    (hIa : AntiI Ia) (hIb : AntiI Ib) (g : UGap eoa eva eob evb) (c : 𝕜) {T : UAmp 𝕜 Oa Va Ob Vb} (h : UAnti T) :
    uupdate ((diagF eoa eva).addMul c fa) ((diagF eob evb).addMul c fb) (Ia.mul c) (Ib.mul c) (Iab.mul c) eoa eva eob evb T
      = -(c • divU eoa eva eob evb (uRes fa fb Ia Ib Iab T)) := by
  rw [uupdate_eq, ures_split _ fa _ fb Ia Ib Iab hIa hIb c h, uRes_eq fa fb Ia Ib Iab hIa hIb h, map_add, divU_diag g h, map_smul]
  abel

/-- C73: with a gap and a weak enough perturbation, the unrestricted update converges from every start in a ball whose same-spin parts are antisymmetric, at
least halving the error in every step, to the only such solution in that ball. -/
theorem C73_uccsd_converges (eoa : Oa → 𝕜) (eva : Va → 𝕜) (eob : Ob → 𝕜) (evb : Vb → 𝕜) (g : UGap eoa eva eob evb)
    (fa : OneE Oa Va 𝕜) (fb : OneE Ob Vb 𝕜) (Ia : TwoE Oa Va 𝕜) (Ib : TwoE Ob Vb 𝕜) (Iab : TwoEFull Oa Va Ob Vb 𝕜)
    (hIa : AntiI Ia) (hIb : AntiI Ib) (r : ℝ) (hr : 0 < r) :
    ∃ c₀ : ℝ, 0 < c₀ ∧ ∀ c : 𝕜, ‖c‖ ≤ c₀ → ∃ T : UAmp 𝕜 Oa Va Ob Vb, Anti T.2.1 ∧ Anti T.2.2.2 ∧ ‖T‖ ≤ r ∧
      uccsd_stanton ((diagF eoa eva).addMul c fa) ((diagF eob evb).addMul c fb) (Ia.mul c) (Ib.mul c) (Iab.mul c) T.1 T.2 = 0 ∧
      (∀ T' : UAmp 𝕜 Oa Va Ob Vb, Anti T'.2.1 → Anti T'.2.2.2 → ‖T'‖ ≤ r →
        uccsd_stanton ((diagF eoa eva).addMul c fa) ((diagF eob evb).addMul c fb) (Ia.mul c) (Ib.mul c) (Iab.mul c) T'.1 T'.2 = 0 → T' = T) ∧
      ∀ T₀ : UAmp 𝕜 Oa Va Ob Vb, Anti T₀.2.1 → Anti T₀.2.2.2 → ‖T₀‖ ≤ r → ∀ k : ℕ,
        ‖(uupdate ((diagF eoa eva).addMul c fa) ((diagF eob evb).addMul c fb) (Ia.mul c) (Ib.mul c) (Iab.mul c) eoa eva eob evb)^[k] T₀ - T‖
          ≤ (1 / 2) ^ k * ‖T₀ - T‖ := by
  obtain ⟨c₀, h0, H⟩ := weak_halving (𝕜 := 𝕜) (s := {T : UAmp 𝕜 Oa Va Ob Vb | UAnti T}) closed_uanti uzero_anti
    ((divU eoa eva eob evb).contDiff.comp (uRes_smooth fa fb Ia Ib Iab))
    (U := fun c => uupdate ((diagF eoa eva).addMul c fa) ((diagF eob evb).addMul c fb) (Ia.mul c) (Ib.mul c) (Iab.mul c) eoa eva eob evb)
    (fun c T hT => uupdate_weak fa fb Ia Ib Iab hIa hIb g c hT)
    (fun c T hT => usub_anti hT (divU_anti _ _ _ _ (ures_anti _ _ _ _ _ (TwoE.mul_anti hIa c) (TwoE.mul_anti hIb c) hT))) hr
  refine ⟨c₀, h0, fun c hc => ?_⟩
  obtain ⟨T, hT, hn, hf, uniq, it⟩ := H c hc
  exact ⟨T, hT.1, hT.2, hn, (uupdate_fixed _ _ _ _ _ g T).1 hf, fun T' ha hb hn' h' => uniq T' ⟨ha, hb⟩ hn' ((uupdate_fixed _ _ _ _ _ g T').2 h'),
    fun T₀ ha hb hn' => it T₀ ⟨ha, hb⟩ hn'⟩
end

/-! ### restricted amplitudes -/

section
variable {𝕜 : Type} [RCLike 𝕜] {O V : Type} [Fintype O] [Fintype V]

def closedL : Amp 𝕜 O V →ₗ[𝕜] UAmp 𝕜 O V O V where
  toFun T := ((T.1, T.1), (asym2 T.2, T.2, asym2 T.2))
  map_add' S T := by
    refine Prod.ext rfl (Prod.ext ?_ (Prod.ext rfl ?_)) <;> funext a b i j <;> simp [asym2] <;> ring
  map_smul' c T := by
    refine Prod.ext rfl (Prod.ext ?_ (Prod.ext rfl ?_)) <;> funext a b i j <;> simp [asym2] <;> ring

def openL : UAmp 𝕜 O V O V →ₗ[𝕜] Amp 𝕜 O V where
  toFun T := (T.1.1, T.2.2.1)
  map_add' _ _ := rfl
  map_smul' _ _ := rfl

/-- the closed-shell amplitudes of both spins -/
noncomputable def closedA : Amp 𝕜 O V →L[𝕜] UAmp 𝕜 O V O V := closedL.toContinuousLinearMap
/-- the first singles and the mixed-spin doubles -/
noncomputable def openA : UAmp 𝕜 O V O V →L[𝕜] Amp 𝕜 O V := openL.toContinuousLinearMap

theorem closedA_apply (T : Amp 𝕜 O V) : closedA T = ((T.1, T.1), (asym2 T.2, T.2, asym2 T.2)) := rfl
theorem openA_apply (T : UAmp 𝕜 O V O V) : openA T = (T.1.1, T.2.2.1) := rfl

theorem closedA_anti {T : Amp 𝕜 O V} (h : PairSym T.2) : UAnti (closedA T) := ⟨asym2_anti h, asym2_anti h⟩

/-- the residual of `rccsd_stanton` through the unrestricted one -/
noncomputable def rRes (F : OneE O V 𝕜) (I : TwoEFull O V O V 𝕜) (T : Amp 𝕜 O V) : Amp 𝕜 O V :=
  openA (uRes F F (asymI I) (asymI I) I (closedA T))

theorem rRes_smooth (F : OneE O V 𝕜) (I : TwoEFull O V O V 𝕜) : ContDiff 𝕜 1 (rRes F I) :=
  (openA (𝕜 := 𝕜) (O := O) (V := V)).contDiff.comp ((uRes_smooth F F (asymI I) (asymI I) I).comp (closedA (𝕜 := 𝕜) (O := O) (V := V)).contDiff)

theorem rres_code (F : OneE O V 𝕜) (I : TwoEFull O V O V 𝕜) (hI : PairI I) {T : Amp 𝕜 O V} (h : PairSym T.2) :
    rccsd_stanton F I T.1 T.2 = openA (uccsd_stanton F F (asymI I) (asymI I) I (closedA T).1 (closedA T).2) := by
  rw [closedA_apply, C14_rccsd F I T.1 T.2 hI h]
  rfl

theorem rRes_eq (F : OneE O V 𝕜) (I : TwoEFull O V O V 𝕜) (hI : PairI I) {T : Amp 𝕜 O V} (h : PairSym T.2) : rRes F I T = rccsd_stanton F I T.1 T.2 := by
  rw [rres_code F I hI h, rRes, uRes_eq _ _ _ _ _ (asymI_anti hI) (asymI_anti hI) (closedA_anti h)]

theorem asym_noJ : asymI (Heap.noJ O V O V 𝕜) = Heap.noI O V 𝕜 := by simp only [asymI, Heap.noJ, Heap.noI, sub_zero]
theorem noJ_pair : PairI (Heap.noJ O V O V 𝕜) := by constructor <;> intro p q r s <;> rfl

theorem rres_split (F f : OneE O V 𝕜) (I : TwoEFull O V O V 𝕜) (hI : PairI I) (c : 𝕜) {T : Amp 𝕜 O V} (h : PairSym T.2) :
    rccsd_stanton (F.addMul c f) (I.mul c) T.1 T.2 = rccsd_stanton F (Heap.noJ O V O V 𝕜) T.1 T.2 + c • rccsd_stanton f I T.1 T.2 := by
  rw [rres_code f I hI h, rres_code F _ noJ_pair h, rres_code _ _ (mul_pair hI c) h, mul_asym, asym_noJ,
    ures_split F f F f (asymI I) (asymI I) I (asymI_anti hI) (asymI_anti hI) c (closedA_anti h), map_add, map_smul]

theorem divD_pair [DecidableEq O] [DecidableEq V] (eo : O → 𝕜) (ev : V → 𝕜) {y : Amp 𝕜 O V} (h : PairSym y.2) : PairSym (divD eo ev y).2 := by
  intro a b i j
  simp only [divD_apply]
  rw [h a b i j, show ev b + ev a - eo j - eo i = ev a + ev b - eo i - eo j by ring]

theorem sub_pair {A B : Type} {f g : A → A → B → B → 𝕜} (hf : PairSym f) (hg : PairSym g) : PairSym (f - g) := fun a b i j => by
  simp only [Pi.sub_apply]; rw [hf a b i j, hg a b i j]

/-- One update of the restricted amplitudes. -/
def rupdate (F : OneE O V 𝕜) (I : TwoEFull O V O V 𝕜) (eo : O → 𝕜) (ev : V → 𝕜) (T : Amp 𝕜 O V) : Amp 𝕜 O V :=
  (fun a i => T.1 a i - (rccsd_stanton F I T.1 T.2).1 a i / (ev a - eo i),
   fun a b i j => T.2 a b i j - (rccsd_stanton F I T.1 T.2).2 a b i j / (ev a + ev b - eo i - eo j))

variable [DecidableEq O] [DecidableEq V]

theorem rupdate_eq (F : OneE O V 𝕜) (I : TwoEFull O V O V 𝕜) (eo : O → 𝕜) (ev : V → 𝕜) (T : Amp 𝕜 O V) :
    rupdate F I eo ev T = T - divD eo ev (rccsd_stanton F I T.1 T.2) := rfl

theorem rupdate_fixed (F : OneE O V 𝕜) (I : TwoEFull O V O V 𝕜) {eo : O → 𝕜} {ev : V → 𝕜} (g1 : ∀ a i, ev a - eo i ≠ 0)
    (g2 : ∀ a b i j, ev a + ev b - eo i - eo j ≠ 0) (T : Amp 𝕜 O V) : rupdate F I eo ev T = T ↔ rccsd_stanton F I T.1 T.2 = 0 := by
  rw [rupdate_eq, sub_eq_self]
  exact ⟨divD_injective g1 g2, fun h => by rw [h]; exact map_zero _⟩

theorem rupdate_weak (f : OneE O V 𝕜) (I : TwoEFull O V O V 𝕜) (hI : PairI I) {eo : O → 𝕜} {ev : V → 𝕜} (g1 : ∀ a i, ev a - eo i ≠ 0)
    (g2 : ∀ a b i j, ev a + ev b - eo i - eo j ≠ 0) (c : 𝕜) {T : Amp 𝕜 O V} (h : PairSym T.2) :
    rupdate ((diagF eo ev).addMul c f) (I.mul c) eo ev T = -(c • divD eo ev (rRes f I T)) := by
  have d : divD eo ev (rccsd_stanton (diagF eo ev) (Heap.noJ O V O V 𝕜) T.1 T.2) = T := by
    rw [show diagF eo ev = Heap.diagE eo ev from rfl, Heap.rccsd_stanton_diag eo ev T.1 T.2 h, divD_apply]
    refine Prod.ext ?_ ?_
    · funext a i; exact mul_div_cancel_left₀ _ (g1 a i)
    · funext a b i j; exact mul_div_cancel_left₀ _ (g2 a b i j)
  rw [rupdate_eq, rres_split _ f I hI c h, rRes_eq f I hI h, map_add, d, map_smul]
  abel

/-- C73: with a gap and a weak enough perturbation, the restricted update converges from every start in a ball with exchange-symmetric doubles to the only
such solution in that ball. -/
theorem C73_rccsd_converges (eo : O → 𝕜) (ev : V → 𝕜) (f : OneE O V 𝕜) (I : TwoEFull O V O V 𝕜) (hI : PairI I)
    (g1 : ∀ a i, ev a - eo i ≠ 0) (g2 : ∀ a b i j, ev a + ev b - eo i - eo j ≠ 0) (r : ℝ) (hr : 0 < r) :
    ∃ c₀ : ℝ, 0 < c₀ ∧ ∀ c : 𝕜, ‖c‖ ≤ c₀ → ∃ T : Amp 𝕜 O V, PairSym T.2 ∧ ‖T‖ ≤ r ∧
      rccsd_stanton ((diagF eo ev).addMul c f) (I.mul c) T.1 T.2 = 0 ∧
      (∀ T' : Amp 𝕜 O V, PairSym T'.2 → ‖T'‖ ≤ r → rccsd_stanton ((diagF eo ev).addMul c f) (I.mul c) T'.1 T'.2 = 0 → T' = T) ∧
      ∀ T₀ : Amp 𝕜 O V, PairSym T₀.2 → ‖T₀‖ ≤ r → ∀ k : ℕ,
        ‖(rupdate ((diagF eo ev).addMul c f) (I.mul c) eo ev)^[k] T₀ - T‖ ≤ (1 / 2) ^ k * ‖T₀ - T‖ := by
  obtain ⟨c₀, h0, H⟩ := weak_halving (𝕜 := 𝕜) (s := {T : Amp 𝕜 O V | PairSym T.2}) (closed_pair continuous_snd) (fun _ _ _ _ => rfl)
    ((divD eo ev).contDiff.comp (rRes_smooth f I)) (U := fun c => rupdate ((diagF eo ev).addMul c f) (I.mul c) eo ev)
    (fun c T hT => rupdate_weak f I hI g1 g2 c hT)
    (fun c T hT => sub_pair hT (divD_pair _ _ (C43_rccsd_pair _ _ T.1 T.2 (mul_pair hI c) hT))) hr
  refine ⟨c₀, h0, fun c hc => ?_⟩
  obtain ⟨T, hT, hn, hf, uniq, it⟩ := H c hc
  exact ⟨T, hT, hn, (rupdate_fixed _ _ g1 g2 T).1 hf, fun T' ha hn' h' => uniq T' ha hn' ((rupdate_fixed _ _ g1 g2 T').2 h'), it⟩
end

/-! ### unrestricted multipliers -/

section
variable {𝕜 : Type} [RCLike 𝕜] {Oa Va Ob Vb : Type} [Fintype Oa] [Fintype Va] [Fintype Ob] [Fintype Vb]
  (Fa fa : OneE Oa Va 𝕜) (Fb fb : OneE Ob Vb 𝕜) (Ia : TwoE Oa Va 𝕜) (Ib : TwoE Ob Vb 𝕜) (Iab : TwoEFull Oa Va Ob Vb 𝕜)
  (hIa : AntiI Ia) (hIb : AntiI Ib)

include hIa hIb in
theorem ulam_code {L : UAmp 𝕜 Va Oa Vb Ob} {T : UAmp 𝕜 Oa Va Ob Vb} (hL : UAnti L) (hT : UAnti T) :
    uccsd_lambda_opt Fa Fb Ia Ib Iab L.1 L.2 T.1 T.2 = ofSpin (lamRes (F_to_spin Fa Fb) (int_to_spin2 Ia Ib Iab) (asSpin T) (asSpin L)) :=
  (C15_uccsd_lambda_extract Fa Fb Ia Ib Iab L.1.1 L.1.2 L.2.1 L.2.2.1 L.2.2.2 T.1.1 T.1.2 T.2.1 T.2.2.1 T.2.2.2 hIa hIb hT.1 hT.2 hL.1 hL.2).symm

include hIa hIb in
theorem ulam_anti {L : UAmp 𝕜 Va Oa Vb Ob} {T : UAmp 𝕜 Oa Va Ob Vb} (hL : UAnti L) (hT : UAnti T) :
    UAnti (uccsd_lambda_opt Fa Fb Ia Ib Iab L.1 L.2 T.1 T.2 : UAmp 𝕜 Va Oa Vb Ob) :=
  C44_uccsd_lambda_anti Fa Fb Ia Ib Iab L.1.1 L.1.2 L.2.1 L.2.2.1 L.2.2.2 T.1.1 T.1.2 T.2.1 T.2.2.1 T.2.2.2 hIa hIb hT.1 hT.2 hL.1 hL.2

include hIa hIb in
theorem ulam_split (c : 𝕜) {L : UAmp 𝕜 Va Oa Vb Ob} {T : UAmp 𝕜 Oa Va Ob Vb} (hL : UAnti L) (hT : UAnti T) :
    (uccsd_lambda_opt (Fa.addMul c fa) (Fb.addMul c fb) (Ia.mul c) (Ib.mul c) (Iab.mul c) L.1 L.2 T.1 T.2 : UAmp 𝕜 Va Oa Vb Ob)
      = uccsd_lambda_opt Fa Fb (Heap.noI Oa Va 𝕜) (Heap.noI Ob Vb 𝕜) (Heap.noJ Oa Va Ob Vb 𝕜) L.1 L.2 T.1 T.2
        + c • uccsd_lambda_opt fa fb Ia Ib Iab L.1 L.2 T.1 T.2 := by
  rw [← mul_zero_noI Ia, ← mul_zero_noI Ib, ← mul_zero_noJ Iab, ulam_code fa fb Ia Ib Iab hIa hIb hL hT,
    ulam_code Fa Fb _ _ _ (TwoE.mul_anti hIa 0) (TwoE.mul_anti hIb 0) hL hT, ulam_code _ _ _ _ _ (TwoE.mul_anti hIa c) (TwoE.mul_anti hIb c) hL hT,
    mul_spin, mul_spin, addMul_spin, ← map_smul, ← map_add]
  congr 1
  refine Prod.ext ?_ ?_
  · funext i a; exact lam_split1 _ _ _ _ _ _ _ _ a i
  · funext i j a b; exact lam_split2 _ _ _ _ _ _ _ _ a b i j

include hIa hIb in
/-- The unrestricted Lambda equations are Lipschitz in the multipliers, uniformly on balls of amplitudes. -/
theorem ulam_lip (r : ℝ) : ∃ M : ℝ, 0 < M ∧ ∀ T : UAmp 𝕜 Oa Va Ob Vb, UAnti T → ‖T‖ ≤ r → ∀ L L' : UAmp 𝕜 Va Oa Vb Ob, UAnti L → UAnti L' →
    ‖(uccsd_lambda_opt Fa Fb Ia Ib Iab L'.1 L'.2 T.1 T.2 - uccsd_lambda_opt Fa Fb Ia Ib Iab L.1 L.2 T.1 T.2 : UAmp 𝕜 Va Oa Vb Ob)‖ ≤ M * ‖L' - L‖ := by
  classical
  let A : UAmp 𝕜 Va Oa Vb Ob →L[𝕜] Amp 𝕜 (Va ⊕ Vb) (Oa ⊕ Ob) := asSpin
  let B : Amp 𝕜 (Va ⊕ Vb) (Oa ⊕ Ob) →L[𝕜] UAmp 𝕜 Va Oa Vb Ob := ofSpin
  let S : UAmp 𝕜 Oa Va Ob Vb →L[𝕜] Amp 𝕜 (Oa ⊕ Ob) (Va ⊕ Vb) := asSpin
  obtain ⟨M, hM, b⟩ := lam_bound (F_to_spin Fa Fb) (int_to_spin2 Ia Ib Iab) (‖S‖ * r)
  refine ⟨(‖B‖ + 1) * (M * (‖A‖ + 1)), by positivity, fun T hT hr L L' hL hL' => ?_⟩
  have e : (uccsd_lambda_opt Fa Fb Ia Ib Iab L'.1 L'.2 T.1 T.2 - uccsd_lambda_opt Fa Fb Ia Ib Iab L.1 L.2 T.1 T.2 : UAmp 𝕜 Va Oa Vb Ob)
      = B (lamL (F_to_spin Fa Fb) (int_to_spin2 Ia Ib Iab) (S T) (A (L' - L))) := by
    rw [ulam_code Fa Fb Ia Ib Iab hIa hIb hL hT, ulam_code Fa Fb Ia Ib Iab hIa hIb hL' hT, map_sub A, map_sub (lamL _ _ _), lamL_apply, lamL_apply,
      sub_sub_sub_cancel_right, map_sub B]
  rw [e]
  have hS : ‖S T‖ ≤ ‖S‖ * r := (S.le_opNorm T).trans (mul_le_mul_of_nonneg_left hr (norm_nonneg _))
  have h1 := B.le_opNorm (lamL (F_to_spin Fa Fb) (int_to_spin2 Ia Ib Iab) (S T) (A (L' - L)))
  have h2 := b (S T) hS (A (L' - L))
  have h3 := A.le_opNorm (L' - L)
  have n := norm_nonneg (L' - L)
  have h3' : ‖A (L' - L)‖ ≤ (‖A‖ + 1) * ‖L' - L‖ := h3.trans (mul_le_mul_of_nonneg_right (by linarith) n)
  have h2' : ‖lamL (F_to_spin Fa Fb) (int_to_spin2 Ia Ib Iab) (S T) (A (L' - L))‖ ≤ M * ((‖A‖ + 1) * ‖L' - L‖) :=
    h2.trans (mul_le_mul_of_nonneg_left h3' hM.le)
  calc _ ≤ _ := h1
    _ ≤ (‖B‖ + 1) * (M * ((‖A‖ + 1) * ‖L' - L‖)) := mul_le_mul (by linarith) h2' (norm_nonneg _) (by positivity)
    _ = _ := by ring

/-- One update of the unrestricted multipliers. -/
def uupdateL (eoa : Oa → 𝕜) (eva : Va → 𝕜) (eob : Ob → 𝕜) (evb : Vb → 𝕜) (T : UAmp 𝕜 Oa Va Ob Vb) (L : UAmp 𝕜 Va Oa Vb Ob) : UAmp 𝕜 Va Oa Vb Ob :=
  ((fun i a => L.1.1 i a - (uccsd_lambda_opt Fa Fb Ia Ib Iab L.1 L.2 T.1 T.2).1.1 i a / (eva a - eoa i),
    fun i a => L.1.2 i a - (uccsd_lambda_opt Fa Fb Ia Ib Iab L.1 L.2 T.1 T.2).1.2 i a / (evb a - eob i)),
   (fun i j a b => L.2.1 i j a b - (uccsd_lambda_opt Fa Fb Ia Ib Iab L.1 L.2 T.1 T.2).2.1 i j a b / (eva a + eva b - eoa i - eoa j),
    fun i j a b => L.2.2.1 i j a b - (uccsd_lambda_opt Fa Fb Ia Ib Iab L.1 L.2 T.1 T.2).2.2.1 i j a b / (eva a + evb b - eoa i - eob j),
    fun i j a b => L.2.2.2 i j a b - (uccsd_lambda_opt Fa Fb Ia Ib Iab L.1 L.2 T.1 T.2).2.2.2 i j a b / (evb a + evb b - eob i - eob j)))

/-- division by the denominators, occupied axes first -/
noncomputable def divUT (eoa : Oa → 𝕜) (eva : Va → 𝕜) (eob : Ob → 𝕜) (evb : Vb → 𝕜) : UAmp 𝕜 Va Oa Vb Ob →L[𝕜] UAmp 𝕜 Va Oa Vb Ob :=
  divU (fun a => -eva a) (fun i => -eoa i) (fun a => -evb a) (fun i => -eob i)

theorem divUT_apply (eoa : Oa → 𝕜) (eva : Va → 𝕜) (eob : Ob → 𝕜) (evb : Vb → 𝕜) (y : UAmp 𝕜 Va Oa Vb Ob) :
    divUT eoa eva eob evb y = ((fun i a => y.1.1 i a / (eva a - eoa i), fun i a => y.1.2 i a / (evb a - eob i)),
      (fun i j a b => y.2.1 i j a b / (eva a + eva b - eoa i - eoa j), fun i j a b => y.2.2.1 i j a b / (eva a + evb b - eoa i - eob j),
       fun i j a b => y.2.2.2 i j a b / (evb a + evb b - eob i - eob j))) := by
  rw [divUT, divU_apply]
  refine Prod.ext (Prod.ext ?_ ?_) (Prod.ext ?_ (Prod.ext ?_ ?_))
  · funext i a; exact congrArg (_ / ·) (by ring)
  · funext i a; exact congrArg (_ / ·) (by ring)
  · funext i j a b; exact congrArg (_ / ·) (by ring)
  · funext i j a b; exact congrArg (_ / ·) (by ring)
  · funext i j a b; exact congrArg (_ / ·) (by ring)

theorem UGap.flip {eoa : Oa → 𝕜} {eva : Va → 𝕜} {eob : Ob → 𝕜} {evb : Vb → 𝕜} (g : UGap eoa eva eob evb) :
    UGap (fun a => -eva a) (fun i => -eoa i) (fun a => -evb a) (fun i => -eob i) :=
  ⟨fun i a h => g.a a i (by linear_combination h), fun i a h => g.b a i (by linear_combination h), fun i j a b h => g.aa a b i j (by linear_combination h),
    fun i j a b h => g.ab a b i j (by linear_combination h), fun i j a b h => g.bb a b i j (by linear_combination h)⟩

theorem uupdateL_eq (eoa : Oa → 𝕜) (eva : Va → 𝕜) (eob : Ob → 𝕜) (evb : Vb → 𝕜) (T : UAmp 𝕜 Oa Va Ob Vb) (L : UAmp 𝕜 Va Oa Vb Ob) :
    uupdateL Fa Fb Ia Ib Iab eoa eva eob evb T L = L - divUT eoa eva eob evb (uccsd_lambda_opt Fa Fb Ia Ib Iab L.1 L.2 T.1 T.2) := by
  rw [divUT_apply]
  rfl

theorem uupdateL_fixed {eoa : Oa → 𝕜} {eva : Va → 𝕜} {eob : Ob → 𝕜} {evb : Vb → 𝕜} (g : UGap eoa eva eob evb) (T : UAmp 𝕜 Oa Va Ob Vb) (L : UAmp 𝕜 Va Oa Vb Ob) :
    uupdateL Fa Fb Ia Ib Iab eoa eva eob evb T L = L ↔ (uccsd_lambda_opt Fa Fb Ia Ib Iab L.1 L.2 T.1 T.2 : UAmp 𝕜 Va Oa Vb Ob) = 0 := by
  rw [uupdateL_eq, sub_eq_self]
  exact ⟨divU_injective g.flip, fun h => by rw [h]; exact map_zero _⟩

variable [DecidableEq Oa] [DecidableEq Va] [DecidableEq Ob] [DecidableEq Vb]

include hIa hIb in
theorem uupdateL_weak {eoa : Oa → 𝕜} {eva : Va → 𝕜} {eob : Ob → 𝕜} {evb : Vb → 𝕜} (g : UGap eoa eva eob evb) (c : 𝕜) {T : UAmp 𝕜 Oa Va Ob Vb}
    {L : UAmp 𝕜 Va Oa Vb Ob} (hT : UAnti T) (hL : UAnti L) :
    uupdateL ((diagF eoa eva).addMul c fa) ((diagF eob evb).addMul c fb) (Ia.mul c) (Ib.mul c) (Iab.mul c) eoa eva eob evb T L
      = -(c • divUT eoa eva eob evb (uccsd_lambda_opt fa fb Ia Ib Iab L.1 L.2 T.1 T.2)) := by
  have d : divUT eoa eva eob evb (uccsd_lambda_opt (diagF eoa eva) (diagF eob evb) (Heap.noI Oa Va 𝕜) (Heap.noI Ob Vb 𝕜) (Heap.noJ Oa Va Ob Vb 𝕜)
      L.1 L.2 T.1 T.2) = L := by
    rw [show diagF eoa eva = Heap.diagE eoa eva from rfl, show diagF eob evb = Heap.diagE eob evb from rfl,
      Heap.uccsd_lambda_opt_diag eoa eva eob evb L.1 L.2 T.1 T.2 hL.1 hL.2 hT.1 hT.2, divUT_apply]
    refine Prod.ext (Prod.ext ?_ ?_) (Prod.ext ?_ (Prod.ext ?_ ?_))
    · funext i a; exact mul_div_cancel_left₀ _ (g.a a i)
    · funext i a; exact mul_div_cancel_left₀ _ (g.b a i)
    · funext i j a b; exact mul_div_cancel_left₀ _ (g.aa a b i j)
    · funext i j a b; exact mul_div_cancel_left₀ _ (g.ab a b i j)
    · funext i j a b; exact mul_div_cancel_left₀ _ (g.bb a b i j)
  rw [uupdateL_eq, ulam_split _ fa _ fb Ia Ib Iab hIa hIb c hL hT, map_add, d, map_smul]
  abel

end

section
variable {𝕜 : Type} [RCLike 𝕜] {E : Type} [NormedAddCommGroup E] [NormedSpace 𝕜 E] [FiniteDimensional 𝕜 E]

/-- A map `-c D A` with Lipschitz `A` halves distances when `c` is small. -/
theorem linear_halving {s : Set E} (closed : IsClosed s) (zero : (0 : E) ∈ s) {A : E → E} {D : E →L[𝕜] E} {M : ℝ} {U : E → E} {c : 𝕜}
    (hA : ∀ L ∈ s, ∀ L' ∈ s, ‖A L' - A L‖ ≤ M * ‖L' - L‖) (hc : ‖c‖ * ((‖D‖ + 1) * M) ≤ 1 / 2)
    (hU : ∀ T ∈ s, U T = -(c • D (A T))) (maps : Set.MapsTo U s s) :
    ∃ T ∈ s, U T = T ∧ (∀ T' ∈ s, U T' = T' → T' = T) ∧ ∀ T₀ ∈ s, ∀ k : ℕ, ‖U^[k] T₀ - T‖ ≤ (1 / 2) ^ k * ‖T₀ - T‖ := by
  have : CompleteSpace E := FiniteDimensional.complete 𝕜 E
  refine halving closed zero maps fun T hT T' hT' => ?_
  have e : U T' - U T = -(c • D (A T' - A T)) := by
    rw [hU T hT, hU T' hT', map_sub, smul_sub]
    abel
  rw [e, norm_neg, norm_smul]
  have h1 : ‖D (A T' - A T)‖ ≤ (‖D‖ + 1) * (M * ‖T' - T‖) :=
    (D.le_opNorm _).trans (mul_le_mul (by linarith) (hA T hT T' hT') (norm_nonneg _) (by positivity))
  calc _ ≤ ‖c‖ * ((‖D‖ + 1) * (M * ‖T' - T‖)) := mul_le_mul_of_nonneg_left h1 (norm_nonneg _)
    _ = (‖c‖ * ((‖D‖ + 1) * M)) * ‖T' - T‖ := by ring
    _ ≤ _ := mul_le_mul_of_nonneg_right hc (norm_nonneg _)
end

section
variable {𝕜 : Type} [RCLike 𝕜] {Oa Va Ob Vb : Type} [Fintype Oa] [Fintype Va] [Fintype Ob] [Fintype Vb]
  [DecidableEq Oa] [DecidableEq Va] [DecidableEq Ob] [DecidableEq Vb]

/-- C73: with a gap and weak coupling the update of the unrestricted multipliers converges from every start to the only solution of the Lambda equations. -/
theorem C73_uccsd_lambda_converges (eoa : Oa → 𝕜) (eva : Va → 𝕜) (eob : Ob → 𝕜) (evb : Vb → 𝕜) (g : UGap eoa eva eob evb)
    (fa : OneE Oa Va 𝕜) (fb : OneE Ob Vb 𝕜) (Ia : TwoE Oa Va 𝕜) (Ib : TwoE Ob Vb 𝕜) (Iab : TwoEFull Oa Va Ob Vb 𝕜)
    (hIa : AntiI Ia) (hIb : AntiI Ib) (r : ℝ) :
    ∃ c₀ : ℝ, 0 < c₀ ∧ ∀ c : 𝕜, ‖c‖ ≤ c₀ → ∀ T : UAmp 𝕜 Oa Va Ob Vb, Anti T.2.1 → Anti T.2.2.2 → ‖T‖ ≤ r →
      ∃ L : UAmp 𝕜 Va Oa Vb Ob, Anti L.2.1 ∧ Anti L.2.2.2 ∧
      (∀ L' : UAmp 𝕜 Va Oa Vb Ob, Anti L'.2.1 → Anti L'.2.2.2 →
        ((uccsd_lambda_opt ((diagF eoa eva).addMul c fa) ((diagF eob evb).addMul c fb) (Ia.mul c) (Ib.mul c) (Iab.mul c) L'.1 L'.2 T.1 T.2
          : UAmp 𝕜 Va Oa Vb Ob) = 0 ↔ L' = L)) ∧
      ∀ L₀ : UAmp 𝕜 Va Oa Vb Ob, Anti L₀.2.1 → Anti L₀.2.2.2 → ∀ k : ℕ,
        ‖(uupdateL ((diagF eoa eva).addMul c fa) ((diagF eob evb).addMul c fb) (Ia.mul c) (Ib.mul c) (Iab.mul c) eoa eva eob evb T)^[k] L₀ - L‖
          ≤ (1 / 2) ^ k * ‖L₀ - L‖ := by
  obtain ⟨M, hM, b⟩ := ulam_lip fa fb Ia Ib Iab hIa hIb r
  let D := divUT eoa eva eob evb
  refine ⟨1 / (2 * ((‖D‖ + 1) * M)), by positivity, fun c hc T ha hb hr => ?_⟩
  have hT : UAnti T := ⟨ha, hb⟩
  have c1 : ‖c‖ * ((‖D‖ + 1) * M) ≤ 1 / 2 := by
    have := mul_le_mul_of_nonneg_right hc (by positivity : 0 ≤ (‖D‖ + 1) * M)
    rwa [show 1 / (2 * ((‖D‖ + 1) * M)) * ((‖D‖ + 1) * M) = 1 / 2 by field_simp] at this
  obtain ⟨L, hL, hf, uniq, it⟩ := linear_halving (𝕜 := 𝕜) (s := {L : UAmp 𝕜 Va Oa Vb Ob | UAnti L}) closed_uanti uzero_anti
    (A := fun L => uccsd_lambda_opt fa fb Ia Ib Iab L.1 L.2 T.1 T.2) (fun L hL L' hL' => b T hT hr L L' hL hL') c1
    (fun L hL => uupdateL_weak fa fb Ia Ib Iab hIa hIb g c hT hL)
    (fun L hL => by
      change UAnti (uupdateL _ _ _ _ _ _ _ _ _ _ _)
      rw [uupdateL_eq]
      exact usub_anti hL (divU_anti _ _ _ _ (ulam_anti _ _ _ _ _ (TwoE.mul_anti hIa c) (TwoE.mul_anti hIb c) hL hT)))
  refine ⟨L, hL.1, hL.2, fun L' ha' hb' => ?_, fun L₀ h0 h0' => it L₀ ⟨h0, h0'⟩⟩
  rw [← uupdateL_fixed _ _ _ _ _ g T L']
  exact ⟨uniq L' ⟨ha', hb'⟩, fun h => h ▸ hf⟩
end

/-! ### restricted multipliers -/

section
variable {𝕜 : Type} [RCLike 𝕜] {O V : Type} [Fintype O] [Fintype V]

theorem rlam_code (F : OneE O V 𝕜) (I : TwoEFull O V O V 𝕜) (hI : PairI I) {L : Amp 𝕜 V O} {T : Amp 𝕜 O V} (hL : PairSym L.2) (hT : PairSym T.2) :
    (rccsd_lambda_opt F I L.1 L.2 T.1 T.2 : Amp 𝕜 V O)
      = openA (uccsd_lambda_opt F F (asymI I) (asymI I) I (closedA L).1 (closedA L).2 (closedA T).1 (closedA T).2) := by
  rw [closedA_apply, closedA_apply, C16_rccsd_lambda F I L.1 L.2 T.1 T.2 hI hL hT]
  rfl

theorem rlam_split (F f : OneE O V 𝕜) (I : TwoEFull O V O V 𝕜) (hI : PairI I) (c : 𝕜) {L : Amp 𝕜 V O} {T : Amp 𝕜 O V} (hL : PairSym L.2) (hT : PairSym T.2) :
    (rccsd_lambda_opt (F.addMul c f) (I.mul c) L.1 L.2 T.1 T.2 : Amp 𝕜 V O)
      = rccsd_lambda_opt F (Heap.noJ O V O V 𝕜) L.1 L.2 T.1 T.2 + c • rccsd_lambda_opt f I L.1 L.2 T.1 T.2 := by
  rw [rlam_code f I hI hL hT, rlam_code F _ noJ_pair hL hT, rlam_code _ _ (mul_pair hI c) hL hT, mul_asym, asym_noJ,
    ulam_split F f F f (asymI I) (asymI I) I (asymI_anti hI) (asymI_anti hI) c (closedA_anti hL) (closedA_anti hT), map_add, map_smul]

theorem rlam_lip (F : OneE O V 𝕜) (I : TwoEFull O V O V 𝕜) (hI : PairI I) (r : ℝ) :
    ∃ M : ℝ, 0 < M ∧ ∀ T : Amp 𝕜 O V, PairSym T.2 → ‖T‖ ≤ r → ∀ L L' : Amp 𝕜 V O, PairSym L.2 → PairSym L'.2 →
      ‖(rccsd_lambda_opt F I L'.1 L'.2 T.1 T.2 - rccsd_lambda_opt F I L.1 L.2 T.1 T.2 : Amp 𝕜 V O)‖ ≤ M * ‖L' - L‖ := by
  let A : Amp 𝕜 V O →L[𝕜] UAmp 𝕜 V O V O := closedA
  let B : UAmp 𝕜 V O V O →L[𝕜] Amp 𝕜 V O := openA
  let S : Amp 𝕜 O V →L[𝕜] UAmp 𝕜 O V O V := closedA
  obtain ⟨M, hM, b⟩ := ulam_lip F F (asymI I) (asymI I) I (asymI_anti hI) (asymI_anti hI) (‖S‖ * r)
  refine ⟨(‖B‖ + 1) * (M * (‖A‖ + 1)), by positivity, fun T hT hr L L' hL hL' => ?_⟩
  have hS : ‖S T‖ ≤ ‖S‖ * r := (S.le_opNorm T).trans (mul_le_mul_of_nonneg_left hr (norm_nonneg _))
  have h2 := b (S T) (closedA_anti hT) hS (A L) (A L') (closedA_anti hL) (closedA_anti hL')
  rw [← map_sub A] at h2
  rw [rlam_code F I hI hL hT, rlam_code F I hI hL' hT, ← map_sub]
  have n := norm_nonneg (L' - L)
  have h3' : ‖A (L' - L)‖ ≤ (‖A‖ + 1) * ‖L' - L‖ := (A.le_opNorm (L' - L)).trans (mul_le_mul_of_nonneg_right (by linarith) n)
  have h2' := h2.trans (mul_le_mul_of_nonneg_left h3' hM.le)
  calc _ ≤ _ := B.le_opNorm _
    _ ≤ (‖B‖ + 1) * (M * ((‖A‖ + 1) * ‖L' - L‖)) := mul_le_mul (by linarith) h2' (norm_nonneg _) (by positivity)
    _ = _ := by ring

/-- One update of the restricted multipliers. -/
def rupdateL (F : OneE O V 𝕜) (I : TwoEFull O V O V 𝕜) (eo : O → 𝕜) (ev : V → 𝕜) (T : Amp 𝕜 O V) (L : Amp 𝕜 V O) : Amp 𝕜 V O :=
  (fun i a => L.1 i a - (rccsd_lambda_opt F I L.1 L.2 T.1 T.2).1 i a / (ev a - eo i),
   fun i j a b => L.2 i j a b - (rccsd_lambda_opt F I L.1 L.2 T.1 T.2).2 i j a b / (ev a + ev b - eo i - eo j))

variable [DecidableEq O] [DecidableEq V]

/-- division by the denominators, occupied axes first -/
noncomputable def divDT (eo : O → 𝕜) (ev : V → 𝕜) : Amp 𝕜 V O →L[𝕜] Amp 𝕜 V O := divD (fun a => -ev a) (fun i => -eo i)

theorem divDT_apply (eo : O → 𝕜) (ev : V → 𝕜) (y : Amp 𝕜 V O) :
    divDT eo ev y = (fun i a => y.1 i a / (ev a - eo i), fun i j a b => y.2 i j a b / (ev a + ev b - eo i - eo j)) := by
  rw [divDT, divD_apply]
  refine Prod.ext ?_ ?_
  · funext i a; exact congrArg (_ / ·) (by ring)
  · funext i j a b; exact congrArg (_ / ·) (by ring)

theorem rupdateL_eq (F : OneE O V 𝕜) (I : TwoEFull O V O V 𝕜) (eo : O → 𝕜) (ev : V → 𝕜) (T : Amp 𝕜 O V) (L : Amp 𝕜 V O) :
    rupdateL F I eo ev T L = L - divDT eo ev (rccsd_lambda_opt F I L.1 L.2 T.1 T.2) := by
  rw [divDT_apply]
  rfl

theorem rupdateL_weak (f : OneE O V 𝕜) (I : TwoEFull O V O V 𝕜) (hI : PairI I) {eo : O → 𝕜} {ev : V → 𝕜} (g1 : ∀ a i, ev a - eo i ≠ 0)
    (g2 : ∀ a b i j, ev a + ev b - eo i - eo j ≠ 0) (c : 𝕜) {T : Amp 𝕜 O V} {L : Amp 𝕜 V O} (hT : PairSym T.2) (hL : PairSym L.2) :
    rupdateL ((diagF eo ev).addMul c f) (I.mul c) eo ev T L = -(c • divDT eo ev (rccsd_lambda_opt f I L.1 L.2 T.1 T.2)) := by
  have d : divDT eo ev (rccsd_lambda_opt (diagF eo ev) (Heap.noJ O V O V 𝕜) L.1 L.2 T.1 T.2) = L := by
    rw [show diagF eo ev = Heap.diagE eo ev from rfl, Heap.rccsd_lambda_opt_diag eo ev L.1 L.2 T.1 T.2 hL, divDT_apply]
    refine Prod.ext ?_ ?_
    · funext i a; exact mul_div_cancel_left₀ _ (g1 a i)
    · funext i j a b; exact mul_div_cancel_left₀ _ (g2 a b i j)
  rw [rupdateL_eq, rlam_split _ f I hI c hL hT, map_add, d, map_smul]
  abel

/-- C73: with a gap and weak coupling the update of the restricted multipliers converges from every start to the only solution of the Lambda equations. -/
theorem C73_rccsd_lambda_converges (eo : O → 𝕜) (ev : V → 𝕜) (f : OneE O V 𝕜) (I : TwoEFull O V O V 𝕜) (hI : PairI I)
    (g1 : ∀ a i, ev a - eo i ≠ 0) (g2 : ∀ a b i j, ev a + ev b - eo i - eo j ≠ 0) (r : ℝ) :
    ∃ c₀ : ℝ, 0 < c₀ ∧ ∀ c : 𝕜, ‖c‖ ≤ c₀ → ∀ T : Amp 𝕜 O V, PairSym T.2 → ‖T‖ ≤ r → ∃ L : Amp 𝕜 V O, PairSym L.2 ∧
      (∀ L' : Amp 𝕜 V O, PairSym L'.2 →
        ((rccsd_lambda_opt ((diagF eo ev).addMul c f) (I.mul c) L'.1 L'.2 T.1 T.2 : Amp 𝕜 V O) = 0 ↔ L' = L)) ∧
      ∀ L₀ : Amp 𝕜 V O, PairSym L₀.2 → ∀ k : ℕ,
        ‖(rupdateL ((diagF eo ev).addMul c f) (I.mul c) eo ev T)^[k] L₀ - L‖ ≤ (1 / 2) ^ k * ‖L₀ - L‖ := by
  obtain ⟨M, hM, b⟩ := rlam_lip f I hI r
  let D := divDT eo ev
  refine ⟨1 / (2 * ((‖D‖ + 1) * M)), by positivity, fun c hc T hT hr => ?_⟩
  have c1 : ‖c‖ * ((‖D‖ + 1) * M) ≤ 1 / 2 := by
    have := mul_le_mul_of_nonneg_right hc (by positivity : 0 ≤ (‖D‖ + 1) * M)
    rwa [show 1 / (2 * ((‖D‖ + 1) * M)) * ((‖D‖ + 1) * M) = 1 / 2 by field_simp] at this
  obtain ⟨L, hL, hf, uniq, it⟩ := linear_halving (𝕜 := 𝕜) (s := {L : Amp 𝕜 V O | PairSym L.2}) (closed_pair continuous_snd) (fun _ _ _ _ => rfl)
    (A := fun L => rccsd_lambda_opt f I L.1 L.2 T.1 T.2) (fun L hL L' hL' => b T hT hr L L' hL hL') c1
    (fun L hL => rupdateL_weak f I hI g1 g2 c hT hL)
    (fun L hL => by
      change PairSym (rupdateL _ _ _ _ _ _).2
      rw [rupdateL_eq]
      exact sub_pair hL (divD_pair _ _ (C43_rccsd_lambda_pair _ _ L.1 L.2 T.1 T.2 (mul_pair hI c) hL hT)))
  refine ⟨L, hL, fun L' h' => ?_, it⟩
  have fixed : rupdateL ((diagF eo ev).addMul c f) (I.mul c) eo ev T L' = L'
      ↔ (rccsd_lambda_opt ((diagF eo ev).addMul c f) (I.mul c) L'.1 L'.2 T.1 T.2 : Amp 𝕜 V O) = 0 := by
    rw [rupdateL_eq, sub_eq_self]
    refine ⟨divD_injective (fun i a h => g1 a i (by linear_combination h)) (fun i j a b h => g2 a b i j (by linear_combination h)), fun h => ?_⟩
    rw [h]
    exact map_zero _
  rw [← fixed]
  exact ⟨uniq L' h', fun h => h ▸ hf⟩
end

/-! ### energies of approximate amplitudes and multipliers -/

section
variable {𝕜 : Type} [RCLike 𝕜]

/-- the bounds of `C67_second_order` through a linear map of the amplitudes -/
theorem second_order_pull {E E' F F' : Type} [NormedAddCommGroup E] [NormedSpace 𝕜 E] [NormedAddCommGroup E'] [NormedSpace 𝕜 E'] [NormedAddCommGroup F]
    [NormedSpace 𝕜 F] [NormedAddCommGroup F'] [NormedSpace 𝕜 F'] (A : E →L[𝕜] F) (B : E' →L[𝕜] F') (x : E) (y : E') (f : F → F' → ℝ) (P : F → F' → Prop)
    (h : ∀ r : ℝ, ∃ C : ℝ, 0 ≤ C ∧ ∀ x' y', P x' y' → ‖x' - A x‖ ≤ r → ‖y' - B y‖ ≤ r → f x' y' ≤ C * max ‖x' - A x‖ ‖y' - B y‖ ^ 2) (r : ℝ) (hr : 0 ≤ r) :
    ∃ C : ℝ, 0 ≤ C ∧ ∀ x' y', P (A x') (B y') → ‖x' - x‖ ≤ r → ‖y' - y‖ ≤ r → f (A x') (B y') ≤ C * max ‖x' - x‖ ‖y' - y‖ ^ 2 := by
  obtain ⟨C, hC, q⟩ := h (max ‖A‖ ‖B‖ * r)
  have n0 : 0 ≤ max ‖A‖ ‖B‖ := (norm_nonneg A).trans (le_max_left _ _)
  refine ⟨C * max ‖A‖ ‖B‖ ^ 2, by positivity, fun x' y' hp h1 h2 => ?_⟩
  have a : ‖A x' - A x‖ ≤ max ‖A‖ ‖B‖ * ‖x' - x‖ := by
    rw [← map_sub]
    exact (A.le_opNorm _).trans (mul_le_mul_of_nonneg_right (le_max_left _ _) (norm_nonneg _))
  have b : ‖B y' - B y‖ ≤ max ‖A‖ ‖B‖ * ‖y' - y‖ := by
    rw [← map_sub]
    exact (B.le_opNorm _).trans (mul_le_mul_of_nonneg_right (le_max_right _ _) (norm_nonneg _))
  refine (q _ _ hp (a.trans (mul_le_mul_of_nonneg_left h1 n0)) (b.trans (mul_le_mul_of_nonneg_left h2 n0))).trans ?_
  have m : max ‖A x' - A x‖ ‖B y' - B y‖ ≤ max ‖A‖ ‖B‖ * max ‖x' - x‖ ‖y' - y‖ :=
    max_le (a.trans (mul_le_mul_of_nonneg_left (le_max_left _ _) n0)) (b.trans (mul_le_mul_of_nonneg_left (le_max_right _ _) n0))
  calc _ ≤ C * (max ‖A‖ ‖B‖ * max ‖x' - x‖ ‖y' - y‖) ^ 2 :=
        mul_le_mul_of_nonneg_left (pow_le_pow_left₀ (le_max_of_le_left (norm_nonneg _)) m 2) hC
    _ = _ := by ring

variable {Oa Va Ob Vb : Type} [Fintype Oa] [Fintype Va] [Fintype Ob] [Fintype Vb]

theorem asSpin_zero {R : UAmp 𝕜 Oa Va Ob Vb} (h : R = 0) : asSpin R = (fun _ _ => 0, fun _ _ _ _ => 0) := by
  rw [h]
  exact map_zero asSpin

/-- C73: near a solution, the energy from the unrestricted density matrices is in error by the square of the error in amplitudes and multipliers. -/
theorem C73_unrestricted_second_order (Fa : OneE Oa Va 𝕜) (Fb : OneE Ob Vb 𝕜) (Ia : TwoE Oa Va 𝕜) (Ib : TwoE Ob Vb 𝕜) (Iab : TwoEFull Oa Va Ob Vb 𝕜)
    (hIa : AntiI Ia) (hIb : AntiI Ib) (T : UAmp 𝕜 Oa Va Ob Vb) (L : UAmp 𝕜 Va Oa Vb Ob) (ta : Anti T.2.1) (tb : Anti T.2.2.2) (la : Anti L.2.1) (lb : Anti L.2.2.2)
    (sol : uccsd_stanton Fa Fb Ia Ib Iab T.1 T.2 = 0) (lam : (uccsd_lambda_opt Fa Fb Ia Ib Iab L.1 L.2 T.1 T.2 : UAmp 𝕜 Va Oa Vb Ob) = 0) (r : ℝ) (hr : 0 ≤ r) :
    ∃ C : ℝ, 0 ≤ C ∧ ∀ (T' : UAmp 𝕜 Oa Va Ob Vb) (L' : UAmp 𝕜 Va Oa Vb Ob), Anti T'.2.1 → Anti T'.2.2.2 → Anti L'.2.1 → Anti L'.2.2.2 →
      ‖T' - T‖ ≤ r → ‖L' - L‖ ≤ r →
      ‖utraceRdm Fa Fb Ia Ib Iab L'.1.1 L'.1.2 L'.2.1 L'.2.2.1 L'.2.2.2 T'.1.1 T'.1.2 T'.2.1 T'.2.2.1 T'.2.2.2
        - ucc_energy T.1 T.2 Fa.ov Fb.ov Ia.oovv Ib.oovv Iab.oovv‖ ≤ C * max ‖T' - T‖ ‖L' - L‖ ^ 2 := by
  classical
  have hT : UAnti T := ⟨ta, tb⟩
  have hL : UAnti L := ⟨la, lb⟩
  have s1 : ccsd_simple (F_to_spin Fa Fb) (int_to_spin2 Ia Ib Iab) (asSpin T).1 (asSpin T).2 = (fun _ _ => 0, fun _ _ _ _ => 0) := by
    rw [← asSpin_zero sol]
    exact C13_uccsd Fa Fb Ia Ib Iab T.1.1 T.1.2 T.2.1 T.2.2.1 T.2.2.2 hIa hIb ta tb
  have s2 : ccsd_lambda_simple (F_to_spin Fa Fb) (int_to_spin2 Ia Ib Iab) (asSpin L).1 (asSpin L).2 (asSpin T).1 (asSpin T).2 = (fun _ _ => 0, fun _ _ _ _ => 0) := by
    rw [← asSpin_zero lam]
    exact C15_uccsd_lambda Fa Fb Ia Ib Iab L.1.1 L.1.2 L.2.1 L.2.2.1 L.2.2.2 T.1.1 T.1.2 T.2.1 T.2.2.1 T.2.2.2 hIa hIb ta tb la lb
  have q := C67_second_order (F_to_spin Fa Fb) (int_to_spin2 Ia Ib Iab) (int_spin_anti Iab hIa hIb) (asSpin T) (asSpin L) (asSpin_anti hT) (asSpin_anti hL) s1 s2
  obtain ⟨C, hC, b⟩ := second_order_pull asSpin asSpin T L
    (fun T' L' => ‖traceRdm (F_to_spin Fa Fb) (int_to_spin2 Ia Ib Iab) L'.1 L'.2 T'.1 T'.2
      - cc_energy (asSpin T).1 (asSpin T).2 (F_to_spin Fa Fb).ov (int_to_spin2 Ia Ib Iab).oovv‖) (fun T' L' => Anti T'.2 ∧ Anti L'.2)
    (fun r => by
      obtain ⟨C, hC, h⟩ := q r
      exact ⟨C, hC, fun T' L' hp => h T' L' hp.1 hp.2⟩) r hr
  refine ⟨C, hC, fun T' L' ta' tb' la' lb' h1 h2 => ?_⟩
  have := b T' L' ⟨asSpin_anti ⟨ta', tb'⟩, asSpin_anti ⟨la', lb'⟩⟩ h1 h2
  rw [show cc_energy (asSpin T).1 (asSpin T).2 (F_to_spin Fa Fb).ov (int_to_spin2 Ia Ib Iab).oovv = ucc_energy T.1 T.2 Fa.ov Fb.ov Ia.oovv Ib.oovv Iab.oovv from
      C12_ucc_energy Fa Fb Ia Ib Iab T.1.1 T.1.2 T.2.1 T.2.2.1 T.2.2.2] at this
  rw [← trace_spin Fa Fb Ia Ib Iab L'.1.1 L'.1.2 L'.2.1 L'.2.2.1 L'.2.2.2 T'.1.1 T'.1.2 T'.2.1 T'.2.2.1 T'.2.2.2 ta' tb' la' lb']
  exact this

variable {O V : Type} [Fintype O] [Fintype V]

/-- C73: near a solution, the energy from the restricted density matrices is in error by the square of the error in amplitudes and multipliers. -/
theorem C73_restricted_second_order (F : OneE O V 𝕜) (I : TwoEFull O V O V 𝕜) (hI : PairI I) (T : Amp 𝕜 O V) (L : Amp 𝕜 V O) (hT : PairSym T.2) (hL : PairSym L.2)
    (sol : rccsd_stanton F I T.1 T.2 = 0) (lam : (rccsd_lambda_opt F I L.1 L.2 T.1 T.2 : Amp 𝕜 V O) = 0) (r : ℝ) (hr : 0 ≤ r) :
    ∃ C : ℝ, 0 ≤ C ∧ ∀ (T' : Amp 𝕜 O V) (L' : Amp 𝕜 V O), PairSym T'.2 → PairSym L'.2 → ‖T' - T‖ ≤ r → ‖L' - L‖ ≤ r →
      ‖rtraceRdm F I L'.1 L'.2 T'.1 T'.2 - rcc_energy T.1 T.2 F.ov I.oovv‖ ≤ C * max ‖T' - T‖ ‖L' - L‖ ^ 2 := by
  have s1 : uccsd_stanton F F (asymI I) (asymI I) I (closedA T).1 (closedA T).2 = 0 := by
    rw [closedA_apply, C14_rccsd F I T.1 T.2 hI hT, sol]
    exact map_zero (closedA (𝕜 := 𝕜) (O := O) (V := V))
  have s2 : (uccsd_lambda_opt F F (asymI I) (asymI I) I (closedA L).1 (closedA L).2 (closedA T).1 (closedA T).2 : UAmp 𝕜 V O V O) = 0 := by
    rw [closedA_apply, closedA_apply, C16_rccsd_lambda F I L.1 L.2 T.1 T.2 hI hL hT, lam]
    exact map_zero (closedA (𝕜 := 𝕜) (O := V) (V := O))
  have hIa := asymI_anti hI
  have aT := closedA_anti hT
  have aL := closedA_anti hL
  obtain ⟨C, hC, b⟩ := second_order_pull closedA closedA T L
    (fun T' L' => ‖utraceRdm F F (asymI I) (asymI I) I L'.1.1 L'.1.2 L'.2.1 L'.2.2.1 L'.2.2.2 T'.1.1 T'.1.2 T'.2.1 T'.2.2.1 T'.2.2.2
      - ucc_energy (closedA T).1 (closedA T).2 F.ov F.ov (asymI I).oovv (asymI I).oovv I.oovv‖) (fun T' L' => UAnti T' ∧ UAnti L')
    (fun r => by
      obtain ⟨C, hC, h⟩ := C73_unrestricted_second_order F F (asymI I) (asymI I) I hIa hIa (closedA T) (closedA L) aT.1 aT.2 aL.1 aL.2 s1 s2 (max r 0) (le_max_right _ _)
      exact ⟨C, hC, fun T' L' hp h1 h2 => h T' L' hp.1.1 hp.1.2 hp.2.1 hp.2.2 (h1.trans (le_max_left _ _)) (h2.trans (le_max_left _ _))⟩) r hr
  refine ⟨C, hC, fun T' L' hT' hL' h1 h2 => ?_⟩
  have := b T' L' ⟨closedA_anti hT', closedA_anti hL'⟩ h1 h2
  rw [show ucc_energy (closedA T).1 (closedA T).2 F.ov F.ov (asymI I).oovv (asymI I).oovv I.oovv = rcc_energy T.1 T.2 F.ov I.oovv from
      C12_rcc_energy T.1 T.2 F.ov I.oovv (fun p q r s => (hI.oovv p q r s).symm) hT] at this
  rw [← trace_closed F I L'.1 L'.2 T'.1 T'.2 hI hL' hT']
  exact this
end

/-! ### non-trivial cases: one electron of each spin, orbital energies 0 and 1, both electrons excited together -/

example (r : ℝ) (hr : 0 < r) : ∃ c₀ : ℝ, 0 < c₀ ∧ ∀ c : ℝ, ‖c‖ ≤ c₀ → ∃ T : UAmp ℝ U1 U1 U1 U1,
    uccsd_stanton ((diagF (fun _ => 0) (fun _ => 1)).addMul c FU) ((diagF (fun _ => 0) (fun _ => 1)).addMul c FU) (IU.mul c) (IU.mul c) ((IUab 1 1).mul c) T.1 T.2 = 0 ∧
    ∀ k : ℕ, ‖(uupdate ((diagF (fun _ => 0) (fun _ => 1)).addMul c FU) ((diagF (fun _ => 0) (fun _ => 1)).addMul c FU) (IU.mul c) (IU.mul c) ((IUab 1 1).mul c)
      (fun _ => 0) (fun _ => 1) (fun _ => 0) (fun _ => 1))^[k] 0 - T‖ ≤ (1 / 2) ^ k * ‖T‖ := by
  obtain ⟨c₀, h0, h⟩ := C73_uccsd_converges (𝕜 := ℝ) (fun _ : U1 => 0) (fun _ : U1 => 1) (fun _ : U1 => 0) (fun _ : U1 => 1)
    ⟨fun _ _ => by norm_num, fun _ _ => by norm_num, fun _ _ _ _ => by norm_num, fun _ _ _ _ => by norm_num, fun _ _ _ _ => by norm_num⟩
    FU FU IU IU (IUab 1 1) IU_anti IU_anti r hr
  refine ⟨c₀, h0, fun c hc => ?_⟩
  obtain ⟨T, -, -, -, sol, -, it⟩ := h c hc
  refine ⟨T, sol, fun k => ?_⟩
  have := it 0 zero_anti' zero_anti' (by simpa using hr.le) k
  rwa [zero_sub, norm_neg] at this

example (r : ℝ) (hr : 0 < r) : ∃ c₀ : ℝ, 0 < c₀ ∧ ∀ c : ℝ, ‖c‖ ≤ c₀ → ∃ T : Amp ℝ U1 U1,
    rccsd_stanton ((diagF (fun _ => 0) (fun _ => 1)).addMul c FU) ((IUab 1 1).mul c) T.1 T.2 = 0 ∧
    ∀ k : ℕ, ‖(rupdate ((diagF (fun _ => 0) (fun _ => 1)).addMul c FU) ((IUab 1 1).mul c) (fun _ => 0) (fun _ => 1))^[k] 0 - T‖ ≤ (1 / 2) ^ k * ‖T‖ := by
  obtain ⟨c₀, h0, h⟩ := C73_rccsd_converges (𝕜 := ℝ) (fun _ : U1 => 0) (fun _ : U1 => 1) FU (IUab 1 1) (IUab_pair 1 1) (fun _ _ => by norm_num)
    (fun _ _ _ _ => by norm_num) r hr
  refine ⟨c₀, h0, fun c hc => ?_⟩
  obtain ⟨T, -, -, sol, -, it⟩ := h c hc
  refine ⟨T, sol, fun k => ?_⟩
  have := it 0 (fun _ _ _ _ => rfl) (by simpa using hr.le) k
  rwa [zero_sub, norm_neg] at this
end CC
