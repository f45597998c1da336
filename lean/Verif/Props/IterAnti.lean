import Verif.Props.Iterate
/-!
# C95: does the iteration forget a loss of antisymmetry?

The convergence theorem C66 starts from doubles that are antisymmetric in both pairs.  Here the antisymmetry in one of the two pairs is missing.
For antisymmetric doubles the residual contains the denominator times the doubles, and the update removes the old doubles.
For the part that is symmetric in one pair the code's one-electron terms (`_D_D`, cc_equations.py:58-73; `_Stanton`, cc_equations.py:192-262) give something else:
one update multiplies a part symmetric in the occupied pair by minus the sum of the two occupied energies over the denominator, and a part symmetric in the virtual
pair by the sum of the two virtual energies over the denominator, up to terms of the order of the interaction.

* `C95_step_simple`, `C95_step_stanton`, `C95_step_stanton_v`: these factors.
* `C95_stable_…`: if the factor is below one in size for all quadruples, the iteration converges to the antisymmetric solution also from such a start.
* `C95_unstable_…`: if it is above one, every start with a symmetric part, however small, leaves every ball given beforehand.
* `C95_shift_…`: adding a constant to all orbital energies changes no update of antisymmetric amplitudes, and a large constant makes the iteration unstable.
* `C95_marginal`: without interaction the part symmetric in both pairs is kept for ever, whatever the energies.
* `C95_occupied_only`: `ccsd_simple` keeps antisymmetry in the virtual pair alone but not in the occupied pair alone; `ccsd_stanton` keeps both.
-/
set_option linter.unusedSectionVars false
set_option synthInstance.maxHeartbeats 400000
set_option synthInstance.maxSize 2000
set_option maxHeartbeats 1000000
namespace CC
open Finset Metric Verif.Tensor

section
variable {K : Type} [Field K] [CharZero K] {O V : Type} [Fintype O] [Fintype V]

/-- Antisymmetry in the virtual pair alone is kept by the residual. -/
theorem simple_a12 (F : OneE O V K) (I : TwoE O V K) (hI : AntiI I) (T1 : V → O → K) (T2 : V → V → O → O → K) (h : Anti12 T2) :
    Anti12 (ccsd_simple F I T1 T2).2 := by
  obtain ⟨_, _, _, _, _, _, _, _, _, _, _, _⟩ := hI
  intro a b i j; tensor

theorem free1 (oo : O → O → K) (vo : V → O → K) (vv : V → V → K) (I : TwoE O V K) (T1 : V → O → K) (T2 : V → V → O → O → K) (a : V) (i : O) :
    (ccsd_simple ⟨oo, fun _ _ => 0, vo, vv⟩ (I.mul 0) T1 T2).1 a i = vo a i + (∑ c, vv a c * T1 c i) - ∑ k, oo k i * T1 a k := by
  tensor

theorem free2 (oo : O → O → K) (vo : V → O → K) (vv : V → V → K) (I : TwoE O V K) (T1 : V → O → K) (T2 : V → V → O → O → K) (a b : V) (i j : O) :
    (ccsd_simple ⟨oo, fun _ _ => 0, vo, vv⟩ (I.mul 0) T1 T2).2 a b i j
      = (∑ c, vv b c * T2 a c i j) - (∑ c, vv a c * T2 b c i j) - (∑ k, oo k j * T2 a b i k) + ∑ k, oo k i * T2 a b j k := by
  tensor

/-- `ccsd_stanton` keeps the antisymmetry in either pair alone. -/
theorem stanton_a12 (F : OneE O V K) (I : TwoE O V K) (hI : AntiI I) (T1 : V → O → K) (T2 : V → V → O → O → K) (h : Anti12 T2) :
    Anti12 (ccsd_stanton F I T1 T2).2 := by
  obtain ⟨_, _, _, _, _, _, _, _, _, _, _, _⟩ := hI
  intro a b i j; tensor
theorem stanton_a34 (F : OneE O V K) (I : TwoE O V K) (hI : AntiI I) (T1 : V → O → K) (T2 : V → V → O → O → K) (h : Anti34 T2) :
    Anti34 (ccsd_stanton F I T1 T2).2 := by
  obtain ⟨_, _, _, _, _, _, _, _, _, _, _, _⟩ := hI
  intro a b i j; tensor

theorem stanton_split1 (F f : OneE O V K) (I : TwoE O V K) (c : K) (T1 : V → O → K) (T2 : V → V → O → O → K) (a : V) (i : O) :
    (ccsd_stanton (F.addMul c f) (I.mul c) T1 T2).1 a i = (ccsd_stanton F (I.mul 0) T1 T2).1 a i + c * (ccsd_stanton f I T1 T2).1 a i := by
  tensor
theorem stanton_split2 (F f : OneE O V K) (I : TwoE O V K) (c : K) (T1 : V → O → K) (T2 : V → V → O → O → K) (a b : V) (i j : O) :
    (ccsd_stanton (F.addMul c f) (I.mul c) T1 T2).2 a b i j = (ccsd_stanton F (I.mul 0) T1 T2).2 a b i j + c * (ccsd_stanton f I T1 T2).2 a b i j := by
  tensor

theorem free1_stanton (oo : O → O → K) (vo : V → O → K) (vv : V → V → K) (I : TwoE O V K) (T1 : V → O → K) (T2 : V → V → O → O → K) (a : V) (i : O) :
    (ccsd_stanton ⟨oo, fun _ _ => 0, vo, vv⟩ (I.mul 0) T1 T2).1 a i = (ccsd_simple ⟨oo, fun _ _ => 0, vo, vv⟩ (I.mul 0) T1 T2).1 a i := by
  tensor
theorem free2_stanton (oo : O → O → K) (vo : V → O → K) (vv : V → V → K) (I : TwoE O V K) (T1 : V → O → K) (T2 : V → V → O → O → K) (a b : V) (i j : O) :
    (ccsd_stanton ⟨oo, fun _ _ => 0, vo, vv⟩ (I.mul 0) T1 T2).2 a b i j = (ccsd_simple ⟨oo, fun _ _ => 0, vo, vv⟩ (I.mul 0) T1 T2).2 a b i j := by
  tensor

/-- The residual without interaction, for doubles without any symmetry. -/
theorem diag1' [DecidableEq O] [DecidableEq V] (eo : O → K) (ev : V → K) (I : TwoE O V K) (T1 : V → O → K) (T2 : V → V → O → O → K) (a : V) (i : O) :
    (ccsd_simple (diagF eo ev) (I.mul 0) T1 T2).1 a i = (ev a - eo i) * T1 a i := by
  rw [diagF, free1]
  simp [ite_mul]; ring
theorem diag2' [DecidableEq O] [DecidableEq V] (eo : O → K) (ev : V → K) (I : TwoE O V K) (T1 : V → O → K) (T2 : V → V → O → O → K) (a b : V) (i j : O) :
    (ccsd_simple (diagF eo ev) (I.mul 0) T1 T2).2 a b i j = ev b * T2 a b i j - ev a * T2 b a i j - eo j * T2 a b i j + eo i * T2 a b j i := by
  rw [diagF, free2]
  simp [ite_mul]
end

section
variable {𝕜 : Type} [RCLike 𝕜] {O V : Type} [Fintype O] [Fintype V] [DecidableEq O] [DecidableEq V]

set_option maxHeartbeats 4000000 in
theorem simple_smooth (F : OneE O V 𝕜) (I : TwoE O V 𝕜) : ContDiff 𝕜 1 (fun T : Amp 𝕜 O V => (ccsd_simple F I T.1 T.2 : Amp 𝕜 O V)) := by
  refine ContDiff.prodMk (contDiff_pi.2 fun a => contDiff_pi.2 fun i => ?_)
    (contDiff_pi.2 fun a => contDiff_pi.2 fun b => contDiff_pi.2 fun i => contDiff_pi.2 fun j => ?_)
  · unfold S_S S_D S_SS S_SD S_SSS
    dsimp only
    fun_prop
  · unfold D_S D_D D_SS D_SD D_DD D_SSS D_SSD D_SSSS
    dsimp only
    fun_prop

set_option maxHeartbeats 4000000 in
theorem stanton_smooth (F : OneE O V 𝕜) (I : TwoE O V 𝕜) : ContDiff 𝕜 1 (fun T : Amp 𝕜 O V => (ccsd_stanton F I T.1 T.2 : Amp 𝕜 O V)) := by
  refine ContDiff.prodMk (contDiff_pi.2 fun a => contDiff_pi.2 fun i => ?_)
    (contDiff_pi.2 fun a => contDiff_pi.2 fun b => contDiff_pi.2 fun i => contDiff_pi.2 fun j => ?_)
  · unfold Stanton
    dsimp only
    fun_prop
  · unfold Stanton
    dsimp only
    fun_prop

/-- Exchange of the virtual pair (`true`) or of the occupied pair (`false`). -/
def fl (p : Bool) (X : V → V → O → O → 𝕜) : V → V → O → O → 𝕜 := fun a b i j => if p then X b a i j else X a b j i
/-- The antisymmetry that is left: in the other pair. -/
def Kept (p : Bool) (X : V → V → O → O → 𝕜) : Prop := if p then Anti34 X else Anti12 X
/-- Twice the part symmetric in the pair. -/
def sy (p : Bool) (X : V → V → O → O → 𝕜) : V → V → O → O → 𝕜 := fun a b i j => X a b i j + fl p X a b i j
/-- What multiplies the symmetric part, before division by the denominator. -/
def wt (p : Bool) (eo : O → 𝕜) (ev : V → 𝕜) (a : V) (i : O) : 𝕜 := if p then ev a else -eo i
def wt2 (p : Bool) (eo : O → 𝕜) (ev : V → 𝕜) (a b : V) (i j : O) : 𝕜 := if p then ev a + ev b else -(eo i + eo j)

theorem norm4_le {X : V → V → O → O → 𝕜} {c : ℝ} (hc : 0 ≤ c) (h : ∀ a b i j, ‖X a b i j‖ ≤ c) : ‖X‖ ≤ c := by
  refine (pi_norm_le_iff_of_nonneg hc).2 fun a => (pi_norm_le_iff_of_nonneg hc).2 fun b => (pi_norm_le_iff_of_nonneg hc).2 fun i => (pi_norm_le_iff_of_nonneg hc).2 fun j => h a b i j
theorem le_norm4 (X : V → V → O → O → 𝕜) (a b : V) (i j : O) : ‖X a b i j‖ ≤ ‖X‖ :=
  (norm_le_pi_norm (X a b i) j).trans ((norm_le_pi_norm (X a b) i).trans ((norm_le_pi_norm (X a) b).trans (norm_le_pi_norm X a)))
theorem le_norm_fl (p : Bool) (X : V → V → O → O → 𝕜) (a b : V) (i j : O) : ‖fl p X a b i j‖ ≤ ‖X‖ := by
  cases p
  · exact le_norm4 X a b j i
  · exact le_norm4 X b a i j

theorem sy_norm (p : Bool) (X : V → V → O → O → 𝕜) : ‖sy p X‖ ≤ 2 * ‖X‖ := by
  refine norm4_le (by positivity) fun a b i j => (norm_add_le _ _).trans ?_
  linarith [le_norm4 X a b i j, le_norm_fl p X a b i j]
theorem sy_sub (p : Bool) (X Y : V → V → O → O → 𝕜) : sy p (X - Y) = sy p X - sy p Y := by
  funext a b i j; cases p <;> simp [sy, fl] <;> ring
theorem sy_anti (p : Bool) {X : V → V → O → O → 𝕜} (h : Anti X) : sy p X = 0 := by
  funext a b i j; cases p <;> simp [sy, fl, h.1 a b i j, h.2 a b i j]
theorem Kept.of_anti (p : Bool) {X : V → V → O → O → 𝕜} (h : Anti X) : Kept p X := by cases p <;> simp [Kept, h.1, h.2]
theorem anti_of_sy (p : Bool) {X : V → V → O → O → 𝕜} (h1 : Kept p X) (h : sy p X = 0) : Anti X := by
  have h' : ∀ a b i j, X a b i j + fl p X a b i j = 0 := fun a b i j => congrFun (congrFun (congrFun (congrFun h a) b) i) j
  cases p
  · exact ⟨by simpa [Kept] using h1, fun a b i j => by have := h' a b i j; simp [fl] at this; linear_combination this⟩
  · exact ⟨fun a b i j => by have := h' a b i j; simp [fl] at this; linear_combination this, by simpa [Kept] using h1⟩

/-- Antisymmetrisation in the pair. -/
noncomputable def asP (p : Bool) (T : Amp 𝕜 O V) : Amp 𝕜 O V := (T.1, fun a b i j => (T.2 a b i j - fl p T.2 a b i j) / 2)

theorem asP_anti (p : Bool) {T : Amp 𝕜 O V} (h : Kept p T.2) : Anti (asP p T).2 := by
  cases p
  · have h : Anti12 T.2 := by simpa [Kept] using h
    exact ⟨fun a b i j => by simp [asP, fl]; rw [h a b i j, h a b j i]; ring, fun a b i j => by simp [asP, fl]; ring⟩
  · have h : Anti34 T.2 := by simpa [Kept] using h
    exact ⟨fun a b i j => by simp [asP, fl]; ring, fun a b i j => by simp [asP, fl]; rw [h a b i j, h b a i j]; ring⟩

theorem asP_norm (p : Bool) (T : Amp 𝕜 O V) : ‖asP p T‖ ≤ ‖T‖ := by
  refine norm_prod_le_iff.2 ⟨norm_fst_le T, norm4_le (norm_nonneg _) fun a b i j => ?_⟩
  simp only [asP]
  have h1 := (le_norm4 T.2 a b i j).trans (norm_snd_le T)
  have h2 := (le_norm_fl p T.2 a b i j).trans (norm_snd_le T)
  rw [norm_div, RCLike.norm_ofNat]
  linarith [norm_sub_le (T.2 a b i j) (fl p T.2 a b i j)]

theorem asP_sub (p : Bool) (T : Amp 𝕜 O V) : ‖T - asP p T‖ ≤ ‖sy p T.2‖ / 2 := by
  refine norm_prod_le_iff.2 ⟨?_, norm4_le (by positivity) fun a b i j => ?_⟩
  · simp only [asP, Prod.fst_sub, sub_self, norm_zero]; positivity
  · simp only [asP, Prod.snd_sub, Pi.sub_apply]
    rw [show T.2 a b i j - (T.2 a b i j - fl p T.2 a b i j) / 2 = sy p T.2 a b i j / 2 by simp only [sy]; ring, norm_div, RCLike.norm_ofNat]
    linarith [le_norm4 (sy p T.2) a b i j]

/-- What the proofs use of a residual routine. -/
structure Nice (p : Bool) (R : OneE O V 𝕜 → TwoE O V 𝕜 → (V → O → 𝕜) → (V → V → O → O → 𝕜) → (V → O → 𝕜) × (V → V → O → O → 𝕜)) : Prop where
  split1 : ∀ (F f : OneE O V 𝕜) (I : TwoE O V 𝕜) c T1 T2 a i, (R (F.addMul c f) (I.mul c) T1 T2).1 a i = (R F (I.mul 0) T1 T2).1 a i + c * (R f I T1 T2).1 a i
  split2 : ∀ (F f : OneE O V 𝕜) (I : TwoE O V 𝕜) c T1 T2 a b i j, (R (F.addMul c f) (I.mul c) T1 T2).2 a b i j = (R F (I.mul 0) T1 T2).2 a b i j + c * (R f I T1 T2).2 a b i j
  diag1 : ∀ (eo : O → 𝕜) (ev : V → 𝕜) (I : TwoE O V 𝕜) T1 T2 a i, (R (diagF eo ev) (I.mul 0) T1 T2).1 a i = (ev a - eo i) * T1 a i
  diag2 : ∀ (eo : O → 𝕜) (ev : V → 𝕜) (I : TwoE O V 𝕜) T1 T2 a b i j, (R (diagF eo ev) (I.mul 0) T1 T2).2 a b i j = ev b * T2 a b i j - ev a * T2 b a i j - eo j * T2 a b i j + eo i * T2 a b j i
  smooth : ∀ F I, ContDiff 𝕜 1 (fun T : Amp 𝕜 O V => (R F I T.1 T.2 : Amp 𝕜 O V))
  kept : ∀ F I, AntiI I → ∀ T1 T2, Kept p T2 → Kept p (R F I T1 T2).2
  eq : ∀ F I, AntiI I → ∀ T1 T2, Anti T2 → R F I T1 T2 = ccsd_simple F I T1 T2

theorem nice_simple : Nice (𝕜 := 𝕜) (O := O) (V := V) false ccsd_simple where
  split1 := simple_split1
  split2 := simple_split2
  diag1 := diag1'
  diag2 := diag2'
  smooth := simple_smooth
  kept F I hI T1 T2 h := by simpa [Kept] using simple_a12 F I hI T1 T2 (by simpa [Kept] using h)
  eq _ _ _ _ _ _ := rfl

theorem nice_stanton (p : Bool) : Nice (𝕜 := 𝕜) (O := O) (V := V) p ccsd_stanton where
  split1 := stanton_split1
  split2 := stanton_split2
  diag1 eo ev I T1 T2 a i := (free1_stanton _ _ _ I T1 T2 a i).trans (diag1' eo ev I T1 T2 a i)
  diag2 eo ev I T1 T2 a b i j := (free2_stanton _ _ _ I T1 T2 a b i j).trans (diag2' eo ev I T1 T2 a b i j)
  smooth := stanton_smooth
  kept F I hI T1 T2 h := by
    cases p
    · simpa [Kept] using stanton_a12 F I hI T1 T2 (by simpa [Kept] using h)
    · simpa [Kept] using stanton_a34 F I hI T1 T2 (by simpa [Kept] using h)
  eq F I hI T1 T2 h := C01_ccsd_stanton_eq_simple F I hI T1 T2 h

/-- The update of C66 with the residual of any routine. -/
def updateBy (R : OneE O V 𝕜 → TwoE O V 𝕜 → (V → O → 𝕜) → (V → V → O → O → 𝕜) → (V → O → 𝕜) × (V → V → O → O → 𝕜)) (F : OneE O V 𝕜) (I : TwoE O V 𝕜)
    (eo : O → 𝕜) (ev : V → 𝕜) (T : Amp 𝕜 O V) : Amp 𝕜 O V :=
  (fun a i => T.1 a i - (R F I T.1 T.2).1 a i / (ev a - eo i),
   fun a b i j => T.2 a b i j - (R F I T.1 T.2).2 a b i j / (ev a + ev b - eo i - eo j))

theorem update_by (F : OneE O V 𝕜) (I : TwoE O V 𝕜) (eo : O → 𝕜) (ev : V → 𝕜) : update F I eo ev = updateBy ccsd_simple F I eo ev := rfl

variable {p : Bool} {R : OneE O V 𝕜 → TwoE O V 𝕜 → (V → O → 𝕜) → (V → V → O → O → 𝕜) → (V → O → 𝕜) × (V → V → O → O → 𝕜)}

/-- The residual's loss of antisymmetry is bounded by that of the amplitudes. -/
theorem sy_res (hR : Nice p R) (f : OneE O V 𝕜) (I : TwoE O V 𝕜) (hI : AntiI I) (r : ℝ) : ∃ M : ℝ, 0 < M ∧
    (∀ T : Amp 𝕜 O V, ‖T‖ ≤ r → Kept p T.2 → ‖sy p (R f I T.1 T.2).2‖ ≤ M * ‖sy p T.2‖) ∧
    (∀ T : Amp 𝕜 O V, ‖T‖ ≤ r → ‖(R f I T.1 T.2 : Amp 𝕜 O V)‖ ≤ M) ∧
    ∀ T T' : Amp 𝕜 O V, ‖T‖ ≤ r → ‖T'‖ ≤ r → ‖(R f I T'.1 T'.2 : Amp 𝕜 O V) - R f I T.1 T.2‖ ≤ M * ‖T' - T‖ := by
  obtain ⟨M, hM, b1, b2⟩ := ball_bounds (hR.smooth f I) r
  refine ⟨M, hM, fun T hT h => ?_, fun T hT => b1 T (by simpa using hT), fun T T' h h' => b2 T (by simpa using h) T' (by simpa using h')⟩
  have h0 : sy p (R f I (asP p T).1 (asP p T).2).2 = 0 := sy_anti p (by rw [hR.eq f I hI _ _ (asP_anti p h)]; exact C03_ccsd_simple f I hI _ _ (asP_anti p h))
  have h1 := b2 (asP p T) (by simpa using (asP_norm p T).trans hT) T (by simpa using hT)
  have h2 : sy p (R f I T.1 T.2).2 = sy p ((R f I T.1 T.2 : Amp 𝕜 O V) - R f I (asP p T).1 (asP p T).2).2 := by
    rw [Prod.snd_sub, sy_sub, h0, sub_zero]
  rw [h2]
  have h3 := norm_snd_le ((R f I T.1 T.2 : Amp 𝕜 O V) - R f I (asP p T).1 (asP p T).2)
  have h4 := mul_le_mul_of_nonneg_left (asP_sub p T) hM.le
  linarith [sy_norm p ((R f I T.1 T.2 : Amp 𝕜 O V) - R f I (asP p T).1 (asP p T).2).2]

theorem updateBy_kept (hR : Nice p R) (F : OneE O V 𝕜) (I : TwoE O V 𝕜) (hI : AntiI I) (eo : O → 𝕜) (ev : V → 𝕜) {T : Amp 𝕜 O V} (h : Kept p T.2) : Kept p (updateBy R F I eo ev T).2 := by
  have h' := hR.kept F I hI T.1 T.2 h
  cases p
  · simp only [Kept, Bool.false_eq_true, if_false] at h h' ⊢
    intro a b i j
    simp only [updateBy]
    rw [h a b i j, h' a b i j, add_comm (ev a)]
    ring
  · simp only [Kept, if_true] at h h' ⊢
    intro a b i j
    simp only [updateBy]
    rw [h a b i j, h' a b i j, show ev a + ev b - eo j - eo i = ev a + ev b - eo i - eo j by ring]
    ring

theorem iterateBy_kept (hR : Nice p R) (F : OneE O V 𝕜) (I : TwoE O V 𝕜) (hI : AntiI I) (eo : O → 𝕜) (ev : V → 𝕜) {T : Amp 𝕜 O V} (h : Kept p T.2) (k : ℕ) :
    Kept p ((updateBy R F I eo ev)^[k] T).2 := by
  induction k with
  | zero => exact h
  | succ k ih => rw [Function.iterate_succ_apply']; exact updateBy_kept hR F I hI eo ev ih

/-- One update of the doubles for amplitudes antisymmetric in the virtual pair only. -/
theorem updateBy_two (hR : Nice p R) (f : OneE O V 𝕜) (I : TwoE O V 𝕜) {eo : O → 𝕜} {ev : V → 𝕜} (g2 : ∀ a b i j, ev a + ev b - eo i - eo j ≠ 0) (z : 𝕜)
    {T : Amp 𝕜 O V} (h : Kept p T.2) (a b : V) (i j : O) :
    (updateBy R ((diagF eo ev).addMul z f) (I.mul z) eo ev T).2 a b i j
      = (wt p eo ev a i * sy p T.2 a b i j - z * (R f I T.1 T.2).2 a b i j) / (ev a + ev b - eo i - eo j) := by
  simp only [updateBy, hR.split2, hR.diag2]
  cases p
  · simp only [Kept, Bool.false_eq_true, if_false] at h
    simp only [sy, fl, wt, h a b i j, Bool.false_eq_true, if_false]
    field_simp [g2 a b i j]
    ring
  · simp only [Kept, if_true] at h
    simp only [sy, fl, wt, h a b i j, if_true]
    field_simp [g2 a b i j]
    ring

theorem updateBy_one (hR : Nice p R) (f : OneE O V 𝕜) (I : TwoE O V 𝕜) {eo : O → 𝕜} {ev : V → 𝕜} (g1 : ∀ a i, ev a - eo i ≠ 0) (z : 𝕜) (T : Amp 𝕜 O V) (a : V) (i : O) :
    (updateBy R ((diagF eo ev).addMul z f) (I.mul z) eo ev T).1 a i = - z * (R f I T.1 T.2).1 a i / (ev a - eo i) := by
  simp only [updateBy, hR.split1, hR.diag1]
  field_simp [g1 a i]
  ring

/-- one update multiplies the part symmetric in the occupied pair by minus the sum of the occupied energies over the denominator, up to terms of the order
of the interaction that vanish with this part. -/
theorem by_step (hR : Nice p R) (f : OneE O V 𝕜) (I : TwoE O V 𝕜) {eo : O → 𝕜} {ev : V → 𝕜} (g2 : ∀ a b i j, ev a + ev b - eo i - eo j ≠ 0) (z : 𝕜)
    {T : Amp 𝕜 O V} (h : Kept p T.2) (a b : V) (i j : O) :
    sy p (updateBy R ((diagF eo ev).addMul z f) (I.mul z) eo ev T).2 a b i j
      = wt2 p eo ev a b i j / (ev a + ev b - eo i - eo j) * sy p T.2 a b i j - z * sy p (R f I T.1 T.2).2 a b i j / (ev a + ev b - eo i - eo j) := by
  simp only [sy]
  rw [updateBy_two hR f I g2 z h]
  cases p
  · simp only [fl, Bool.false_eq_true, if_false]
    rw [updateBy_two hR f I g2 z h, show ev a + ev b - eo j - eo i = ev a + ev b - eo i - eo j by ring]
    simp only [sy, fl, wt, wt2, Bool.false_eq_true, if_false]
    ring
  · simp only [fl, if_true]
    rw [updateBy_two hR f I g2 z h, show ev b + ev a - eo i - eo j = ev a + ev b - eo i - eo j by ring]
    simp only [sy, fl, wt, wt2, if_true]
    ring

/-- A bound for the inverse denominators. -/
theorem inv_bound (eo : O → 𝕜) (ev : V → 𝕜) : ∃ N : ℝ, 0 < N ∧ (∀ a i, ‖(ev a - eo i)⁻¹‖ ≤ N) ∧ ∀ a b i j, ‖(ev a + ev b - eo i - eo j)⁻¹‖ ≤ N := by
  refine ⟨‖fun a i => (ev a - eo i)⁻¹‖ + ‖fun a b i j => (ev a + ev b - eo i - eo j)⁻¹‖ + 1, by positivity, fun a i => ?_, fun a b i j => ?_⟩
  · have := (norm_le_pi_norm (fun i => (ev a - eo i)⁻¹) i).trans (norm_le_pi_norm (fun a i => (ev a - eo i)⁻¹) a)
    linarith [norm_nonneg (fun a b i j => (ev a + ev b - eo i - eo j)⁻¹)]
  · have := le_norm4 (fun a b i j => (ev a + ev b - eo i - eo j)⁻¹) a b i j
    linarith [norm_nonneg (fun a i => (ev a - eo i)⁻¹)]

/-- where the sums of occupied energies exceed the denominators, the update amplifies every loss of antisymmetry: no start with a part symmetric in the
occupied pair, however small, stays in a ball given before the strength of the interaction. -/
theorem by_unstable (hR : Nice p R) (eo : O → 𝕜) (ev : V → 𝕜) (f : OneE O V 𝕜) (I : TwoE O V 𝕜) (hI : AntiI I) (g2 : ∀ a b i j, ev a + ev b - eo i - eo j ≠ 0)
    (l : ℝ) (hl : 1 < l) (big : ∀ a b i j, l * ‖ev a + ev b - eo i - eo j‖ ≤ ‖wt2 p eo ev a b i j‖) (r : ℝ) :
    ∃ z₀ : ℝ, 0 < z₀ ∧ ∀ z : 𝕜, ‖z‖ ≤ z₀ → ∀ T₀ : Amp 𝕜 O V, Kept p T₀.2 → ¬ Anti T₀.2 →
      ∃ k : ℕ, r < ‖(updateBy R ((diagF eo ev).addMul z f) (I.mul z) eo ev)^[k] T₀‖ := by
  obtain ⟨M, hM, b, -, -⟩ := sy_res hR f I hI r
  obtain ⟨N, hN, -, n2⟩ := inv_bound eo ev
  refine ⟨(l - 1) / 2 / (M * N), by have := sub_pos.2 hl; positivity, fun z hz T₀ h12 h34 => ?_⟩
  have hz' : ‖z‖ * (M * N) ≤ (l - 1) / 2 := by
    have := mul_le_mul_of_nonneg_right hz (by positivity : 0 ≤ M * N)
    rwa [div_mul_cancel₀ _ (by positivity)] at this
  by_contra hcon
  have hr : ∀ k : ℕ, ‖(updateBy R ((diagF eo ev).addMul z f) (I.mul z) eo ev)^[k] T₀‖ ≤ r := fun k => not_lt.1 fun h => hcon ⟨k, h⟩
  set U := updateBy R ((diagF eo ev).addMul z f) (I.mul z) eo ev with hU
  have step : ∀ T : Amp 𝕜 O V, Kept p T.2 → ‖T‖ ≤ r → (l + 1) / 2 * ‖sy p T.2‖ ≤ ‖sy p (U T).2‖ := by
    intro T hT hn
    have el : ∀ a b i j, ‖sy p T.2 a b i j‖ ≤ (‖sy p (U T).2‖ + (l - 1) / 2 * ‖sy p T.2‖) / l := by
      intro a b' i j
      have e := by_step hR f I g2 z hT a b' i j
      have h1 : ‖z * sy p (R f I T.1 T.2).2 a b' i j / (ev a + ev b' - eo i - eo j)‖ ≤ (l - 1) / 2 * ‖sy p T.2‖ := by
        rw [div_eq_mul_inv, norm_mul, norm_mul]
        have h2 := (le_norm4 (sy p (R f I T.1 T.2).2) a b' i j).trans (b T hn hT)
        calc _ ≤ ‖z‖ * (M * ‖sy p T.2‖) * N := mul_le_mul (mul_le_mul_of_nonneg_left h2 (norm_nonneg _)) (n2 a b' i j) (norm_nonneg _) (by positivity)
          _ = ‖z‖ * (M * N) * ‖sy p T.2‖ := by ring
          _ ≤ _ := mul_le_mul_of_nonneg_right hz' (norm_nonneg _)
      have h3 : l ≤ ‖wt2 p eo ev a b' i j / (ev a + ev b' - eo i - eo j)‖ := by
        rw [norm_div, le_div_iff₀ (norm_pos_iff.2 (g2 a b' i j))]
        exact big a b' i j
      have h4 : l * ‖sy p T.2 a b' i j‖ ≤ ‖wt2 p eo ev a b' i j / (ev a + ev b' - eo i - eo j) * sy p T.2 a b' i j‖ := by
        rw [norm_mul]; exact mul_le_mul_of_nonneg_right h3 (norm_nonneg _)
      have h5 := le_norm4 (sy p (U T).2) a b' i j
      rw [hU, e] at h5
      have h6 := norm_sub_norm_le (wt2 p eo ev a b' i j / (ev a + ev b' - eo i - eo j) * sy p T.2 a b' i j) (z * sy p (R f I T.1 T.2).2 a b' i j / (ev a + ev b' - eo i - eo j))
      rw [le_div_iff₀ (by linarith)]
      linarith
    have h7 := norm4_le (by have := sub_pos.2 hl; positivity) el
    rw [le_div_iff₀ (by linarith)] at h7
    nlinarith
  have grow : ∀ k : ℕ, ((l + 1) / 2) ^ k * ‖sy p T₀.2‖ ≤ ‖sy p (U^[k] T₀).2‖ := by
    intro k
    induction k with
    | zero => simp
    | succ k ih =>
      rw [Function.iterate_succ_apply']
      refine le_trans ?_ (step _ (iterateBy_kept hR _ _ (TwoE.mul_anti hI z) eo ev h12 k) (hr k))
      rw [pow_succ]
      calc _ = (l + 1) / 2 * (((l + 1) / 2) ^ k * ‖sy p T₀.2‖) := by ring
        _ ≤ _ := mul_le_mul_of_nonneg_left ih (by linarith)
  have hs : 0 < ‖sy p T₀.2‖ := norm_pos_iff.2 fun h => h34 (anti_of_sy p h12 h)
  obtain ⟨k, hk⟩ := pow_unbounded_of_one_lt (2 * r / ‖sy p T₀.2‖) (show 1 < (l + 1) / 2 by linarith)
  rw [div_lt_iff₀ hs] at hk
  have h1 := grow k
  have h2 := sy_norm p (U^[k] T₀).2
  have h3 := norm_snd_le (U^[k] T₀)
  have h4 := hr k
  linarith

/-- where the sums of occupied energies stay below the denominators, the update forgets a loss of antisymmetry in the occupied pair: from every small enough
start that is antisymmetric in the virtual pair it converges, geometrically, to the antisymmetric solution. -/
theorem by_stable (hR : Nice p R) (eo : O → 𝕜) (ev : V → 𝕜) (f : OneE O V 𝕜) (I : TwoE O V 𝕜) (hI : AntiI I) (g1 : ∀ a i, ev a - eo i ≠ 0)
    (g2 : ∀ a b i j, ev a + ev b - eo i - eo j ≠ 0)
    (l : ℝ) (hl : l < 1) (small : ∀ a b i j, ‖wt2 p eo ev a b i j‖ ≤ l * ‖ev a + ev b - eo i - eo j‖) (r : ℝ) (hr : 0 < r) :
    ∃ z₀ : ℝ, 0 < z₀ ∧ ∃ d : ℝ, 0 < d ∧ ∃ s : ℝ, 0 < s ∧ s < 1 ∧ ∃ B : ℝ, ∀ z : 𝕜, ‖z‖ ≤ z₀ → ∃ T : Amp 𝕜 O V, Anti T.2 ∧ ‖T‖ ≤ r ∧
      R ((diagF eo ev).addMul z f) (I.mul z) T.1 T.2 = (fun _ _ => 0, fun _ _ _ _ => 0) ∧
      ∀ T₀ : Amp 𝕜 O V, Kept p T₀.2 → ‖T₀‖ ≤ d → ∀ k : ℕ, ‖(updateBy R ((diagF eo ev).addMul z f) (I.mul z) eo ev)^[k] T₀ - T‖ ≤ B * s ^ k * ‖T₀ - T‖ := by
  obtain ⟨M, hM, b, bd, lp⟩ := sy_res hR f I hI r
  obtain ⟨N, hN, n1, n2⟩ := inv_bound eo ev
  obtain ⟨z₁, hz₁, sol⟩ := C66_converges eo ev f I hI g1 g2 r hr
  have hl' : 0 < (1 - l) / 2 := by linarith
  let C : ℝ := (‖eo‖ + ‖ev‖ + 1) * N
  have hC : 0 < C := by positivity
  let s : ℝ := max ((1 + l) / 2) (3 / 4)
  have hs : 3 / 4 ≤ s := le_max_right _ _
  have hs1 : s < 1 := max_lt (by linarith) (by norm_num)
  let q : ℝ := min (min (r / 2) ((1 - l) / 2)) (1 / 2)
  have hq : 0 < q := lt_min (lt_min (by linarith) hl') (by norm_num)
  refine ⟨min z₁ (q / (M * N)), lt_min hz₁ (by positivity), min r (r / (4 * C)), lt_min hr (by positivity), s, by linarith, hs1, 1 + 8 * C, fun z hz => ?_⟩
  have hz' : ‖z‖ * (M * N) ≤ q := by
    have := mul_le_mul_of_nonneg_right (hz.trans (min_le_right _ _)) (by positivity : 0 ≤ M * N)
    rwa [div_mul_cancel₀ _ (by positivity)] at this
  have q1 : q ≤ r / 2 := (min_le_left _ _).trans (min_le_left _ _)
  have q2 : q ≤ (1 - l) / 2 := (min_le_left _ _).trans (min_le_right _ _)
  have q3 : q ≤ 1 / 2 := min_le_right _ _
  obtain ⟨T, hT, hTr, hsol, -, -⟩ := sol z (hz.trans (min_le_left _ _))
  rw [← hR.eq _ _ (TwoE.mul_anti hI z) _ _ hT] at hsol
  refine ⟨T, hT, hTr, hsol, fun T₀ h12 hd => ?_⟩
  have fixed : updateBy R ((diagF eo ev).addMul z f) (I.mul z) eo ev T = T := by
    simp only [updateBy, hsol]; simp
  set U := updateBy R ((diagF eo ev).addMul z f) (I.mul z) eo ev with hU
  -- the linear map of the symmetric part
  have lin : ∀ X : V → V → O → O → 𝕜, ∀ a b i j, ‖wt p eo ev a i * X a b i j * (ev a + ev b - eo i - eo j)⁻¹‖ ≤ C * ‖X‖ := by
    intro X a b' i j
    rw [norm_mul, norm_mul]
    have h1 : ‖wt p eo ev a i‖ ≤ ‖eo‖ + ‖ev‖ + 1 := by
      cases p
      · simp only [wt, Bool.false_eq_true, if_false, norm_neg]; linarith [norm_le_pi_norm eo i, norm_nonneg ev]
      · simp only [wt, if_true]; linarith [norm_le_pi_norm ev a, norm_nonneg eo]
    calc _ ≤ (‖eo‖ + ‖ev‖ + 1) * ‖X‖ * N := mul_le_mul (mul_le_mul h1 (le_norm4 X a b' i j) (norm_nonneg _) (by positivity)) (n2 a b' i j) (norm_nonneg _) (by positivity)
      _ = _ := by ring
  have size : ∀ X : Amp 𝕜 O V, Kept p X.2 → ‖X‖ ≤ r → ‖U X‖ ≤ C * ‖sy p X.2‖ + q := by
    intro X hX hn
    have hb := bd X hn
    refine norm_prod_le_iff.2 ⟨(pi_norm_le_iff_of_nonneg (by positivity)).2 fun a => (pi_norm_le_iff_of_nonneg (by positivity)).2 fun i => ?_,
      norm4_le (by positivity) fun a b' i j => ?_⟩
    · rw [hU, updateBy_one hR f I g1, div_eq_mul_inv, norm_mul, norm_mul, norm_neg]
      have h1 := ((norm_le_pi_norm ((R f I X.1 X.2).1 a) i).trans (norm_le_pi_norm _ a)).trans ((norm_fst_le (R f I X.1 X.2 : Amp 𝕜 O V)).trans hb)
      have h2 : ‖z‖ * ‖(R f I X.1 X.2).1 a i‖ * ‖(ev a - eo i)⁻¹‖ ≤ ‖z‖ * M * N :=
        mul_le_mul (mul_le_mul_of_nonneg_left h1 (norm_nonneg _)) (n1 a i) (norm_nonneg _) (by positivity)
      have h3 : 0 ≤ C * ‖sy p X.2‖ := by positivity
      linarith
    · rw [hU, updateBy_two hR f I g2 z hX, div_eq_mul_inv, sub_mul]
      refine (norm_sub_le _ _).trans (add_le_add (lin _ a b' i j) ?_)
      rw [norm_mul, norm_mul]
      have h1 := (le_norm4 (R f I X.1 X.2).2 a b' i j).trans ((norm_snd_le (R f I X.1 X.2 : Amp 𝕜 O V)).trans hb)
      have h2 : ‖z‖ * ‖(R f I X.1 X.2).2 a b' i j‖ * ‖(ev a + ev b' - eo i - eo j)⁻¹‖ ≤ ‖z‖ * M * N :=
        mul_le_mul (mul_le_mul_of_nonneg_left h1 (norm_nonneg _)) (n2 a b' i j) (norm_nonneg _) (by positivity)
      linarith
  have decay : ∀ X : Amp 𝕜 O V, Kept p X.2 → ‖X‖ ≤ r → ‖sy p (U X).2‖ ≤ s * ‖sy p X.2‖ := by
    intro X hX hn
    refine norm4_le (by positivity) fun a b' i j => ?_
    rw [hU, by_step hR f I g2 z hX]
    have h1 : ‖z * sy p (R f I X.1 X.2).2 a b' i j / (ev a + ev b' - eo i - eo j)‖ ≤ (1 - l) / 2 * ‖sy p X.2‖ := by
      rw [div_eq_mul_inv, norm_mul, norm_mul]
      have h2 := (le_norm4 (sy p (R f I X.1 X.2).2) a b' i j).trans (b X hn hX)
      calc _ ≤ ‖z‖ * (M * ‖sy p X.2‖) * N := mul_le_mul (mul_le_mul_of_nonneg_left h2 (norm_nonneg _)) (n2 a b' i j) (norm_nonneg _) (by positivity)
        _ = ‖z‖ * (M * N) * ‖sy p X.2‖ := by ring
        _ ≤ _ := mul_le_mul_of_nonneg_right (hz'.trans q2) (norm_nonneg _)
    have h3 : ‖wt2 p eo ev a b' i j / (ev a + ev b' - eo i - eo j)‖ ≤ l := by
      rw [norm_div, div_le_iff₀ (norm_pos_iff.2 (g2 a b' i j))]
      exact small a b' i j
    have h4 : ‖wt2 p eo ev a b' i j / (ev a + ev b' - eo i - eo j) * sy p X.2 a b' i j‖ ≤ l * ‖sy p X.2‖ := by
      rw [norm_mul]
      exact (mul_le_mul_of_nonneg_left (le_norm4 _ a b' i j) (norm_nonneg _)).trans (mul_le_mul_of_nonneg_right h3 (norm_nonneg _))
    have h5 : (1 + l) / 2 * ‖sy p X.2‖ ≤ s * ‖sy p X.2‖ := mul_le_mul_of_nonneg_right (le_max_left _ _) (norm_nonneg _)
    refine (norm_sub_le _ _).trans ?_
    linarith
  have err : ∀ X : Amp 𝕜 O V, Kept p X.2 → ‖X‖ ≤ r → ‖U X - T‖ ≤ C * ‖sy p X.2‖ + 1 / 2 * ‖X - T‖ := by
    intro X hX hn
    have hb := lp T X hTr hn
    have e0 := norm_nonneg (X - T)
    have hh : ‖z‖ * (M * ‖X - T‖) * N ≤ 1 / 2 * ‖X - T‖ := by
      have := mul_le_mul_of_nonneg_right (hz'.trans q3) e0
      linarith
    have eq : U X - T = U X - U T := by rw [fixed]
    rw [eq]
    refine norm_prod_le_iff.2 ⟨(pi_norm_le_iff_of_nonneg (by positivity)).2 fun a => (pi_norm_le_iff_of_nonneg (by positivity)).2 fun i => ?_,
      norm4_le (by positivity) fun a b' i j => ?_⟩
    · rw [Prod.fst_sub, Pi.sub_apply, Pi.sub_apply, hU, updateBy_one hR f I g1, updateBy_one hR f I g1,
        show - z * (R f I X.1 X.2).1 a i / (ev a - eo i) - - z * (R f I T.1 T.2).1 a i / (ev a - eo i)
          = - z * ((R f I X.1 X.2 : Amp 𝕜 O V) - R f I T.1 T.2).1 a i * (ev a - eo i)⁻¹ by
            rw [Prod.fst_sub, Pi.sub_apply, Pi.sub_apply]; ring, norm_mul, norm_mul, norm_neg]
      have h1 := ((norm_le_pi_norm (((R f I X.1 X.2 : Amp 𝕜 O V) - R f I T.1 T.2).1 a) i).trans (norm_le_pi_norm _ a)).trans ((norm_fst_le _).trans hb)
      have h2 := mul_le_mul (mul_le_mul_of_nonneg_left h1 (norm_nonneg z)) (n1 a i) (norm_nonneg _) (by positivity)
      have h3 : 0 ≤ C * ‖sy p X.2‖ := by positivity
      linarith
    · rw [Prod.snd_sub, Pi.sub_apply, Pi.sub_apply, Pi.sub_apply, Pi.sub_apply, hU, updateBy_two hR f I g2 z hX, updateBy_two hR f I g2 z (Kept.of_anti p hT), sy_anti p hT,
        show (wt p eo ev a i * sy p X.2 a b' i j - z * (R f I X.1 X.2).2 a b' i j) / (ev a + ev b' - eo i - eo j)
            - (wt p eo ev a i * (0 : V → V → O → O → 𝕜) a b' i j - z * (R f I T.1 T.2).2 a b' i j) / (ev a + ev b' - eo i - eo j)
          = wt p eo ev a i * sy p X.2 a b' i j * (ev a + ev b' - eo i - eo j)⁻¹
            - z * ((R f I X.1 X.2 : Amp 𝕜 O V) - R f I T.1 T.2).2 a b' i j * (ev a + ev b' - eo i - eo j)⁻¹ by
            rw [Prod.snd_sub, Pi.sub_apply, Pi.sub_apply, Pi.sub_apply, Pi.sub_apply]; simp only [Pi.zero_apply]; ring]
      refine (norm_sub_le _ _).trans (add_le_add (lin _ a b' i j) ?_)
      rw [norm_mul, norm_mul]
      have h1 := (le_norm4 ((R f I X.1 X.2 : Amp 𝕜 O V) - R f I T.1 T.2).2 a b' i j).trans ((norm_snd_le _).trans hb)
      have h2 := mul_le_mul (mul_le_mul_of_nonneg_left h1 (norm_nonneg z)) (n2 a b' i j) (norm_nonneg _) (by positivity)
      linarith
  have a12 : ∀ k : ℕ, Kept p (U^[k] T₀).2 := iterateBy_kept hR _ _ (TwoE.mul_anti hI z) eo ev h12
  have s0 : ‖sy p T₀.2‖ ≤ r / (2 * C) := by
    have h1 := sy_norm p T₀.2
    have h2 := (norm_snd_le T₀).trans (hd.trans (min_le_right _ _))
    have h3 : 2 * (r / (4 * C)) = r / (2 * C) := by field_simp; ring
    linarith
  have inv : ∀ k : ℕ, ‖U^[k] T₀‖ ≤ r ∧ ‖sy p (U^[k] T₀).2‖ ≤ s ^ k * ‖sy p T₀.2‖ := by
    intro k
    induction k with
    | zero => exact ⟨hd.trans (min_le_left _ _), by simp⟩
    | succ k ih =>
      rw [Function.iterate_succ_apply']
      refine ⟨(size _ (a12 k) ih.1).trans ?_, (decay _ (a12 k) ih.1).trans ?_⟩
      · have h1 : s ^ k * ‖sy p T₀.2‖ ≤ 1 * (r / (2 * C)) := mul_le_mul (pow_le_one₀ (by linarith) hs1.le) s0 (norm_nonneg _) (by norm_num)
        have h2 := mul_le_mul_of_nonneg_left (ih.2.trans h1) hC.le
        have h3 : C * (1 * (r / (2 * C))) = r / 2 := by field_simp
        linarith
      · have := mul_le_mul_of_nonneg_left ih.2 (by linarith : 0 ≤ s)
        rw [pow_succ]
        linarith
  have S0 : ‖sy p T₀.2‖ ≤ 2 * ‖T₀ - T‖ := by
    have : sy p T₀.2 = sy p (T₀ - T).2 := by rw [Prod.snd_sub, sy_sub, sy_anti p hT, sub_zero]
    rw [this]
    linarith [sy_norm p (T₀ - T).2, norm_snd_le (T₀ - T)]
  intro k
  have main : ∀ k : ℕ, ‖U^[k] T₀ - T‖ ≤ s ^ k * (‖T₀ - T‖ + 4 * C * ‖sy p T₀.2‖) := by
    intro k
    induction k with
    | zero =>
      have : 0 ≤ C * ‖sy p T₀.2‖ := by positivity
      simp only [Function.iterate_zero, id_eq, pow_zero, one_mul]
      linarith
    | succ k ih =>
      rw [Function.iterate_succ_apply']
      have h1 := err _ (a12 k) (inv k).1
      have h2 := mul_le_mul_of_nonneg_left (inv k).2 hC.le
      have h3 : 0 ≤ s ^ k * ‖T₀ - T‖ := mul_nonneg (pow_nonneg (by linarith) _) (norm_nonneg _)
      have h4 : 0 ≤ s ^ k * (C * ‖sy p T₀.2‖) := mul_nonneg (pow_nonneg (by linarith) _) (by positivity)
      have h5 := mul_le_mul_of_nonneg_right hs (add_nonneg h3 (mul_nonneg (by norm_num : (0:ℝ) ≤ 4) h4))
      rw [pow_succ]
      linarith
  refine (main k).trans ?_
  have h6 : ‖T₀ - T‖ + 4 * C * ‖sy p T₀.2‖ ≤ (1 + 8 * C) * ‖T₀ - T‖ := by
    have := mul_le_mul_of_nonneg_left S0 (by positivity : 0 ≤ 4 * C)
    linarith
  have := mul_le_mul_of_nonneg_left h6 (pow_nonneg (by linarith : 0 ≤ s) k)
  linarith

theorem by_shift (hR : Nice p R) (eo : O → 𝕜) (ev : V → 𝕜) (f : OneE O V 𝕜) (I : TwoE O V 𝕜) (hI : AntiI I) (g2 : ∀ a b i j, ev a + ev b - eo i - eo j ≠ 0)
    (m : 𝕜) (hm : 3 * ‖eo‖ + 3 * ‖ev‖ ≤ ‖m‖) :
    (∀ z : 𝕜, ∀ T : Amp 𝕜 O V, Anti T.2 →
      updateBy R ((diagF (fun i => eo i + m) (fun a => ev a + m)).addMul z f) (I.mul z) (fun i => eo i + m) (fun a => ev a + m) T
        = updateBy R ((diagF eo ev).addMul z f) (I.mul z) eo ev T) ∧
    ∀ r : ℝ, ∃ z₀ : ℝ, 0 < z₀ ∧ ∀ z : 𝕜, ‖z‖ ≤ z₀ → ∀ T₀ : Amp 𝕜 O V, Kept p T₀.2 → ¬ Anti T₀.2 →
      ∃ k : ℕ, r < ‖(updateBy R ((diagF (fun i => eo i + m) (fun a => ev a + m)).addMul z f) (I.mul z) (fun i => eo i + m) (fun a => ev a + m))^[k] T₀‖ := by
  refine ⟨fun z T hT => Prod.ext ?_ ?_, fun r => by_unstable hR _ _ f I hI (fun a b i j h => g2 a b i j (by linear_combination h)) 2 (by norm_num) (fun a b i j => ?_) r⟩
  · funext a i
    simp only [updateBy, hR.split1, hR.diag1, add_sub_add_right_eq_sub]
  · funext a b i j
    simp only [updateBy, hR.eq _ _ (TwoE.mul_anti hI z) _ _ hT, simple_split2, CC.diag2 _ _ I hI T.1 T.2 hT,
      show ev a + m + (ev b + m) - (eo i + m) - (eo j + m) = ev a + ev b - eo i - eo j by ring]
  · have h1 := norm_le_pi_norm eo i
    have h2 := norm_le_pi_norm eo j
    have h3 := norm_le_pi_norm ev a
    have h4 := norm_le_pi_norm ev b
    have h5 := norm_sub_le (ev a + ev b) (eo i + eo j)
    have h6 := norm_add_le (ev a) (ev b)
    have h7 := norm_add_le (eo i) (eo j)
    have h0 := norm_nonneg eo
    have h0' := norm_nonneg ev
    rw [show ev a + m + (ev b + m) - (eo i + m) - (eo j + m) = ev a + ev b - (eo i + eo j) by ring]
    cases p
    · simp only [wt2, Bool.false_eq_true, if_false, norm_neg]
      rw [show eo i + m + (eo j + m) = 2 * m - -(eo i + eo j) by ring]
      have h8 := norm_sub_norm_le (2 * m) (-(eo i + eo j))
      rw [norm_neg, norm_mul, RCLike.norm_ofNat] at h8
      linarith
    · simp only [wt2, if_true]
      rw [show ev a + m + (ev b + m) = 2 * m - -(ev a + ev b) by ring]
      have h8 := norm_sub_norm_le (2 * m) (-(ev a + ev b))
      rw [norm_neg, norm_mul, RCLike.norm_ofNat] at h8
      linarith

theorem not_anti {X : V → V → O → O → 𝕜} (h : ¬ Anti34 X) : ¬ Anti X := fun h' => h h'.2
theorem not_anti_v {X : V → V → O → O → 𝕜} (h : ¬ Anti12 X) : ¬ Anti X := fun h' => h h'.1
theorem kept_false {X : V → V → O → O → 𝕜} (h : Anti12 X) : Kept false X := by simpa [Kept] using h
theorem kept_true {X : V → V → O → O → 𝕜} (h : Anti34 X) : Kept true X := by simpa [Kept] using h

/-- C95: one update with the residual of `ccsd_simple` multiplies the part symmetric in the occupied pair by minus the sum of the occupied energies over the
denominator, up to a term with the factor `z` that vanishes with this part (`sy_res`). -/
theorem C95_step_simple (f : OneE O V 𝕜) (I : TwoE O V 𝕜) (eo : O → 𝕜) (ev : V → 𝕜) (g2 : ∀ a b i j, ev a + ev b - eo i - eo j ≠ 0) (z : 𝕜)
    (T : Amp 𝕜 O V) (h : Anti12 T.2) (a b : V) (i j : O) :
    (update ((diagF eo ev).addMul z f) (I.mul z) eo ev T).2 a b i j + (update ((diagF eo ev).addMul z f) (I.mul z) eo ev T).2 a b j i
      = -(eo i + eo j) / (ev a + ev b - eo i - eo j) * (T.2 a b i j + T.2 a b j i) - z * ((ccsd_simple f I T.1 T.2).2 a b i j + (ccsd_simple f I T.1 T.2).2 a b j i) / (ev a + ev b - eo i - eo j) := by
  have := by_step nice_simple f I g2 z (kept_false h) a b i j
  simp only [sy, fl, wt2, Bool.false_eq_true, if_false] at this
  exact this

/-- C95: where the sums of occupied energies exceed the denominators, the update with `ccsd_simple` amplifies every loss of antisymmetry in the occupied pair: no start
with a part symmetric in this pair, however small, stays in a ball given before the strength of the interaction. -/
theorem C95_unstable_simple (eo : O → 𝕜) (ev : V → 𝕜) (f : OneE O V 𝕜) (I : TwoE O V 𝕜) (hI : AntiI I) (g2 : ∀ a b i j, ev a + ev b - eo i - eo j ≠ 0)
    (l : ℝ) (hl : 1 < l) (big : ∀ a b i j, l * ‖ev a + ev b - eo i - eo j‖ ≤ ‖eo i + eo j‖) (r : ℝ) :
    ∃ z₀ : ℝ, 0 < z₀ ∧ ∀ z : 𝕜, ‖z‖ ≤ z₀ → ∀ T₀ : Amp 𝕜 O V, Anti12 T₀.2 → ¬ Anti34 T₀.2 →
      ∃ k : ℕ, r < ‖(update ((diagF eo ev).addMul z f) (I.mul z) eo ev)^[k] T₀‖ := by
  obtain ⟨z₀, h0, h⟩ := by_unstable nice_simple eo ev f I hI g2 l hl (fun a b i j => by simp only [wt2, Bool.false_eq_true, if_false, norm_neg]; exact big a b i j) r
  exact ⟨z₀, h0, fun z hz T₀ h1 h2 => h z hz T₀ (kept_false h1) (not_anti h2)⟩

/-- C95: where the sums of occupied energies stay below the denominators, the update with `ccsd_simple` forgets a loss of antisymmetry in the occupied pair: from every small
enough start that is antisymmetric in the virtual pair it converges, geometrically, to the antisymmetric solution. -/
theorem C95_stable_simple (eo : O → 𝕜) (ev : V → 𝕜) (f : OneE O V 𝕜) (I : TwoE O V 𝕜) (hI : AntiI I) (g1 : ∀ a i, ev a - eo i ≠ 0)
    (g2 : ∀ a b i j, ev a + ev b - eo i - eo j ≠ 0)
    (l : ℝ) (hl : l < 1) (small : ∀ a b i j, ‖eo i + eo j‖ ≤ l * ‖ev a + ev b - eo i - eo j‖) (r : ℝ) (hr : 0 < r) :
    ∃ z₀ : ℝ, 0 < z₀ ∧ ∃ d : ℝ, 0 < d ∧ ∃ s : ℝ, 0 < s ∧ s < 1 ∧ ∃ B : ℝ, ∀ z : 𝕜, ‖z‖ ≤ z₀ → ∃ T : Amp 𝕜 O V, Anti T.2 ∧ ‖T‖ ≤ r ∧
      ccsd_simple ((diagF eo ev).addMul z f) (I.mul z) T.1 T.2 = (fun _ _ => 0, fun _ _ _ _ => 0) ∧
      ∀ T₀ : Amp 𝕜 O V, Anti12 T₀.2 → ‖T₀‖ ≤ d → ∀ k : ℕ, ‖(update ((diagF eo ev).addMul z f) (I.mul z) eo ev)^[k] T₀ - T‖ ≤ B * s ^ k * ‖T₀ - T‖ := by
  obtain ⟨z₀, h0, d, hd, s, hs, hs1, B, h⟩ := by_stable nice_simple eo ev f I hI g1 g2 l hl (fun a b i j => by simp only [wt2, Bool.false_eq_true, if_false, norm_neg]; exact small a b i j) r hr
  refine ⟨z₀, h0, d, hd, s, hs, hs1, B, fun z hz => ?_⟩
  obtain ⟨T, hT, hr, hsol, hk⟩ := h z hz
  exact ⟨T, hT, hr, hsol, fun T₀ h1 h2 k => hk T₀ (kept_false h1) h2 k⟩

/-- C95: the place of the zero of energy has no influence on the updates of antisymmetric amplitudes, but a large constant added to all orbital energies makes the
iteration with `ccsd_simple` unstable against a loss of antisymmetry in the occupied pair. -/
theorem C95_shift_simple (eo : O → 𝕜) (ev : V → 𝕜) (f : OneE O V 𝕜) (I : TwoE O V 𝕜) (hI : AntiI I) (g2 : ∀ a b i j, ev a + ev b - eo i - eo j ≠ 0)
    (m : 𝕜) (hm : 3 * ‖eo‖ + 3 * ‖ev‖ ≤ ‖m‖) :
    (∀ z : 𝕜, ∀ T : Amp 𝕜 O V, Anti T.2 →
      update ((diagF (fun i => eo i + m) (fun a => ev a + m)).addMul z f) (I.mul z) (fun i => eo i + m) (fun a => ev a + m) T
        = update ((diagF eo ev).addMul z f) (I.mul z) eo ev T) ∧
    ∀ r : ℝ, ∃ z₀ : ℝ, 0 < z₀ ∧ ∀ z : 𝕜, ‖z‖ ≤ z₀ → ∀ T₀ : Amp 𝕜 O V, Anti12 T₀.2 → ¬ Anti34 T₀.2 →
      ∃ k : ℕ, r < ‖(update ((diagF (fun i => eo i + m) (fun a => ev a + m)).addMul z f) (I.mul z) (fun i => eo i + m) (fun a => ev a + m))^[k] T₀‖ := by
  obtain ⟨h1, h2⟩ := by_shift nice_simple eo ev f I hI g2 m hm
  refine ⟨h1, fun r => ?_⟩
  obtain ⟨z₀, h0, h⟩ := h2 r
  exact ⟨z₀, h0, fun z hz T₀ k1 k2 => h z hz T₀ (kept_false k1) (not_anti k2)⟩

/-- C95: one update with the residual of `ccsd_stanton` multiplies the part symmetric in the occupied pair by minus the sum of the occupied energies over the
denominator, up to a term with the factor `z` that vanishes with this part (`sy_res`). -/
theorem C95_step_stanton (f : OneE O V 𝕜) (I : TwoE O V 𝕜) (eo : O → 𝕜) (ev : V → 𝕜) (g2 : ∀ a b i j, ev a + ev b - eo i - eo j ≠ 0) (z : 𝕜)
    (T : Amp 𝕜 O V) (h : Anti12 T.2) (a b : V) (i j : O) :
    (updateBy ccsd_stanton ((diagF eo ev).addMul z f) (I.mul z) eo ev T).2 a b i j + (updateBy ccsd_stanton ((diagF eo ev).addMul z f) (I.mul z) eo ev T).2 a b j i
      = -(eo i + eo j) / (ev a + ev b - eo i - eo j) * (T.2 a b i j + T.2 a b j i) - z * ((ccsd_stanton f I T.1 T.2).2 a b i j + (ccsd_stanton f I T.1 T.2).2 a b j i) / (ev a + ev b - eo i - eo j) := by
  have := by_step (nice_stanton false) f I g2 z (kept_false h) a b i j
  simp only [sy, fl, wt2, Bool.false_eq_true, if_false] at this
  exact this

/-- C95: where the sums of occupied energies exceed the denominators, the update with `ccsd_stanton` amplifies every loss of antisymmetry in the occupied pair: no start
with a part symmetric in this pair, however small, stays in a ball given before the strength of the interaction. -/
theorem C95_unstable_stanton (eo : O → 𝕜) (ev : V → 𝕜) (f : OneE O V 𝕜) (I : TwoE O V 𝕜) (hI : AntiI I) (g2 : ∀ a b i j, ev a + ev b - eo i - eo j ≠ 0)
    (l : ℝ) (hl : 1 < l) (big : ∀ a b i j, l * ‖ev a + ev b - eo i - eo j‖ ≤ ‖eo i + eo j‖) (r : ℝ) :
    ∃ z₀ : ℝ, 0 < z₀ ∧ ∀ z : 𝕜, ‖z‖ ≤ z₀ → ∀ T₀ : Amp 𝕜 O V, Anti12 T₀.2 → ¬ Anti34 T₀.2 →
      ∃ k : ℕ, r < ‖(updateBy ccsd_stanton ((diagF eo ev).addMul z f) (I.mul z) eo ev)^[k] T₀‖ := by
  obtain ⟨z₀, h0, h⟩ := by_unstable (nice_stanton false) eo ev f I hI g2 l hl (fun a b i j => by simp only [wt2, Bool.false_eq_true, if_false, norm_neg]; exact big a b i j) r
  exact ⟨z₀, h0, fun z hz T₀ h1 h2 => h z hz T₀ (kept_false h1) (not_anti h2)⟩

/-- C95: where the sums of occupied energies stay below the denominators, the update with `ccsd_stanton` forgets a loss of antisymmetry in the occupied pair: from every small
enough start that is antisymmetric in the virtual pair it converges, geometrically, to the antisymmetric solution. -/
theorem C95_stable_stanton (eo : O → 𝕜) (ev : V → 𝕜) (f : OneE O V 𝕜) (I : TwoE O V 𝕜) (hI : AntiI I) (g1 : ∀ a i, ev a - eo i ≠ 0)
    (g2 : ∀ a b i j, ev a + ev b - eo i - eo j ≠ 0)
    (l : ℝ) (hl : l < 1) (small : ∀ a b i j, ‖eo i + eo j‖ ≤ l * ‖ev a + ev b - eo i - eo j‖) (r : ℝ) (hr : 0 < r) :
    ∃ z₀ : ℝ, 0 < z₀ ∧ ∃ d : ℝ, 0 < d ∧ ∃ s : ℝ, 0 < s ∧ s < 1 ∧ ∃ B : ℝ, ∀ z : 𝕜, ‖z‖ ≤ z₀ → ∃ T : Amp 𝕜 O V, Anti T.2 ∧ ‖T‖ ≤ r ∧
      ccsd_stanton ((diagF eo ev).addMul z f) (I.mul z) T.1 T.2 = (fun _ _ => 0, fun _ _ _ _ => 0) ∧
      ∀ T₀ : Amp 𝕜 O V, Anti12 T₀.2 → ‖T₀‖ ≤ d → ∀ k : ℕ, ‖(updateBy ccsd_stanton ((diagF eo ev).addMul z f) (I.mul z) eo ev)^[k] T₀ - T‖ ≤ B * s ^ k * ‖T₀ - T‖ := by
  obtain ⟨z₀, h0, d, hd, s, hs, hs1, B, h⟩ := by_stable (nice_stanton false) eo ev f I hI g1 g2 l hl (fun a b i j => by simp only [wt2, Bool.false_eq_true, if_false, norm_neg]; exact small a b i j) r hr
  refine ⟨z₀, h0, d, hd, s, hs, hs1, B, fun z hz => ?_⟩
  obtain ⟨T, hT, hr, hsol, hk⟩ := h z hz
  exact ⟨T, hT, hr, hsol, fun T₀ h1 h2 k => hk T₀ (kept_false h1) h2 k⟩

/-- C95: the place of the zero of energy has no influence on the updates of antisymmetric amplitudes, but a large constant added to all orbital energies makes the
iteration with `ccsd_stanton` unstable against a loss of antisymmetry in the occupied pair. -/
theorem C95_shift_stanton (eo : O → 𝕜) (ev : V → 𝕜) (f : OneE O V 𝕜) (I : TwoE O V 𝕜) (hI : AntiI I) (g2 : ∀ a b i j, ev a + ev b - eo i - eo j ≠ 0)
    (m : 𝕜) (hm : 3 * ‖eo‖ + 3 * ‖ev‖ ≤ ‖m‖) :
    (∀ z : 𝕜, ∀ T : Amp 𝕜 O V, Anti T.2 →
      updateBy ccsd_stanton ((diagF (fun i => eo i + m) (fun a => ev a + m)).addMul z f) (I.mul z) (fun i => eo i + m) (fun a => ev a + m) T
        = updateBy ccsd_stanton ((diagF eo ev).addMul z f) (I.mul z) eo ev T) ∧
    ∀ r : ℝ, ∃ z₀ : ℝ, 0 < z₀ ∧ ∀ z : 𝕜, ‖z‖ ≤ z₀ → ∀ T₀ : Amp 𝕜 O V, Anti12 T₀.2 → ¬ Anti34 T₀.2 →
      ∃ k : ℕ, r < ‖(updateBy ccsd_stanton ((diagF (fun i => eo i + m) (fun a => ev a + m)).addMul z f) (I.mul z) (fun i => eo i + m) (fun a => ev a + m))^[k] T₀‖ := by
  obtain ⟨h1, h2⟩ := by_shift (nice_stanton false) eo ev f I hI g2 m hm
  refine ⟨h1, fun r => ?_⟩
  obtain ⟨z₀, h0, h⟩ := h2 r
  exact ⟨z₀, h0, fun z hz T₀ k1 k2 => h z hz T₀ (kept_false k1) (not_anti k2)⟩

/-- C95: one update with the residual of `ccsd_stanton` multiplies the part symmetric in the virtual pair by the sum of the virtual energies over the
denominator, up to a term with the factor `z` that vanishes with this part (`sy_res`). -/
theorem C95_step_stanton_v (f : OneE O V 𝕜) (I : TwoE O V 𝕜) (eo : O → 𝕜) (ev : V → 𝕜) (g2 : ∀ a b i j, ev a + ev b - eo i - eo j ≠ 0) (z : 𝕜)
    (T : Amp 𝕜 O V) (h : Anti34 T.2) (a b : V) (i j : O) :
    (updateBy ccsd_stanton ((diagF eo ev).addMul z f) (I.mul z) eo ev T).2 a b i j + (updateBy ccsd_stanton ((diagF eo ev).addMul z f) (I.mul z) eo ev T).2 b a i j
      = (ev a + ev b) / (ev a + ev b - eo i - eo j) * (T.2 a b i j + T.2 b a i j) - z * ((ccsd_stanton f I T.1 T.2).2 a b i j + (ccsd_stanton f I T.1 T.2).2 b a i j) / (ev a + ev b - eo i - eo j) := by
  have := by_step (nice_stanton true) f I g2 z (kept_true h) a b i j
  simp only [sy, fl, wt2, if_true] at this
  exact this

/-- C95: where the sums of virtual energies exceed the denominators, the update with `ccsd_stanton` amplifies every loss of antisymmetry in the virtual pair: no start
with a part symmetric in this pair, however small, stays in a ball given before the strength of the interaction. -/
theorem C95_unstable_stanton_v (eo : O → 𝕜) (ev : V → 𝕜) (f : OneE O V 𝕜) (I : TwoE O V 𝕜) (hI : AntiI I) (g2 : ∀ a b i j, ev a + ev b - eo i - eo j ≠ 0)
    (l : ℝ) (hl : 1 < l) (big : ∀ a b i j, l * ‖ev a + ev b - eo i - eo j‖ ≤ ‖ev a + ev b‖) (r : ℝ) :
    ∃ z₀ : ℝ, 0 < z₀ ∧ ∀ z : 𝕜, ‖z‖ ≤ z₀ → ∀ T₀ : Amp 𝕜 O V, Anti34 T₀.2 → ¬ Anti12 T₀.2 →
      ∃ k : ℕ, r < ‖(updateBy ccsd_stanton ((diagF eo ev).addMul z f) (I.mul z) eo ev)^[k] T₀‖ := by
  obtain ⟨z₀, h0, h⟩ := by_unstable (nice_stanton true) eo ev f I hI g2 l hl (fun a b i j => by simp only [wt2, if_true]; exact big a b i j) r
  exact ⟨z₀, h0, fun z hz T₀ h1 h2 => h z hz T₀ (kept_true h1) (not_anti_v h2)⟩

/-- C95: where the sums of virtual energies stay below the denominators, the update with `ccsd_stanton` forgets a loss of antisymmetry in the virtual pair: from every small
enough start that is antisymmetric in the occupied pair it converges, geometrically, to the antisymmetric solution. -/
theorem C95_stable_stanton_v (eo : O → 𝕜) (ev : V → 𝕜) (f : OneE O V 𝕜) (I : TwoE O V 𝕜) (hI : AntiI I) (g1 : ∀ a i, ev a - eo i ≠ 0)
    (g2 : ∀ a b i j, ev a + ev b - eo i - eo j ≠ 0)
    (l : ℝ) (hl : l < 1) (small : ∀ a b i j, ‖ev a + ev b‖ ≤ l * ‖ev a + ev b - eo i - eo j‖) (r : ℝ) (hr : 0 < r) :
    ∃ z₀ : ℝ, 0 < z₀ ∧ ∃ d : ℝ, 0 < d ∧ ∃ s : ℝ, 0 < s ∧ s < 1 ∧ ∃ B : ℝ, ∀ z : 𝕜, ‖z‖ ≤ z₀ → ∃ T : Amp 𝕜 O V, Anti T.2 ∧ ‖T‖ ≤ r ∧
      ccsd_stanton ((diagF eo ev).addMul z f) (I.mul z) T.1 T.2 = (fun _ _ => 0, fun _ _ _ _ => 0) ∧
      ∀ T₀ : Amp 𝕜 O V, Anti34 T₀.2 → ‖T₀‖ ≤ d → ∀ k : ℕ, ‖(updateBy ccsd_stanton ((diagF eo ev).addMul z f) (I.mul z) eo ev)^[k] T₀ - T‖ ≤ B * s ^ k * ‖T₀ - T‖ := by
  obtain ⟨z₀, h0, d, hd, s, hs, hs1, B, h⟩ := by_stable (nice_stanton true) eo ev f I hI g1 g2 l hl (fun a b i j => by simp only [wt2, if_true]; exact small a b i j) r hr
  refine ⟨z₀, h0, d, hd, s, hs, hs1, B, fun z hz => ?_⟩
  obtain ⟨T, hT, hr, hsol, hk⟩ := h z hz
  exact ⟨T, hT, hr, hsol, fun T₀ h1 h2 k => hk T₀ (kept_true h1) h2 k⟩

/-- C95: the place of the zero of energy has no influence on the updates of antisymmetric amplitudes, but a large constant added to all orbital energies makes the
iteration with `ccsd_stanton` unstable against a loss of antisymmetry in the virtual pair. -/
theorem C95_shift_stanton_v (eo : O → 𝕜) (ev : V → 𝕜) (f : OneE O V 𝕜) (I : TwoE O V 𝕜) (hI : AntiI I) (g2 : ∀ a b i j, ev a + ev b - eo i - eo j ≠ 0)
    (m : 𝕜) (hm : 3 * ‖eo‖ + 3 * ‖ev‖ ≤ ‖m‖) :
    (∀ z : 𝕜, ∀ T : Amp 𝕜 O V, Anti T.2 →
      updateBy ccsd_stanton ((diagF (fun i => eo i + m) (fun a => ev a + m)).addMul z f) (I.mul z) (fun i => eo i + m) (fun a => ev a + m) T
        = updateBy ccsd_stanton ((diagF eo ev).addMul z f) (I.mul z) eo ev T) ∧
    ∀ r : ℝ, ∃ z₀ : ℝ, 0 < z₀ ∧ ∀ z : 𝕜, ‖z‖ ≤ z₀ → ∀ T₀ : Amp 𝕜 O V, Anti34 T₀.2 → ¬ Anti12 T₀.2 →
      ∃ k : ℕ, r < ‖(updateBy ccsd_stanton ((diagF (fun i => eo i + m) (fun a => ev a + m)).addMul z f) (I.mul z) (fun i => eo i + m) (fun a => ev a + m))^[k] T₀‖ := by
  obtain ⟨h1, h2⟩ := by_shift (nice_stanton true) eo ev f I hI g2 m hm
  refine ⟨h1, fun r => ?_⟩
  obtain ⟨z₀, h0, h⟩ := h2 r
  exact ⟨z₀, h0, fun z hz T₀ k1 k2 => h z hz T₀ (kept_true k1) (not_anti_v k2)⟩

/-- C95: without interaction the part of the doubles that is symmetric in both pairs is the same after every number of updates, whatever the energies and the start. -/
theorem C95_marginal (eo : O → 𝕜) (ev : V → 𝕜) (I : TwoE O V 𝕜) (g2 : ∀ a b i j, ev a + ev b - eo i - eo j ≠ 0) (T : Amp 𝕜 O V) (k : ℕ) (a b : V) (i j : O) :
    let X := ((update (diagF eo ev) (I.mul 0) eo ev)^[k] T).2
    let Y := ((updateBy ccsd_stanton (diagF eo ev) (I.mul 0) eo ev)^[k] T).2
    X a b i j + X b a i j + X a b j i + X b a j i = T.2 a b i j + T.2 b a i j + T.2 a b j i + T.2 b a j i ∧
    Y a b i j + Y b a i j + Y a b j i + Y b a j i = T.2 a b i j + T.2 b a i j + T.2 a b j i + T.2 b a j i := by
  have key : ∀ (R : OneE O V 𝕜 → TwoE O V 𝕜 → (V → O → 𝕜) → (V → V → O → O → 𝕜) → (V → O → 𝕜) × (V → V → O → O → 𝕜)), Nice false R → ∀ k : ℕ,
      ((updateBy R (diagF eo ev) (I.mul 0) eo ev)^[k] T).2 a b i j + ((updateBy R (diagF eo ev) (I.mul 0) eo ev)^[k] T).2 b a i j
        + ((updateBy R (diagF eo ev) (I.mul 0) eo ev)^[k] T).2 a b j i + ((updateBy R (diagF eo ev) (I.mul 0) eo ev)^[k] T).2 b a j i
      = T.2 a b i j + T.2 b a i j + T.2 a b j i + T.2 b a j i := by
    intro R hR k
    induction k with
    | zero => rfl
    | succ k ih =>
      rw [← ih, Function.iterate_succ_apply']
      generalize (updateBy R (diagF eo ev) (I.mul 0) eo ev)^[k] T = W
      simp only [updateBy, hR.diag2, show ev b + ev a - eo i - eo j = ev a + ev b - eo i - eo j by ring, show ev a + ev b - eo j - eo i = ev a + ev b - eo i - eo j by ring,
        show ev b + ev a - eo j - eo i = ev a + ev b - eo i - eo j by ring]
      field_simp [g2 a b i j]
      ring
  exact ⟨key _ nice_simple k, key _ (nice_stanton false) k⟩
end

/-- Doubles antisymmetric in the occupied pair only. -/
def occT : Fin 3 → Fin 3 → Fin 3 → Fin 3 → ℚ := fun a b i j =>
  if a = 0 ∧ b = 0 then (if i = 0 ∧ j = 2 then 1 else if i = 2 ∧ j = 0 then -1 else 0)
  else if a = 1 ∧ b = 2 then (if i = 0 ∧ j = 1 then 1 else if i = 1 ∧ j = 0 then -1 else 0) else 0

def occI : TwoE (Fin 3) (Fin 3) ℚ where
  vvvv := fun _ _ _ _ => 0
  vvvo := fun _ _ _ _ => 0
  vovv := fun _ _ _ _ => 0
  vvoo := fun _ _ _ _ => 0
  vovo := fun _ _ _ _ => 0
  oovv := fun k l c d => (if k = 0 ∧ l = 2 then 1 else if k = 2 ∧ l = 0 then -1 else 0) * (if c = 0 ∧ d = 1 then 1 else if c = 1 ∧ d = 0 then -1 else 0)
  vooo := fun _ _ _ _ => 0
  ooov := fun _ _ _ _ => 0
  oooo := fun _ _ _ _ => 0

/-- C95: the two pairs are not treated alike by `ccsd_simple`: antisymmetry in the virtual pair alone is kept, antisymmetry in the occupied
pair alone is not; `ccsd_stanton` keeps either. -/
theorem C95_occupied_only :
    (∀ (O V : Type) [Fintype O] [Fintype V] (F : OneE O V ℚ) (I : TwoE O V ℚ), AntiI I → ∀ (T1 : V → O → ℚ) (T2 : V → V → O → O → ℚ),
      (Anti12 T2 → Anti12 (ccsd_simple F I T1 T2).2 ∧ Anti12 (ccsd_stanton F I T1 T2).2) ∧ (Anti34 T2 → Anti34 (ccsd_stanton F I T1 T2).2)) ∧
    ∃ (F : OneE (Fin 3) (Fin 3) ℚ) (I : TwoE (Fin 3) (Fin 3) ℚ) (T1 : Fin 3 → Fin 3 → ℚ) (T2 : Fin 3 → Fin 3 → Fin 3 → Fin 3 → ℚ),
      AntiI I ∧ Anti34 T2 ∧ ¬ Anti34 (ccsd_simple F I T1 T2).2 := by
  refine ⟨fun O V _ _ F I hI T1 T2 => ⟨fun h => ⟨simple_a12 F I hI T1 T2 h, stanton_a12 F I hI T1 T2 h⟩, fun h => stanton_a34 F I hI T1 T2 h⟩,
    ⟨fun _ _ => 0, fun _ _ => 0, fun _ _ => 0, fun _ _ => 0⟩, occI, fun _ _ => 0, occT, ?_, ?_, ?_⟩
  · constructor <;> first | (unfold Anti12 occI; decide +kernel) | (unfold Anti34 occI; decide +kernel)
  · unfold Anti34 occT; decide +kernel
  · intro h
    have := h 0 2 0 1
    revert this
    decide +kernel

/-- Non-trivial case of `C95_stable_simple`: occupied energies −1 and virtual energies 1; the factor is one half. -/
example (r : ℝ) (hr : 0 < r) : ∃ z₀ : ℝ, 0 < z₀ ∧ ∃ d : ℝ, 0 < d ∧ ∃ s : ℝ, 0 < s ∧ s < 1 ∧ ∃ B : ℝ, ∀ z : ℝ, ‖z‖ ≤ z₀ → ∃ T : Amp ℝ (Fin 2) (Fin 2), Anti T.2 ∧ ‖T‖ ≤ r ∧
      ccsd_simple ((diagF (fun _ => -1) (fun _ => 1)).addMul z hfF) ((hfI (-2) 1).mul z) T.1 T.2 = (fun _ _ => 0, fun _ _ _ _ => 0) ∧
      ∀ T₀ : Amp ℝ (Fin 2) (Fin 2), Anti12 T₀.2 → ‖T₀‖ ≤ d → ∀ k : ℕ,
        ‖(update ((diagF (fun _ => -1) (fun _ => 1)).addMul z hfF) ((hfI (-2) 1).mul z) (fun _ => -1) (fun _ => 1))^[k] T₀ - T‖ ≤ B * s ^ k * ‖T₀ - T‖ :=
  C95_stable_simple (𝕜 := ℝ) (fun _ : Fin 2 => -1) (fun _ : Fin 2 => 1) hfF (hfI (-2) 1) (hfI_anti _ _) (fun _ _ => by norm_num) (fun _ _ _ _ => by norm_num)
    (1 / 2) (by norm_num) (fun _ _ _ _ => by norm_num) r hr

/-- Non-trivial case of `C95_unstable_simple`: occupied energies 3 and virtual energies 4, the same gap; the factor is three.  The start is antisymmetric but for an
element of size `ε`. -/
example (r ε : ℝ) (hε : ε ≠ 0) : ∃ z₀ : ℝ, 0 < z₀ ∧ ∀ z : ℝ, ‖z‖ ≤ z₀ →
      ∃ k : ℕ, r < ‖(update ((diagF (fun _ => 3) (fun _ => 4)).addMul z hfF) ((hfI (-2) 1).mul z) (fun _ => 3) (fun _ => 4))^[k]
        ((fun _ _ => 0, fun a b i j => hfEps a b * (hfEps i j + if i = j then ε else 0)) : Amp ℝ (Fin 2) (Fin 2))‖ := by
  obtain ⟨z₀, h0, h⟩ := C95_unstable_simple (𝕜 := ℝ) (fun _ : Fin 2 => 3) (fun _ : Fin 2 => 4) hfF (hfI (-2) 1) (hfI_anti _ _) (fun _ _ _ _ => by norm_num)
    3 (by norm_num) (fun _ _ _ _ => by norm_num) r
  refine ⟨z₀, h0, fun z hz => h z hz _ (fun a b i j => ?_) fun h34 => hε ?_⟩
  · simp only [hfEps]; ring
  · have := h34 0 1 0 0
    simp [hfEps] at this
    linarith

/-- Non-trivial case of `C95_unstable_stanton_v`: bound levels only, occupied energies −4 and virtual energies −3; the factor is minus three. -/
example (r ε : ℝ) (hε : ε ≠ 0) : ∃ z₀ : ℝ, 0 < z₀ ∧ ∀ z : ℝ, ‖z‖ ≤ z₀ →
      ∃ k : ℕ, r < ‖(updateBy ccsd_stanton ((diagF (fun _ => -4) (fun _ => -3)).addMul z hfF) ((hfI (-2) 1).mul z) (fun _ => -4) (fun _ => -3))^[k]
        ((fun _ _ => 0, fun a b i j => (hfEps a b + if a = b then ε else 0) * hfEps i j) : Amp ℝ (Fin 2) (Fin 2))‖ := by
  obtain ⟨z₀, h0, h⟩ := C95_unstable_stanton_v (𝕜 := ℝ) (fun _ : Fin 2 => -4) (fun _ : Fin 2 => -3) hfF (hfI (-2) 1) (hfI_anti _ _) (fun _ _ _ _ => by norm_num)
    3 (by norm_num) (fun _ _ _ _ => by norm_num) r
  refine ⟨z₀, h0, fun z hz => h z hz _ (fun a b i j => ?_) fun h12 => hε ?_⟩
  · simp only [hfEps]; ring
  · have := h12 0 0 0 1
    simp [hfEps] at this
    linarith

/-- Non-trivial case of `C95_shift_stanton`: the stable energies −1 and 1 moved up by six. -/
example (r : ℝ) : ∃ z₀ : ℝ, 0 < z₀ ∧ ∀ z : ℝ, ‖z‖ ≤ z₀ → ∀ T₀ : Amp ℝ (Fin 2) (Fin 2), Anti12 T₀.2 → ¬ Anti34 T₀.2 →
      ∃ k : ℕ, r < ‖(updateBy ccsd_stanton ((diagF (fun _ => -1 + 6) (fun _ => 1 + 6)).addMul z hfF) ((hfI (-2) 1).mul z) (fun _ => -1 + 6) (fun _ => 1 + 6))^[k] T₀‖ :=
  (C95_shift_stanton (𝕜 := ℝ) (fun _ : Fin 2 => -1) (fun _ : Fin 2 => 1) hfF (hfI (-2) 1) (hfI_anti _ _) (fun _ _ _ _ => by norm_num) 6
    (by simp [pi_norm_const]; norm_num)).2 r
end CC
