import Verif.Props.ScaleCC
import Verif.Props.IterateU
import Mathlib.Analysis.Complex.Basic
/-!
# C115: whole calculations: units of energy, complex conjugation, real data in complex arrays

C63 is the statement for single calls.  `σ` is the identity, complex conjugation or the embedding of the real into the complex numbers; the
energies are multiplied by `s`.
-/

set_option synthInstance.maxSize 100000
set_option synthInstance.maxHeartbeats 400000

namespace CC
open Heap
variable {K L : Type} [RCLike K] [RCLike L] (σ : K →+* L) {s : L} (hs : s ≠ 0)

section
variable {O V P Q : Type}

/-- Orbital energies in the new unit. -/
def scE (s : L) (e : O → K) : O → L := fun i => s * σ (e i)

/-- Amplitudes with every element mapped. -/
def homA (T : Amp K O V) : Amp L O V := (hom2 σ T.1, hom4 σ T.2)

/-- Unrestricted amplitudes with every element mapped. -/
def homUA (T : UAmp K O V P Q) : UAmp L O V P Q := ((hom2 σ T.1.1, hom2 σ T.1.2), (hom4 σ T.2.1, hom4 σ T.2.2.1, hom4 σ T.2.2.2))

include hs
theorem sc_quot (t r d : K) : σ t - s * σ r / (s * σ d) = σ (t - r / d) := by
  rw [mul_div_mul_left _ _ hs, map_sub, map_div₀]

theorem sc_d1 (t r x y : K) : σ t - s * σ r / (s * σ x - s * σ y) = σ (t - r / (x - y)) := by
  rw [← sc_quot σ hs, map_sub, mul_sub]

theorem sc_d2 (t r x y z w : K) : σ t - s * σ r / (s * σ x + s * σ y - s * σ z - s * σ w) = σ (t - r / (x + y - z - w)) := by
  rw [← sc_quot σ hs, map_sub, map_sub, map_add, mul_sub, mul_sub, mul_add]
end

section
variable {n : ℕ → ℕ} (F : OneE (Fin (n 0)) (Fin (n 1)) K) (I : TwoE (Fin (n 0)) (Fin (n 1)) K) (J : TwoEFull (Fin (n 0)) (Fin (n 1)) (Fin (n 0)) (Fin (n 1)) K)
  (eo : Fin (n 0) → K) (ev : Fin (n 1) → K) (T : Amp K (Fin (n 0)) (Fin (n 1))) (L₀ : Amp K (Fin (n 1)) (Fin (n 0)))
include hs

/-- C115: an update of the amplitudes in other units gives the same amplitudes, mapped. -/
theorem C115_update : homA σ (update F I eo ev T) = update (F.sc s σ) (I.sc s σ) (scE σ s eo) (scE σ s ev) (homA σ T) := by
  simp only [update, homA, C63_ccsd_simple (σ := σ) (s := s) F I T.1 T.2, scE]
  exact Prod.ext (by funext a i; exact (sc_d1 σ hs ..).symm) (by funext a b i j; exact (sc_d2 σ hs ..).symm)

/-- C115: the same for the multipliers. -/
theorem C115_lambda_update : homA σ (updateL F I eo ev T L₀) = updateL (F.sc s σ) (I.sc s σ) (scE σ s eo) (scE σ s ev) (homA σ T) (homA σ L₀) := by
  simp only [updateL, homA, C63_ccsd_lambda_simple (σ := σ) (s := s) F I L₀.1 L₀.2 T.1 T.2, scE]
  exact Prod.ext (by funext i a; exact (sc_d1 σ hs ..).symm) (by funext i j a b; exact (sc_d2 σ hs ..).symm)

/-- C115: whole calculations: amplitudes, multipliers and density matrices do not change with the unit, energies do. -/
theorem C115_iterates (k m : ℕ) :
    let S := (update F I eo ev)^[k] T
    let M := (updateL F I eo ev S)^[m] L₀
    let S' := (update (F.sc s σ) (I.sc s σ) (scE σ s eo) (scE σ s ev))^[k] (homA σ T)
    let M' := (updateL (F.sc s σ) (I.sc s σ) (scE σ s eo) (scE σ s ev) S')^[m] (homA σ L₀)
    S' = homA σ S ∧ M' = homA σ M ∧ cc_energy S'.1 S'.2 (F.sc s σ).ov (I.sc s σ).oovv = s * σ (cc_energy S.1 S.2 F.ov I.oovv)
      ∧ ccsd_1rdm_ba S'.1 S'.2 M'.1 M'.2 = hom2 σ (ccsd_1rdm_ba S.1 S.2 M.1 M.2)
      ∧ ccsd_1rdm_ji S'.1 S'.2 M'.1 M'.2 = hom2 σ (ccsd_1rdm_ji S.1 S.2 M.1 M.2) := by
  intro S M S' M'
  have h : S' = homA σ S := ((Function.Semiconj.iterate_right (f := homA σ) (fun T => C115_update σ hs F I eo ev T) k) T).symm
  have h' : M' = homA σ M := by
    show (updateL (F.sc s σ) (I.sc s σ) (scE σ s eo) (scE σ s ev) S')^[m] (homA σ L₀) = homA σ ((updateL F I eo ev S)^[m] L₀)
    rw [h]
    exact ((Function.Semiconj.iterate_right (f := homA σ) (fun N => C115_lambda_update σ hs F I eo ev S N) m) L₀).symm
  refine ⟨h, h', ?_⟩
  rw [h, h']
  exact ⟨C63_cc_energy (σ := σ) (s := s) S.1 S.2 F.ov I.oovv, C63_ccsd_1rdm_ba (σ := σ) S.1 S.2 M.1 M.2, C63_ccsd_1rdm_ji (σ := σ) S.1 S.2 M.1 M.2⟩

/-- C115: an update with `rccsd_stanton`. -/
theorem C115_r_update : homA σ (rupdate F J eo ev T) = rupdate (F.sc s σ) (J.sc s σ) (scE σ s eo) (scE σ s ev) (homA σ T) := by
  simp only [rupdate, homA, C63_rccsd_stanton (σ := σ) (s := s) F J T.1 T.2, scE]
  exact Prod.ext (by funext a i; exact (sc_d1 σ hs ..).symm) (by funext a b i j; exact (sc_d2 σ hs ..).symm)

/-- C115: an update with `rccsd_lambda_opt`. -/
theorem C115_r_lambda_update : homA σ (rupdateL F J eo ev T L₀) = rupdateL (F.sc s σ) (J.sc s σ) (scE σ s eo) (scE σ s ev) (homA σ T) (homA σ L₀) := by
  simp only [rupdateL, homA, C63_rccsd_lambda_opt (σ := σ) (s := s) F J L₀.1 L₀.2 T.1 T.2, scE]
  exact Prod.ext (by funext i a; exact (sc_d1 σ hs ..).symm) (by funext i j a b; exact (sc_d2 σ hs ..).symm)

/-- C115: whole restricted calculations. -/
theorem C115_r_iterates (k m : ℕ) :
    let S := (rupdate F J eo ev)^[k] T
    let M := (rupdateL F J eo ev S)^[m] L₀
    let S' := (rupdate (F.sc s σ) (J.sc s σ) (scE σ s eo) (scE σ s ev))^[k] (homA σ T)
    let M' := (rupdateL (F.sc s σ) (J.sc s σ) (scE σ s eo) (scE σ s ev) S')^[m] (homA σ L₀)
    S' = homA σ S ∧ M' = homA σ M ∧ rcc_energy S'.1 S'.2 (F.sc s σ).ov (J.sc s σ).oovv = s * σ (rcc_energy S.1 S.2 F.ov J.oovv) := by
  intro S M S' M'
  have h : S' = homA σ S := ((Function.Semiconj.iterate_right (f := homA σ) (fun T => C115_r_update σ hs F J eo ev T) k) T).symm
  refine ⟨h, ?_, ?_⟩
  · show (rupdateL (F.sc s σ) (J.sc s σ) (scE σ s eo) (scE σ s ev) S')^[m] (homA σ L₀) = homA σ ((rupdateL F J eo ev S)^[m] L₀)
    rw [h]
    exact ((Function.Semiconj.iterate_right (f := homA σ) (fun N => C115_r_lambda_update σ hs F J eo ev S N) m) L₀).symm
  · rw [h]
    exact C63_rcc_energy (σ := σ) (s := s) S.1 S.2 F.ov J.oovv
end

section
variable {n : ℕ → ℕ} (Fa : OneE (Fin (n 0)) (Fin (n 1)) K) (Fb : OneE (Fin (n 2)) (Fin (n 3)) K) (Ia : TwoE (Fin (n 0)) (Fin (n 1)) K) (Ib : TwoE (Fin (n 2)) (Fin (n 3)) K)
  (J : TwoEFull (Fin (n 0)) (Fin (n 1)) (Fin (n 2)) (Fin (n 3)) K) (eoa : Fin (n 0) → K) (eva : Fin (n 1) → K) (eob : Fin (n 2) → K) (evb : Fin (n 3) → K)
  (T : UAmp K (Fin (n 0)) (Fin (n 1)) (Fin (n 2)) (Fin (n 3))) (L₀ : UAmp K (Fin (n 1)) (Fin (n 0)) (Fin (n 3)) (Fin (n 2)))
include hs

/-- C115: an update with `uccsd_stanton`. -/
theorem C115_u_update : homUA σ (uupdate Fa Fb Ia Ib J eoa eva eob evb T)
      = uupdate (Fa.sc s σ) (Fb.sc s σ) (Ia.sc s σ) (Ib.sc s σ) (J.sc s σ) (scE σ s eoa) (scE σ s eva) (scE σ s eob) (scE σ s evb) (homUA σ T) := by
  simp only [uupdate, homUA, C63_uccsd_stanton (σ := σ) (s := s) Fa Fb Ia Ib J T.1 T.2, scE]
  exact Prod.ext (Prod.ext (by funext a i; exact (sc_d1 σ hs ..).symm) (by funext a i; exact (sc_d1 σ hs ..).symm))
    (Prod.ext (by funext a b i j; exact (sc_d2 σ hs ..).symm) (Prod.ext (by funext a b i j; exact (sc_d2 σ hs ..).symm) (by funext a b i j; exact (sc_d2 σ hs ..).symm)))

/-- C115: an update with `uccsd_lambda_opt`. -/
theorem C115_u_lambda_update : homUA σ (uupdateL Fa Fb Ia Ib J eoa eva eob evb T L₀)
      = uupdateL (Fa.sc s σ) (Fb.sc s σ) (Ia.sc s σ) (Ib.sc s σ) (J.sc s σ) (scE σ s eoa) (scE σ s eva) (scE σ s eob) (scE σ s evb) (homUA σ T) (homUA σ L₀) := by
  simp only [uupdateL, homUA, C63_uccsd_lambda_opt (σ := σ) (s := s) Fa Fb Ia Ib J L₀.1 L₀.2 T.1 T.2, scE]
  exact Prod.ext (Prod.ext (by funext a i; exact (sc_d1 σ hs ..).symm) (by funext a i; exact (sc_d1 σ hs ..).symm))
    (Prod.ext (by funext a b i j; exact (sc_d2 σ hs ..).symm) (Prod.ext (by funext a b i j; exact (sc_d2 σ hs ..).symm) (by funext a b i j; exact (sc_d2 σ hs ..).symm)))

/-- C115: whole unrestricted calculations. -/
theorem C115_u_iterates (k m : ℕ) :
    let S := (uupdate Fa Fb Ia Ib J eoa eva eob evb)^[k] T
    let M := (uupdateL Fa Fb Ia Ib J eoa eva eob evb S)^[m] L₀
    let S' := (uupdate (Fa.sc s σ) (Fb.sc s σ) (Ia.sc s σ) (Ib.sc s σ) (J.sc s σ) (scE σ s eoa) (scE σ s eva) (scE σ s eob) (scE σ s evb))^[k] (homUA σ T)
    let M' := (uupdateL (Fa.sc s σ) (Fb.sc s σ) (Ia.sc s σ) (Ib.sc s σ) (J.sc s σ) (scE σ s eoa) (scE σ s eva) (scE σ s eob) (scE σ s evb) S')^[m] (homUA σ L₀)
    S' = homUA σ S ∧ M' = homUA σ M
      ∧ ucc_energy S'.1 S'.2 (Fa.sc s σ).ov (Fb.sc s σ).ov (Ia.sc s σ).oovv (Ib.sc s σ).oovv (J.sc s σ).oovv = s * σ (ucc_energy S.1 S.2 Fa.ov Fb.ov Ia.oovv Ib.oovv J.oovv) := by
  intro S M S' M'
  have h : S' = homUA σ S := ((Function.Semiconj.iterate_right (f := homUA σ) (fun T => C115_u_update σ hs Fa Fb Ia Ib J eoa eva eob evb T) k) T).symm
  refine ⟨h, ?_, ?_⟩
  · show (uupdateL (Fa.sc s σ) (Fb.sc s σ) (Ia.sc s σ) (Ib.sc s σ) (J.sc s σ) (scE σ s eoa) (scE σ s eva) (scE σ s eob) (scE σ s evb) S')^[m] (homUA σ L₀) = homUA σ ((uupdateL Fa Fb Ia Ib J eoa eva eob evb S)^[m] L₀)
    rw [h]
    exact ((Function.Semiconj.iterate_right (f := homUA σ) (fun N => C115_u_lambda_update σ hs Fa Fb Ia Ib J eoa eva eob evb S N) m) L₀).symm
  · rw [h]
    exact C63_ucc_energy (σ := σ) (s := s) S.1 S.2 Fa.ov Fb.ov Ia.oovv Ib.oovv J.oovv
end

/-- C115: a calculation with real data in complex arrays never leaves the real numbers. -/
theorem C115_real {no nv : ℕ} (F : OneE (Fin no) (Fin nv) ℝ) (I : TwoE (Fin no) (Fin nv) ℝ) (eo : Fin no → ℝ) (ev : Fin nv → ℝ) (T : Amp ℝ (Fin no) (Fin nv)) (k : ℕ) :
    let S := (update (F.sc 1 Complex.ofRealHom) (I.sc 1 Complex.ofRealHom) (scE Complex.ofRealHom 1 eo) (scE Complex.ofRealHom 1 ev))^[k] (homA Complex.ofRealHom T)
    (∀ a i, (S.1 a i).im = 0) ∧ ∀ a b i j, (S.2 a b i j).im = 0 := by
  intro S
  have h : S = homA Complex.ofRealHom ((update F I eo ev)^[k] T) :=
    (C115_iterates (n := fun x => if x = 0 then no else nv) (s := 1) Complex.ofRealHom one_ne_zero F I eo ev T 0 k 0).1
  rw [h]
  exact ⟨fun a i => Complex.ofReal_im _, fun a b i j => Complex.ofReal_im _⟩

/-- From Hartree to other units (factor 27), three occupied and two virtual orbitals, arbitrary integrals. -/
example (F : OneE (Fin 3) (Fin 2) ℝ) (I : TwoE (Fin 3) (Fin 2) ℝ) (T : Amp ℝ (Fin 3) (Fin 2)) (k : ℕ) :
    let S := (update F I (fun _ => -1) fun _ => 1)^[k] T
    let S' := (update (F.sc 27 (RingHom.id ℝ)) (I.sc 27 (RingHom.id ℝ)) (scE (RingHom.id ℝ) 27 fun _ => -1) (scE (RingHom.id ℝ) 27 fun _ => 1))^[k] (homA (RingHom.id ℝ) T)
    cc_energy S'.1 S'.2 (F.sc 27 (RingHom.id ℝ)).ov (I.sc 27 (RingHom.id ℝ)).oovv = 27 * cc_energy S.1 S.2 F.ov I.oovv :=
  (C115_iterates (n := fun x => if x = 0 then 3 else 2) (s := (27 : ℝ)) (RingHom.id ℝ) (by norm_num) F I (fun _ => -1) (fun _ => 1) T 0 k 0).2.2.1

end CC
