import Verif.Props.LinearCC
import Mathlib.Analysis.Complex.Basic
/-!
# C63, C64: units of energy, complex conjugation, real data and perturbations of solutions
-/

namespace Heap
open CC
variable {n : ℕ → ℕ} {K L : Type} [Field K] [Field L]

section zeros
variable {A B C D : Type} {σ : K →+* L} {s : L}

theorem hom2_eq_zero {f : A → B → K} : (hom2 σ f = fun _ _ => 0) ↔ f = fun _ _ => 0 := by
  simp only [hom2, funext_iff, map_eq_zero]

theorem hom4_eq_zero {f : A → B → C → D → K} : (hom4 σ f = fun _ _ _ _ => 0) ↔ f = fun _ _ _ _ => 0 := by
  simp only [hom4, funext_iff, map_eq_zero]

theorem sc2_eq_zero (hs : s ≠ 0) {f : A → B → K} : (sc2 s σ f = fun _ _ => 0) ↔ f = fun _ _ => 0 := by
  simp only [sc2, funext_iff, mul_eq_zero, hs, false_or, map_eq_zero]

theorem sc4_eq_zero (hs : s ≠ 0) {f : A → B → C → D → K} : (sc4 s σ f = fun _ _ _ _ => 0) ↔ f = fun _ _ _ _ => 0 := by
  simp only [sc4, funext_iff, mul_eq_zero, hs, false_or, map_eq_zero]
end zeros

/-- The amplitudes and multipliers solve the CCSD and Lambda equations, as both routines of each kind see them. -/
structure Solves (F : OneE (Fin (n 0)) (Fin (n 1)) K) (I : TwoE (Fin (n 0)) (Fin (n 1)) K) (L1 : Fin (n 0) → Fin (n 1) → K)
    (L2 : Fin (n 0) → Fin (n 0) → Fin (n 1) → Fin (n 1) → K) (T1 : Fin (n 1) → Fin (n 0) → K) (T2 : Fin (n 1) → Fin (n 1) → Fin (n 0) → Fin (n 0) → K) : Prop where
  simple : ccsd_simple F I T1 T2 = (fun _ _ => 0, fun _ _ _ _ => 0)
  stanton : ccsd_stanton F I T1 T2 = (fun _ _ => 0, fun _ _ _ _ => 0)
  lambda : ccsd_lambda_simple F I L1 L2 T1 T2 = (fun _ _ => 0, fun _ _ _ _ => 0)
  opt : ccsd_lambda_opt F I L1 L2 T1 T2 = (fun _ _ => 0, fun _ _ _ _ => 0)

section
variable (F : OneE (Fin (n 0)) (Fin (n 1)) K) (I : TwoE (Fin (n 0)) (Fin (n 1)) K) (L1 : Fin (n 0) → Fin (n 1) → K)
  (L2 : Fin (n 0) → Fin (n 0) → Fin (n 1) → Fin (n 1) → K) (T1 : Fin (n 1) → Fin (n 0) → K) (T2 : Fin (n 1) → Fin (n 1) → Fin (n 0) → Fin (n 0) → K)

/-- C63: mapped amplitudes and multipliers solve the equations of the mapped Hamiltonian in other units exactly if the original ones do, and
the energy is the mapped energy in those units. -/
theorem C63_solves (σ : K →+* L) {s : L} (hs : s ≠ 0) :
    (Solves (F.sc s σ) (I.sc s σ) (hom2 σ L1) (hom4 σ L2) (hom2 σ T1) (hom4 σ T2) ↔ Solves F I L1 L2 T1 T2) ∧
    cc_energy (hom2 σ T1) (hom4 σ T2) (F.sc s σ).ov (I.sc s σ).oovv = s * σ (cc_energy T1 T2 F.ov I.oovv) := by
  refine ⟨?_, C63_cc_energy σ s T1 T2 F.ov I.oovv⟩
  have h1 := C63_ccsd_simple σ s F I T1 T2
  have h2 := C63_ccsd_stanton σ s F I T1 T2
  have h3 := C63_ccsd_lambda_simple σ s F I L1 L2 T1 T2
  have h4 := C63_ccsd_lambda_opt σ s F I L1 L2 T1 T2
  constructor
  · intro h
    constructor
    · rw [h.simple] at h1
      exact Prod.ext ((sc2_eq_zero hs).1 (Prod.ext_iff.1 h1).1.symm) ((sc4_eq_zero hs).1 (Prod.ext_iff.1 h1).2.symm)
    · rw [h.stanton] at h2
      exact Prod.ext ((sc2_eq_zero hs).1 (Prod.ext_iff.1 h2).1.symm) ((sc4_eq_zero hs).1 (Prod.ext_iff.1 h2).2.symm)
    · rw [h.lambda] at h3
      exact Prod.ext ((sc2_eq_zero hs).1 (Prod.ext_iff.1 h3).1.symm) ((sc4_eq_zero hs).1 (Prod.ext_iff.1 h3).2.symm)
    · rw [h.opt] at h4
      exact Prod.ext ((sc2_eq_zero hs).1 (Prod.ext_iff.1 h4).1.symm) ((sc4_eq_zero hs).1 (Prod.ext_iff.1 h4).2.symm)
  · intro h
    constructor
    · rw [h1, h.simple]; exact Prod.ext ((sc2_eq_zero hs).2 rfl) ((sc4_eq_zero hs).2 rfl)
    · rw [h2, h.stanton]; exact Prod.ext ((sc2_eq_zero hs).2 rfl) ((sc4_eq_zero hs).2 rfl)
    · rw [h3, h.lambda]; exact Prod.ext ((sc2_eq_zero hs).2 rfl) ((sc4_eq_zero hs).2 rfl)
    · rw [h4, h.opt]; exact Prod.ext ((sc2_eq_zero hs).2 rfl) ((sc4_eq_zero hs).2 rfl)

/-- C63: with all integrals multiplied by `s`, say from hartree to electronvolt, the same amplitudes and multipliers solve the equations and
the energy is `s` times the energy. -/
theorem C63_units {s : K} (hs : s ≠ 0) : (Solves (F.sc s (.id K)) (I.sc s (.id K)) L1 L2 T1 T2 ↔ Solves F I L1 L2 T1 T2) ∧
    cc_energy T1 T2 (F.sc s (.id K)).ov (I.sc s (.id K)).oovv = s * cc_energy T1 T2 F.ov I.oovv :=
  C63_solves F I L1 L2 T1 T2 (.id K) hs
end

/-- The blocks with every element mapped. -/
abbrev _root_.CC.OneE.hom {A B : Type} (σ : K →+* L) (F : OneE A B K) : OneE A B L := F.sc 1 σ
abbrev _root_.CC.TwoE.hom {A B : Type} (σ : K →+* L) (I : TwoE A B K) : TwoE A B L := I.sc 1 σ

/-- C63: real integrals and amplitudes stored in complex arrays give real residuals: those of the real calculation. -/
theorem C63_real_residuals (F : OneE (Fin (n 0)) (Fin (n 1)) ℝ) (I : TwoE (Fin (n 0)) (Fin (n 1)) ℝ) (T1 : Fin (n 1) → Fin (n 0) → ℝ)
    (T2 : Fin (n 1) → Fin (n 1) → Fin (n 0) → Fin (n 0) → ℝ) :
    (∀ a i, (ccsd_stanton (F.hom Complex.ofRealHom) (I.hom Complex.ofRealHom) (hom2 Complex.ofRealHom T1) (hom4 Complex.ofRealHom T2)).1 a i =
      ((ccsd_stanton F I T1 T2).1 a i : ℂ)) ∧
    (∀ a b i j, (ccsd_stanton (F.hom Complex.ofRealHom) (I.hom Complex.ofRealHom) (hom2 Complex.ofRealHom T1) (hom4 Complex.ofRealHom T2)).2 a b i j =
      ((ccsd_stanton F I T1 T2).2 a b i j : ℂ)) := by
  rw [C63_ccsd_stanton]
  refine ⟨fun a i => ?_, fun a b i j => ?_⟩ <;> simp [sc2, sc4]

/-- C63: the energy of the complex conjugate integrals and amplitudes is the complex conjugate energy, and they solve the equations if the
original ones do. -/
theorem C63_conjugate (F : OneE (Fin (n 0)) (Fin (n 1)) ℂ) (I : TwoE (Fin (n 0)) (Fin (n 1)) ℂ) (L1 : Fin (n 0) → Fin (n 1) → ℂ)
    (L2 : Fin (n 0) → Fin (n 0) → Fin (n 1) → Fin (n 1) → ℂ) (T1 : Fin (n 1) → Fin (n 0) → ℂ) (T2 : Fin (n 1) → Fin (n 1) → Fin (n 0) → Fin (n 0) → ℂ) :
    (Solves (F.hom (starRingEnd ℂ)) (I.hom (starRingEnd ℂ)) (hom2 (starRingEnd ℂ) L1) (hom4 (starRingEnd ℂ) L2) (hom2 (starRingEnd ℂ) T1) (hom4 (starRingEnd ℂ) T2) ↔
      Solves F I L1 L2 T1 T2) ∧
    cc_energy (hom2 (starRingEnd ℂ) T1) (hom4 (starRingEnd ℂ) T2) (F.hom (starRingEnd ℂ)).ov (I.hom (starRingEnd ℂ)).oovv =
      (starRingEnd ℂ) (cc_energy T1 T2 F.ov I.oovv) := by
  have h := C63_solves F I L1 L2 T1 T2 (starRingEnd ℂ) one_ne_zero
  rw [one_mul] at h
  exact h

/-- C64: at fixed amplitudes the energy and the residuals of a perturbed Hamiltonian are those of the unperturbed one plus the strength times those of
the perturbation. -/
theorem C64_perturbation (F V : OneE (Fin (n 0)) (Fin (n 1)) K) (I W : TwoE (Fin (n 0)) (Fin (n 1)) K) (T1 : Fin (n 1) → Fin (n 0) → K)
    (T2 : Fin (n 1) → Fin (n 1) → Fin (n 0) → Fin (n 0) → K) (y : K) :
    cc_energy T1 T2 (F.lin 1 y V).ov (I.lin 1 y W).oovv = cc_energy T1 T2 F.ov I.oovv + y * cc_energy T1 T2 V.ov W.oovv ∧
    (∀ a i, (ccsd_simple (F.lin 1 y V) (I.lin 1 y W) T1 T2).1 a i = (ccsd_simple F I T1 T2).1 a i + y * (ccsd_simple V W T1 T2).1 a i) ∧
    ∀ a b i j, (ccsd_simple (F.lin 1 y V) (I.lin 1 y W) T1 T2).2 a b i j = (ccsd_simple F I T1 T2).2 a b i j + y * (ccsd_simple V W T1 T2).2 a b i j := by
  have h := C64_cc_energy 1 y T1 T2 F.ov V.ov I.oovv W.oovv
  rw [one_mul] at h
  refine ⟨h, ?_⟩
  rw [C64_ccsd_simple]
  refine ⟨fun a i => ?_, fun a b i j => ?_⟩ <;> simp [lin2, lin4]

/-- One occupied and one virtual orbital: the amplitude 2 and the multiplier 1/3 solve the equations, in hartree and in electronvolt. -/
theorem solves_one : Solves (n := fun _ => 1) (K := ℝ) ⟨fun _ _ => 0, fun _ _ => 1, fun _ _ => 2, fun _ _ => 1⟩
    ⟨fun _ _ _ _ => 0, fun _ _ _ _ => 0, fun _ _ _ _ => 0, fun _ _ _ _ => 0, fun _ _ _ _ => 0, fun _ _ _ _ => 0, fun _ _ _ _ => 0, fun _ _ _ _ => 0,
      fun _ _ _ _ => 0⟩ (fun _ _ => 1 / 3) (fun _ _ _ _ => 0) (fun _ _ => 2) (fun _ _ _ _ => 0) := by
  constructor <;> refine Prod.ext ?_ ?_ <;> funext <;> simp only [ccsd_simple, ccsd_stanton, ccsd_lambda_simple, ccsd_lambda_opt, S_S, S_D, S_SS, S_SD, S_SSS, D_S, D_D, D_D_ladder, D_D_ring, D_SS, D_SD, D_DD, D_DD_ladder, D_DD_ring, D_SSS, D_SSD, D_SSSS, Stanton, Stanton_ccd, LS_TS, LS_LS, LS_LSTS, LS_LSTD, LS_LSTSS, LS_LD, LS_LDTS, LS_LDTD, LS_LDTSS, LS_LDTSD, LS_LDTSSS, LD_LS, LD_LSTS, LD_LD, LD_LD_ladder, LD_LDTS, LD_LDTD, LD_LDTD_ladder, LD_LDTSS, Lambda_opt, Lambda_opt_int] <;>
    norm_num

example : Solves (n := fun _ => 1) (K := ℝ) ⟨fun _ _ => 27.2114 * 0, fun _ _ => 27.2114 * 1, fun _ _ => 27.2114 * 2, fun _ _ => 27.2114 * 1⟩
    ⟨fun _ _ _ _ => 27.2114 * 0, fun _ _ _ _ => 27.2114 * 0, fun _ _ _ _ => 27.2114 * 0, fun _ _ _ _ => 27.2114 * 0, fun _ _ _ _ => 27.2114 * 0,
      fun _ _ _ _ => 27.2114 * 0, fun _ _ _ _ => 27.2114 * 0, fun _ _ _ _ => 27.2114 * 0, fun _ _ _ _ => 27.2114 * 0⟩
    (fun _ _ => 1 / 3) (fun _ _ _ _ => 0) (fun _ _ => 2) (fun _ _ _ _ => 0) :=
  (C63_units (n := fun _ => 1) (K := ℝ) _ _ _ _ _ _ (s := 27.2114) (by norm_num)).1.2 solves_one

/-- Real amplitudes in real arrays and real integrals in complex ones: both runs of `cc_energy` return, so `C63_real_data` applies. -/
example (t1 : Fin 3 → Fin 2 → ℝ) (t2 : Fin 3 → Fin 3 → Fin 2 → Fin 2 → ℝ) (f : Fin 2 → Fin 3 → ℝ) (eri : Fin 2 → Fin 2 → Fin 3 → Fin 3 → ℝ) :
    ∃ (as : List (Arr ℝ)) (bs : List (Arr ℂ)) (r : Arr ℝ) (r' : Arr ℂ), as.map Arr.cx = [false, false, false, false] ∧ bs.map Arr.cx = [false, false, true, true] ∧
      Prog.cc_energy.nrun (numpy true id) as = .ok [r] ∧ Prog.cc_energy.nrun (numpy true fun x => (x.re : ℂ)) bs = .ok [r'] ∧
      r.val [] = cc_energy t1 t2 f eri ∧ r'.val [] = Complex.ofReal (cc_energy t1 t2 f eri) := by
  let ds : List (Desc (fun k => k + 2) ℝ) := [.two false 1 0 t1, .four false 1 1 0 0 t2, .two false 0 1 f, .four false 0 0 1 1 eri]
  let bs : List (Arr ℂ) := (List.zip [false, false, true, true] (ds.map Desc.arr)).map fun p => { Arr.map Complex.ofRealHom p.2 with cx := p.1 }
  obtain ⟨rs, h1, h2⟩ := (C53_cc_energy (n := fun k => k + 2) (i := false) (t := false) t1 t2 f eri).nrun (as := ds.map Desc.arr) rfl
    (.cons (Desc.arr_is _) (.cons (Desc.arr_is _) (.cons (Desc.arr_is _) (.cons (Desc.arr_is _) .nil))))
  obtain ⟨rs', h3⟩ : ∃ rs', Prog.cc_energy.nrun (numpy true fun x => (x.re : ℂ)) bs = .ok rs' := ⟨_, rfl⟩
  have h4 : List.Forall₂ (Img Complex.ofRealHom) (ds.map Desc.arr) bs :=
    .cons ⟨rfl, fun _ => rfl⟩ (.cons ⟨rfl, fun _ => rfl⟩ (.cons ⟨rfl, fun _ => rfl⟩ (.cons ⟨rfl, fun _ => rfl⟩ .nil)))
  have h5 := C63_real_data true true Prog.cc_energy h4 h1 h3
  cases h2 with
  | @cons _ r _ _ i h2 =>
  cases h2
  cases h5 with
  | @cons _ r' _ _ j h5 =>
  cases h5
  refine ⟨_, bs, r, r', rfl, rfl, h1, h3, i.2.2 [] (by rw [i.2.1]; exact .nil), ?_⟩
  rw [j.2, i.2.2 [] (by rw [i.2.1]; exact .nil)]
  rfl

/-- An energy whose conjugate is another number. -/
example : cc_energy (K := ℂ) (fun (_ : Fin 1) (_ : Fin 1) => 0) (fun _ _ _ _ => Complex.I) (fun _ _ => 0) (fun _ _ _ _ => 4) = Complex.I ∧
    cc_energy (K := ℂ) (fun (_ : Fin 1) (_ : Fin 1) => 0) (hom4 (starRingEnd ℂ) fun _ _ _ _ => Complex.I) (fun _ _ => 0)
      (hom4 (starRingEnd ℂ) fun _ _ _ _ => 4) = -Complex.I := by
  have h : (starRingEnd ℂ) 4 = 4 := map_ofNat _ 4
  constructor <;> simp [cc_energy, cc_energy_d, cc_energy_s1, cc_energy_s2, hom4, h] <;> ring

end Heap
