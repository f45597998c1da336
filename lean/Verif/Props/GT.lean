import Verif.Tensor.Tactic
import Verif.Model.CCGT
import Verif.Spec.Sym
import Verif.Spec.CCSD
/-!
# C01-C04: amplitude equations, generalized spin-orbitals

Identities are polynomial identities in the tensor elements, proved for arbitrary finite index
types `O` (occupied) and `V` (virtual) over an arbitrary field of characteristic zero.
-/
set_option linter.unusedVariables false
namespace CC
open Verif.Tensor

variable {K : Type} [Field K] [CharZero K] {O V : Type} [Fintype O] [Fintype V]

/-! ## C01 -/

/-- The singles returned by the two CCSD implementations agree. -/
theorem C01_singles (F : OneE O V K) (I : TwoE O V K) (hI : AntiI I) (T1 : V → O → K)
    (T2 : V → V → O → O → K) (hT : Anti T2) :
    (ccsd_stanton F I T1 T2).1 = (ccsd_simple F I T1 T2).1 := by
  obtain ⟨h1, h2⟩ := hT
  obtain ⟨_, _, _, _, _, _, _, _, _, _, _, _⟩ := hI
  funext a i
  tensor

/-- The doubles returned by the two CCSD implementations agree. -/
theorem C01_doubles (F : OneE O V K) (I : TwoE O V K) (hI : AntiI I) (T1 : V → O → K)
    (T2 : V → V → O → O → K) (hT : Anti T2) :
    (ccsd_stanton F I T1 T2).2 = (ccsd_simple F I T1 T2).2 := by
  obtain ⟨h1, h2⟩ := hT
  obtain ⟨_, _, _, _, _, _, _, _, _, _, _, _⟩ := hI
  funext a b i j
  tensor

/-- C01: `ccsd_stanton` and `ccsd_simple` are the same function on antisymmetric input. -/
theorem C01_ccsd_stanton_eq_simple (F : OneE O V K) (I : TwoE O V K) (hI : AntiI I)
    (T1 : V → O → K) (T2 : V → V → O → O → K) (hT : Anti T2) :
    ccsd_stanton F I T1 T2 = ccsd_simple F I T1 T2 :=
  Prod.ext (C01_singles F I hI T1 T2 hT) (C01_doubles F I hI T1 T2 hT)

/-- C01, absolute form: the singles of `ccsd_simple` are the textbook singles equation. -/
theorem C01_simple_singles_textbook (F : OneE O V K) (I : TwoE O V K) (hI : AntiI I)
    (T1 : V → O → K) (T2 : V → V → O → O → K) (hT : Anti T2) (a : V) (i : O) :
    (ccsd_simple F I T1 T2).1 a i = Spec.singles F I T1 T2 a i := by
  obtain ⟨h1, h2⟩ := hT
  obtain ⟨_, _, _, _, _, _, _, _, _, _, _, _⟩ := hI
  tensor

/-- C01, absolute form: the doubles of `ccsd_simple` are the textbook doubles equation. -/
theorem C01_simple_doubles_textbook (F : OneE O V K) (I : TwoE O V K) (hI : AntiI I)
    (T1 : V → O → K) (T2 : V → V → O → O → K) (hT : Anti T2) (a b : V) (i j : O) :
    (ccsd_simple F I T1 T2).2 a b i j = Spec.doubles F I T1 T2 a b i j := by
  obtain ⟨h1, h2⟩ := hT
  obtain ⟨_, _, _, _, _, _, _, _, _, _, _, _⟩ := hI
  tensor

/-- C01, absolute form for the implementation with intermediates. -/
theorem C01_stanton_textbook (F : OneE O V K) (I : TwoE O V K) (hI : AntiI I)
    (T1 : V → O → K) (T2 : V → V → O → O → K) (hT : Anti T2) :
    ccsd_stanton F I T1 T2 = (Spec.singles F I T1 T2, Spec.doubles F I T1 T2) := by
  rw [C01_ccsd_stanton_eq_simple F I hI T1 T2 hT]
  refine Prod.ext ?_ ?_
  · funext a i; exact C01_simple_singles_textbook F I hI T1 T2 hT a i
  · funext a b i j; exact C01_simple_doubles_textbook F I hI T1 T2 hT a b i j

example : AntiI I0 ∧ Anti T20 ∧ I0.oovv 0 1 1 0 ≠ 0 ∧ (ccsd_simple F0 I0 T10 T20).1 0 1 = 203 :=
  ⟨I0_anti, T20_anti, by norm_num [I0], by decide +kernel⟩

/-! ## C02 -/

/-- C02: the two CCD implementations agree. -/
theorem C02_ccd_stanton_eq_simple (F : OneE O V K) (I : TwoE O V K) (hI : AntiI I)
    (T2 : V → V → O → O → K) (hT : Anti T2) : ccd_stanton F I T2 = ccd_simple F I T2 := by
  obtain ⟨h1, h2⟩ := hT
  obtain ⟨_, _, _, _, _, _, _, _, _, _, _, _⟩ := hI
  funext a b i j
  tensor

/-- C02: CCD is CCSD at zero singles (no symmetry needed). -/
theorem C02_ccsd_simple_T1_zero (F : OneE O V K) (I : TwoE O V K) (T2 : V → V → O → O → K) :
    (ccsd_simple F I (fun _ _ => 0) T2).2 = ccd_simple F I T2 := by
  funext a b i j
  tensor

/-- C02: the same for the implementation with intermediates. -/
theorem C02_ccsd_stanton_T1_zero (F : OneE O V K) (I : TwoE O V K) (hI : AntiI I)
    (T2 : V → V → O → O → K) (hT : Anti T2) :
    (ccsd_stanton F I (fun _ _ => 0) T2).2 = ccd_stanton F I T2 := by
  rw [C02_ccd_stanton_eq_simple F I hI T2 hT, C01_doubles F I hI _ T2 hT, C02_ccsd_simple_T1_zero]

/-- C02, absolute form. -/
theorem C02_ccd_textbook (F : OneE O V K) (I : TwoE O V K) (hI : AntiI I)
    (T2 : V → V → O → O → K) (hT : Anti T2) :
    ccd_stanton F I T2 = Spec.doubles F I (fun _ _ => 0) T2 := by
  rw [← C02_ccsd_stanton_T1_zero F I hI T2 hT, C01_stanton_textbook F I hI _ T2 hT]

example : AntiI I0 ∧ Anti T20 ∧ (ccd_simple F0 I0 T20) 0 1 0 1 ≠ 0 :=
  ⟨I0_anti, T20_anti, by decide +kernel⟩

/-! ## C03 -/

theorem C03_ccsd_simple (F : OneE O V K) (I : TwoE O V K) (hI : AntiI I)
    (T1 : V → O → K) (T2 : V → V → O → O → K) (hT : Anti T2) :
    Anti (ccsd_simple F I T1 T2).2 := by
  obtain ⟨h1, h2⟩ := hT
  obtain ⟨_, _, _, _, _, _, _, _, _, _, _, _⟩ := hI
  constructor
  · intro a b i j; tensor
  · intro a b i j; tensor

theorem C03_ccsd_stanton (F : OneE O V K) (I : TwoE O V K) (hI : AntiI I)
    (T1 : V → O → K) (T2 : V → V → O → O → K) (hT : Anti T2) :
    Anti (ccsd_stanton F I T1 T2).2 := by
  rw [C01_doubles F I hI T1 T2 hT]; exact C03_ccsd_simple F I hI T1 T2 hT

theorem C03_ccd_simple (F : OneE O V K) (I : TwoE O V K) (hI : AntiI I)
    (T2 : V → V → O → O → K) (hT : Anti T2) : Anti (ccd_simple F I T2) := by
  rw [← C02_ccsd_simple_T1_zero]; exact C03_ccsd_simple F I hI _ T2 hT

theorem C03_ccd_stanton (F : OneE O V K) (I : TwoE O V K) (hI : AntiI I)
    (T2 : V → V → O → O → K) (hT : Anti T2) : Anti (ccd_stanton F I T2) := by
  rw [C02_ccd_stanton_eq_simple F I hI T2 hT]; exact C03_ccd_simple F I hI T2 hT

theorem C03_lccsd_simple (F : OneE O V K) (I : TwoE O V K) (hI : AntiI I)
    (T1 : V → O → K) (T2 : V → V → O → O → K) (hT : Anti T2) :
    Anti (lccsd_simple F I T1 T2).2 := by
  obtain ⟨h1, h2⟩ := hT
  obtain ⟨_, _, _, _, _, _, _, _, _, _, _, _⟩ := hI
  constructor
  · intro a b i j; tensor
  · intro a b i j; tensor

theorem C03_lccd_simple (F : OneE O V K) (I : TwoE O V K) (hI : AntiI I)
    (T2 : V → V → O → O → K) (hT : Anti T2) : Anti (lccd_simple F I T2) := by
  obtain ⟨h1, h2⟩ := hT
  obtain ⟨_, _, _, _, _, _, _, _, _, _, _, _⟩ := hI
  constructor
  · intro a b i j; tensor
  · intro a b i j; tensor

theorem C03_ccd_ladder_simple (I : TwoE O V K) (hI : AntiI I)
    (T2 : V → V → O → O → K) (hT : Anti T2) : Anti (ccd_ladder_simple I T2) := by
  obtain ⟨h1, h2⟩ := hT
  obtain ⟨_, _, _, _, _, _, _, _, _, _, _, _⟩ := hI
  constructor
  · intro a b i j; tensor
  · intro a b i j; tensor

/-- `ccd_ring_simple` keeps only the symmetry under simultaneous exchange of both pairs ... -/
theorem C03_ccd_ring_pair (I : TwoE O V K) (hI : AntiI I)
    (T2 : V → V → O → O → K) (hT : Anti T2) : PairSym (ccd_ring_simple I T2) := by
  obtain ⟨h1, h2⟩ := hT
  obtain ⟨_, _, _, _, _, _, _, _, _, _, _, _⟩ := hI
  intro a b i j; tensor

/-- ... and is not antisymmetric in general: the ring approximation leaves the antisymmetric space. -/
theorem C03_ccd_ring_not_anti :
    ∃ (I : TwoE (Fin 3) (Fin 2) ℚ) (T2 : Fin 2 → Fin 2 → Fin 3 → Fin 3 → ℚ),
      AntiI I ∧ Anti T2 ∧ ¬ Anti12 (ccd_ring_simple I T2) :=
  ⟨I0, T20, I0_anti, T20_anti, fun h => absurd (h 0 1 0 1) (by decide +kernel)⟩

/-- C03, histories: a sequence of amplitudes produced by any damped, denominator-weighted CCSD update
(`ccsd_stanton` or, by C01, `ccsd_simple`) stays antisymmetric for ever.  `w`, `v` are arbitrary
mixing weights; `d` stands for the inverse of a denominator symmetric in both index pairs. -/
theorem C03_iterates (F : OneE O V K) (I : TwoE O V K) (hI : AntiI I)
    (d : V → V → O → O → K) (hd1 : ∀ a b i j, d b a i j = d a b i j)
    (hd2 : ∀ a b i j, d a b j i = d a b i j) (w v : ℕ → K)
    (T1 : ℕ → V → O → K) (T2 : ℕ → V → V → O → O → K) (h0 : Anti (T2 0))
    (hs : ∀ n a b i j, T2 (n+1) a b i j
      = w n * T2 n a b i j + v n * ((ccsd_stanton F I (T1 n) (T2 n)).2 a b i j * d a b i j)) :
    ∀ n, Anti (T2 n) := by
  intro n
  induction n with
  | zero => exact h0
  | succ n ih =>
    have h := C03_ccsd_stanton F I hI (T1 n) (T2 n) ih
    constructor
    · intro a b i j
      rw [hs, hs, ih.a12 a b, h.a12 a b, hd1 a b]; ring
    · intro a b i j
      rw [hs, hs, ih.a34 a b i j, h.a34 a b i j, hd2 a b]; ring

example : AntiI I0 ∧ Anti T20 ∧ ∃ d : Fin 2 → Fin 2 → Fin 3 → Fin 3 → ℚ,
    (∀ a b i j, d b a i j = d a b i j) ∧ (∀ a b i j, d a b j i = d a b i j) ∧ d 0 1 0 1 ≠ 0 :=
  ⟨I0_anti, T20_anti, fun a b i j => 1 / (1 + (a : ℕ) + (b : ℕ) + (i : ℕ) + (j : ℕ)),
    by intros; ring, by intros; ring, by norm_num⟩

/-! ## C04

`ccsd_simple` restricted to the ray `s ↦ (s T1, s T2)` is `lccsd_simple` plus a polynomial in `s` without
constant and linear part; `lccsd_simple` is affine.  So `lccsd_simple` is the degree-≤1 truncation. -/

theorem C04_lccsd_affine (F : OneE O V K) (I : TwoE O V K) (T1 U1 : V → O → K)
    (T2 U2 : V → V → O → O → K) (s t : K) :
    lccsd_simple F I (fun a i => s * T1 a i + t * U1 a i)
        (fun a b i j => s * T2 a b i j + t * U2 a b i j)
      = (fun a i => s * (lccsd_simple F I T1 T2).1 a i + t * (lccsd_simple F I U1 U2).1 a i
            + (1 - s - t) * F.vo a i,
         fun a b i j => s * (lccsd_simple F I T1 T2).2 a b i j + t * (lccsd_simple F I U1 U2).2 a b i j
            + (1 - s - t) * I.vvoo a b i j) := by
  refine Prod.ext ?_ ?_
  · funext a i; tensor
  · funext a b i j; tensor

theorem C04_ccsd_eq_lccsd_add (F : OneE O V K) (I : TwoE O V K) (T1 : V → O → K)
    (T2 : V → V → O → O → K) :
    ∃ (A B : V → O → K) (C D E : V → V → O → O → K), ∀ s : K,
      ccsd_simple F I (fun a i => s * T1 a i) (fun a b i j => s * T2 a b i j)
      = (fun a i => (lccsd_simple F I (fun a i => s * T1 a i) (fun a b i j => s * T2 a b i j)).1 a i
            + s ^ 2 * A a i + s ^ 3 * B a i,
         fun a b i j =>
          (lccsd_simple F I (fun a i => s * T1 a i) (fun a b i j => s * T2 a b i j)).2 a b i j
            + s ^ 2 * C a b i j + s ^ 3 * D a b i j + s ^ 4 * E a b i j) := by
  refine ⟨S_SD (S_SS (fun _ _ => 0) F I T1 1) F I T1 T2 1, S_SSS (fun _ _ => 0) F I T1 1,
    D_DD (D_SD (D_SS (fun _ _ _ _ => 0) F I T1 1) F I T1 T2 1) F I T2 1,
    D_SSD (D_SSS (fun _ _ _ _ => 0) F I T1 1) F I T1 T2 1,
    D_SSSS (fun _ _ _ _ => 0) F I T1 1, fun s => Prod.ext ?_ ?_⟩
  · funext a i
    rw [show s ^ 2 = s * s by ring, show s ^ 3 = s * s * s by ring]
    tensor
  · funext a b i j
    rw [show s ^ 2 = s * s by ring, show s ^ 3 = s * s * s by ring,
      show s ^ 4 = s * s * s * s by ring]
    tensor

/-- C04 for CCD: `lccd_simple` is affine and `ccd_simple` adds a purely quadratic term. -/
theorem C04_ccd_eq_lccd_add (F : OneE O V K) (I : TwoE O V K) (T2 : V → V → O → O → K) :
    ∃ C : V → V → O → O → K, ∀ s : K,
      ccd_simple F I (fun a b i j => s * T2 a b i j)
      = fun a b i j => lccd_simple F I (fun a b i j => s * T2 a b i j) a b i j + s ^ 2 * C a b i j := by
  refine ⟨D_DD (fun _ _ _ _ => 0) F I T2 1, fun s => ?_⟩
  funext a b i j
  rw [show s ^ 2 = s * s by ring]
  tensor

theorem C04_lccd_affine (F : OneE O V K) (I : TwoE O V K) (T2 U2 : V → V → O → O → K) (s t : K) :
    lccd_simple F I (fun a b i j => s * T2 a b i j + t * U2 a b i j)
      = fun a b i j => s * lccd_simple F I T2 a b i j + t * lccd_simple F I U2 a b i j
            + (1 - s - t) * I.vvoo a b i j := by
  funext a b i j; tensor

/-- C04: LCCD is LCCSD at zero singles. -/
theorem C04_lccsd_T1_zero (F : OneE O V K) (I : TwoE O V K) (T2 : V → V → O → O → K) :
    (lccsd_simple F I (fun _ _ => 0) T2).2 = lccd_simple F I T2 := by
  funext a b i j; tensor

example : (lccsd_simple F0 I0 T10 T20).1 0 1 ≠ (ccsd_simple F0 I0 T10 T20).1 0 1 := by decide +kernel

/-! ## C47 -/

/-- C47: `ccd_ladder_simple` is the driving term, the two ladders and the quadratic ladder term, with the factors of the textbook
doubles equation. -/
theorem C47_ladder (I : TwoE O V K) (T2 : V → V → O → O → K) (a b : V) (i j : O) :
    ccd_ladder_simple I T2 a b i j = I.vvoo a b i j + (1/2) * ∑ c, ∑ d, I.vvvv a b c d * T2 c d i j
      + (1/2) * ∑ k, ∑ l, I.oooo k l i j * T2 a b k l
      + (1/4) * ∑ k, ∑ l, ∑ c, ∑ d, I.oovv k l c d * T2 c d i j * T2 a b k l := by
  tensor

/-- C47: `ccd_ring_simple` is the driving term and the rings `⟨kb||cj⟩ t(ac,ik)`, without the exchange of `i`, `j` (or `a`, `b`) alone. -/
theorem C47_ring (I : TwoE O V K) (T2 : V → V → O → O → K) (a b : V) (i j : O) :
    ccd_ring_simple I T2 a b i j = I.vvoo a b i j + ∑ k, ∑ c, Spec.ovvo I k b c j * T2 a c i k
      + ∑ k, ∑ c, Spec.ovvo I k a c i * T2 b c j k
      + ∑ k, ∑ l, ∑ c, ∑ d, T2 a c i k * I.oovv k l c d * T2 d b l j := by
  tensor

/-- C47: the ladder terms are, unchanged, part of CCD: what CCD adds consists of the one-electron terms and contractions that connect a
particle line of one amplitude with a hole line. -/
theorem C47_ccd_sub_ladder (F : OneE O V K) (I : TwoE O V K) (hI : AntiI I) (T2 : V → V → O → O → K) (hT : Anti T2)
    (a b : V) (i j : O) :
    ccd_simple F I T2 a b i j - ccd_ladder_simple I T2 a b i j
      = Spec.Pab (fun a b i j => ∑ c, F.vv b c * T2 a c i j) a b i j
      - Spec.Pij (fun a b i j => ∑ k, F.oo k j * T2 a b i k) a b i j
      + Spec.Pij (Spec.Pab fun a b i j => ∑ k, ∑ c, Spec.ovvo I k b c j * T2 a c i k) a b i j
      + (1/2) * Spec.Pij (Spec.Pab fun a b i j => ∑ k, ∑ l, ∑ c, ∑ d, I.oovv k l c d * T2 a c i k * T2 d b l j) a b i j
      - (1/2) * Spec.Pab (fun a b i j => ∑ k, ∑ l, ∑ c, ∑ d, I.oovv k l c d * T2 a c i j * T2 b d k l) a b i j
      - (1/2) * Spec.Pij (fun a b i j => ∑ k, ∑ l, ∑ c, ∑ d, I.oovv k l c d * T2 a b i k * T2 c d j l) a b i j := by
  obtain ⟨h1, h2⟩ := hT
  obtain ⟨_, _, _, _, _, _, _, _, _, _, _, _⟩ := hI
  tensor

/-- C47: antisymmetrising the rings gives the ring part of CCD: linear ring terms once, the quadratic one with the factor 1/2. -/
theorem C47_ring_antisymmetrised (I : TwoE O V K) (hI : AntiI I) (T2 : V → V → O → O → K) (hT : Anti T2) (a b : V) (i j : O) :
    ccd_ring_simple I T2 a b i j - ccd_ring_simple I T2 b a i j
      = 2 * I.vvoo a b i j
      + Spec.Pij (Spec.Pab fun a b i j => ∑ k, ∑ c, Spec.ovvo I k b c j * T2 a c i k) a b i j
      + (1/2) * Spec.Pij (Spec.Pab fun a b i j => ∑ k, ∑ l, ∑ c, ∑ d, I.oovv k l c d * T2 a c i k * T2 d b l j) a b i j := by
  obtain ⟨h1, h2⟩ := hT
  obtain ⟨_, _, _, _, _, _, _, _, _, _, _, _⟩ := hI
  tensor

example : AntiI I0 ∧ Anti T20 ∧ ccd_ladder_simple I0 T20 0 1 0 1 ≠ ccd_simple F0 I0 T20 0 1 0 1 ∧
    ccd_ring_simple I0 T20 0 1 0 1 ≠ I0.vvoo 0 1 0 1 :=
  ⟨I0_anti, T20_anti, by decide +kernel, by decide +kernel⟩

end CC
