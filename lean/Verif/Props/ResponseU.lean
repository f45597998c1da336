import Verif.Props.Response
import Verif.Props.UT
import Verif.Props.UL
import Verif.Props.URdm
/-!
# C56 for the unrestricted routines
-/
set_option linter.unusedSectionVars false
set_option linter.unusedVariables false
namespace CC
open Finset

section algebra
variable {K : Type} [Field K] [CharZero K] {Oa Va Ob Vb : Type} [Fintype Oa] [Fintype Va] [Fintype Ob] [Fintype Vb]

theorem T2_spin_anti {A B C D : Type} {Taa : A → A → C → C → K} (Tab : A → B → C → D → K) {Tbb : B → B → D → D → K} (ha : Anti Taa) (hb : Anti Tbb) :
    Anti (T2_to_spin Taa Tab Tbb) := by
  obtain ⟨a1, a2⟩ := ha
  obtain ⟨b1, b2⟩ := hb
  constructor
  · rintro (a | a) (b | b) (c | c) (d | d) <;> simp only [T2_to_spin, neg_zero, neg_neg]
    · apply a1
    · apply b1
  · rintro (a | a) (b | b) (c | c) (d | d) <;> simp only [T2_to_spin, neg_zero, neg_neg]
    · apply a2
    · apply b2

theorem int_spin_anti {Ia : TwoE Oa Va K} {Ib : TwoE Ob Vb K} (Iab : TwoEFull Oa Va Ob Vb K) (ha : AntiI Ia) (hb : AntiI Ib) :
    AntiI (int_to_spin2 Ia Ib Iab) := by
  obtain ⟨a1, a2, a3, a4, a5, a6, a7, a8, a9, a10, a11, a12⟩ := ha
  obtain ⟨b1, b2, b3, b4, b5, b6, b7, b8, b9, b10, b11, b12⟩ := hb
  constructor <;> rintro (p | p) (q | q) (r | r) (s | s) <;> simp only [int_to_spin2, int_to_spin_block, neg_zero, neg_neg]
  all_goals first | apply a1 | apply a2 | apply a3 | apply a4 | apply a5 | apply a6 | apply a7 | apply a8 | apply a9 | apply a10 | apply a11 | apply a12 | apply b1 | apply b2 | apply b3 | apply b4 | apply b5 | apply b6 | apply b7 | apply b8 | apply b9 | apply b10 | apply b11 | apply b12

/-- Contraction of one- and two-electron integrals with the density matrices returned by the unrestricted routines. -/
def utraceRdm (Fa : OneE Oa Va K) (Fb : OneE Ob Vb K) (Ia : TwoE Oa Va K) (Ib : TwoE Ob Vb K) (Iab : TwoEFull Oa Va Ob Vb K)
    (L1a : Oa → Va → K) (L1b : Ob → Vb → K) (L2aa : Oa → Oa → Va → Va → K) (L2ab : Oa → Ob → Va → Vb → K) (L2bb : Ob → Ob → Vb → Vb → K)
    (T1a : Va → Oa → K) (T1b : Vb → Ob → K) (T2aa : Va → Va → Oa → Oa → K) (T2ab : Va → Vb → Oa → Ob → K) (T2bb : Vb → Vb → Ob → Ob → K) : K :=
  let ba := uccsd_1rdm_ba T1a T1b T2aa T2ab T2bb L1a L1b L2aa L2ab L2bb
  let ji := uccsd_1rdm_ji T1a T1b T2aa T2ab T2bb L1a L1b L2aa L2ab L2bb
  let ai := uccsd_1rdm_ai T1a T1b T2aa T2ab T2bb L1a L1b L2aa L2ab L2bb 1
  let abij := uccsd_2rdm_abij T1a T1b T2aa T2ab T2bb L1a L1b L2aa L2ab L2bb 1
  let cdab := uccsd_2rdm_cdab T1a T1b T2aa T2ab T2bb L1a L1b L2aa L2ab L2bb
  let ciab := uccsd_2rdm_ciab T1a T1b T2aa T2ab T2bb L1a L1b L2aa L2ab L2bb
  let bcai := uccsd_2rdm_bcai T1a T1b T2aa T2ab T2bb L1a L1b L2aa L2ab L2bb
  let bjai := uccsd_2rdm_bjai T1a T1b T2aa T2ab T2bb L1a L1b L2aa L2ab L2bb
  let jkai := uccsd_2rdm_jkai T1a T1b T2aa T2ab T2bb L1a L1b L2aa L2ab L2bb
  let kaij := uccsd_2rdm_kaij T1a T1b T2aa T2ab T2bb L1a L1b L2aa L2ab L2bb
  let klij := uccsd_2rdm_klij T1a T1b T2aa T2ab T2bb L1a L1b L2aa L2ab L2bb
  (∑ a, ∑ b, Fa.vv a b * ba.1 b a) + (∑ a, ∑ b, Fb.vv a b * ba.2 b a)
    + (∑ i, ∑ j, Fa.oo i j * ji.1 j i) + (∑ i, ∑ j, Fb.oo i j * ji.2 j i)
    + (∑ a, ∑ i, Fa.vo a i * L1a i a) + (∑ a, ∑ i, Fb.vo a i * L1b i a)
    + (∑ i, ∑ a, Fa.ov i a * ai.1 a i) + (∑ i, ∑ a, Fb.ov i a * ai.2 a i)
    + ((1/4) * (∑ a, ∑ b, ∑ i, ∑ j, Ia.vvoo a b i j * L2aa i j a b) + (1/4) * (∑ a, ∑ b, ∑ i, ∑ j, Ib.vvoo a b i j * L2bb i j a b)
      + ∑ a, ∑ b, ∑ i, ∑ j, Iab.vvoo a b i j * L2ab i j a b)
    + ((1/4) * (∑ i, ∑ j, ∑ a, ∑ b, Ia.oovv i j a b * abij.1 a b i j) + (1/4) * (∑ i, ∑ j, ∑ a, ∑ b, Ib.oovv i j a b * abij.2.1 a b i j)
      + ∑ i, ∑ j, ∑ a, ∑ b, Iab.oovv i j a b * abij.2.2 a b i j)
    + ((1/4) * (∑ a, ∑ b, ∑ c, ∑ d, Ia.vvvv a b c d * cdab.1 c d a b) + (1/4) * (∑ a, ∑ b, ∑ c, ∑ d, Ib.vvvv a b c d * cdab.2.1 c d a b)
      + ∑ a, ∑ b, ∑ c, ∑ d, Iab.vvvv a b c d * cdab.2.2 c d a b)
    + ((1/2) * (∑ a, ∑ b, ∑ c, ∑ i, Ia.vvvo a b c i * ciab.1 c i a b) + (1/2) * (∑ a, ∑ b, ∑ c, ∑ i, Ib.vvvo a b c i * ciab.2.1 c i a b)
      + (∑ a, ∑ b, ∑ c, ∑ i, Iab.vvvo a b c i * ciab.2.2.1 c i a b) + ∑ b, ∑ a, ∑ i, ∑ c, Iab.vvov b a i c * ciab.2.2.2 c i a b)
    + ((1/2) * (∑ a, ∑ i, ∑ b, ∑ c, Ia.vovv a i b c * bcai.1 b c a i) + (1/2) * (∑ a, ∑ i, ∑ b, ∑ c, Ib.vovv a i b c * bcai.2.1 b c a i)
      + (∑ a, ∑ i, ∑ b, ∑ c, Iab.vovv a i b c * bcai.2.2.1 b c a i) + ∑ i, ∑ a, ∑ c, ∑ b, Iab.ovvv i a c b * bcai.2.2.2 b c a i)
    + ((∑ a, ∑ i, ∑ b, ∑ j, Ia.vovo a i b j * bjai.1 b j a i) + (∑ a, ∑ i, ∑ b, ∑ j, Ib.vovo a i b j * bjai.2.1 b j a i)
      + (∑ a, ∑ i, ∑ b, ∑ j, Iab.vovo a i b j * bjai.2.2.1 b j a i) + (∑ i, ∑ a, ∑ j, ∑ b, Iab.ovov i a j b * bjai.2.2.2.2.2 b j a i)
      - (∑ a, ∑ i, ∑ j, ∑ b, Iab.voov a i j b * bjai.2.2.2.2.1 b j a i) - (∑ i, ∑ a, ∑ b, ∑ j, Iab.ovvo i a b j * bjai.2.2.2.1 b j a i))
    + ((1/2) * (∑ a, ∑ i, ∑ j, ∑ k, Ia.vooo a i j k * jkai.1 j k a i) + (1/2) * (∑ a, ∑ i, ∑ j, ∑ k, Ib.vooo a i j k * jkai.2.1 j k a i)
      + (∑ a, ∑ i, ∑ j, ∑ k, Iab.vooo a i j k * jkai.2.2.1 j k a i) + ∑ i, ∑ a, ∑ k, ∑ j, Iab.ovoo i a k j * jkai.2.2.2 j k a i)
    + ((1/2) * (∑ i, ∑ j, ∑ k, ∑ a, Ia.ooov i j k a * kaij.1 k a i j) + (1/2) * (∑ i, ∑ j, ∑ k, ∑ a, Ib.ooov i j k a * kaij.2.1 k a i j)
      + (∑ i, ∑ j, ∑ k, ∑ a, Iab.ooov i j k a * kaij.2.2.1 k a i j) + ∑ j, ∑ i, ∑ a, ∑ k, Iab.oovo j i a k * kaij.2.2.2 k a i j)
    + ((1/4) * (∑ i, ∑ j, ∑ k, ∑ l, Ia.oooo i j k l * klij.1 k l i j) + (1/4) * (∑ i, ∑ j, ∑ k, ∑ l, Ib.oooo i j k l * klij.2.1 k l i j)
      + ∑ i, ∑ j, ∑ k, ∑ l, Iab.oooo i j k l * klij.2.2 k l i j)

set_option maxHeartbeats 4000000 in
theorem trace_spin (Fa : OneE Oa Va K) (Fb : OneE Ob Vb K) (Ia : TwoE Oa Va K) (Ib : TwoE Ob Vb K) (Iab : TwoEFull Oa Va Ob Vb K)
    (L1a : Oa → Va → K) (L1b : Ob → Vb → K) (L2aa : Oa → Oa → Va → Va → K) (L2ab : Oa → Ob → Va → Vb → K) (L2bb : Ob → Ob → Vb → Vb → K)
    (T1a : Va → Oa → K) (T1b : Vb → Ob → K) (T2aa : Va → Va → Oa → Oa → K) (T2ab : Va → Vb → Oa → Ob → K) (T2bb : Vb → Vb → Ob → Ob → K)
    (hTa : Anti T2aa) (hTb : Anti T2bb) (hLa : Anti L2aa) (hLb : Anti L2bb) :
    traceRdm (F_to_spin Fa Fb) (int_to_spin2 Ia Ib Iab) (T1_to_spin L1a L1b) (T2_to_spin L2aa L2ab L2bb) (T1_to_spin T1a T1b) (T2_to_spin T2aa T2ab T2bb)
      = utraceRdm Fa Fb Ia Ib Iab L1a L1b L2aa L2ab L2bb T1a T1b T2aa T2ab T2bb := by
  unfold traceRdm utraceRdm
  rw [C17_ba T1a T1b T2aa T2ab T2bb L1a L1b L2aa L2ab L2bb hTa hTb hLa hLb, C17_ji T1a T1b T2aa T2ab T2bb L1a L1b L2aa L2ab L2bb hTa hTb hLa hLb, C17_ai T1a T1b T2aa T2ab T2bb L1a L1b L2aa L2ab L2bb 1 hTa hTb hLa hLb, C18_abij T1a T1b T2aa T2ab T2bb L1a L1b L2aa L2ab L2bb 1 hTa hTb hLa hLb, C18_cdab T1a T1b T2aa T2ab T2bb L1a L1b L2aa L2ab L2bb hTa hTb hLa hLb, C18_ciab T1a T1b T2aa T2ab T2bb L1a L1b L2aa L2ab L2bb hTa hTb hLa hLb, C18_bcai T1a T1b T2aa T2ab T2bb L1a L1b L2aa L2ab L2bb hTa hTb hLa hLb, C18_bjai T1a T1b T2aa T2ab T2bb L1a L1b L2aa L2ab L2bb hTa hTb hLa hLb, C18_jkai T1a T1b T2aa T2ab T2bb L1a L1b L2aa L2ab L2bb hTa hTb hLa hLb, C18_kaij T1a T1b T2aa T2ab T2bb L1a L1b L2aa L2ab L2bb hTa hTb hLa hLb, C18_klij T1a T1b T2aa T2ab T2bb L1a L1b L2aa L2ab L2bb hTa hTb hLa hLb]
  generalize uccsd_1rdm_ba T1a T1b T2aa T2ab T2bb L1a L1b L2aa L2ab L2bb = Dba
  generalize uccsd_1rdm_ji T1a T1b T2aa T2ab T2bb L1a L1b L2aa L2ab L2bb = Dji
  generalize uccsd_1rdm_ai T1a T1b T2aa T2ab T2bb L1a L1b L2aa L2ab L2bb 1 = Dai
  generalize uccsd_2rdm_abij T1a T1b T2aa T2ab T2bb L1a L1b L2aa L2ab L2bb 1 = Dabij
  generalize uccsd_2rdm_cdab T1a T1b T2aa T2ab T2bb L1a L1b L2aa L2ab L2bb = Dcdab
  generalize uccsd_2rdm_ciab T1a T1b T2aa T2ab T2bb L1a L1b L2aa L2ab L2bb = Dciab
  generalize uccsd_2rdm_bcai T1a T1b T2aa T2ab T2bb L1a L1b L2aa L2ab L2bb = Dbcai
  generalize uccsd_2rdm_bjai T1a T1b T2aa T2ab T2bb L1a L1b L2aa L2ab L2bb = Dbjai
  generalize uccsd_2rdm_jkai T1a T1b T2aa T2ab T2bb L1a L1b L2aa L2ab L2bb = Djkai
  generalize uccsd_2rdm_kaij T1a T1b T2aa T2ab T2bb L1a L1b L2aa L2ab L2bb = Dkaij
  generalize uccsd_2rdm_klij T1a T1b T2aa T2ab T2bb L1a L1b L2aa L2ab L2bb = Dklij
  clear hTa hTb hLa hLb
  tensor_split [F_to_spin, int_to_spin2, int_to_spin_block, T1_to_spin, T2_to_spin, blk2]

end algebra

section analysis
variable {𝕜 : Type} [NontriviallyNormedField 𝕜] [CharZero 𝕜] {Oa Va Ob Vb : Type} [Fintype Oa] [Fintype Va] [Fintype Ob] [Fintype Vb]

/-- Componentwise derivative of the sixteen blocks of mixed-spin integrals that depend on a parameter. -/
structure TwoEFull.HasDeriv (I : 𝕜 → TwoEFull Oa Va Ob Vb 𝕜) (I' : TwoEFull Oa Va Ob Vb 𝕜) (x : 𝕜) : Prop where
  oooo : ∀ p q r s, HasDerivAt (fun ε => (I ε).oooo p q r s) (I'.oooo p q r s) x
  ooov : ∀ p q r s, HasDerivAt (fun ε => (I ε).ooov p q r s) (I'.ooov p q r s) x
  oovo : ∀ p q r s, HasDerivAt (fun ε => (I ε).oovo p q r s) (I'.oovo p q r s) x
  oovv : ∀ p q r s, HasDerivAt (fun ε => (I ε).oovv p q r s) (I'.oovv p q r s) x
  ovoo : ∀ p q r s, HasDerivAt (fun ε => (I ε).ovoo p q r s) (I'.ovoo p q r s) x
  ovov : ∀ p q r s, HasDerivAt (fun ε => (I ε).ovov p q r s) (I'.ovov p q r s) x
  ovvo : ∀ p q r s, HasDerivAt (fun ε => (I ε).ovvo p q r s) (I'.ovvo p q r s) x
  ovvv : ∀ p q r s, HasDerivAt (fun ε => (I ε).ovvv p q r s) (I'.ovvv p q r s) x
  vooo : ∀ p q r s, HasDerivAt (fun ε => (I ε).vooo p q r s) (I'.vooo p q r s) x
  voov : ∀ p q r s, HasDerivAt (fun ε => (I ε).voov p q r s) (I'.voov p q r s) x
  vovo : ∀ p q r s, HasDerivAt (fun ε => (I ε).vovo p q r s) (I'.vovo p q r s) x
  vovv : ∀ p q r s, HasDerivAt (fun ε => (I ε).vovv p q r s) (I'.vovv p q r s) x
  vvoo : ∀ p q r s, HasDerivAt (fun ε => (I ε).vvoo p q r s) (I'.vvoo p q r s) x
  vvov : ∀ p q r s, HasDerivAt (fun ε => (I ε).vvov p q r s) (I'.vvov p q r s) x
  vvvo : ∀ p q r s, HasDerivAt (fun ε => (I ε).vvvo p q r s) (I'.vvvo p q r s) x
  vvvv : ∀ p q r s, HasDerivAt (fun ε => (I ε).vvvv p q r s) (I'.vvvv p q r s) x

theorem F_spin_deriv {Fa : 𝕜 → OneE Oa Va 𝕜} {Fa' : OneE Oa Va 𝕜} {Fb : 𝕜 → OneE Ob Vb 𝕜} {Fb' : OneE Ob Vb 𝕜} {x : 𝕜}
    (ha : OneE.HasDeriv Fa Fa' x) (hb : OneE.HasDeriv Fb Fb' x) : OneE.HasDeriv (fun ε => F_to_spin (Fa ε) (Fb ε)) (F_to_spin Fa' Fb') x := by
  constructor <;> rintro (p | p) (q | q)
  all_goals first | exact ha.oo _ _ | exact hb.oo _ _ | exact ha.ov _ _ | exact hb.ov _ _ | exact ha.vo _ _ | exact hb.vo _ _ | exact ha.vv _ _ | exact hb.vv _ _ | exact hasDerivAt_const _ _

set_option maxHeartbeats 4000000 in
theorem int_spin_deriv {Ia : 𝕜 → TwoE Oa Va 𝕜} {Ia' : TwoE Oa Va 𝕜} {Ib : 𝕜 → TwoE Ob Vb 𝕜} {Ib' : TwoE Ob Vb 𝕜} {I : 𝕜 → TwoEFull Oa Va Ob Vb 𝕜}
    {I' : TwoEFull Oa Va Ob Vb 𝕜} {x : 𝕜} (ha : TwoE.HasDeriv Ia Ia' x) (hb : TwoE.HasDeriv Ib Ib' x) (h : TwoEFull.HasDeriv I I' x) :
    TwoE.HasDeriv (fun ε => int_to_spin2 (Ia ε) (Ib ε) (I ε)) (int_to_spin2 Ia' Ib' I') x := by
  constructor
  · rintro (p | p) (q | q) (r | r) (s | s)
    all_goals first | exact hasDerivAt_const _ _ | exact ha.vvvv _ _ _ _ | exact hb.vvvv _ _ _ _ | exact h.vvvv _ _ _ _ | exact (h.vvvv _ _ _ _).fun_neg
  · rintro (p | p) (q | q) (r | r) (s | s)
    all_goals first | exact hasDerivAt_const _ _ | exact ha.vvvo _ _ _ _ | exact hb.vvvo _ _ _ _ | exact h.vvvo _ _ _ _ | exact (h.vvvo _ _ _ _).fun_neg | exact h.vvov _ _ _ _ | exact (h.vvov _ _ _ _).fun_neg
  · rintro (p | p) (q | q) (r | r) (s | s)
    all_goals first | exact hasDerivAt_const _ _ | exact ha.vovv _ _ _ _ | exact hb.vovv _ _ _ _ | exact h.vovv _ _ _ _ | exact (h.vovv _ _ _ _).fun_neg | exact h.ovvv _ _ _ _ | exact (h.ovvv _ _ _ _).fun_neg
  · rintro (p | p) (q | q) (r | r) (s | s)
    all_goals first | exact hasDerivAt_const _ _ | exact ha.vvoo _ _ _ _ | exact hb.vvoo _ _ _ _ | exact h.vvoo _ _ _ _ | exact (h.vvoo _ _ _ _).fun_neg
  · rintro (p | p) (q | q) (r | r) (s | s)
    all_goals first | exact hasDerivAt_const _ _ | exact ha.vovo _ _ _ _ | exact hb.vovo _ _ _ _ | exact h.vovo _ _ _ _ | exact (h.vovo _ _ _ _).fun_neg | exact h.ovov _ _ _ _ | exact (h.ovov _ _ _ _).fun_neg | exact h.voov _ _ _ _ | exact (h.voov _ _ _ _).fun_neg | exact h.ovvo _ _ _ _ | exact (h.ovvo _ _ _ _).fun_neg
  · rintro (p | p) (q | q) (r | r) (s | s)
    all_goals first | exact hasDerivAt_const _ _ | exact ha.oovv _ _ _ _ | exact hb.oovv _ _ _ _ | exact h.oovv _ _ _ _ | exact (h.oovv _ _ _ _).fun_neg
  · rintro (p | p) (q | q) (r | r) (s | s)
    all_goals first | exact hasDerivAt_const _ _ | exact ha.vooo _ _ _ _ | exact hb.vooo _ _ _ _ | exact h.vooo _ _ _ _ | exact (h.vooo _ _ _ _).fun_neg | exact h.ovoo _ _ _ _ | exact (h.ovoo _ _ _ _).fun_neg
  · rintro (p | p) (q | q) (r | r) (s | s)
    all_goals first | exact hasDerivAt_const _ _ | exact ha.ooov _ _ _ _ | exact hb.ooov _ _ _ _ | exact h.ooov _ _ _ _ | exact (h.ooov _ _ _ _).fun_neg | exact h.oovo _ _ _ _ | exact (h.oovo _ _ _ _).fun_neg
  · rintro (p | p) (q | q) (r | r) (s | s)
    all_goals first | exact hasDerivAt_const _ _ | exact ha.oooo _ _ _ _ | exact hb.oooo _ _ _ _ | exact h.oooo _ _ _ _ | exact (h.oooo _ _ _ _).fun_neg

/-- C56 for the unrestricted routines: the derivative of `ucc_energy` is the contraction of the derivatives of the integrals with the
unrestricted density matrices. -/
theorem C56_unrestricted {Fa : 𝕜 → OneE Oa Va 𝕜} {Fa' : OneE Oa Va 𝕜} {Fb : 𝕜 → OneE Ob Vb 𝕜} {Fb' : OneE Ob Vb 𝕜}
    {Ia : 𝕜 → TwoE Oa Va 𝕜} {Ia' : TwoE Oa Va 𝕜} {Ib : 𝕜 → TwoE Ob Vb 𝕜} {Ib' : TwoE Ob Vb 𝕜} {Iab : 𝕜 → TwoEFull Oa Va Ob Vb 𝕜}
    {Iab' : TwoEFull Oa Va Ob Vb 𝕜} {T1a : 𝕜 → Va → Oa → 𝕜} {T1b : 𝕜 → Vb → Ob → 𝕜} {T2aa : 𝕜 → Va → Va → Oa → Oa → 𝕜}
    {T2ab : 𝕜 → Va → Vb → Oa → Ob → 𝕜} {T2bb : 𝕜 → Vb → Vb → Ob → Ob → 𝕜}
    (L1a : Oa → Va → 𝕜) (L1b : Ob → Vb → 𝕜) (L2aa : Oa → Oa → Va → Va → 𝕜) (L2ab : Oa → Ob → Va → Vb → 𝕜) (L2bb : Ob → Ob → Vb → Vb → 𝕜) {x : 𝕜}
    (hFa : OneE.HasDeriv Fa Fa' x) (hFb : OneE.HasDeriv Fb Fb' x) (hIa : TwoE.HasDeriv Ia Ia' x) (hIb : TwoE.HasDeriv Ib Ib' x)
    (hIab : TwoEFull.HasDeriv Iab Iab' x)
    (h1a : ∀ a i, DifferentiableAt 𝕜 (fun ε => T1a ε a i) x) (h1b : ∀ a i, DifferentiableAt 𝕜 (fun ε => T1b ε a i) x)
    (h2aa : ∀ a b i j, DifferentiableAt 𝕜 (fun ε => T2aa ε a b i j) x) (h2ab : ∀ a b i j, DifferentiableAt 𝕜 (fun ε => T2ab ε a b i j) x)
    (h2bb : ∀ a b i j, DifferentiableAt 𝕜 (fun ε => T2bb ε a b i j) x)
    (aIa : ∀ ε, AntiI (Ia ε)) (aIb : ∀ ε, AntiI (Ib ε)) (aTa : ∀ ε, Anti (T2aa ε)) (aTb : ∀ ε, Anti (T2bb ε)) (aLa : Anti L2aa) (aLb : Anti L2bb)
    (hR : ∀ᶠ ε in nhds x, uccsd_stanton (Fa ε) (Fb ε) (Ia ε) (Ib ε) (Iab ε) (T1a ε, T1b ε) (T2aa ε, T2ab ε, T2bb ε)
      = ((fun _ _ => 0, fun _ _ => 0), (fun _ _ _ _ => 0, fun _ _ _ _ => 0, fun _ _ _ _ => 0)))
    (hL : uccsd_lambda_opt (Fa x) (Fb x) (Ia x) (Ib x) (Iab x) (L1a, L1b) (L2aa, L2ab, L2bb) (T1a x, T1b x) (T2aa x, T2ab x, T2bb x)
      = ((fun _ _ => 0, fun _ _ => 0), (fun _ _ _ _ => 0, fun _ _ _ _ => 0, fun _ _ _ _ => 0))) :
    HasDerivAt (fun ε => ucc_energy (T1a ε, T1b ε) (T2aa ε, T2ab ε, T2bb ε) (Fa ε).ov (Fb ε).ov (Ia ε).oovv (Ib ε).oovv (Iab ε).oovv)
      (utraceRdm Fa' Fb' Ia' Ib' Iab' L1a L1b L2aa L2ab L2bb (T1a x) (T1b x) (T2aa x) (T2ab x) (T2bb x)) x := by
  have z1 : ∀ {A B C D : Type}, T1_to_spin (K := 𝕜) (fun (_ : A) (_ : B) => 0) (fun (_ : C) (_ : D) => 0) = fun _ _ => 0 := fun {A B C D} => by
    funext a i; rcases a with a | a <;> rcases i with i | i <;> rfl
  have z2 : ∀ {A B C D : Type}, T2_to_spin (K := 𝕜) (fun (_ : A) (_ : A) (_ : C) (_ : C) => 0) (fun (_ : A) (_ : B) (_ : C) (_ : D) => 0)
      (fun (_ : B) (_ : B) (_ : D) (_ : D) => 0) = fun _ _ _ _ => 0 := fun {A B C D} => by
    funext a b i j; rcases a with a | a <;> rcases b with b | b <;> rcases i with i | i <;> rcases j with j | j <;> simp [T2_to_spin]
  rw [← trace_spin _ _ _ _ _ _ _ _ _ _ _ _ _ _ _ (aTa x) (aTb x) aLa aLb]
  simp only [← C12_ucc_energy]
  refine C56_energy_derivative (F := fun ε => F_to_spin (Fa ε) (Fb ε)) (I := fun ε => int_to_spin2 (Ia ε) (Ib ε) (Iab ε))
    (T1 := fun ε => T1_to_spin (T1a ε) (T1b ε)) (T2 := fun ε => T2_to_spin (T2aa ε) (T2ab ε) (T2bb ε)) _ _ (F_spin_deriv hFa hFb)
    (int_spin_deriv hIa hIb hIab) ?_ ?_ (fun ε => int_spin_anti _ (aIa ε) (aIb ε)) (fun ε => T2_spin_anti _ (aTa ε) (aTb ε)) (T2_spin_anti _ aLa aLb) ?_ ?_
  · rintro (a | a) (i | i)
    exacts [h1a _ _, differentiableAt_const _, differentiableAt_const _, h1b _ _]
  · rintro (a | a) (b | b) (i | i) (j | j)
    all_goals first | exact h2aa _ _ _ _ | exact h2bb _ _ _ _ | exact h2ab _ _ _ _ | exact (h2ab _ _ _ _).fun_neg | exact differentiableAt_const _
  · filter_upwards [hR] with ε hε
    rw [C13_uccsd _ _ _ _ _ _ _ _ _ _ (aIa ε) (aIb ε) (aTa ε) (aTb ε), hε, z1, z2]
  · rw [C15_uccsd_lambda _ _ _ _ _ _ _ _ _ _ _ _ _ _ _ (aIa x) (aIb x) (aTa x) (aTb x) aLa aLb, hL]
    exact Prod.ext z1 z2
end analysis

/-! ### Non-vacuity: one electron of each spin -/

abbrev U1 := Fin 1

def FU : OneE U1 U1 ℝ := ⟨fun _ _ => 0, fun _ _ => 0, fun _ _ => 0, fun _ _ => 1⟩
def IU : TwoE U1 U1 ℝ := ⟨fun _ _ _ _ => 0, fun _ _ _ _ => 0, fun _ _ _ _ => 0, fun _ _ _ _ => 0, fun _ _ _ _ => 0, fun _ _ _ _ => 0,
  fun _ _ _ _ => 0, fun _ _ _ _ => 0, fun _ _ _ _ => 0⟩
def IUab (c d : ℝ) : TwoEFull U1 U1 U1 U1 ℝ where
  oooo := fun _ _ _ _ => 0
  ooov := fun _ _ _ _ => 0
  oovo := fun _ _ _ _ => 0
  oovv := fun _ _ _ _ => d
  ovoo := fun _ _ _ _ => 0
  ovov := fun _ _ _ _ => 0
  ovvo := fun _ _ _ _ => 0
  ovvv := fun _ _ _ _ => 0
  vooo := fun _ _ _ _ => 0
  voov := fun _ _ _ _ => 0
  vovo := fun _ _ _ _ => 0
  vovv := fun _ _ _ _ => 0
  vvoo := fun _ _ _ _ => c
  vvov := fun _ _ _ _ => 0
  vvvo := fun _ _ _ _ => 0
  vvvv := fun _ _ _ _ => 0

theorem zero_anti {A B : Type} : Anti (fun (_ _ : A) (_ _ : B) => (0 : ℝ)) := ⟨fun _ _ _ _ => by simp, fun _ _ _ _ => by simp⟩
theorem IU_anti : AntiI IU := by constructor <;> intro a b i j <;> simp [IU]

theorem IUab_deriv : TwoEFull.HasDeriv (fun ε => IUab (ε ^ 2 - 2 * ε) 1) (IUab (-2) 0) 0 := by
  constructor
  all_goals intro p q r s
  all_goals first | exact hasDerivAt_const _ _ | skip
  have : HasDerivAt (fun ε : ℝ => ε ^ 2 - 2 * ε) (-2) 0 := by
    simpa using ((hasDerivAt_pow 2 (0 : ℝ)).fun_sub ((hasDerivAt_id (0 : ℝ)).const_mul 2))
  exact this

set_option maxHeartbeats 2000000 in
example : HasDerivAt (fun ε : ℝ => ucc_energy (fun (_ _ : U1) => 0, fun (_ _ : U1) => 0)
    (fun (_ _ _ _ : U1) => 0, fun (_ _ _ _ : U1) => ε, fun (_ _ _ _ : U1) => 0) FU.ov FU.ov IU.oovv IU.oovv (IUab (ε ^ 2 - 2 * ε) 1).oovv) 1 0 := by
  have key := C56_unrestricted (𝕜 := ℝ) (x := 0) (Fa := fun _ => FU) (Fb := fun _ => FU)
    (Fa' := ⟨fun _ _ => 0, fun _ _ => 0, fun _ _ => 0, fun _ _ => 0⟩) (Fb' := ⟨fun _ _ => 0, fun _ _ => 0, fun _ _ => 0, fun _ _ => 0⟩)
    (Ia := fun _ => IU) (Ib := fun _ => IU) (Ia' := IU) (Ib' := IU) (Iab := fun ε => IUab (ε ^ 2 - 2 * ε) 1) (Iab' := IUab (-2) 0)
    (T1a := fun _ _ _ => 0) (T1b := fun _ _ _ => 0) (T2aa := fun _ _ _ _ _ => 0) (T2bb := fun _ _ _ _ _ => 0) (T2ab := fun ε _ _ _ _ => ε)
    (fun _ _ => 0) (fun _ _ => 0) (fun _ _ _ _ => 0) (fun _ _ _ _ => -1/2) (fun _ _ _ _ => 0)
    ⟨fun _ _ => hasDerivAt_const _ _, fun _ _ => hasDerivAt_const _ _, fun _ _ => hasDerivAt_const _ _, fun _ _ => hasDerivAt_const _ _⟩
    ⟨fun _ _ => hasDerivAt_const _ _, fun _ _ => hasDerivAt_const _ _, fun _ _ => hasDerivAt_const _ _, fun _ _ => hasDerivAt_const _ _⟩
    (by constructor <;> intro p q r s <;> exact hasDerivAt_const _ _) (by constructor <;> intro p q r s <;> exact hasDerivAt_const _ _) IUab_deriv
    (fun _ _ => differentiableAt_const _) (fun _ _ => differentiableAt_const _) (fun _ _ _ _ => differentiableAt_const _)
    (fun _ _ _ _ => differentiableAt_id) (fun _ _ _ _ => differentiableAt_const _) (fun _ => IU_anti) (fun _ => IU_anti) (fun _ => zero_anti)
    (fun _ => zero_anti) zero_anti zero_anti (Filter.Eventually.of_forall fun ε => ?_) ?_
  · have e : utraceRdm (⟨fun _ _ => 0, fun _ _ => 0, fun _ _ => 0, fun _ _ => 0⟩ : OneE U1 U1 ℝ) ⟨fun _ _ => 0, fun _ _ => 0, fun _ _ => 0, fun _ _ => 0⟩
        IU IU (IUab (-2) 0) (fun _ _ => 0) (fun _ _ => 0) (fun _ _ _ _ => 0) (fun _ _ _ _ => -1/2) (fun _ _ _ _ => 0) (fun _ _ => 0) (fun _ _ => 0)
        (fun _ _ _ _ => 0) (fun _ _ _ _ => 0) (fun _ _ _ _ => 0) = 1 := by
      simp [utraceRdm, IU, IUab]
      norm_num
    rw [e] at key
    exact key
  · simp [uccsd_stanton, u_Stanton, FU, IU, IUab]
    funext a b i j
    ring
  · simp [uccsd_lambda_opt, uccsd_Lambda_opt, u_LS_TS, FU, IU, IUab]
    funext a b i j
    norm_num
end CC
