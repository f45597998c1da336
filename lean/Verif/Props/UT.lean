import Verif.Tensor.Tactic
import Verif.Model.CCGT
import Verif.Model.CCUT
import Verif.Model.CCEnergy
import Verif.Model.Spin
import Verif.Spec.SymU
import Verif.Props.GT
/-!
# C12, C13, C23: unrestricted energies and amplitude equations are the spin blocks of the generalized ones
-/
set_option linter.unusedVariables false
namespace CC
open Verif.Tensor

variable {K : Type} [Field K] [CharZero K] {Oa Va Ob Vb : Type}
  [Fintype Oa] [Fintype Va] [Fintype Ob] [Fintype Vb]

section
variable (Fa : OneE Oa Va K) (Fb : OneE Ob Vb K) (Ia : TwoE Oa Va K) (Ib : TwoE Ob Vb K)
  (Iab : TwoEFull Oa Va Ob Vb K)
  (T1a : Va → Oa → K) (T1b : Vb → Ob → K) (T2aa : Va → Va → Oa → Oa → K)
  (T2ab : Va → Vb → Oa → Ob → K) (T2bb : Vb → Vb → Ob → Ob → K)

/-- C12: the unrestricted energy is the generalized energy of the assembled tensors. -/
theorem C12_ucc_energy :
    cc_energy (T1_to_spin T1a T1b) (T2_to_spin T2aa T2ab T2bb) (F_to_spin Fa Fb).ov
      (int_to_spin2 Ia Ib Iab).oovv
    = ucc_energy (T1a, T1b) (T2aa, T2ab, T2bb) Fa.ov Fb.ov Ia.oovv Ib.oovv Iab.oovv := by
  tensor_split [F_to_spin, int_to_spin2, T1_to_spin, T2_to_spin]

/-- C23: the same for second-order energies. -/
theorem C23_ump2_energy :
    mp2_energy (T1_to_spin T1a T1b) (T2_to_spin T2aa T2ab T2bb) (F_to_spin Fa Fb).ov
      (int_to_spin2 Ia Ib Iab).oovv
    = ump2_energy (T1a, T1b) (T2aa, T2ab, T2bb) Fa.ov Fb.ov Ia.oovv Ib.oovv Iab.oovv := by
  tensor_split [F_to_spin, int_to_spin2, T1_to_spin, T2_to_spin]

omit [CharZero K] in
/-- C23: the coupled-cluster energy is the second-order energy plus half the term quadratic in the singles. -/
theorem C23_cc_energy_split {O V : Type} [Fintype O] [Fintype V] (t1 : V → O → K) (t2 : V → V → O → O → K)
    (f : O → V → K) (eri : O → O → V → V → K) :
    cc_energy t1 t2 f eri = mp2_energy t1 t2 f eri
      + (1/2) * ∑ a, ∑ i, ∑ b, ∑ j, t1 a i * t1 b j * eri i j a b := rfl

variable (hIa : AntiI Ia) (hIb : AntiI Ib) (hTa : Anti T2aa) (hTb : Anti T2bb)
include hIa hIb hTa hTb

/-- C13, singles: all four spin blocks. -/
theorem C13_singles :
    (ccsd_simple (F_to_spin Fa Fb) (int_to_spin2 Ia Ib Iab) (T1_to_spin T1a T1b)
        (T2_to_spin T2aa T2ab T2bb)).1
    = T1_to_spin (uccsd_stanton Fa Fb Ia Ib Iab (T1a, T1b) (T2aa, T2ab, T2bb)).1.1
        (uccsd_stanton Fa Fb Ia Ib Iab (T1a, T1b) (T2aa, T2ab, T2bb)).1.2 := by
  obtain ⟨_, _⟩ := hTa
  obtain ⟨_, _⟩ := hTb
  obtain ⟨_, _, _, _, _, _, _, _, _, _, _, _⟩ := hIa
  obtain ⟨_, _, _, _, _, _, _, _, _, _, _, _⟩ := hIb
  funext a i
  rcases a with a | a <;> rcases i with i | i <;>
    tensor_split [F_to_spin, int_to_spin2, T1_to_spin, T2_to_spin]

/-- C13, doubles: all sixteen spin blocks. -/
theorem C13_doubles :
    (ccsd_simple (F_to_spin Fa Fb) (int_to_spin2 Ia Ib Iab) (T1_to_spin T1a T1b)
        (T2_to_spin T2aa T2ab T2bb)).2
    = T2_to_spin (uccsd_stanton Fa Fb Ia Ib Iab (T1a, T1b) (T2aa, T2ab, T2bb)).2.1
        (uccsd_stanton Fa Fb Ia Ib Iab (T1a, T1b) (T2aa, T2ab, T2bb)).2.2.1
        (uccsd_stanton Fa Fb Ia Ib Iab (T1a, T1b) (T2aa, T2ab, T2bb)).2.2.2 := by
  obtain ⟨_, _⟩ := hTa
  obtain ⟨_, _⟩ := hTb
  obtain ⟨_, _, _, _, _, _, _, _, _, _, _, _⟩ := hIa
  obtain ⟨_, _, _, _, _, _, _, _, _, _, _, _⟩ := hIb
  funext a b i j
  rcases a with a | a <;> rcases b with b | b <;> rcases i with i | i <;> rcases j with j | j <;>
    tensor_split [F_to_spin, int_to_spin2, T1_to_spin, T2_to_spin]

/-- C13: the unrestricted CCSD update is the generalized one (`ccsd_simple`) in spin blocks. -/
theorem C13_uccsd :
    ccsd_simple (F_to_spin Fa Fb) (int_to_spin2 Ia Ib Iab) (T1_to_spin T1a T1b) (T2_to_spin T2aa T2ab T2bb)
    = (T1_to_spin (uccsd_stanton Fa Fb Ia Ib Iab (T1a, T1b) (T2aa, T2ab, T2bb)).1.1
        (uccsd_stanton Fa Fb Ia Ib Iab (T1a, T1b) (T2aa, T2ab, T2bb)).1.2,
       T2_to_spin (uccsd_stanton Fa Fb Ia Ib Iab (T1a, T1b) (T2aa, T2ab, T2bb)).2.1
        (uccsd_stanton Fa Fb Ia Ib Iab (T1a, T1b) (T2aa, T2ab, T2bb)).2.2.1
        (uccsd_stanton Fa Fb Ia Ib Iab (T1a, T1b) (T2aa, T2ab, T2bb)).2.2.2) :=
  Prod.ext (C13_singles Fa Fb Ia Ib Iab T1a T1b T2aa T2ab T2bb hIa hIb hTa hTb)
    (C13_doubles Fa Fb Ia Ib Iab T1a T1b T2aa T2ab T2bb hIa hIb hTa hTb)

/-- C13 in extraction form: what `T1_to_spatial`/`T2_to_spatial` read off the generalized result. -/
theorem C13_uccsd_extract :
    (T1_to_spatial (ccsd_simple (F_to_spin Fa Fb) (int_to_spin2 Ia Ib Iab) (T1_to_spin T1a T1b)
        (T2_to_spin T2aa T2ab T2bb)).1,
     T2_to_spatial (ccsd_simple (F_to_spin Fa Fb) (int_to_spin2 Ia Ib Iab) (T1_to_spin T1a T1b)
        (T2_to_spin T2aa T2ab T2bb)).2)
    = uccsd_stanton Fa Fb Ia Ib Iab (T1a, T1b) (T2aa, T2ab, T2bb) := by
  rw [C13_uccsd Fa Fb Ia Ib Iab T1a T1b T2aa T2ab T2bb hIa hIb hTa hTb]
  rfl

/-- C44: the same-spin doubles returned are antisymmetric. -/
theorem C44_uccsd_anti :
    Anti (uccsd_stanton Fa Fb Ia Ib Iab (T1a, T1b) (T2aa, T2ab, T2bb)).2.1 ∧
    Anti (uccsd_stanton Fa Fb Ia Ib Iab (T1a, T1b) (T2aa, T2ab, T2bb)).2.2.2 := by
  obtain ⟨_, _⟩ := hTa
  obtain ⟨_, _⟩ := hTb
  obtain ⟨_, _, _, _, _, _, _, _, _, _, _, _⟩ := hIa
  obtain ⟨_, _, _, _, _, _, _, _, _, _, _, _⟩ := hIb
  refine ⟨⟨?_, ?_⟩, ⟨?_, ?_⟩⟩ <;> intro a b i j <;> tensor

end

/-- C44, histories: the same-spin doubles of any damped, denominator-weighted unrestricted iteration stay
antisymmetric. -/
theorem C44_uccsd_iterates (Fa : OneE Oa Va K) (Fb : OneE Ob Vb K) (Ia : TwoE Oa Va K) (Ib : TwoE Ob Vb K)
    (Iab : TwoEFull Oa Va Ob Vb K) (hIa : AntiI Ia) (hIb : AntiI Ib)
    (da : Va → Va → Oa → Oa → K) (db : Vb → Vb → Ob → Ob → K)
    (hda1 : ∀ a b i j, da b a i j = da a b i j) (hda2 : ∀ a b i j, da a b j i = da a b i j)
    (hdb1 : ∀ a b i j, db b a i j = db a b i j) (hdb2 : ∀ a b i j, db a b j i = db a b i j)
    (w v : ℕ → K) (T1 : ℕ → (Va → Oa → K) × (Vb → Ob → K)) (Tab : ℕ → Va → Vb → Oa → Ob → K)
    (Taa : ℕ → Va → Va → Oa → Oa → K) (Tbb : ℕ → Vb → Vb → Ob → Ob → K)
    (h0a : Anti (Taa 0)) (h0b : Anti (Tbb 0))
    (hsa : ∀ n a b i j, Taa (n+1) a b i j = w n * Taa n a b i j
      + v n * ((uccsd_stanton Fa Fb Ia Ib Iab (T1 n) (Taa n, Tab n, Tbb n)).2.1 a b i j * da a b i j))
    (hsb : ∀ n a b i j, Tbb (n+1) a b i j = w n * Tbb n a b i j
      + v n * ((uccsd_stanton Fa Fb Ia Ib Iab (T1 n) (Taa n, Tab n, Tbb n)).2.2.2 a b i j * db a b i j)) :
    ∀ n, Anti (Taa n) ∧ Anti (Tbb n) := by
  intro n
  induction n with
  | zero => exact ⟨h0a, h0b⟩
  | succ n ih =>
    obtain ⟨ia, ib⟩ := ih
    obtain ⟨ha, hb⟩ := C44_uccsd_anti Fa Fb Ia Ib Iab (T1 n).1 (T1 n).2 (Taa n) (Tab n) (Tbb n) hIa hIb ia ib
    refine ⟨⟨fun a b i j => ?_, fun a b i j => ?_⟩, ⟨fun a b i j => ?_, fun a b i j => ?_⟩⟩
    · rw [hsa, hsa, ia.a12 a b, ha.a12 a b, hda1 a b]; ring
    · rw [hsa, hsa, ia.a34 a b i j, ha.a34 a b i j, hda2 a b]; ring
    · rw [hsb, hsb, ib.a12 a b, hb.a12 a b, hdb1 a b]; ring
    · rw [hsb, hsb, ib.a34 a b i j, hb.a34 a b i j, hdb2 a b]; ring

/-! ## C45: spin flip -/

/-- C45: exchanging alpha and beta in the input of `uccsd_stanton` exchanges them in the output. -/
theorem C45_uccsd (Fa : OneE Oa Va K) (Fb : OneE Ob Vb K) (Ia : TwoE Oa Va K) (Ib : TwoE Ob Vb K)
    (Iab : TwoEFull Oa Va Ob Vb K) (T1a : Va → Oa → K) (T1b : Vb → Ob → K) (T2aa : Va → Va → Oa → Oa → K)
    (T2ab : Va → Vb → Oa → Ob → K) (T2bb : Vb → Vb → Ob → Ob → K) 
    (hIa : AntiI Ia) (hIb : AntiI Ib) (hTa : Anti T2aa) (hTb : Anti T2bb) :
    uccsd_stanton Fb Fa Ib Ia Iab.flip (T1b, T1a) (T2bb, fun b a j i => T2ab a b i j, T2aa)
    = (((uccsd_stanton Fa Fb Ia Ib Iab (T1a, T1b) (T2aa, T2ab, T2bb)).1.2,
        (uccsd_stanton Fa Fb Ia Ib Iab (T1a, T1b) (T2aa, T2ab, T2bb)).1.1),
       ((uccsd_stanton Fa Fb Ia Ib Iab (T1a, T1b) (T2aa, T2ab, T2bb)).2.2.2,
        (fun b a j i => (uccsd_stanton Fa Fb Ia Ib Iab (T1a, T1b) (T2aa, T2ab, T2bb)).2.2.1 a b i j),
        (uccsd_stanton Fa Fb Ia Ib Iab (T1a, T1b) (T2aa, T2ab, T2bb)).2.1)) := by
  obtain ⟨_, _⟩ := hTa
  obtain ⟨_, _⟩ := hTb
  obtain ⟨_, _, _, _, _, _, _, _, _, _, _, _⟩ := hIa
  obtain ⟨_, _, _, _, _, _, _, _, _, _, _, _⟩ := hIb
  refine Prod.ext (Prod.ext ?_ ?_) (Prod.ext ?_ (Prod.ext ?_ ?_))
  · funext a i; tensor
  · funext a i; tensor
  · funext a b i j; tensor
  · funext a b i j; tensor
  · funext a b i j; tensor

/-- C45 for the energy. -/
theorem C45_ucc_energy (fa : Oa → Va → K) (fb : Ob → Vb → K) (Ia : Oa → Oa → Va → Va → K)
    (Ib : Ob → Ob → Vb → Vb → K) (Iab : Oa → Ob → Va → Vb → K)
    (T1a : Va → Oa → K) (T1b : Vb → Ob → K) (T2aa : Va → Va → Oa → Oa → K)
    (T2ab : Va → Vb → Oa → Ob → K) (T2bb : Vb → Vb → Ob → Ob → K) :
    ucc_energy (T1b, T1a) (T2bb, (fun b a j i => T2ab a b i j), T2aa) fb fa Ib Ia (fun j i b a => Iab i j a b)
    = ucc_energy (T1a, T1b) (T2aa, T2ab, T2bb) fa fb Ia Ib Iab := by
  tensor

/-! Concrete data meeting the hypotheses, with unequal numbers of alpha and beta orbitals and non-zero results. -/
example : AntiI (IG 3 2 1) ∧ AntiI (IG 2 3 4) ∧ Anti (TG 2 3 1) ∧ Anti (TG 3 2 5) ∧
    (uccsd_stanton (FG 3 2 1) (FG 2 3 2) (IG 3 2 1) (IG 2 3 4) (IM 3 2 2 3) (SG 2 3 1, SG 3 2 2)
      (TG 2 3 1, TM 2 3 3 2 1, TG 3 2 5)).1.1 0 1 ≠ 0 ∧
    (uccsd_stanton (FG 3 2 1) (FG 2 3 2) (IG 3 2 1) (IG 2 3 4) (IM 3 2 2 3) (SG 2 3 1, SG 3 2 2)
      (TG 2 3 1, TM 2 3 3 2 1, TG 3 2 5)).2.1 0 1 0 1 ≠ 0 :=
  ⟨IG_anti .., IG_anti .., TG_anti .., TG_anti .., by decide +kernel, by decide +kernel⟩

end CC
