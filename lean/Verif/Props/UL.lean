import Verif.Tensor.Tactic
import Verif.Model.CCGL
import Verif.Model.CCUL
import Verif.Model.Spin
import Verif.Spec.SymU
import Verif.Props.GL
/-!
# C15 (and the Lambda parts of C44, C45): unrestricted Lambda equations
-/
set_option linter.unusedVariables false
namespace CC
open Verif.Tensor

variable {K : Type} [Field K] [CharZero K] {Oa Va Ob Vb : Type}
  [Fintype Oa] [Fintype Va] [Fintype Ob] [Fintype Vb]

/-- The multipliers `L1`, assembled as a spin-orbital array: `T1_to_spin` with the extents exchanged. -/
abbrev L1_to_spin (La : Oa → Va → K) (Lb : Ob → Vb → K) : Oa ⊕ Ob → Va ⊕ Vb → K := T1_to_spin La Lb

/-- The multipliers `L2`, assembled as a spin-orbital array: `T2_to_spin` with the extents exchanged. -/
abbrev L2_to_spin (Laa : Oa → Oa → Va → Va → K) (Lab : Oa → Ob → Va → Vb → K) (Lbb : Ob → Ob → Vb → Vb → K) :
    Oa ⊕ Ob → Oa ⊕ Ob → Va ⊕ Vb → Va ⊕ Vb → K := T2_to_spin Laa Lab Lbb

section
variable (Fa : OneE Oa Va K) (Fb : OneE Ob Vb K) (Ia : TwoE Oa Va K) (Ib : TwoE Ob Vb K)
  (Iab : TwoEFull Oa Va Ob Vb K)
  (L1a : Oa → Va → K) (L1b : Ob → Vb → K) (L2aa : Oa → Oa → Va → Va → K)
  (L2ab : Oa → Ob → Va → Vb → K) (L2bb : Ob → Ob → Vb → Vb → K)
  (T1a : Va → Oa → K) (T1b : Vb → Ob → K) (T2aa : Va → Va → Oa → Oa → K)
  (T2ab : Va → Vb → Oa → Ob → K) (T2bb : Vb → Vb → Ob → Ob → K)

variable (hIa : AntiI Ia) (hIb : AntiI Ib) (hTa : Anti T2aa) (hTb : Anti T2bb) (hLa : Anti L2aa) (hLb : Anti L2bb)
include hIa hIb hTa hTb hLa hLb

/-- C15, first component: all four spin blocks. -/
theorem C15_singles :
    (ccsd_lambda_simple (F_to_spin Fa Fb) (int_to_spin2 Ia Ib Iab) (T1_to_spin L1a L1b) (T2_to_spin L2aa L2ab L2bb)
        (T1_to_spin T1a T1b) (T2_to_spin T2aa T2ab T2bb)).1
    = T1_to_spin
        (uccsd_lambda_opt Fa Fb Ia Ib Iab (L1a, L1b) (L2aa, L2ab, L2bb) (T1a, T1b) (T2aa, T2ab, T2bb)).1.1
        (uccsd_lambda_opt Fa Fb Ia Ib Iab (L1a, L1b) (L2aa, L2ab, L2bb) (T1a, T1b) (T2aa, T2ab, T2bb)).1.2 := by
  obtain ⟨_, _⟩ := hTa
  obtain ⟨_, _⟩ := hTb
  obtain ⟨_, _⟩ := hLa
  obtain ⟨_, _⟩ := hLb
  obtain ⟨_, _, _, _, _, _, _, _, _, _, _, _⟩ := hIa
  obtain ⟨_, _, _, _, _, _, _, _, _, _, _, _⟩ := hIb
  funext i a
  rcases a with a | a <;> rcases i with i | i <;>
    tensor_split [F_to_spin, int_to_spin2, T1_to_spin, T2_to_spin]

/-- C15, second component: all sixteen spin blocks. -/
theorem C15_doubles :
    (ccsd_lambda_simple (F_to_spin Fa Fb) (int_to_spin2 Ia Ib Iab) (T1_to_spin L1a L1b) (T2_to_spin L2aa L2ab L2bb)
        (T1_to_spin T1a T1b) (T2_to_spin T2aa T2ab T2bb)).2
    = T2_to_spin
        (uccsd_lambda_opt Fa Fb Ia Ib Iab (L1a, L1b) (L2aa, L2ab, L2bb) (T1a, T1b) (T2aa, T2ab, T2bb)).2.1
        (uccsd_lambda_opt Fa Fb Ia Ib Iab (L1a, L1b) (L2aa, L2ab, L2bb) (T1a, T1b) (T2aa, T2ab, T2bb)).2.2.1
        (uccsd_lambda_opt Fa Fb Ia Ib Iab (L1a, L1b) (L2aa, L2ab, L2bb) (T1a, T1b) (T2aa, T2ab, T2bb)).2.2.2 := by
  obtain ⟨_, _⟩ := hTa
  obtain ⟨_, _⟩ := hTb
  obtain ⟨_, _⟩ := hLa
  obtain ⟨_, _⟩ := hLb
  obtain ⟨_, _, _, _, _, _, _, _, _, _, _, _⟩ := hIa
  obtain ⟨_, _, _, _, _, _, _, _, _, _, _, _⟩ := hIb
  funext i j a b
  rcases a with a | a <;> rcases b with b | b <;> rcases i with i | i <;> rcases j with j | j <;>
    tensor_split [F_to_spin, int_to_spin2, T1_to_spin, T2_to_spin]

/-- C15: the unrestricted Lambda update is the generalized one (`ccsd_lambda_simple`) in spin blocks. -/
theorem C15_uccsd_lambda :
    ccsd_lambda_simple (F_to_spin Fa Fb) (int_to_spin2 Ia Ib Iab) (L1_to_spin L1a L1b) (L2_to_spin L2aa L2ab L2bb)
        (T1_to_spin T1a T1b) (T2_to_spin T2aa T2ab T2bb)
    = (L1_to_spin
        (uccsd_lambda_opt Fa Fb Ia Ib Iab (L1a, L1b) (L2aa, L2ab, L2bb) (T1a, T1b) (T2aa, T2ab, T2bb)).1.1
        (uccsd_lambda_opt Fa Fb Ia Ib Iab (L1a, L1b) (L2aa, L2ab, L2bb) (T1a, T1b) (T2aa, T2ab, T2bb)).1.2,
      L2_to_spin
        (uccsd_lambda_opt Fa Fb Ia Ib Iab (L1a, L1b) (L2aa, L2ab, L2bb) (T1a, T1b) (T2aa, T2ab, T2bb)).2.1
        (uccsd_lambda_opt Fa Fb Ia Ib Iab (L1a, L1b) (L2aa, L2ab, L2bb) (T1a, T1b) (T2aa, T2ab, T2bb)).2.2.1
        (uccsd_lambda_opt Fa Fb Ia Ib Iab (L1a, L1b) (L2aa, L2ab, L2bb) (T1a, T1b) (T2aa, T2ab, T2bb)).2.2.2) :=
  Prod.ext (C15_singles Fa Fb Ia Ib Iab L1a L1b L2aa L2ab L2bb T1a T1b T2aa T2ab T2bb hIa hIb hTa hTb hLa hLb)
    (C15_doubles Fa Fb Ia Ib Iab L1a L1b L2aa L2ab L2bb T1a T1b T2aa T2ab T2bb hIa hIb hTa hTb hLa hLb)

/-- C15 in extraction form. -/
theorem C15_uccsd_lambda_extract :
    (T1_to_spatial (ccsd_lambda_simple (F_to_spin Fa Fb) (int_to_spin2 Ia Ib Iab) (L1_to_spin L1a L1b)
        (L2_to_spin L2aa L2ab L2bb) (T1_to_spin T1a T1b) (T2_to_spin T2aa T2ab T2bb)).1,
     T2_to_spatial (ccsd_lambda_simple (F_to_spin Fa Fb) (int_to_spin2 Ia Ib Iab) (L1_to_spin L1a L1b)
        (L2_to_spin L2aa L2ab L2bb) (T1_to_spin T1a T1b) (T2_to_spin T2aa T2ab T2bb)).2)
    = uccsd_lambda_opt Fa Fb Ia Ib Iab (L1a, L1b) (L2aa, L2ab, L2bb) (T1a, T1b) (T2aa, T2ab, T2bb) := by
  rw [C15_uccsd_lambda Fa Fb Ia Ib Iab L1a L1b L2aa L2ab L2bb T1a T1b T2aa T2ab T2bb hIa hIb hTa hTb hLa hLb]
  rfl

/-- C44: the same-spin multipliers returned are antisymmetric. -/
theorem C44_uccsd_lambda_anti :
    Anti (uccsd_lambda_opt Fa Fb Ia Ib Iab (L1a, L1b) (L2aa, L2ab, L2bb) (T1a, T1b) (T2aa, T2ab, T2bb)).2.1 ∧
    Anti (uccsd_lambda_opt Fa Fb Ia Ib Iab (L1a, L1b) (L2aa, L2ab, L2bb) (T1a, T1b) (T2aa, T2ab, T2bb)).2.2.2 := by
  obtain ⟨_, _⟩ := hTa
  obtain ⟨_, _⟩ := hTb
  obtain ⟨_, _⟩ := hLa
  obtain ⟨_, _⟩ := hLb
  obtain ⟨_, _, _, _, _, _, _, _, _, _, _, _⟩ := hIa
  obtain ⟨_, _, _, _, _, _, _, _, _, _, _, _⟩ := hIb
  refine ⟨⟨?_, ?_⟩, ⟨?_, ?_⟩⟩ <;> intro a b i j <;> tensor

/-- C45 for the Lambda equations. -/
theorem C45_uccsd_lambda :
    uccsd_lambda_opt Fb Fa Ib Ia Iab.flip (L1b, L1a) (L2bb, (fun j i b a => L2ab i j a b), L2aa)
        (T1b, T1a) (T2bb, (fun b a j i => T2ab a b i j), T2aa)
    = (((uccsd_lambda_opt Fa Fb Ia Ib Iab (L1a, L1b) (L2aa, L2ab, L2bb) (T1a, T1b) (T2aa, T2ab, T2bb)).1.2,
        (uccsd_lambda_opt Fa Fb Ia Ib Iab (L1a, L1b) (L2aa, L2ab, L2bb) (T1a, T1b) (T2aa, T2ab, T2bb)).1.1),
       ((uccsd_lambda_opt Fa Fb Ia Ib Iab (L1a, L1b) (L2aa, L2ab, L2bb) (T1a, T1b) (T2aa, T2ab, T2bb)).2.2.2,
        (fun j i b a => (uccsd_lambda_opt Fa Fb Ia Ib Iab (L1a, L1b) (L2aa, L2ab, L2bb) (T1a, T1b)
          (T2aa, T2ab, T2bb)).2.2.1 i j a b),
        (uccsd_lambda_opt Fa Fb Ia Ib Iab (L1a, L1b) (L2aa, L2ab, L2bb) (T1a, T1b) (T2aa, T2ab, T2bb)).2.1)) := by
  obtain ⟨_, _⟩ := hTa
  obtain ⟨_, _⟩ := hTb
  obtain ⟨_, _⟩ := hLa
  obtain ⟨_, _⟩ := hLb
  obtain ⟨_, _, _, _, _, _, _, _, _, _, _, _⟩ := hIa
  obtain ⟨_, _, _, _, _, _, _, _, _, _, _, _⟩ := hIb
  refine Prod.ext (Prod.ext ?_ ?_) (Prod.ext ?_ (Prod.ext ?_ ?_))
  · funext i a; tensor
  · funext i a; tensor
  · funext i j a b; tensor
  · funext i j a b; tensor
  · funext i j a b; tensor

end

/-- C44, histories: same-spin multipliers of any damped, denominator-weighted iteration stay antisymmetric. -/
theorem C44_uccsd_lambda_iterates (Fa : OneE Oa Va K) (Fb : OneE Ob Vb K) (Ia : TwoE Oa Va K) (Ib : TwoE Ob Vb K)
    (Iab : TwoEFull Oa Va Ob Vb K) (hIa : AntiI Ia) (hIb : AntiI Ib)
    (T1a : Va → Oa → K) (T1b : Vb → Ob → K) (T2aa : Va → Va → Oa → Oa → K)
    (T2ab : Va → Vb → Oa → Ob → K) (T2bb : Vb → Vb → Ob → Ob → K) (hTa : Anti T2aa) (hTb : Anti T2bb)
    (da : Oa → Oa → Va → Va → K) (db : Ob → Ob → Vb → Vb → K)
    (hda1 : ∀ i j a b, da j i a b = da i j a b) (hda2 : ∀ i j a b, da i j b a = da i j a b)
    (hdb1 : ∀ i j a b, db j i a b = db i j a b) (hdb2 : ∀ i j a b, db i j b a = db i j a b)
    (w v : ℕ → K) (L1 : ℕ → (Oa → Va → K) × (Ob → Vb → K)) (Lab : ℕ → Oa → Ob → Va → Vb → K)
    (Laa : ℕ → Oa → Oa → Va → Va → K) (Lbb : ℕ → Ob → Ob → Vb → Vb → K)
    (h0a : Anti (Laa 0)) (h0b : Anti (Lbb 0))
    (hsa : ∀ n i j a b, Laa (n+1) i j a b = w n * Laa n i j a b
      + v n * ((uccsd_lambda_opt Fa Fb Ia Ib Iab (L1 n) (Laa n, Lab n, Lbb n) (T1a, T1b)
          (T2aa, T2ab, T2bb)).2.1 i j a b * da i j a b))
    (hsb : ∀ n i j a b, Lbb (n+1) i j a b = w n * Lbb n i j a b
      + v n * ((uccsd_lambda_opt Fa Fb Ia Ib Iab (L1 n) (Laa n, Lab n, Lbb n) (T1a, T1b)
          (T2aa, T2ab, T2bb)).2.2.2 i j a b * db i j a b)) :
    ∀ n, Anti (Laa n) ∧ Anti (Lbb n) := by
  intro n
  induction n with
  | zero => exact ⟨h0a, h0b⟩
  | succ n ih =>
    obtain ⟨ia, ib⟩ := ih
    obtain ⟨ha, hb⟩ := C44_uccsd_lambda_anti Fa Fb Ia Ib Iab (L1 n).1 (L1 n).2 (Laa n) (Lab n) (Lbb n)
      T1a T1b T2aa T2ab T2bb hIa hIb hTa hTb ia ib
    refine ⟨⟨fun a b i j => ?_, fun a b i j => ?_⟩, ⟨fun a b i j => ?_, fun a b i j => ?_⟩⟩
    · rw [hsa, hsa, ia.a12 a b, ha.a12 a b, hda1 a b]; ring
    · rw [hsa, hsa, ia.a34 a b i j, ha.a34 a b i j, hda2 a b]; ring
    · rw [hsb, hsb, ib.a12 a b, hb.a12 a b, hdb1 a b]; ring
    · rw [hsb, hsb, ib.a34 a b i j, hb.a34 a b i j, hdb2 a b]; ring

/-! Concrete data meeting the hypotheses, with a non-zero result. -/
example : AntiI (IG 2 2 1) ∧ AntiI (IG 2 2 4) ∧ Anti (TG 2 2 1) ∧ Anti (TG 2 2 5) ∧
    (uccsd_lambda_opt (FG 2 2 1) (FG 2 2 2) (IG 2 2 1) (IG 2 2 4) (IM 2 2 2 2) (SG 2 2 1, SG 2 2 2)
      (TG 2 2 1, TM 2 2 2 2 1, TG 2 2 5) (SG 2 2 1, SG 2 2 2) (TG 2 2 1, TM 2 2 2 2 1, TG 2 2 5)).2.1 0 1 0 1 ≠ 0 :=
  ⟨IG_anti .., IG_anti .., TG_anti .., TG_anti .., by decide +kernel⟩

end CC
