import Verif.Props.CIExpLemmas
import Mathlib.Algebra.Algebra.Subalgebra.Lattice
/-!
# C37: cluster operators in second quantisation
-/
set_option linter.unusedSectionVars false
namespace CI
open Fock
variable {K : Type} [Field K]

/-! ### restricted sums -/

/-- `T2` is antisymmetric in the two virtual and in the two occupied indices. -/
def Anti (no nv : ℕ) (T2 : ℕ → ℕ → ℕ → ℕ → K) : Prop :=
  ∀ a b i j, a < nv → b < nv → i < no → j < no → T2 b a i j = -T2 a b i j ∧ T2 a b j i = -T2 a b i j

section
variable [CharZero K]

theorem half_sum {M : Type} [AddCommGroup M] [Module K M] (n : ℕ) (κ : ℕ → ℕ) (hκ : ∀ i < n, ∀ j < n, κ i = κ j → i = j)
    (f : ℕ → ℕ → M) (hs : ∀ i < n, ∀ j < n, f j i = f i j) (hd : ∀ i < n, f i i = 0) :
    ∑ i ∈ Finset.range n, ∑ j ∈ Finset.range n, (if κ i < κ j then f i j else 0)
      = (1 / 2 : K) • ∑ i ∈ Finset.range n, ∑ j ∈ Finset.range n, f i j := by
  have h1 : ∑ i ∈ Finset.range n, ∑ j ∈ Finset.range n, f i j
      = ∑ i ∈ Finset.range n, ∑ j ∈ Finset.range n, (if κ i < κ j then f i j else 0)
        + ∑ i ∈ Finset.range n, ∑ j ∈ Finset.range n, (if κ j < κ i then f i j else 0) := by
    rw [← Finset.sum_add_distrib]
    refine Finset.sum_congr rfl fun i hi => ?_
    rw [← Finset.sum_add_distrib]
    refine Finset.sum_congr rfl fun j hj => ?_
    rw [Finset.mem_range] at hi hj
    rcases lt_trichotomy (κ i) (κ j) with h | h | h
    · rw [if_pos h, if_neg (by omega), add_zero]
    · rw [if_neg (by omega), if_neg (by omega), hκ i hi j hj h, hd j hj, add_zero]
    · rw [if_neg (by omega), if_pos h, zero_add]
  have h2 : ∑ i ∈ Finset.range n, ∑ j ∈ Finset.range n, (if κ j < κ i then f i j else 0)
      = ∑ i ∈ Finset.range n, ∑ j ∈ Finset.range n, (if κ i < κ j then f i j else 0) := by
    rw [Finset.sum_comm]
    refine Finset.sum_congr rfl fun i hi => Finset.sum_congr rfl fun j hj => ?_
    rw [Finset.mem_range] at hi hj
    split_ifs
    · exact hs i hi j hj
    · rfl
  rw [h1, h2, ← two_smul K, smul_smul]
  norm_num

theorem tri_sum {ι : Type} [LinearOrder ι] {no nv : ℕ} (fo fv : ℕ → ι) (κ μ : ℕ → ℕ)
    (hκ : ∀ i < no, ∀ j < no, κ i = κ j → i = j) (hμ : ∀ i < nv, ∀ j < nv, μ i = μ j → i = j)
    (hov : ∀ i < no, ∀ a < nv, fo i ≠ fv a) {T2 : ℕ → ℕ → ℕ → ℕ → K} (hT : Anti no nv T2) :
    ∑ i ∈ Finset.range no, ∑ j ∈ Finset.range no, ∑ a ∈ Finset.range nv, ∑ b ∈ Finset.range nv,
      (if κ i < κ j ∧ μ a < μ b then T2 a b i j else 0) • (E (K := K) (fo j) (fv b) * E (fo i) (fv a))
    = (1 / 4 : K) • ∑ i ∈ Finset.range no, ∑ j ∈ Finset.range no, ∑ a ∈ Finset.range nv, ∑ b ∈ Finset.range nv,
      T2 a b i j • (cre (fv a) * cre (fv b) * ann (fo j) * ann (fo i)) := by
  set F : ℕ → ℕ → ℕ → ℕ → Module.End K (Finset ι → K) :=
    fun i j a b => T2 a b i j • (E (fo j) (fv b) * E (fo i) (fv a)) with hF
  have hji : ∀ i < no, ∀ j < no, ∀ a < nv, ∀ b < nv, F j i a b = F i j a b := by
    intro i hi j hj a ha b hb
    simp only [hF]
    rw [(hT a b i j ha hb hi hj).2, E_swap (i := fo i) (j := fo j) (hov i hi b hb) (hov i hi a ha),
      E_comm (hov i hi b hb) (hov j hj a ha), smul_neg, neg_smul, neg_neg]
  have hba : ∀ i < no, ∀ j < no, ∀ a < nv, ∀ b < nv, F i j b a = F i j a b := by
    intro i hi j hj a ha b hb
    simp only [hF]
    rw [(hT a b i j ha hb hi hj).1, E_swap (i := fo j) (j := fo i) (hov j hj a ha) (hov j hj b hb), smul_neg, neg_smul, neg_neg]
  have hii : ∀ i < no, ∀ a < nv, ∀ b < nv, F i i a b = 0 := by
    intro i hi a ha b hb
    simp only [hF]
    rw [self_eq_neg.mp (hT a b i i ha hb hi hi).2, zero_smul]
  have haa : ∀ i < no, ∀ j < no, ∀ a < nv, F i j a a = 0 := by
    intro i hi j hj a ha
    simp only [hF]
    rw [self_eq_neg.mp (hT a a i j ha ha hi hj).1, zero_smul]
  have e1 : ∀ i < no, ∀ j < no, ∑ a ∈ Finset.range nv, ∑ b ∈ Finset.range nv, (if μ a < μ b then F i j a b else 0)
      = (1 / 2 : K) • ∑ a ∈ Finset.range nv, ∑ b ∈ Finset.range nv, F i j a b := fun i hi j hj =>
    half_sum nv μ hμ (F i j) (fun a ha b hb => hba i hi j hj a ha b hb) (haa i hi j hj)
  have e2 := half_sum (K := K) no κ hκ (fun i j => (1 / 2 : K) • ∑ a ∈ Finset.range nv, ∑ b ∈ Finset.range nv, F i j a b)
    (fun i hi j hj => by
      congr 1
      refine Finset.sum_congr rfl fun a ha => Finset.sum_congr rfl fun b hb => ?_
      exact hji i hi j hj a (Finset.mem_range.mp ha) b (Finset.mem_range.mp hb))
    (fun i hi => by
      rw [Finset.sum_eq_zero, smul_zero]
      intro a ha
      exact Finset.sum_eq_zero fun b hb => hii i hi a (Finset.mem_range.mp ha) b (Finset.mem_range.mp hb))
  calc _ = ∑ i ∈ Finset.range no, ∑ j ∈ Finset.range no,
        (if κ i < κ j then (1 / 2 : K) • ∑ a ∈ Finset.range nv, ∑ b ∈ Finset.range nv, F i j a b else 0) := by
        refine Finset.sum_congr rfl fun i hi => Finset.sum_congr rfl fun j hj => ?_
        rw [← e1 i (Finset.mem_range.mp hi) j (Finset.mem_range.mp hj)]
        by_cases h : κ i < κ j
        · rw [if_pos h]
          refine Finset.sum_congr rfl fun a _ => Finset.sum_congr rfl fun b _ => ?_
          by_cases h' : μ a < μ b
          · rw [if_pos ⟨h, h'⟩, if_pos h']
          · rw [if_neg (fun x => h' x.2), if_neg h', zero_smul]
        · rw [if_neg h]
          refine Finset.sum_eq_zero fun a _ => Finset.sum_eq_zero fun b _ => ?_
          rw [if_neg (fun x => h x.1), zero_smul]
    _ = _ := by
        rw [e2]
        simp only [Finset.smul_sum, smul_smul]
        refine Finset.sum_congr rfl fun i hi => Finset.sum_congr rfl fun j hj =>
          Finset.sum_congr rfl fun a ha => Finset.sum_congr rfl fun b hb => ?_
        rw [Finset.mem_range] at hi hj ha hb
        simp only [hF]
        rw [← E_mul (hov i hi b hb), E_comm (hov i hi b hb) (hov j hj a ha), smul_smul]
        congr 1
        ring

end

/-! ### cluster operators -/

noncomputable section

/-- The cluster operator `T1 + T2` of spin orbitals with amplitudes given by spin case, in second quantisation: the alpha
occupied orbitals are `0 .. noa-1`, the alpha virtual orbitals `noa .. noa+nva-1`, and likewise for beta. -/
def clusterU (noa nva nob nvb : ℕ) (T1a T1b : ℕ → ℕ → K) (T2aa T2ab T2bb : ℕ → ℕ → ℕ → ℕ → K) :
    Module.End K (Finset SO → K) :=
  (∑ i ∈ Finset.range noa, ∑ a ∈ Finset.range nva, T1a a i • (cre (up (a + noa)) * ann (up i)))
  + (∑ i ∈ Finset.range nob, ∑ a ∈ Finset.range nvb, T1b a i • (cre (dn (a + nob)) * ann (dn i)))
  + (1 / 4 : K) • (∑ i ∈ Finset.range noa, ∑ j ∈ Finset.range noa, ∑ a ∈ Finset.range nva, ∑ b ∈ Finset.range nva,
      T2aa a b i j • (cre (up (a + noa)) * cre (up (b + noa)) * ann (up j) * ann (up i)))
  + (∑ i ∈ Finset.range noa, ∑ j ∈ Finset.range nob, ∑ a ∈ Finset.range nva, ∑ b ∈ Finset.range nvb,
      T2ab a b i j • (cre (up (a + noa)) * cre (dn (b + nob)) * ann (dn j) * ann (up i)))
  + (1 / 4 : K) • (∑ i ∈ Finset.range nob, ∑ j ∈ Finset.range nob, ∑ a ∈ Finset.range nvb, ∑ b ∈ Finset.range nvb,
      T2bb a b i j • (cre (dn (a + nob)) * cre (dn (b + nob)) * ann (dn j) * ann (dn i)))

/-- The cluster operator `T1 + T2` of spin orbitals, the occupied ones being `fo 0, fo 1, ...` and the virtual ones
`fv 0, fv 1, ...`. -/
def clusterG (no nv : ℕ) (fo fv : ℕ → ℕ) (T1 : ℕ → ℕ → K) (T2 : ℕ → ℕ → ℕ → ℕ → K) : Module.End K (Finset ℕ → K) :=
  (∑ i ∈ Finset.range no, ∑ a ∈ Finset.range nv, T1 a i • (cre (fv a) * ann (fo i)))
  + (1 / 4 : K) • (∑ i ∈ Finset.range no, ∑ j ∈ Finset.range no, ∑ a ∈ Finset.range nv, ∑ b ∈ Finset.range nv,
      T2 a b i j • (cre (fv a) * cre (fv b) * ann (fo j) * ann (fo i)))

end

theorem clusterU_eq [CharZero K] (noa nva nob nvb : ℕ) (T1a T1b : ℕ → ℕ → K) {T2aa T2ab T2bb : ℕ → ℕ → ℕ → ℕ → K}
    (haa : Anti noa nva T2aa) (hbb : Anti nob nvb T2bb) :
    clusterU noa nva nob nvb T1a T1b T2aa T2ab T2bb =
      (oT1a noa nva T1a + oT1b nob nvb T1b) + (oT2aa noa nva T2aa + oT2ab noa nva nob nvb T2ab + oT2bb nob nvb T2bb) := by
  have ea := tri_sum (K := K) (no := noa) (nv := nva) up (fun a => up (a + noa)) id id (fun _ _ _ _ h => h) (fun _ _ _ _ h => h)
    (fun i hi a ha h => by have := up_inj.mp h; omega) haa
  have eb := tri_sum (K := K) (no := nob) (nv := nvb) dn (fun a => dn (a + nob)) id id (fun _ _ _ _ h => h) (fun _ _ _ _ h => h)
    (fun i hi a ha h => by have := dn_inj.mp h; omega) hbb
  have eab : oT2ab noa nva nob nvb T2ab = ∑ i ∈ Finset.range noa, ∑ j ∈ Finset.range nob, ∑ a ∈ Finset.range nva,
      ∑ b ∈ Finset.range nvb, T2ab a b i j • (cre (up (a + noa)) * cre (dn (b + nob)) * ann (dn j) * ann (up i)) := by
    unfold oT2ab
    refine Finset.sum_congr rfl fun i hi => Finset.sum_congr rfl fun j hj =>
          Finset.sum_congr rfl fun a ha => Finset.sum_congr rfl fun b hb => ?_
    rw [E_mul up_ne_dn]
  unfold clusterU
  rw [← ea, ← eb, ← eab]
  unfold oT1a oT1b oT2aa oT2bb
  simp only [tri, id, E]
  abel

theorem clusterG_eq [CharZero K] {iocc ivir : List ℕ} {no nv : ℕ} (hno : iocc.length = no) (hnv : ivir.length = nv) {fo fv : ℕ → ℕ}
    (hfo : ∀ i < no, iocc.getD i 0 = fo i) (hfv : ∀ a < nv, ivir.getD a 0 = fv a)
    (io : ∀ i < no, ∀ j < no, fo i = fo j → i = j) (iv : ∀ i < nv, ∀ j < nv, fv i = fv j → i = j)
    (hov : ∀ i < no, ∀ a < nv, fo i ≠ fv a) (T1 : ℕ → ℕ → K) {T2 : ℕ → ℕ → ℕ → ℕ → K} (hT : Anti no nv T2) :
    clusterG no nv fo fv T1 T2 = oT1 iocc ivir T1 + oT2 iocc ivir T2 := by
  unfold clusterG
  rw [← tri_sum fo fv fo fv io iv hov hT]
  subst hno hnv
  unfold oT1 oT2 triG
  congr 1
  · refine Finset.sum_congr rfl fun i hi => Finset.sum_congr rfl fun a ha => ?_
    rw [Finset.mem_range] at hi ha
    rw [hfo i hi, hfv a ha]; rfl
  · refine Finset.sum_congr rfl fun i hi => Finset.sum_congr rfl fun j hj =>
          Finset.sum_congr rfl fun a ha => Finset.sum_congr rfl fun b hb => ?_
    rw [Finset.mem_range] at hi hj ha hb
    rw [hfo i hi, hfo j hj, hfv a ha, hfv b hb]

/-! ### commuting operators -/

/-- Operators generated by excitations into the orbitals `V`. -/
def Exc {ι : Type} [LinearOrder ι] (V : Finset ι) (X : Module.End K (Finset ι → K)) : Prop :=
  X ∈ Algebra.adjoin K {Y | ∃ i a, i ∉ V ∧ a ∈ V ∧ Y = E i a}

section
variable {ι : Type} [LinearOrder ι] {V : Finset ι}

theorem Exc.comm {X Y : Module.End K (Finset ι → K)} (hX : Exc V X) (hY : Exc V Y) : X * Y = Y * X := by
  refine Algebra.commute_of_mem_adjoin_of_forall_mem_commute hY fun Z hZ => ?_
  obtain ⟨j, b, hj, hb, rfl⟩ := hZ
  refine (Algebra.commute_of_mem_adjoin_of_forall_mem_commute hX fun Z hZ => ?_).symm
  obtain ⟨i, a, hi, ha, rfl⟩ := hZ
  exact E_comm (fun e => hj (e ▸ ha)) (fun e => hi (e ▸ hb))

theorem Exc.comm_apply {X Y : Module.End K (Finset ι → K)} (hX : Exc V X) (hY : Exc V Y) (φ : Finset ι → K) :
    X (Y φ) = Y (X φ) := congrArg (fun Z => Z φ) (hX.comm hY)

theorem Exc.E {i a : ι} (hi : i ∉ V) (ha : a ∈ V) : Exc (K := K) V (E i a) := Algebra.subset_adjoin ⟨i, a, hi, ha, rfl⟩

theorem Exc.mul {X Y : Module.End K (Finset ι → K)} (hX : Exc V X) (hY : Exc V Y) : Exc V (X * Y) := Subalgebra.mul_mem _ hX hY

theorem Exc.add {X Y : Module.End K (Finset ι → K)} (hX : Exc V X) (hY : Exc V Y) : Exc V (X + Y) := Subalgebra.add_mem _ hX hY

theorem Exc.smul {X : Module.End K (Finset ι → K)} (hX : Exc V X) (c : K) : Exc V (c • X) := Subalgebra.smul_mem _ hX c

theorem Exc.sum {α : Type} {s : Finset α} {X : α → Module.End K (Finset ι → K)} (h : ∀ x ∈ s, Exc V (X x)) :
    Exc V (∑ x ∈ s, X x) := Subalgebra.sum_mem _ h

end

/-- the virtual spin orbitals -/
def uvir (noa nva nob nvb : ℕ) : Finset SO := emb (Finset.Ico noa (noa + nva)) (Finset.Ico nob (nob + nvb))

section
variable {noa nva nob nvb : ℕ}

theorem up_vir {i : ℕ} : up i ∈ uvir noa nva nob nvb ↔ noa ≤ i ∧ i < noa + nva := by simp [uvir]
theorem dn_vir {i : ℕ} : dn i ∈ uvir noa nva nob nvb ↔ nob ≤ i ∧ i < nob + nvb := by simp [uvir]

theorem excA {i a : ℕ} (hi : i ∈ Finset.range noa) (ha : a ∈ Finset.range nva) :
    Exc (K := K) (uvir noa nva nob nvb) (E (up i) (up (a + noa))) := by
  rw [Finset.mem_range] at hi ha
  exact Exc.E (by rw [up_vir]; omega) (by rw [up_vir]; omega)

theorem excB {i a : ℕ} (hi : i ∈ Finset.range nob) (ha : a ∈ Finset.range nvb) :
    Exc (K := K) (uvir noa nva nob nvb) (E (dn i) (dn (a + nob))) := by
  rw [Finset.mem_range] at hi ha
  exact Exc.E (by rw [dn_vir]; omega) (by rw [dn_vir]; omega)

theorem raisesA {i a : ℕ} (hi : i ∈ Finset.range noa) (ha : a ∈ Finset.range nva) :
    Raises (uvir noa nva nob nvb) 1 (E (K := K) (up i) (up (a + noa))) := by
  rw [Finset.mem_range] at hi ha
  exact Raises.E (by rw [up_vir]; omega) (by rw [up_vir]; omega)

theorem raisesB {i a : ℕ} (hi : i ∈ Finset.range nob) (ha : a ∈ Finset.range nvb) :
    Raises (uvir noa nva nob nvb) 1 (E (K := K) (dn i) (dn (a + nob))) := by
  rw [Finset.mem_range] at hi ha
  exact Raises.E (by rw [dn_vir]; omega) (by rw [dn_vir]; omega)

theorem exc_oT1a (T : ℕ → ℕ → K) : Exc (uvir noa nva nob nvb) (oT1a noa nva T) :=
  Exc.sum fun _ hi => Exc.sum fun _ ha => (excA hi ha).smul _
theorem exc_oT1b (T : ℕ → ℕ → K) : Exc (uvir noa nva nob nvb) (oT1b nob nvb T) :=
  Exc.sum fun _ hi => Exc.sum fun _ ha => (excB hi ha).smul _
theorem exc_oT2aa (T : ℕ → ℕ → ℕ → ℕ → K) : Exc (uvir noa nva nob nvb) (oT2aa noa nva T) :=
  Exc.sum fun _ hi => Exc.sum fun _ hj => Exc.sum fun _ ha => Exc.sum fun _ hb => ((excA hj hb).mul (excA hi ha)).smul _
theorem exc_oT2bb (T : ℕ → ℕ → ℕ → ℕ → K) : Exc (uvir noa nva nob nvb) (oT2bb nob nvb T) :=
  Exc.sum fun _ hi => Exc.sum fun _ hj => Exc.sum fun _ ha => Exc.sum fun _ hb => ((excB hj hb).mul (excB hi ha)).smul _
theorem exc_oT2ab (T : ℕ → ℕ → ℕ → ℕ → K) : Exc (uvir noa nva nob nvb) (oT2ab noa nva nob nvb T) :=
  Exc.sum fun _ hi => Exc.sum fun _ hj => Exc.sum fun _ ha => Exc.sum fun _ hb => ((excA hi ha).mul (excB hj hb)).smul _

theorem raises_oT1a (T : ℕ → ℕ → K) : Raises (uvir noa nva nob nvb) 1 (oT1a noa nva T) :=
  Raises.sum fun _ hi => Raises.sum fun _ ha => (raisesA hi ha).smul _
theorem raises_oT1b (T : ℕ → ℕ → K) : Raises (uvir noa nva nob nvb) 1 (oT1b nob nvb T) :=
  Raises.sum fun _ hi => Raises.sum fun _ ha => (raisesB hi ha).smul _
theorem raises_oT2aa (T : ℕ → ℕ → ℕ → ℕ → K) : Raises (uvir noa nva nob nvb) 2 (oT2aa noa nva T) :=
  Raises.sum fun _ hi => Raises.sum fun _ hj => Raises.sum fun _ ha => Raises.sum fun _ hb =>
    ((raisesA hj hb).mul (raisesA hi ha)).smul _
theorem raises_oT2bb (T : ℕ → ℕ → ℕ → ℕ → K) : Raises (uvir noa nva nob nvb) 2 (oT2bb nob nvb T) :=
  Raises.sum fun _ hi => Raises.sum fun _ hj => Raises.sum fun _ ha => Raises.sum fun _ hb =>
    ((raisesB hj hb).mul (raisesB hi ha)).smul _
theorem raises_oT2ab (T : ℕ → ℕ → ℕ → ℕ → K) : Raises (uvir noa nva nob nvb) 2 (oT2ab noa nva nob nvb T) :=
  Raises.sum fun _ hi => Raises.sum fun _ hj => Raises.sum fun _ ha => Raises.sum fun _ hb =>
    ((raisesA hi ha).mul (raisesB hj hb)).smul _

end

section
variable {V : Finset ℕ} {iocc ivir : List ℕ} (ho : ∀ i, i < iocc.length → iocc.getD i 0 ∉ V)
  (hv : ∀ a, a < ivir.length → ivir.getD a 0 ∈ V)
include ho hv

theorem exc_oT1 (T : ℕ → ℕ → K) : Exc V (oT1 iocc ivir T) :=
  Exc.sum fun _ hi => Exc.sum fun _ ha => (Exc.E (ho _ (Finset.mem_range.mp hi)) (hv _ (Finset.mem_range.mp ha))).smul _
theorem raises_oT1 (T : ℕ → ℕ → K) : Raises V 1 (oT1 iocc ivir T) :=
  Raises.sum fun _ hi => Raises.sum fun _ ha => (Raises.E (ho _ (Finset.mem_range.mp hi)) (hv _ (Finset.mem_range.mp ha))).smul _
theorem exc_oT2 (T : ℕ → ℕ → ℕ → ℕ → K) : Exc V (oT2 iocc ivir T) :=
  Exc.sum fun _ hi => Exc.sum fun _ hj => Exc.sum fun _ ha => Exc.sum fun _ hb =>
    ((Exc.E (ho _ (Finset.mem_range.mp hj)) (hv _ (Finset.mem_range.mp hb))).mul
      (Exc.E (ho _ (Finset.mem_range.mp hi)) (hv _ (Finset.mem_range.mp ha)))).smul _
theorem raises_oT2 (T : ℕ → ℕ → ℕ → ℕ → K) : Raises V 2 (oT2 iocc ivir T) :=
  Raises.sum fun _ hi => Raises.sum fun _ hj => Raises.sum fun _ ha => Raises.sum fun _ hb =>
    ((Raises.E (ho _ (Finset.mem_range.mp hj)) (hv _ (Finset.mem_range.mp hb))).mul
      (Raises.E (ho _ (Finset.mem_range.mp hi)) (hv _ (Finset.mem_range.mp ha)))).smul _

end

end CI
