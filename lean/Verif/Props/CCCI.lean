import Verif.Props.Rows
import Verif.Props.UT
import Verif.Props.CIExp
/-!
# C59: the coupled-cluster and the configuration-interaction halves of the library agree

Bridges between the two second-quantised settings used for the two halves.
-/
set_option linter.unusedSectionVars false
set_option linter.unusedSimpArgs false
namespace CCCI
open Finset CI

/-- `1/4 ∑ (V_pqrs - V_pqsr) p† q† s r = 1/2 ∑ V_pqrs p† q† s r` -/
theorem op2_half {K O V M : Type} [Field K] [CharZero K] [DecidableEq O] [DecidableEq V] [AddCommGroup M] [Module K M] [Fintype O] [Fintype V]
    (C : Sq.CAR K (O ⊕ V) M) (W : O ⊕ V → O ⊕ V → O ⊕ V → O ⊕ V → K) :
    Sq.op2 C (fun p q r s => W p q r s - W p q s r)
      = (1 / 2 : K) • ∑ p, ∑ q, ∑ r, ∑ s, W p q r s • (C.cre p * C.cre q * C.ann s * C.ann r) := by
  have e : ∀ p q, ∑ r, ∑ s, (W p q r s - W p q s r) • (C.cre p * C.cre q * C.ann s * C.ann r)
      = (2 : K) • ∑ r, ∑ s, W p q r s • (C.cre p * C.cre q * C.ann s * C.ann r) := by
    intro p q
    simp only [sub_smul, sum_sub_distrib]
    rw [two_smul, sub_eq_add_neg]
    congr 1
    rw [sum_comm, ← sum_neg_distrib]
    refine sum_congr rfl fun r _ => ?_
    rw [← sum_neg_distrib]
    refine sum_congr rfl fun s _ => ?_
    rw [← smul_neg]
    congr 1
    rw [mul_assoc, C.ann_ann r s, mul_neg, neg_neg, ← mul_assoc]
  unfold Sq.op2
  simp only [e, ← smul_sum, smul_smul]
  norm_num

/-- The cluster operator of spin-assembled amplitudes by spin case. -/
theorem cluster_spin {K Oa Va Ob Vb M : Type} [Field K] [CharZero K] [DecidableEq Oa] [DecidableEq Va] [DecidableEq Ob] [DecidableEq Vb]
    [Fintype Oa] [Fintype Va] [Fintype Ob] [Fintype Vb] [AddCommGroup M] [Module K M] (C : Sq.CAR K ((Oa ⊕ Ob) ⊕ (Va ⊕ Vb)) M)
    (T1a : Va → Oa → K) (T1b : Vb → Ob → K) (T2aa : Va → Va → Oa → Oa → K) (T2ab : Va → Vb → Oa → Ob → K) (T2bb : Vb → Vb → Ob → Ob → K) :
    Sq.cluster C (CC.T1_to_spin T1a T1b) (CC.T2_to_spin T2aa T2ab T2bb)
      = (∑ i, ∑ a, T1a a i • (C.cre (.inr (.inl a)) * C.ann (.inl (.inl i))))
        + (∑ i, ∑ a, T1b a i • (C.cre (.inr (.inr a)) * C.ann (.inl (.inr i))))
        + (1 / 4 : K) • (∑ i, ∑ j, ∑ a, ∑ b, T2aa a b i j •
            (C.cre (.inr (.inl a)) * C.cre (.inr (.inl b)) * C.ann (.inl (.inl j)) * C.ann (.inl (.inl i))))
        + (∑ i, ∑ j, ∑ a, ∑ b, T2ab a b i j •
            (C.cre (.inr (.inl a)) * C.cre (.inr (.inr b)) * C.ann (.inl (.inr j)) * C.ann (.inl (.inl i))))
        + (1 / 4 : K) • (∑ i, ∑ j, ∑ a, ∑ b, T2bb a b i j •
            (C.cre (.inr (.inr a)) * C.cre (.inr (.inr b)) * C.ann (.inl (.inr j)) * C.ann (.inl (.inr i)))) := by
  have e1 : ∀ (a : Va) (b : Vb) (i : Oa) (j : Ob),
      C.cre (.inr (.inr b)) * C.cre (.inr (.inl a)) * C.ann (.inl (.inl i)) * C.ann (.inl (.inr j))
        = C.cre (.inr (.inl a)) * C.cre (.inr (.inr b)) * C.ann (.inl (.inr j)) * C.ann (.inl (.inl i)) := by
    intro a b i j
    rw [C.cre_cre (.inr (.inr b)), mul_assoc, C.ann_ann (.inl (.inl i)), neg_mul_neg, ← mul_assoc]
  have e2 : ∀ (a : Va) (b : Vb) (i : Oa) (j : Ob),
      C.cre (.inr (.inr b)) * C.cre (.inr (.inl a)) * C.ann (.inl (.inr j)) * C.ann (.inl (.inl i))
        = -(C.cre (.inr (.inl a)) * C.cre (.inr (.inr b)) * C.ann (.inl (.inr j)) * C.ann (.inl (.inl i))) := by
    intro a b i j
    rw [C.cre_cre (.inr (.inr b)), neg_mul, neg_mul]
  have e3 : ∀ (a : Va) (b : Vb) (i : Oa) (j : Ob),
      C.cre (.inr (.inl a)) * C.cre (.inr (.inr b)) * C.ann (.inl (.inl i)) * C.ann (.inl (.inr j))
        = -(C.cre (.inr (.inl a)) * C.cre (.inr (.inr b)) * C.ann (.inl (.inr j)) * C.ann (.inl (.inl i))) := by
    intro a b i j
    rw [mul_assoc, C.ann_ann (.inl (.inl i)), mul_neg, ← mul_assoc]
  have c4 : ∀ {α β γ δ : Type} [Fintype α] [Fintype β] [Fintype γ] [Fintype δ] (f : α → β → γ → δ → Module.End K M),
      ∑ a, ∑ b, ∑ i, ∑ j, f a b i j = ∑ i, ∑ j, ∑ a, ∑ b, f a b i j := by
    intro α β γ δ _ _ _ _ f
    calc ∑ a, ∑ b, ∑ i, ∑ j, f a b i j = ∑ a, ∑ i, ∑ b, ∑ j, f a b i j := sum_congr rfl fun a _ => sum_comm
      _ = ∑ i, ∑ a, ∑ b, ∑ j, f a b i j := sum_comm
      _ = ∑ i, ∑ a, ∑ j, ∑ b, f a b i j := sum_congr rfl fun i _ => sum_congr rfl fun a _ => sum_comm
      _ = ∑ i, ∑ j, ∑ a, ∑ b, f a b i j := sum_congr rfl fun i _ => sum_comm
  unfold Sq.cluster
  have d1 : (∑ a, ∑ i, CC.T1_to_spin T1a T1b a i • (C.cre (.inr a) * C.ann (.inl i)))
      = (∑ i, ∑ a, T1a a i • (C.cre (.inr (.inl a)) * C.ann (.inl (.inl i))))
        + (∑ i, ∑ a, T1b a i • (C.cre (.inr (.inr a)) * C.ann (.inl (.inr i)))) := by
    simp only [Fintype.sum_sum_type, CC.T1_to_spin, CC.blk2, zero_smul, sum_const_zero, add_zero, zero_add]
    congr 1 <;> rw [sum_comm]
  have d2 : (∑ a, ∑ b, ∑ i, ∑ j, CC.T2_to_spin T2aa T2ab T2bb a b i j • (C.cre (.inr a) * C.cre (.inr b) * C.ann (.inl j) * C.ann (.inl i)))
      = (∑ i, ∑ j, ∑ a, ∑ b, T2aa a b i j •
            (C.cre (.inr (.inl a)) * C.cre (.inr (.inl b)) * C.ann (.inl (.inl j)) * C.ann (.inl (.inl i))))
        + (4 : K) • (∑ i, ∑ j, ∑ a, ∑ b, T2ab a b i j •
            (C.cre (.inr (.inl a)) * C.cre (.inr (.inr b)) * C.ann (.inl (.inr j)) * C.ann (.inl (.inl i))))
        + (∑ i, ∑ j, ∑ a, ∑ b, T2bb a b i j •
            (C.cre (.inr (.inr a)) * C.cre (.inr (.inr b)) * C.ann (.inl (.inr j)) * C.ann (.inl (.inr i)))) := by
    simp only [Fintype.sum_sum_type, CC.T2_to_spin, zero_smul, sum_const_zero, add_zero, zero_add, sum_add_distrib, e1, e2, e3, neg_smul_neg]
    rw [c4 fun a b i j => T2aa a b i j • _, c4 fun a b i j => T2bb a b i j • _, c4 fun (a : Va) (b : Vb) (i : Oa) (j : Ob) => T2ab a b i j • _]
    have s2 : ∑ a : Va, ∑ b : Vb, ∑ j : Ob, ∑ i : Oa, T2ab a b i j •
          (C.cre (.inr (.inl a)) * C.cre (.inr (.inr b)) * C.ann (.inl (.inr j)) * C.ann (.inl (.inl i)))
        = ∑ i, ∑ j, ∑ a, ∑ b, T2ab a b i j •
          (C.cre (.inr (.inl a)) * C.cre (.inr (.inr b)) * C.ann (.inl (.inr j)) * C.ann (.inl (.inl i))) := by
      exact Eq.trans (sum_congr rfl fun a _ => sum_congr rfl fun b _ => sum_comm) (c4 _)
    have s3 : ∑ b : Vb, ∑ a : Va, ∑ i : Oa, ∑ j : Ob, T2ab a b i j •
          (C.cre (.inr (.inl a)) * C.cre (.inr (.inr b)) * C.ann (.inl (.inr j)) * C.ann (.inl (.inl i)))
        = ∑ i, ∑ j, ∑ a, ∑ b, T2ab a b i j •
          (C.cre (.inr (.inl a)) * C.cre (.inr (.inr b)) * C.ann (.inl (.inr j)) * C.ann (.inl (.inl i))) := by
      exact Eq.trans sum_comm (c4 _)
    have s4 : ∑ b : Vb, ∑ a : Va, ∑ j : Ob, ∑ i : Oa, T2ab a b i j •
          (C.cre (.inr (.inl a)) * C.cre (.inr (.inr b)) * C.ann (.inl (.inr j)) * C.ann (.inl (.inl i)))
        = ∑ i, ∑ j, ∑ a, ∑ b, T2ab a b i j •
          (C.cre (.inr (.inl a)) * C.cre (.inr (.inr b)) * C.ann (.inl (.inr j)) * C.ann (.inl (.inl i))) := by
      rw [← s3]; exact sum_congr rfl fun b _ => sum_congr rfl fun a _ => sum_comm
    rw [s2, s3, s4]
    module
  rw [d1, d2, smul_add, smul_add, smul_smul]
  norm_num
  abel

variable {K : Type} [Field K] [CharZero K] (noa nva nob nvb : ℕ)

abbrev OS := Fin noa ⊕ Fin nob
abbrev VS := Fin nva ⊕ Fin nvb

/-- The spin orbital of `ci_utils` behind an occupied or virtual orbital of the coupled-cluster routines. -/
def soF : OS noa nob ⊕ VS nva nvb → SO
  | .inl (.inl i) => up i
  | .inl (.inr i) => dn i
  | .inr (.inl a) => up (a + noa)
  | .inr (.inr a) => dn (a + nob)

theorem soF_inj : Function.Injective (soF noa nva nob nvb) := by
  rintro ((i | i) | (i | i)) ((j | j) | (j | j)) h <;>
    simp only [soF, up, dn, toLex_inj, Sum.inl.injEq, Sum.inr.injEq, reduceCtorEq] at h ⊢ <;> omega

def so : OS noa nob ⊕ VS nva nvb ↪ SO := ⟨soF noa nva nob nvb, soF_inj noa nva nob nvb⟩

theorem map_so : univ.map (so noa nva nob nvb) = emb (range (noa + nva)) (range (nob + nvb)) := by
  refine emb_ext (fun k => ?_) (fun k => ?_)
  · rw [mem_map, mem_range]
    constructor
    · rintro ⟨(i | i) | (i | i), -, h⟩ <;>
        simp only [so, Function.Embedding.coeFn_mk, soF, up, dn, toLex_inj, Sum.inl.injEq, reduceCtorEq] at h <;> omega
    · intro h
      by_cases hk : k < noa
      · exact ⟨.inl (.inl ⟨k, hk⟩), mem_univ _, rfl⟩
      · refine ⟨.inr (.inl ⟨k - noa, by omega⟩), mem_univ _, ?_⟩
        change up (k - noa + noa) = up k
        rw [Nat.sub_add_cancel (by omega)]
  · rw [mem_map, mem_range]
    constructor
    · rintro ⟨(i | i) | (i | i), -, h⟩ <;>
        simp only [so, Function.Embedding.coeFn_mk, soF, up, dn, toLex_inj, Sum.inr.injEq, reduceCtorEq] at h <;> omega
    · intro h
      by_cases hk : k < nob
      · exact ⟨.inl (.inr ⟨k, hk⟩), mem_univ _, rfl⟩
      · refine ⟨.inr (.inr ⟨k - nob, by omega⟩), mem_univ _, ?_⟩
        change dn (k - nob + nob) = dn k
        rw [Nat.sub_add_cancel (by omega)]

theorem sum_so {A : Type} [AddCommMonoid A] (f : SO → A) :
    ∑ x ∈ emb (range (noa + nva)) (range (nob + nvb)), f x = ∑ p, f (so noa nva nob nvb p) := by
  rw [← map_so, sum_map]

variable (ha hb : ℕ → ℕ → K) (Ia Ib Iab : ℕ → ℕ → ℕ → ℕ → K)

/-- one-electron integrals over occupied and virtual spin orbitals -/
def hS (p q : OS noa nob ⊕ VS nva nvb) : K := spinH ha hb (so noa nva nob nvb p) (so noa nva nob nvb q)
/-- antisymmetrised two-electron integrals over occupied and virtual spin orbitals -/
def vS (p q r s : OS noa nob ⊕ VS nva nvb) : K :=
  spinV Ia Ib Iab (so noa nva nob nvb p) (so noa nva nob nvb q) (so noa nva nob nvb r) (so noa nva nob nvb s)
  - spinV Ia Ib Iab (so noa nva nob nvb p) (so noa nva nob nvb q) (so noa nva nob nvb s) (so noa nva nob nvb r)

abbrev CS (K : Type) [Field K] := Sq.fockCAR (so noa nva nob nvb) K

theorem vS_anti (va : ∀ p q r s, Ia p q r s = Ia q p s r) (vb : ∀ p q r s, Ib p q r s = Ib q p s r) :
    Sq.AntiV (vS noa nva nob nvb Ia Ib Iab) := by
  constructor <;> intro p q r s <;> unfold vS
  · rw [spinV_pair va vb, spinV_pair va vb (so noa nva nob nvb q)]; ring
  · ring

theorem ham_bridge : Sq.ham (CS noa nva nob nvb K) (hS noa nva nob nvb ha hb) (vS noa nva nob nvb Ia Ib Iab)
    = spinHam (noa + nva) (nob + nvb) ha hb Ia Ib Iab := by
  unfold spinHam Fock.ham Sq.ham
  congr 1
  · rw [sum_so]
    refine sum_congr rfl fun p _ => ?_
    rw [sum_so]; rfl
  · simp only [sum_so]
    exact op2_half (CS noa nva nob nvb K) fun p q r s =>
      spinV Ia Ib Iab (so noa nva nob nvb p) (so noa nva nob nvb q) (so noa nva nob nvb r) (so noa nva nob nvb s)

variable (T1a T1b : ℕ → ℕ → K) (T2aa T2ab T2bb : ℕ → ℕ → ℕ → ℕ → K)

/-- the array of an index function -/
def arr2 {K : Type} (n m : ℕ) (T : ℕ → ℕ → K) : Fin n → Fin m → K := fun a i => T a i
/-- the array of an index function -/
def arr4 {K : Type} (n m k l : ℕ) (T : ℕ → ℕ → ℕ → ℕ → K) : Fin n → Fin m → Fin k → Fin l → K := fun a b i j => T a b i j

/-- spin-assembled amplitudes -/
def t1S : VS nva nvb → OS noa nob → K := CC.T1_to_spin (arr2 nva noa T1a) (arr2 nvb nob T1b)
def t2S : VS nva nvb → VS nva nvb → OS noa nob → OS noa nob → K :=
  CC.T2_to_spin (arr4 nva nva noa noa T2aa) (arr4 nva nvb noa nob T2ab) (arr4 nvb nvb nob nob T2bb)

theorem cluster_bridge : Sq.cluster (CS noa nva nob nvb K) (t1S noa nva nob nvb T1a T1b) (t2S noa nva nob nvb T2aa T2ab T2bb)
    = clusterU noa nva nob nvb T1a T1b T2aa T2ab T2bb := by
  unfold t1S t2S
  rw [cluster_spin]
  unfold clusterU
  simp only [sum_range]
  rfl

/-! ### integrals -/

/-- The blocks of a one-electron matrix over `o` occupied orbitals followed by `v` virtual ones. -/
def one (o v : ℕ) (f : ℕ → ℕ → K) : CC.OneE (Fin o) (Fin v) K :=
  ⟨fun i j => f i j, fun i a => f i (a + o), fun a i => f (a + o) i, fun a b => f (a + o) (b + o)⟩

/-- The nine blocks of two-electron integrals of one spin case. -/
def two (o v : ℕ) (g : ℕ → ℕ → ℕ → ℕ → K) : CC.TwoE (Fin o) (Fin v) K where
  vvvv := fun a b c d => g (a + o) (b + o) (c + o) (d + o)
  vvvo := fun a b c i => g (a + o) (b + o) (c + o) i
  vovv := fun a i c d => g (a + o) i (c + o) (d + o)
  vvoo := fun a b i j => g (a + o) (b + o) i j
  vovo := fun a i b j => g (a + o) i (b + o) j
  oovv := fun i j a b => g i j (a + o) (b + o)
  vooo := fun a i j k => g (a + o) i j k
  ooov := fun i j k a => g i j k (a + o)
  oooo := fun i j k l => g i j k l

/-- The sixteen blocks of the alpha-beta integrals. -/
def twoAB (oa va ob vb : ℕ) (g : ℕ → ℕ → ℕ → ℕ → K) : CC.TwoEFull (Fin oa) (Fin va) (Fin ob) (Fin vb) K where
  oooo := fun i j k l => g i j k l
  ooov := fun i j k d => g i j k (d + ob)
  oovo := fun i j c l => g i j (c + oa) l
  oovv := fun i j c d => g i j (c + oa) (d + ob)
  ovoo := fun i b k l => g i (b + ob) k l
  ovov := fun i b k d => g i (b + ob) k (d + ob)
  ovvo := fun i b c l => g i (b + ob) (c + oa) l
  ovvv := fun i b c d => g i (b + ob) (c + oa) (d + ob)
  vooo := fun a j k l => g (a + oa) j k l
  voov := fun a j k d => g (a + oa) j k (d + ob)
  vovo := fun a j c l => g (a + oa) j (c + oa) l
  vovv := fun a j c d => g (a + oa) j (c + oa) (d + ob)
  vvoo := fun a b k l => g (a + oa) (b + ob) k l
  vvov := fun a b k d => g (a + oa) (b + ob) k (d + ob)
  vvvo := fun a b c l => g (a + oa) (b + ob) (c + oa) l
  vvvv := fun a b c d => g (a + oa) (b + ob) (c + oa) (d + ob)

/-- `⟨pq||rs⟩ = ⟨pq|rs⟩ - ⟨pq|sr⟩` -/
def asym (I : ℕ → ℕ → ℕ → ℕ → K) (p q r s : ℕ) : K := I p q r s - I p q s r

/-- The alpha Fock matrix of the reference with `noa` alpha and `nob` beta electrons. -/
def fockA (p q : ℕ) : K := ha p q + ∑ k ∈ range noa, asym Ia p k q k + ∑ k ∈ range nob, Iab p k q k
/-- The beta Fock matrix. -/
def fockB (p q : ℕ) : K := hb p q + ∑ k ∈ range nob, asym Ib p k q k + ∑ k ∈ range noa, Iab k p k q

theorem blocks_bridge : Sq.blocks (vS noa nva nob nvb Ia Ib Iab)
    = CC.int_to_spin2 (two noa nva (asym Ia)) (two nob nvb (asym Ib)) (twoAB noa nva nob nvb Iab) := by
  unfold Sq.blocks CC.int_to_spin2
  congr 1 <;> funext p q r s <;> rcases p with p | p <;> rcases q with q | q <;> rcases r with r | r <;> rcases s with s | s <;>
    first | rfl | exact sub_zero _ | exact zero_sub _

theorem fock_bridge : Sq.fock (hS noa nva nob nvb ha hb) (vS noa nva nob nvb Ia Ib Iab)
    = CC.F_to_spin (one noa nva (fockA noa nob ha Ia Iab)) (one nob nvb (fockB noa nob hb Ib Iab)) := by
  unfold Sq.fock CC.F_to_spin
  congr 1 <;> funext p q <;> rcases p with p | p <;> rcases q with q | q <;>
    simp only [Fintype.sum_sum_type, hS, vS, so, soF, spinH, spinV, Function.Embedding.coeFn_mk, ofLex_toLex, CC.blk2, one, fockA, fockB, asym,
      sum_range, sub_zero, sub_self, sum_const_zero, add_zero, add_assoc] <;> try ring

/-- The energy of the reference determinant. -/
def refE : K := ∑ i ∈ range noa, ha i i + ∑ i ∈ range nob, hb i i
  + (1 / 2) * ∑ i ∈ range noa, ∑ j ∈ range noa, asym Ia i j i j + (1 / 2) * ∑ i ∈ range nob, ∑ j ∈ range nob, asym Ib i j i j
  + ∑ i ∈ range noa, ∑ j ∈ range nob, Iab i j i j

theorem refE_bridge : Sq.refEnergy (hS noa nva nob nvb ha hb) (vS noa nva nob nvb Ia Ib Iab) = refE noa nob ha hb Ia Ib Iab := by
  have e : ∑ i : Fin nob, ∑ j : Fin noa, Iab j i j i = ∑ i : Fin noa, ∑ j : Fin nob, Iab i j i j := sum_comm
  simp only [Sq.refEnergy, Fintype.sum_sum_type, hS, vS, so, soF, spinH, spinV, Function.Embedding.coeFn_mk, ofLex_toLex, refE, asym,
    sum_range, sub_zero, sum_add_distrib, e]
  ring

theorem anti_arr {o v : ℕ} {T : ℕ → ℕ → ℕ → ℕ → K} (h : CI.Anti o v T) : CC.Anti (arr4 v v o o T) :=
  ⟨fun a b i j => (h a b i j a.2 b.2 i.2 j.2).1, fun a b i j => (h a b i j a.2 b.2 i.2 j.2).2⟩

theorem anti_t2S (haa : CI.Anti noa nva T2aa) (hbb : CI.Anti nob nvb T2bb) : CC.Anti (t2S noa nva nob nvb T2aa T2ab T2bb) := by
  obtain ⟨x1, x2⟩ := anti_arr haa
  obtain ⟨y1, y2⟩ := anti_arr hbb
  constructor <;> rintro (a | a) (b | b) (i | i) (j | j) <;>
    first | exact x1 _ _ _ _ | exact x2 _ _ _ _ | exact y1 _ _ _ _ | exact y2 _ _ _ _ | exact rfl | exact (neg_neg _).symm | exact neg_zero.symm

theorem anti_two {o v : ℕ} {I : ℕ → ℕ → ℕ → ℕ → K} (h : ∀ p q r s, I p q r s = I q p s r) : CC.AntiI (two o v (asym I)) := by
  have e1 : ∀ p q r s, asym I q p r s = -asym I p q r s := fun p q r s => by rw [asym, asym, h q p, h q p]; ring
  have e2 : ∀ p q r s, asym I p q s r = -asym I p q r s := fun p q r s => by rw [asym, asym]; ring
  constructor <;> intro a b c d <;> first | exact e1 _ _ _ _ | exact e2 _ _ _ _

/-- `nexp` is Mathlib's exponential of a nilpotent element -/
theorem exp_bridge (x : Module.End K (Finset SO → K)) : IsNilpotent.exp x = Sq.nexp K x := by
  unfold Sq.nexp IsNilpotent.exp
  refine sum_congr rfl fun n _ => ?_
  refine LinearMap.ext fun φ => funext fun S => ?_
  rw [LinearMap.smul_apply, LinearMap.smul_apply, Pi.smul_apply, Pi.smul_apply, Rat.smul_def]
  simp

theorem occ_bridge : Sq.occSet (so noa nva nob nvb) = uref noa nob := by
  unfold uref
  refine emb_ext (fun k => ?_) (fun k => ?_)
  · rw [Sq.occSet, mem_image, mem_range]
    constructor
    · rintro ⟨i | i, -, h⟩ <;> simp only [so, Function.Embedding.coeFn_mk, soF, up, dn, toLex_inj, Sum.inl.injEq, reduceCtorEq] at h; omega
    · intro h; exact ⟨.inl ⟨k, h⟩, mem_univ _, rfl⟩
  · rw [Sq.occSet, mem_image, mem_range]
    constructor
    · rintro ⟨i | i, -, h⟩ <;> simp only [so, Function.Embedding.coeFn_mk, soF, up, dn, toLex_inj, Sum.inr.injEq, reduceCtorEq] at h; omega
    · intro h; exact ⟨.inr ⟨k, h⟩, mem_univ _, rfl⟩

end CCCI
