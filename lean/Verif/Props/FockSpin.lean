/-
Spin operators of the Fock space of alpha and beta orbitals, and the Hamiltonians that commute with them.
-/
import Verif.Props.CIMatrix
import Mathlib.Algebra.Module.Submodule.LinearMap
import Mathlib.Algebra.Module.BigOperators
import Mathlib.Algebra.Ring.CharZero
import Mathlib.Tactic.NoncommRing

namespace CI
open Fock
variable {K : Type} [Field K]

/-- the raising operator `S₊ = Σ_p a†_pα a_pβ` -/
def splus (K : Type) [Field K] (n : ℕ) : Module.End K (Finset SO → K) := ∑ p ∈ Finset.range n, cre (up p) * ann (dn p)
/-- the lowering operator `S₋ = Σ_p a†_pβ a_pα` -/
def sminus (K : Type) [Field K] (n : ℕ) : Module.End K (Finset SO → K) := ∑ p ∈ Finset.range n, cre (dn p) * ann (up p)
/-- the projection `S_z = 1/2 Σ_p (a†_pα a_pα - a†_pβ a_pβ)` of the spin -/
def sz (K : Type) [Field K] (n : ℕ) : Module.End K (Finset SO → K) :=
  (1 / 2 : K) • ∑ p ∈ Finset.range n, (cre (up p) * ann (up p) - cre (dn p) * ann (dn p))
/-- the total spin `S² = S₋ S₊ + S_z² + S_z` -/
def ssq (K : Type) [Field K] (n : ℕ) : Module.End K (Finset SO → K) := sminus K n * splus K n + sz K n * sz K n + sz K n

/-! ### commutators -/

section ring
variable {R : Type} [Ring R]

theorem comm_two (S a b : R) : S * (a * b) - a * b * S = (S * a - a * S) * b + a * (S * b - b * S) := by noncomm_ring
theorem comm_four (S a b c d : R) : S * (a * b * c * d) - a * b * c * d * S
    = (S * a - a * S) * b * c * d + a * (S * b - b * S) * c * d + a * b * (S * c - c * S) * d + a * b * c * (S * d - d * S) := by noncomm_ring

/-- An operator that moves `y` to `x` in products commutes with the sums over both spins. -/
theorem spin_two {S px py qx qy : R} (h1 : S * px - px * S = 0) (h2 : S * py - py * S = px) (h3 : S * qx - qx * S = -qy)
    (h4 : S * qy - qy * S = 0) : S * (px * qx + py * qy) - (px * qx + py * qy) * S = 0 := by
  have e : S * (px * qx + py * qy) - (px * qx + py * qy) * S = (S * (px * qx) - px * qx * S) + (S * (py * qy) - py * qy * S) := by noncomm_ring
  rw [e, comm_two, comm_two, h1, h2, h3, h4]
  noncomm_ring

theorem spin_four {S px py qx qy sx sy rx ry : R} (p1 : S * px - px * S = 0) (p2 : S * py - py * S = px) (q1 : S * qx - qx * S = 0)
    (q2 : S * qy - qy * S = qx) (s1 : S * sx - sx * S = -sy) (s2 : S * sy - sy * S = 0) (r1 : S * rx - rx * S = -ry)
    (r2 : S * ry - ry * S = 0) :
    S * (px * qx * sx * rx + px * qy * sy * rx + py * qx * sx * ry + py * qy * sy * ry)
      - (px * qx * sx * rx + px * qy * sy * rx + py * qx * sx * ry + py * qy * sy * ry) * S = 0 := by
  have e : S * (px * qx * sx * rx + px * qy * sy * rx + py * qx * sx * ry + py * qy * sy * ry)
      - (px * qx * sx * rx + px * qy * sy * rx + py * qx * sx * ry + py * qy * sy * ry) * S
      = (S * (px * qx * sx * rx) - px * qx * sx * rx * S) + (S * (px * qy * sy * rx) - px * qy * sy * rx * S)
        + (S * (py * qx * sx * ry) - py * qx * sx * ry * S) + (S * (py * qy * sy * ry) - py * qy * sy * ry * S) := by noncomm_ring
  rw [e, comm_four, comm_four, comm_four, comm_four, p1, p2, q1, q2, s1, s2, r1, r2]
  noncomm_ring

end ring

section car
variable {ι : Type} [LinearOrder ι]

/-- `[a†_p a_q, a†_r] = δ_qr a†_p` -/
theorem comm_cre (p q r : ι) : cre p * ann q * cre r - cre r * (cre p * ann q) = (if q = r then cre p else 0 : Module.End K (Finset ι → K)) := by
  have h1 := ann_cre (K := K) q r
  have h2 := cre_cre (K := K) r p
  calc cre p * ann q * cre r - cre r * (cre p * ann q) = cre p * (ann q * cre r + cre r * ann q) - (cre r * cre p + cre p * cre r) * ann q := by noncomm_ring
    _ = _ := by rw [h1, h2, neg_add_cancel, zero_mul, sub_zero, mul_ite, mul_one, mul_zero]

/-- `[a†_p a_q, a_r] = -δ_pr a_q` -/
theorem comm_ann (p q r : ι) : cre p * ann q * ann r - ann r * (cre p * ann q) = (if r = p then -ann q else 0 : Module.End K (Finset ι → K)) := by
  have h1 := ann_cre (K := K) r p
  have h2 := ann_ann (K := K) q r
  calc cre p * ann q * ann r - ann r * (cre p * ann q) = cre p * (ann q * ann r + ann r * ann q) - (ann r * cre p + cre p * ann r) * ann q := by noncomm_ring
    _ = _ := by rw [h1, h2, neg_add_cancel, mul_zero, zero_sub, ite_mul, one_mul, zero_mul]; split_ifs <;> simp

theorem comm_sum {R : Type} [Ring R] (A : Finset ℕ) (f : ℕ → R) (x : R) : (∑ p ∈ A, f p) * x - x * ∑ p ∈ A, f p = ∑ p ∈ A, (f p * x - x * f p) := by
  rw [Finset.sum_mul, Finset.mul_sum, Finset.sum_sub_distrib]

end car

theorem sum_emb' {M : Type} [AddCommMonoid M] (A B : Finset ℕ) (f : SO → M) : ∑ x ∈ emb A B, f x = ∑ i ∈ A, f (up i) + ∑ i ∈ B, f (dn i) := by
  simp [emb, Finset.sum_map, Finset.sum_disjSum, up, dn]

theorem dn_ne_up (p q : ℕ) : dn p ≠ up q := by simp [up, dn]

section plus
variable {n : ℕ} {p : ℕ}

theorem splus_cre_up : splus K n * cre (up p) - cre (up p) * splus K n = 0 := by
  rw [splus, comm_sum]
  exact Finset.sum_eq_zero fun q _ => by rw [comm_cre, if_neg (dn_ne_up _ _)]
theorem splus_cre_dn (hp : p < n) : splus K n * cre (dn p) - cre (dn p) * splus K n = cre (up p) := by
  rw [splus, comm_sum, Finset.sum_eq_single p]
  · rw [comm_cre, if_pos rfl]
  · intro q _ hq; rw [comm_cre, if_neg (fun h => hq (by simpa [dn] using h))]
  · intro h; exact absurd (Finset.mem_range.2 hp) h
theorem splus_ann_up (hp : p < n) : splus K n * ann (up p) - ann (up p) * splus K n = -ann (dn p) := by
  rw [splus, comm_sum, Finset.sum_eq_single p]
  · rw [comm_ann, if_pos rfl]
  · intro q _ hq; rw [comm_ann, if_neg (fun h => hq (by simpa [up] using h.symm))]
  · intro h; exact absurd (Finset.mem_range.2 hp) h
theorem splus_ann_dn : splus K n * ann (dn p) - ann (dn p) * splus K n = 0 := by
  rw [splus, comm_sum]
  exact Finset.sum_eq_zero fun q _ => by rw [comm_ann, if_neg (dn_ne_up _ _)]
theorem sminus_cre_dn : sminus K n * cre (dn p) - cre (dn p) * sminus K n = 0 := by
  rw [sminus, comm_sum]
  exact Finset.sum_eq_zero fun q _ => by rw [comm_cre, if_neg up_ne_dn]
theorem sminus_cre_up (hp : p < n) : sminus K n * cre (up p) - cre (up p) * sminus K n = cre (dn p) := by
  rw [sminus, comm_sum, Finset.sum_eq_single p]
  · rw [comm_cre, if_pos rfl]
  · intro q _ hq; rw [comm_cre, if_neg (fun h => hq (by simpa [up] using h))]
  · intro h; exact absurd (Finset.mem_range.2 hp) h
theorem sminus_ann_dn (hp : p < n) : sminus K n * ann (dn p) - ann (dn p) * sminus K n = -ann (up p) := by
  rw [sminus, comm_sum, Finset.sum_eq_single p]
  · rw [comm_ann, if_pos rfl]
  · intro q _ hq; rw [comm_ann, if_neg (fun h => hq (by simpa [dn] using h.symm))]
  · intro h; exact absurd (Finset.mem_range.2 hp) h
theorem sminus_ann_up : sminus K n * ann (up p) - ann (up p) * sminus K n = 0 := by
  rw [sminus, comm_sum]
  exact Finset.sum_eq_zero fun q _ => by rw [comm_ann, if_neg up_ne_dn]

end plus


section ham
variable {n : ℕ}

theorem comm_sum' {R : Type} [Ring R] (A : Finset ℕ) (f : ℕ → R) (x : R) : x * (∑ p ∈ A, f p) - (∑ p ∈ A, f p) * x = ∑ p ∈ A, (x * f p - f p * x) := by
  rw [Finset.sum_mul, Finset.mul_sum, Finset.sum_sub_distrib]

theorem comm_smul (c : K) (x f : Module.End K (Finset SO → K)) : x * (c • f) - (c • f) * x = c • (x * f - f * x) := by
  refine LinearMap.ext fun ψ => ?_
  simp only [LinearMap.sub_apply, Module.End.mul_apply, LinearMap.smul_apply, map_smul, smul_sub]

/-- the Hamiltonian of integrals that do not depend on the spins -/
theorem spinHam_restricted (n : ℕ) (h : ℕ → ℕ → K) {I : ℕ → ℕ → ℕ → ℕ → K} (v : ∀ p q r s, I p q r s = I q p s r) :
    spinHam n n h h I I I = (∑ p ∈ Finset.range n, ∑ q ∈ Finset.range n, h p q • (cre (up p) * ann (up q) + cre (dn p) * ann (dn q)))
      + (1 / 2 : K) • ∑ p ∈ Finset.range n, ∑ q ∈ Finset.range n, ∑ r ∈ Finset.range n, ∑ s ∈ Finset.range n, I p q r s •
        (cre (up p) * cre (up q) * ann (up s) * ann (up r) + cre (up p) * cre (dn q) * ann (dn s) * ann (up r)
          + cre (dn p) * cre (up q) * ann (up s) * ann (dn r) + cre (dn p) * cre (dn q) * ann (dn s) * ann (dn r)) := by
  have e : ∀ p q r s : ℕ, spinV I I I (dn p) (up q) (dn r) (up s) = I p q r s := fun p q r s => (v p q r s).symm
  simp only [spinHam, ham, sum_emb', Finset.sum_add_distrib, e]
  simp only [spinH, spinV, ofLex_toLex, zero_smul, Finset.sum_const_zero, add_zero, zero_add, smul_add, Finset.sum_add_distrib]
  abel

variable {S : Module.End K (Finset SO → K)}

theorem comm_ham (x y : ℕ → SO) (hxy : (∀ p, x p = up p ∧ y p = dn p) ∨ ∀ p, x p = dn p ∧ y p = up p)
    (c1 : ∀ p, S * cre (x p) - cre (x p) * S = 0) (c2 : ∀ p < n, S * cre (y p) - cre (y p) * S = cre (x p))
    (a1 : ∀ p < n, S * ann (x p) - ann (x p) * S = -ann (y p)) (a2 : ∀ p, S * ann (y p) - ann (y p) * S = 0)
    (h : ℕ → ℕ → K) {I : ℕ → ℕ → ℕ → ℕ → K} (v : ∀ p q r s, I p q r s = I q p s r) :
    S * spinHam n n h h I I I - spinHam n n h h I I I * S = 0 := by
  have e : spinHam n n h h I I I = (∑ p ∈ Finset.range n, ∑ q ∈ Finset.range n, h p q • (cre (x p) * ann (x q) + cre (y p) * ann (y q)))
      + (1 / 2 : K) • ∑ p ∈ Finset.range n, ∑ q ∈ Finset.range n, ∑ r ∈ Finset.range n, ∑ s ∈ Finset.range n, I p q r s •
        (cre (x p) * cre (x q) * ann (x s) * ann (x r) + cre (x p) * cre (y q) * ann (y s) * ann (x r)
          + cre (y p) * cre (x q) * ann (x s) * ann (y r) + cre (y p) * cre (y q) * ann (y s) * ann (y r)) := by
    rw [spinHam_restricted n h v]
    rcases hxy with hx | hx
    · simp only [fun p => (hx p).1, fun p => (hx p).2]
    · simp only [fun p => (hx p).1, fun p => (hx p).2]
      congr 1
      · exact Finset.sum_congr rfl fun p _ => Finset.sum_congr rfl fun q _ => by rw [add_comm]
      · congr 1
        refine Finset.sum_congr rfl fun p _ => Finset.sum_congr rfl fun q _ => Finset.sum_congr rfl fun r _ => Finset.sum_congr rfl fun s _ => ?_
        congr 1; abel
  rw [e, mul_add, add_mul, add_sub_add_comm, comm_smul, comm_sum', comm_sum']
  rw [Finset.sum_eq_zero, Finset.sum_eq_zero, smul_zero, add_zero]
  · intro p hp
    rw [comm_sum']
    refine Finset.sum_eq_zero fun q hq => ?_
    rw [comm_sum']
    refine Finset.sum_eq_zero fun r hr => ?_
    rw [comm_sum']
    refine Finset.sum_eq_zero fun s hs => ?_
    rw [comm_smul,
      spin_four (c1 p) (c2 p (Finset.mem_range.1 hp)) (c1 q) (c2 q (Finset.mem_range.1 hq)) (a1 s (Finset.mem_range.1 hs)) (a2 s)
        (a1 r (Finset.mem_range.1 hr)) (a2 r), smul_zero]
  · intro p hp
    rw [comm_sum']
    refine Finset.sum_eq_zero fun q hq => ?_
    rw [comm_smul, spin_two (c1 p) (c2 p (Finset.mem_range.1 hp)) (a1 q (Finset.mem_range.1 hq)) (a2 q), smul_zero]

/-- The Hamiltonian of restricted integrals commutes with the raising operator. -/
theorem splus_ham (h : ℕ → ℕ → K) {I : ℕ → ℕ → ℕ → ℕ → K} (v : ∀ p q r s, I p q r s = I q p s r) :
    splus K n * spinHam n n h h I I I = spinHam n n h h I I I * splus K n :=
  sub_eq_zero.1 (comm_ham up dn (.inl fun _ => ⟨rfl, rfl⟩) (fun _ => splus_cre_up) (fun _ => splus_cre_dn) (fun _ => splus_ann_up)
    (fun _ => splus_ann_dn) h v)
/-- The Hamiltonian of restricted integrals commutes with the lowering operator. -/
theorem sminus_ham (h : ℕ → ℕ → K) {I : ℕ → ℕ → ℕ → ℕ → K} (v : ∀ p q r s, I p q r s = I q p s r) :
    sminus K n * spinHam n n h h I I I = spinHam n n h h I I I * sminus K n :=
  sub_eq_zero.1 (comm_ham dn up (.inr fun _ => ⟨rfl, rfl⟩) (fun _ => sminus_cre_dn) (fun _ => sminus_cre_up) (fun _ => sminus_ann_dn)
    (fun _ => sminus_ann_up) h v)

/-- `[S₊, S₋] = 2 S_z` -/
theorem splus_sminus [CharZero K] : splus K n * sminus K n - sminus K n * splus K n = (2 : K) • sz K n := by
  rw [sz, smul_smul, mul_one_div_cancel two_ne_zero, one_smul]
  have e : sminus K n = ∑ p ∈ Finset.range n, cre (dn p) * ann (up p) := rfl
  rw [e, comm_sum']
  refine Finset.sum_congr rfl fun p hp => ?_
  rw [comm_two, splus_cre_dn (Finset.mem_range.1 hp), splus_ann_up (Finset.mem_range.1 hp)]
  refine LinearMap.ext fun ψ => ?_
  simp only [LinearMap.sub_apply, LinearMap.add_apply, Module.End.mul_apply, LinearMap.neg_apply, map_neg, sub_eq_add_neg]

/-- The Hamiltonian of restricted integrals commutes with the total spin. -/
theorem ssq_ham [CharZero K] (h : ℕ → ℕ → K) {I : ℕ → ℕ → ℕ → ℕ → K} (v : ∀ p q r s, I p q r s = I q p s r) :
    ssq K n * spinHam n n h h I I I = spinHam n n h h I I I * ssq K n := by
  have p : Commute (splus K n) (spinHam n n h h I I I) := splus_ham h v
  have m : Commute (sminus K n) (spinHam n n h h I I I) := sminus_ham h v
  have z : Commute (sz K n) (spinHam n n h h I I I) := by
    have e : sz K n = (1 / 2 : K) • (splus K n * sminus K n - sminus K n * splus K n) := by
      rw [splus_sminus, smul_smul, one_div_mul_cancel two_ne_zero, one_smul]
    rw [e]
    exact ((p.mul_left m).sub_left (m.mul_left p)).smul_left _
  exact ((m.mul_left p).add_left (z.mul_left z)).add_left z

end ham

/-! ### numbers of electrons -/

/-- every determinant of `ψ` consists of sets `A`, `B` of alpha and beta orbitals below `n` with
`Q |A| |B| (number of electrons outside R)` -/
def Within (n : ℕ) (R : Finset ℕ) (Q : ℕ → ℕ → ℕ → Prop) (ψ : Finset SO → K) : Prop :=
  ∀ T, ψ T ≠ 0 → ∃ A ⊆ Finset.range n, ∃ B ⊆ Finset.range n, T = emb A B ∧ Q A.card B.card ((A \ R).card + (B \ R).card)

section within
variable {n : ℕ} {R : Finset ℕ} {Q : ℕ → ℕ → ℕ → Prop} {ψ : Finset SO → K}

theorem cre_ann_apply {ι : Type} [LinearOrder ι] (p q : ι) (ψ : Finset ι → K) (T : Finset ι) :
    (cre p * ann q : Module.End K (Finset ι → K)) ψ T = if p ∈ T then sgn K p (T.erase p) * (if q ∈ T.erase p then 0 else sgn K q (T.erase p) * ψ (insert q (T.erase p))) else 0 := by
  rw [Module.End.mul_apply, cre_apply, ann_apply]

theorem card_move {A B R : Finset ℕ} {p : ℕ} (h1 : p ∉ A) (h2 : p ∈ B) :
    (insert p A).card = A.card + 1 ∧ (B.erase p).card + 1 = B.card ∧
      ((insert p A) \ R).card + ((B.erase p) \ R).card = (A \ R).card + (B \ R).card := by
  refine ⟨Finset.card_insert_of_notMem h1, Finset.card_erase_add_one h2, ?_⟩
  by_cases hp : p ∈ R
  · rw [Finset.insert_sdiff_of_mem _ hp]
    congr 2
    ext x
    simp only [Finset.mem_sdiff, Finset.mem_erase]
    exact ⟨fun h => ⟨h.1.2, h.2⟩, fun h => ⟨⟨fun e => h.2 (e ▸ hp), h.1⟩, h.2⟩⟩
  · rw [Finset.insert_sdiff_of_notMem _ hp, Finset.card_insert_of_notMem (fun h => h1 (Finset.mem_sdiff.1 h).1), Finset.erase_sdiff_comm]
    have := Finset.card_erase_add_one (Finset.mem_sdiff.2 ⟨h2, hp⟩ : p ∈ B \ R)
    omega

theorem within_splus (h : Within n R Q ψ) : Within n R (fun a b t => ∃ a', a = a' + 1 ∧ Q a' (b + 1) t) (splus K n ψ) := by
  intro T hT
  rw [splus, LinearMap.sum_apply, Finset.sum_apply] at hT
  obtain ⟨p, hp, hne⟩ := Finset.exists_ne_zero_of_sum_ne_zero hT
  rw [cre_ann_apply] at hne
  split_ifs at hne with h1 h2
  · simp at hne
  · obtain ⟨A, hA, B, hB, e, hq⟩ := h _ (right_ne_zero_of_mul (right_ne_zero_of_mul hne))
    have m : ∀ x, x ∈ emb A B ↔ x = dn p ∨ (x ≠ up p ∧ x ∈ T) := fun x => by rw [← e, Finset.mem_insert, Finset.mem_erase]
    have n2 : dn p ∉ T := fun hh => h2 (Finset.mem_erase.2 ⟨dn_ne_up _ _, hh⟩)
    have k1 : p ∉ A := fun hh => ((m (up p)).1 (up_mem.2 hh)).elim (up_ne_dn) fun hh => hh.1 rfl
    have k2 : p ∈ B := dn_mem.1 ((m (dn p)).2 (.inl rfl))
    obtain ⟨c1, c2, c3⟩ := card_move (R := R) k1 k2
    have up' : ∀ i, up i ∈ T ↔ i ∈ insert p A := fun i => by
      rw [Finset.mem_insert, ← up_mem (A := A) (B := B), m]
      by_cases hi : i = p
      · exact ⟨fun _ => .inl hi, fun _ => hi ▸ h1⟩
      · exact ⟨fun hh => .inr (.inr ⟨fun hh => hi (up_inj.1 hh), hh⟩), fun hh => hh.elim (fun hh => absurd hh hi) fun hh => hh.elim (fun hh => absurd hh (up_ne_dn)) And.right⟩
    have dn' : ∀ i, dn i ∈ T ↔ i ∈ B.erase p := fun i => by
      rw [Finset.mem_erase, ← dn_mem (A := A) (B := B), m]
      by_cases hi : i = p
      · exact ⟨fun hh => absurd (hi ▸ hh) n2, fun hh => absurd hi hh.1⟩
      · exact ⟨fun hh => ⟨hi, .inr ⟨dn_ne_up _ _, hh⟩⟩, fun hh => hh.2.elim (fun hh => absurd (dn_inj.1 hh) hi) And.right⟩
    refine ⟨insert p A, Finset.insert_subset hp hA, B.erase p, (Finset.erase_subset _ _).trans hB, emb_ext up' dn', A.card, c1, ?_⟩
    rw [c2, c3]; exact hq
  · exact absurd rfl hne

theorem within_sminus (h : Within n R Q ψ) : Within n R (fun a b t => ∃ b', b = b' + 1 ∧ Q (a + 1) b' t) (sminus K n ψ) := by
  intro T hT
  rw [sminus, LinearMap.sum_apply, Finset.sum_apply] at hT
  obtain ⟨p, hp, hne⟩ := Finset.exists_ne_zero_of_sum_ne_zero hT
  rw [cre_ann_apply] at hne
  split_ifs at hne with h1 h2
  · simp at hne
  · obtain ⟨A, hA, B, hB, e, hq⟩ := h _ (right_ne_zero_of_mul (right_ne_zero_of_mul hne))
    have m : ∀ x, x ∈ emb A B ↔ x = up p ∨ (x ≠ dn p ∧ x ∈ T) := fun x => by rw [← e, Finset.mem_insert, Finset.mem_erase]
    have n2 : up p ∉ T := fun hh => h2 (Finset.mem_erase.2 ⟨up_ne_dn, hh⟩)
    have k1 : p ∉ B := fun hh => ((m (dn p)).1 (dn_mem.2 hh)).elim (dn_ne_up _ _) fun hh => hh.1 rfl
    have k2 : p ∈ A := up_mem.1 ((m (up p)).2 (.inl rfl))
    obtain ⟨c1, c2, c3⟩ := card_move (R := R) k1 k2
    have up' : ∀ i, dn i ∈ T ↔ i ∈ insert p B := fun i => by
      rw [Finset.mem_insert, ← dn_mem (A := A) (B := B), m]
      by_cases hi : i = p
      · exact ⟨fun _ => .inl hi, fun _ => hi ▸ h1⟩
      · exact ⟨fun hh => .inr (.inr ⟨fun hh => hi (dn_inj.1 hh), hh⟩), fun hh => hh.elim (fun hh => absurd hh hi) fun hh => hh.elim (fun hh => absurd hh (dn_ne_up _ _)) And.right⟩
    have dn' : ∀ i, up i ∈ T ↔ i ∈ A.erase p := fun i => by
      rw [Finset.mem_erase, ← up_mem (A := A) (B := B), m]
      by_cases hi : i = p
      · exact ⟨fun hh => absurd (hi ▸ hh) n2, fun hh => absurd hi hh.1⟩
      · exact ⟨fun hh => ⟨hi, .inr ⟨up_ne_dn, hh⟩⟩, fun hh => hh.2.elim (fun hh => absurd (up_inj.1 hh) hi) And.right⟩
    refine ⟨A.erase p, (Finset.erase_subset _ _).trans hA, insert p B, Finset.insert_subset hp hB, emb_ext dn' up', B.card, c1, ?_⟩
    rw [c2, add_comm, c3, add_comm]; exact hq
  · exact absurd rfl hne

theorem number_apply {ι : Type} [LinearOrder ι] (p : ι) (ψ : Finset ι → K) (T : Finset ι) : (cre p * ann p : Module.End K (Finset ι → K)) ψ T = if p ∈ T then ψ T else 0 := by
  rw [cre_ann_apply]
  split_ifs with h h1
  · simp at h1
  · rw [← mul_assoc, sgn_sq, one_mul, Finset.insert_erase h]
  · rfl

/-- `S_z` multiplies a determinant with half the difference of the numbers of electrons -/
theorem sz_apply {A B : Finset ℕ} (hA : A ⊆ Finset.range n) (hB : B ⊆ Finset.range n) (ψ : Finset SO → K) :
    sz K n ψ (emb A B) = (1 / 2 * ((A.card : K) - B.card)) * ψ (emb A B) := by
  have e : ∀ X : Finset ℕ, X ⊆ Finset.range n → ∑ p ∈ Finset.range n, (if p ∈ X then ψ (emb A B) else 0) = (X.card : K) * ψ (emb A B) := by
    intro X hX
    rw [← Finset.sum_filter, Finset.filter_mem_eq_inter, Finset.inter_eq_right.2 hX, Finset.sum_const, nsmul_eq_mul]
  rw [sz, LinearMap.smul_apply, Pi.smul_apply, LinearMap.sum_apply, Finset.sum_apply, smul_eq_mul]
  simp only [LinearMap.sub_apply, Pi.sub_apply, number_apply, up_mem, dn_mem]
  rw [Finset.sum_sub_distrib, e A hA, e B hB]
  ring

theorem Within.apply_eq (h : Within n R Q ψ) {φ : Finset SO → K} (hφ : ∀ A ⊆ Finset.range n, ∀ B ⊆ Finset.range n, Q A.card B.card ((A \ R).card + (B \ R).card) →
    φ (emb A B) = ψ (emb A B)) (h0 : Within n R Q φ) : φ = ψ := by
  funext T
  by_cases h1 : ψ T ≠ 0
  · obtain ⟨A, hA, B, hB, rfl, q⟩ := h T h1
    exact hφ A hA B hB q
  · by_cases h2 : φ T ≠ 0
    · obtain ⟨A, hA, B, hB, rfl, q⟩ := h0 T h2
      exact hφ A hA B hB q
    · push Not at h1 h2
      rw [h1, h2]

/-- a predicate on the determinants of `ψ`, of the numbers of electrons -/
abbrev Sector (n a b : ℕ) (ψ : Finset SO → K) : Prop := Within n ∅ (fun x y _ => x = a ∧ y = b) ψ

theorem sub_of_sz {T : Finset SO} (h : sz K n ψ T ≠ 0) : ψ T ≠ 0 := by
  intro h0
  rw [sz, LinearMap.smul_apply, Pi.smul_apply, LinearMap.sum_apply, Finset.sum_apply] at h
  refine h ?_
  simp only [LinearMap.sub_apply, Pi.sub_apply, number_apply, h0, ite_self, sub_zero, Finset.sum_const_zero, smul_zero]

theorem within_sz (h : Within n R Q ψ) : Within n R Q (sz K n ψ) := fun T hT => h T (sub_of_sz hT)

theorem Within.mono {Q' : ℕ → ℕ → ℕ → Prop} (h : Within n R Q ψ) (hq : ∀ a b t, Q a b t → Q' a b t) : Within n R Q' ψ := fun T hT => by
  obtain ⟨A, hA, B, hB, e, q⟩ := h T hT
  exact ⟨A, hA, B, hB, e, hq _ _ _ q⟩

theorem Within.add {φ : Finset SO → K} (h : Within n R Q ψ) (h' : Within n R Q φ) : Within n R Q (ψ + φ) := fun T hT => by
  by_cases h0 : ψ T = 0
  · exact h' T (by rw [Pi.add_apply, h0, zero_add] at hT; exact hT)
  · exact h T h0

/-- the total spin keeps the numbers of alpha and beta electrons and the number of electrons outside of any set of orbitals -/
theorem within_ssq (h : Within n R Q ψ) : Within n R Q (ssq K n ψ) := by
  rw [ssq, LinearMap.add_apply, LinearMap.add_apply, Module.End.mul_apply, Module.End.mul_apply]
  refine Within.add (Within.add ((within_sminus (within_splus h)).mono ?_) (within_sz (within_sz h))) (within_sz h)
  rintro a b t ⟨b', rfl, a', e, hq⟩
  obtain rfl : a = a' := by omega
  exact hq

theorem sz_sector {a b : ℕ} (h : Sector n a b ψ) : sz K n ψ = (1 / 2 * ((a : K) - b)) • ψ := by
  funext T
  by_cases h1 : ψ T = 0
  · rw [Pi.smul_apply, h1, smul_zero]
    by_contra h2
    exact sub_of_sz h2 h1
  · obtain ⟨A, hA, B, hB, rfl, rfl, rfl⟩ := h T h1
    rw [sz_apply hA hB]; rfl

theorem splus_sector {a b : ℕ} (h : Sector n a (b + 1) ψ) : Sector n (a + 1) b (splus K n ψ) :=
  (within_splus h).mono fun x y t ⟨x', e, e1, e2⟩ => ⟨by omega, by omega⟩
theorem splus_sector_zero {a : ℕ} (h : Sector n a 0 ψ) : splus K n ψ = 0 := by
  funext T
  by_contra h1
  obtain ⟨A, hA, B, hB, -, x, -, -, e⟩ := within_splus h T h1
  omega
theorem sminus_sector {a b : ℕ} (h : Sector n (a + 1) b ψ) : Sector n a (b + 1) (sminus K n ψ) :=
  (within_sminus h).mono fun x y t ⟨x', e, e1, e2⟩ => ⟨by omega, by omega⟩

variable [CharZero K]

theorem lower_zero {a b c : ℕ} (hab : b < a) (h : Sector n a b ψ) (h0 : splus K n (sminus K n ψ) = -(c : K) • ψ) : ψ = 0 := by
  have key : ∀ {a b c : ℕ} {ψ : Finset SO → K}, b < a → Sector n a b ψ → splus K n (sminus K n ψ) = -(c : K) • ψ →
      sminus K n (splus K n ψ) = -((c + (a - b) : ℕ) : K) • ψ := by
    intro a b c ψ hab h h0
    have e2 := congrArg (fun X => X ψ) (splus_sminus (K := K) (n := n))
    simp only [LinearMap.sub_apply, Module.End.mul_apply, LinearMap.smul_apply] at e2
    rw [sz_sector h, h0, sub_eq_iff_eq_add, ← sub_eq_iff_eq_add'] at e2
    rw [← e2, smul_smul, ← sub_smul]
    congr 1
    push_cast [Nat.cast_sub hab.le]
    ring
  have nz : ∀ {a b c : ℕ} {ψ : Finset SO → K}, b < a → splus K n ψ = 0 → sminus K n (splus K n ψ) = -((c + (a - b) : ℕ) : K) • ψ → ψ = 0 := by
    intro a b c ψ hab h1 h2
    rw [h1, map_zero] at h2
    funext T
    have h3 := congrFun h2 T
    rw [Pi.smul_apply, smul_eq_mul] at h3
    rcases mul_eq_zero.1 h3.symm with h4 | h4
    · rw [neg_eq_zero, Nat.cast_eq_zero] at h4; omega
    · exact h4
  induction b generalizing a c ψ with
  | zero => exact nz hab (splus_sector_zero h) (key hab h h0)
  | succ b ih =>
    have k := key hab h h0
    refine nz hab (ih (c := c + (a - (b + 1))) (by omega) (splus_sector h) ?_) k
    rw [k, map_smul]

/-- Lowering is injective as long as there are more alpha than beta electrons. -/
theorem sminus_injective {a b : ℕ} (hab : b < a) (h : Sector n a b ψ) (h0 : sminus K n ψ = 0) : ψ = 0 :=
  lower_zero (c := 0) hab h (by rw [h0, map_zero, Nat.cast_zero, neg_zero, zero_smul])

theorem sminus_sector_zero {b : ℕ} (h : Sector n 0 b ψ) : sminus K n ψ = 0 := by
  funext T
  by_contra h1
  obtain ⟨A, hA, B, hB, -, x, -, e, -⟩ := within_sminus h T h1
  omega

theorem raise_zero {a b c : ℕ} (hab : a < b) (h : Sector n a b ψ) (h0 : sminus K n (splus K n ψ) = -(c : K) • ψ) : ψ = 0 := by
  have key : ∀ {a b c : ℕ} {ψ : Finset SO → K}, a < b → Sector n a b ψ → sminus K n (splus K n ψ) = -(c : K) • ψ →
      splus K n (sminus K n ψ) = -((c + (b - a) : ℕ) : K) • ψ := by
    intro a b c ψ hab h h0
    have e2 := congrArg (fun X => X ψ) (splus_sminus (K := K) (n := n))
    simp only [LinearMap.sub_apply, Module.End.mul_apply, LinearMap.smul_apply] at e2
    rw [sz_sector h, h0, sub_eq_iff_eq_add] at e2
    rw [e2, smul_smul, ← add_smul]
    congr 1
    push_cast [Nat.cast_sub hab.le]
    ring
  have nz : ∀ {a b c : ℕ} {ψ : Finset SO → K}, a < b → sminus K n ψ = 0 → splus K n (sminus K n ψ) = -((c + (b - a) : ℕ) : K) • ψ → ψ = 0 := by
    intro a b c ψ hab h1 h2
    rw [h1, map_zero] at h2
    funext T
    have h3 := congrFun h2 T
    rw [Pi.smul_apply, smul_eq_mul] at h3
    rcases mul_eq_zero.1 h3.symm with h4 | h4
    · rw [neg_eq_zero, Nat.cast_eq_zero] at h4; omega
    · exact h4
  induction a generalizing b c ψ with
  | zero => exact nz hab (sminus_sector_zero h) (key hab h h0)
  | succ a ih =>
    have k := key hab h h0
    refine nz hab (ih (c := c + (b - (a + 1))) (by omega) (sminus_sector h) ?_) k
    rw [k, map_smul]

/-- Raising is injective as long as there are more beta than alpha electrons. -/
theorem splus_injective {a b : ℕ} (hab : a < b) (h : Sector n a b ψ) (h0 : splus K n ψ = 0) : ψ = 0 :=
  raise_zero (c := 0) hab h (by rw [h0, map_zero, Nat.cast_zero, neg_zero, zero_smul])

/-- eigenvalues of `S²` -/
theorem spin_values {a b : ℕ} (h : Sector n a b ψ) (h0 : ψ ≠ 0) {c : K} (hc : ssq K n ψ = c • ψ) :
    ∃ k ≤ b, b ≤ a + 2 * k ∧ c = (1 / 2 * ((a : K) - b) + k) * (1 / 2 * ((a : K) - b) + k + 1) := by
  induction b generalizing a ψ with
  | zero =>
    refine ⟨0, le_rfl, Nat.zero_le _, ?_⟩
    rw [ssq, LinearMap.add_apply, LinearMap.add_apply, Module.End.mul_apply, Module.End.mul_apply, splus_sector_zero h, map_zero, sz_sector h,
      map_smul, sz_sector h, zero_add, smul_smul, ← add_smul] at hc
    obtain ⟨T, hT⟩ := Function.ne_iff.1 h0
    have := mul_right_cancel₀ hT (congrFun hc T)
    rw [← this]; push_cast; ring
  | succ b ih =>
    by_cases h1 : splus K n ψ = 0
    · refine ⟨0, Nat.zero_le _, not_lt.1 fun hlt => h0 (splus_injective hlt h h1), ?_⟩
      rw [ssq, LinearMap.add_apply, LinearMap.add_apply, Module.End.mul_apply, Module.End.mul_apply, h1, map_zero, sz_sector h,
        map_smul, sz_sector h, zero_add, smul_smul, ← add_smul] at hc
      obtain ⟨T, hT⟩ := Function.ne_iff.1 h0
      have := mul_right_cancel₀ hT (congrFun hc T)
      rw [← this]; push_cast; ring
    · have hs := splus_sector h
      have key : ssq K n (splus K n ψ) = c • splus K n ψ := by
        have e := congrArg (splus K n) hc
        rw [ssq, LinearMap.add_apply, LinearMap.add_apply, Module.End.mul_apply, Module.End.mul_apply, map_add, map_add, sz_sector h,
          map_smul, sz_sector h, map_smul, map_smul, map_smul] at e
        have e2 := congrArg (fun X => X (splus K n ψ)) (splus_sminus (K := K) (n := n))
        simp only [LinearMap.sub_apply, Module.End.mul_apply, LinearMap.smul_apply] at e2
        rw [sz_sector hs] at e2
        rw [ssq, LinearMap.add_apply, LinearMap.add_apply, Module.End.mul_apply, Module.End.mul_apply, sz_sector hs, map_smul, sz_sector hs]
        rw [sub_eq_iff_eq_add] at e2
        rw [e2] at e
        rw [← e]
        simp only [smul_smul]
        funext T
        simp only [Pi.add_apply, Pi.smul_apply, smul_eq_mul]
        push_cast; ring
      obtain ⟨k, hk, hk', e⟩ := ih hs h1 key
      refine ⟨k + 1, by omega, by omega, ?_⟩
      rw [e]; push_cast; ring

end within

/-! ### symmetry -/

theorem elt_exchange {ι : Type} [LinearOrder ι] (p q : ι) (S T : Finset ι) :
    elt (cre p * ann q : Module.End K (Finset ι → K)) S T = elt (cre q * ann p : Module.End K (Finset ι → K)) T S := by
  have half : ∀ (p q : ι) (S T : Finset ι), elt (cre p * ann q : Module.End K (Finset ι → K)) S T ≠ 0 →
      elt (cre p * ann q : Module.End K (Finset ι → K)) S T = elt (cre q * ann p : Module.End K (Finset ι → K)) T S := by
    intro p q S T h
    rw [elt, elt, cre_ann_apply, cre_ann_apply] at *
    simp only [det_apply] at *
    split_ifs at h with h1 h2 h3
    · simp at h
    · subst h3
      rw [if_pos h1, if_neg h2, if_pos rfl, if_pos (Finset.mem_insert_self _ _), Finset.erase_insert h2, if_neg (Finset.notMem_erase _ _),
        Finset.insert_erase h1, if_pos rfl]
      ring
    · simp at h
    · simp at h
  by_cases h1 : elt (cre p * ann q : Module.End K (Finset ι → K)) S T = 0
  · by_cases h2 : elt (cre q * ann p : Module.End K (Finset ι → K)) T S = 0
    · rw [h1, h2]
    · exact (half q p T S h2).symm
  · exact half p q S T h1

theorem elt_splus (n : ℕ) (S T : Finset SO) : elt (splus K n) S T = elt (sminus K n) T S := by
  simp only [elt, splus, sminus, LinearMap.sum_apply, Finset.sum_apply]
  exact Finset.sum_congr rfl fun p _ => elt_exchange (up p) (dn p) S T

end CI
