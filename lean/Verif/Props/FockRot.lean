/-
Change of the orbitals of the Fock space: determinants of rotated orbitals, their overlaps with the determinants of the old ones, and the
Hamiltonian in both.
-/
import Verif.Spec.Fock
import Mathlib.Data.Finset.Sort
import Mathlib.Algebra.Module.BigOperators
import Mathlib.Algebra.Module.Submodule.LinearMap
import Mathlib.Algebra.Ring.CharZero

namespace Fock
variable {ι : Type} [LinearOrder ι] {K : Type} [Field K]
variable (O : Finset ι) (U W : ι → ι → K)

/-- creation operator of the rotated orbital `p`, whose coefficients are the column `p` of `U` -/
def rcre (p : ι) : Module.End K (Finset ι → K) := ∑ q ∈ O, U q p • cre q
/-- annihilation operator of the rotated orbital `p` -/
def rann (p : ι) : Module.End K (Finset ι → K) := ∑ q ∈ O, W p q • ann q

/-- `U` and `W` are inverse to each other on the orbitals `O` -/
def Inverse : Prop := ∀ p ∈ O, ∀ q ∈ O, ∑ r ∈ O, U p r * W r q = (if p = q then 1 else 0) ∧ ∑ r ∈ O, W p r * U r q = if p = q then 1 else 0

/-- one-electron integrals over the rotated orbitals -/
def rot1 (h : ι → ι → K) (p q : ι) : K := ∑ m ∈ O, W p m * ∑ n ∈ O, h m n * U n q
/-- two-electron integrals over the rotated orbitals -/
def rot2 (V : ι → ι → ι → ι → K) (p q r s : ι) : K :=
  ∑ m ∈ O, W p m * ∑ n ∈ O, W q n * ∑ k ∈ O, (∑ l ∈ O, V m n k l * U l s) * U k r

variable {O U W}

theorem rcre_rcre (p q : ι) : rcre O U p * rcre O U q = -(rcre O U q * rcre O U p) := by
  simp only [rcre, Finset.sum_mul, Finset.mul_sum, ← Finset.sum_neg_distrib]
  rw [Finset.sum_comm]
  refine Finset.sum_congr rfl fun r _ => Finset.sum_congr rfl fun s _ => ?_
  rw [smul_mul_smul_comm, smul_mul_smul_comm, cre_cre, smul_neg, mul_comm]

theorem rcre_sq [CharZero K] (p : ι) : rcre O U p * rcre O U p = 0 := by
  have h := rcre_rcre (O := O) (U := U) p p
  have h2 : (2 : K) • (rcre O U p * rcre O U p) = 0 := by rw [two_smul]; nth_rewrite 1 [h]; exact neg_add_cancel _
  calc rcre O U p * rcre O U p = ((2 : K)⁻¹ * 2) • (rcre O U p * rcre O U p) := by rw [inv_mul_cancel₀ two_ne_zero, one_smul]
    _ = 0 := by rw [mul_smul, h2, smul_zero]

theorem rann_rcre (h : Inverse O U W) {p q : ι} (hp : p ∈ O) (hq : q ∈ O) :
    rann O W p * rcre O U q + rcre O U q * rann O W p = if p = q then 1 else 0 := by
  simp only [rann, rcre, Finset.sum_mul, Finset.mul_sum]
  rw [Finset.sum_comm (f := fun x y => W p y • ann y * U x q • cre x), ← Finset.sum_add_distrib]
  have : ∀ r ∈ O, (∑ s ∈ O, W p r • ann r * U s q • cre s) + ∑ s ∈ O, U s q • cre s * W p r • ann r
      = (W p r * U r q) • (1 : Module.End K (Finset ι → K)) := by
    intro r hr
    rw [← Finset.sum_add_distrib, Finset.sum_eq_single r]
    · rw [smul_mul_smul_comm, smul_mul_smul_comm, mul_comm (U r q), ← smul_add, ann_cre, if_pos rfl]
    · intro s _ hs
      rw [smul_mul_smul_comm, smul_mul_smul_comm, mul_comm (U s q), ← smul_add, ann_cre, if_neg (Ne.symm hs), smul_zero]
    · exact fun h => absurd hr h
  rw [Finset.sum_congr rfl this, ← Finset.sum_smul, (h p hp q hq).2]
  split_ifs <;> simp

/-- the determinant of the rotated orbitals `S` -/
noncomputable def rdet (O : Finset ι) (U : ι → ι → K) (S : Finset ι) : Finset ι → K :=
  (S.sort (· ≤ ·)).foldr (fun p ψ => rcre O U p ψ) (det ∅)

theorem rdet_empty : rdet O U ∅ = det ∅ := by simp [rdet]

theorem rdet_insert {m : ι} {S : Finset ι} (h : ∀ x ∈ S, m < x) : rdet O U (insert m S) = rcre O U m (rdet O U S) := by
  rw [rdet, Finset.sort_insert _ (fun x hx => (h x hx).le) (fun hm => lt_irrefl _ (h m hm))]
  rfl

theorem sgn_min {m : ι} {S : Finset ι} (h : ∀ x ∈ S, m < x) : sgn K m S = 1 := by
  rw [sgn, cnt, Finset.filter_false_of_mem (fun x hx => not_lt_of_gt (h x hx))]; simp

theorem sgn_insert_min {m p : ι} {S : Finset ι} (h : ∀ x ∈ S, m < x) (hp : m < p) : sgn K p (insert m S) = -sgn K p S := by
  rw [sgn, sgn, cnt_insert fun hm => lt_irrefl _ (h m hm), if_pos hp, pow_succ, mul_neg_one]

theorem rcre_rdet [CharZero K] (p : ι) (S : Finset ι) :
    rcre O U p (rdet O U S) = if p ∈ S then 0 else sgn K p S • rdet O U (insert p S) := by
  induction S using Finset.induction_on_min with
  | empty => rw [if_neg (by simp), rdet_insert (by simp), sgn_min (by simp), one_smul]
  | insert m s hm ih =>
    rw [rdet_insert hm]
    rcases lt_trichotomy p m with hp | rfl | hp
    · have h2 : ∀ x ∈ insert m s, p < x := by
        intro x hx
        rcases Finset.mem_insert.1 hx with rfl | hx
        · exact hp
        · exact hp.trans (hm x hx)
      rw [if_neg (fun h => lt_irrefl _ (h2 p h)), rdet_insert h2, rdet_insert hm, sgn_min h2, one_smul]
    · rw [if_pos (Finset.mem_insert_self _ _), ← Module.End.mul_apply, rcre_sq]; rfl
    · have e : rcre O U p (rcre O U m (rdet O U s)) = -rcre O U m (rcre O U p (rdet O U s)) := by
        rw [← Module.End.mul_apply, rcre_rcre]; rfl
      rw [e, ih]
      by_cases h : p ∈ s
      · rw [if_pos h, if_pos (Finset.mem_insert_of_mem h), map_zero, neg_zero]
      · have h2 : ∀ x ∈ insert p s, m < x := by
          intro x hx
          rcases Finset.mem_insert.1 hx with rfl | hx
          · exact hp
          · exact hm x hx
        rw [if_neg h, if_neg (fun h' => (Finset.mem_insert.1 h').elim hp.ne' h), map_smul, ← rdet_insert h2, Finset.insert_comm,
          sgn_insert_min hm hp, neg_smul]

theorem rann_det_empty (p : ι) : rann O W p (det ∅) = 0 := by
  simp only [rann, LinearMap.sum_apply, LinearMap.smul_apply]
  refine Finset.sum_eq_zero fun q _ => ?_
  have : ann q (det ∅) = (0 : Finset ι → K) := by
    funext S
    rw [ann_apply]
    split_ifs
    · rfl
    · rw [det_apply, if_neg (Finset.insert_ne_empty _ _), mul_zero]; rfl
  rw [this, smul_zero]

theorem rann_rdet (h : Inverse O U W) {p : ι} (hp : p ∈ O) {S : Finset ι} (hS : S ⊆ O) :
    rann O W p (rdet O U S) = if p ∈ S then sgn K p S • rdet O U (S.erase p) else 0 := by
  induction S using Finset.induction_on_min with
  | empty => rw [if_neg (by simp), rdet_empty, rann_det_empty]
  | insert m s hm ih =>
    have hmO := hS (Finset.mem_insert_self m s)
    have ih := ih fun x hx => hS (Finset.mem_insert_of_mem hx)
    have hms : m ∉ s := fun h => lt_irrefl _ (hm m h)
    have e : rann O W p (rcre O U m (rdet O U s)) = (if p = m then rdet O U s else 0) - rcre O U m (rann O W p (rdet O U s)) := by
      have := rann_rcre h hp hmO
      rw [← Module.End.mul_apply, eq_sub_of_add_eq this]
      split_ifs <;> simp
    rw [rdet_insert hm, e, ih]
    by_cases hpm : p = m
    · subst hpm
      rw [if_pos rfl, if_neg hms, map_zero, sub_zero, if_pos (Finset.mem_insert_self _ _), Finset.erase_insert hms]
      have : sgn K p (insert p s) = 1 := by rw [sgn_insert_self, sgn_min hm]
      rw [this, one_smul]
    · rw [if_neg hpm, zero_sub]
      by_cases hps : p ∈ s
      · rw [if_pos hps, if_pos (Finset.mem_insert_of_mem hps), map_smul, Finset.erase_insert_of_ne (Ne.symm hpm),
          rdet_insert (fun x hx => hm x (Finset.mem_of_mem_erase hx)), sgn_insert_min hm (hm p hps), neg_smul]
      · rw [if_neg hps, if_neg (fun h' => (Finset.mem_insert.1 h').elim hpm hps), map_zero, neg_zero]

/-! ### support of the rotated determinants -/

theorem rcre_apply (p : ι) (ψ : Finset ι → K) (T : Finset ι) :
    rcre O U p ψ T = ∑ q ∈ O, U q p * (if q ∈ T then sgn K q T * ψ (T.erase q) else 0) := by
  simp only [rcre, LinearMap.sum_apply, LinearMap.smul_apply, Finset.sum_apply, Pi.smul_apply, smul_eq_mul, cre_apply,
    sgn_erase_self]

theorem rcre_ne {p : ι} {ψ : Finset ι → K} {T : Finset ι} (h : rcre O U p ψ T ≠ 0) :
    ∃ q ∈ O, U q p ≠ 0 ∧ q ∈ T ∧ ψ (T.erase q) ≠ 0 := by
  rw [rcre_apply] at h
  obtain ⟨q, hq, h2⟩ := Finset.exists_ne_zero_of_sum_ne_zero h
  refine ⟨q, hq, left_ne_zero_of_mul h2, ?_⟩
  have h3 := right_ne_zero_of_mul h2
  by_cases hT : q ∈ T
  · rw [if_pos hT] at h3; exact ⟨hT, right_ne_zero_of_mul h3⟩
  · exact absurd (if_neg hT) h3

theorem rdet_subset {S T : Finset ι} (h : rdet O U S T ≠ 0) : T ⊆ O := by
  induction S using Finset.induction_on_min generalizing T with
  | empty =>
    rw [rdet_empty, det_apply] at h
    have : T = ∅ := by by_contra hT; exact h (if_neg hT)
    rw [this]; exact Finset.empty_subset _
  | insert m s hm ih =>
    rw [rdet_insert hm] at h
    obtain ⟨q, hq, -, hT, h2⟩ := rcre_ne h
    rw [← Finset.insert_erase hT]
    exact Finset.insert_subset hq (ih h2)

/-- rotations that mix only orbitals of the same colour keep the number of electrons of each colour -/
theorem rdet_colour {Γ : Type} [DecidableEq Γ] {g : ι → Γ} {S T : Finset ι} (hS : S ⊆ O)
    (hg : ∀ q ∈ O, ∀ p ∈ O, U q p ≠ 0 → g q = g p) (h : rdet O U S T ≠ 0) (γ : Γ) :
    (T.filter (g · = γ)).card = (S.filter (g · = γ)).card := by
  induction S using Finset.induction_on_min generalizing T with
  | empty =>
    rw [rdet_empty, det_apply] at h
    have : T = ∅ := by by_contra hT; exact h (if_neg hT)
    rw [this]
  | insert m s hm ih =>
    rw [rdet_insert hm] at h
    obtain ⟨q, hq, hU, hT, h2⟩ := rcre_ne h
    have e := ih (fun x hx => hS (Finset.mem_insert_of_mem hx)) h2
    have hc := hg q hq m (hS (Finset.mem_insert_self _ _)) hU
    rw [← Finset.insert_erase hT, Finset.filter_insert, Finset.filter_insert, hc]
    split_ifs
    · rw [Finset.card_insert_of_notMem (by simp), Finset.card_insert_of_notMem (by
        intro h; exact lt_irrefl _ (hm m (Finset.mem_filter.1 h).1)), e]
    · exact e

/-! ### the rotation of the Fock space -/

/-- the linear map that replaces every determinant of `O` by that of the rotated orbitals -/
noncomputable def rot (O : Finset ι) (U : ι → ι → K) : Module.End K (Finset ι → K) where
  toFun ψ := ∑ S ∈ O.powerset, ψ S • rdet O U S
  map_add' ψ φ := by simp only [Pi.add_apply, add_smul, Finset.sum_add_distrib]
  map_smul' c ψ := by simp only [Pi.smul_apply, smul_eq_mul, mul_smul, Finset.smul_sum, RingHom.id_apply]

theorem rot_apply (ψ : Finset ι → K) : rot O U ψ = ∑ S ∈ O.powerset, ψ S • rdet O U S := rfl

theorem rot_det {S : Finset ι} (hS : S ⊆ O) : rot O U (det S) = rdet O U S := by
  rw [rot_apply, Finset.sum_eq_single S]
  · rw [det_apply, if_pos rfl, one_smul]
  · intro T _ hT; rw [det_apply, if_neg hT, zero_smul]
  · intro h; exact absurd (Finset.mem_powerset.2 hS) h

/-- subsets of `O` without and with `p` -/
theorem sum_powerset_insert {M : Type} [AddCommMonoid M] {p : ι} (hp : p ∈ O) (f : Finset ι → M) :
    ∑ S ∈ O.powerset, (if p ∈ S then f (S.erase p) else 0) = ∑ S ∈ O.powerset, if p ∈ S then 0 else f S := by
  rw [← Finset.sum_filter, Finset.sum_congr rfl fun S _ => (ite_not (p ∈ S) (f S) 0).symm, ← Finset.sum_filter]
  refine Finset.sum_bij' (fun S _ => S.erase p) (fun S _ => insert p S) ?_ ?_ ?_ ?_ ?_
  · intro S hS
    simp only [Finset.mem_filter, Finset.mem_powerset] at hS ⊢
    exact ⟨(Finset.erase_subset _ _).trans hS.1, Finset.notMem_erase _ _⟩
  · intro S hS
    simp only [Finset.mem_filter, Finset.mem_powerset] at hS ⊢
    exact ⟨Finset.insert_subset hp hS.1, Finset.mem_insert_self _ _⟩
  · intro S hS; exact Finset.insert_erase (Finset.mem_filter.1 hS).2
  · intro S hS; exact Finset.erase_insert (Finset.mem_filter.1 hS).2
  · intro S _; rfl

theorem rot_cre [CharZero K] {p : ι} (hp : p ∈ O) (ψ : Finset ι → K) : rot O U (cre p ψ) = rcre O U p (rot O U ψ) := by
  rw [rot_apply, rot_apply, map_sum]
  have h1 : ∀ S ∈ O.powerset, cre p ψ S • rdet O U S
      = if p ∈ S then (fun T => (sgn K p T * ψ T) • rdet O U (insert p T)) (S.erase p) else 0 := by
    intro S _
    rw [cre_apply]
    split_ifs with h
    · simp only [sgn_erase_self, Finset.insert_erase h]
    · exact zero_smul _ _
  rw [Finset.sum_congr rfl h1, sum_powerset_insert hp fun T => (sgn K p T * ψ T) • rdet O U (insert p T)]
  refine Finset.sum_congr rfl fun S _ => ?_
  rw [map_smul, rcre_rdet]
  split_ifs
  · rw [smul_zero]
  · rw [smul_smul, mul_comm]

theorem rot_ann (h : Inverse O U W) {p : ι} (hp : p ∈ O) (ψ : Finset ι → K) : rot O U (ann p ψ) = rann O W p (rot O U ψ) := by
  rw [rot_apply, rot_apply, map_sum]
  have h1 : ∀ S ∈ O.powerset, ann p ψ S • rdet O U S
      = if p ∈ S then 0 else (fun T => (sgn K p T * ψ (insert p T)) • rdet O U T) S := by
    intro S _
    rw [ann_apply]
    split_ifs with h
    · exact zero_smul _ _
    · rfl
  rw [Finset.sum_congr rfl h1, ← sum_powerset_insert hp fun T => (sgn K p T * ψ (insert p T)) • rdet O U T]
  refine Finset.sum_congr rfl fun S hS => ?_
  rw [map_smul, rann_rdet h hp (Finset.mem_powerset.1 hS)]
  split_ifs with hpS
  · simp only [sgn_erase_self, Finset.insert_erase hpS, smul_smul, mul_comm]
  · rw [smul_zero]

/-! ### the Hamiltonian in rotated orbitals -/

theorem cre_eq (h : Inverse O U W) {q : ι} (hq : q ∈ O) : (cre q : Module.End K (Finset ι → K)) = ∑ p ∈ O, W p q • rcre O U p := by
  simp only [rcre, Finset.smul_sum, smul_smul]
  rw [Finset.sum_comm]
  have : ∀ r ∈ O, ∑ p ∈ O, (W p q * U r p) • (cre r : Module.End K (Finset ι → K)) = if r = q then cre r else 0 := by
    intro r hr
    rw [← Finset.sum_smul, Finset.sum_congr rfl fun p _ => mul_comm (W p q) (U r p), (h r hr q hq).1]
    split_ifs <;> simp
  rw [Finset.sum_congr rfl this, Finset.sum_ite_eq' O q, if_pos hq]

theorem ann_eq (h : Inverse O U W) {q : ι} (hq : q ∈ O) : (ann q : Module.End K (Finset ι → K)) = ∑ p ∈ O, U q p • rann O W p := by
  simp only [rann, Finset.smul_sum, smul_smul]
  rw [Finset.sum_comm]
  have : ∀ r ∈ O, ∑ p ∈ O, (U q p * W p r) • (ann r : Module.End K (Finset ι → K)) = if r = q then ann r else 0 := by
    intro r hr
    rw [← Finset.sum_smul, (h q hq r hr).1]
    by_cases e : r = q
    · rw [if_pos e, if_pos e.symm, one_smul]
    · rw [if_neg e, if_neg (Ne.symm e), zero_smul]
  rw [Finset.sum_congr rfl this, Finset.sum_ite_eq' O q, if_pos hq]

theorem subst_cre (h : Inverse O U W) (L : Module.End K (Finset ι → K) →ₗ[K] Module.End K (Finset ι → K)) (v : ι → K) :
    ∑ m ∈ O, v m • L (cre m) = ∑ p ∈ O, (∑ m ∈ O, W p m * v m) • L (rcre O U p) := by
  simp only [Finset.sum_smul]
  rw [Finset.sum_comm]
  refine Finset.sum_congr rfl fun m hm => ?_
  rw [cre_eq h hm, map_sum, Finset.smul_sum]
  refine Finset.sum_congr rfl fun p _ => ?_
  rw [map_smul, smul_smul, mul_comm]

theorem subst_ann (h : Inverse O U W) (L : Module.End K (Finset ι → K) →ₗ[K] Module.End K (Finset ι → K)) (v : ι → K) :
    ∑ m ∈ O, v m • L (ann m) = ∑ p ∈ O, (∑ m ∈ O, v m * U m p) • L (rann O W p) := by
  simp only [Finset.sum_smul]
  rw [Finset.sum_comm]
  refine Finset.sum_congr rfl fun m hm => ?_
  rw [ann_eq h hm, map_sum, Finset.smul_sum]
  refine Finset.sum_congr rfl fun p _ => ?_
  rw [map_smul, smul_smul]

theorem ham_eq (h : Inverse O U W) (f : ι → ι → K) (V : ι → ι → ι → ι → K) :
    ham O f V = (∑ p ∈ O, ∑ q ∈ O, rot1 O U W f p q • (rcre O U p * rann O W q))
      + (1 / 2 : K) • ∑ p ∈ O, ∑ q ∈ O, ∑ r ∈ O, ∑ s ∈ O, rot2 O U W V p q r s • (rcre O U p * rcre O U q * rann O W s * rann O W r) := by
  unfold ham
  congr 1
  · have e : ∀ m ∈ O, ∑ n ∈ O, f m n • (cre m * ann n : Module.End K (Finset ι → K))
        = ∑ q ∈ O, (∑ n ∈ O, f m n * U n q) • (cre m * rann O W q) := fun m _ => subst_ann h (LinearMap.mulLeft K (cre m)) (f m)
    rw [Finset.sum_congr rfl e, Finset.sum_comm]
    rw [Finset.sum_comm (f := fun p q => rot1 O U W f p q • (rcre O U p * rann O W q))]
    exact Finset.sum_congr rfl fun q _ => subst_cre h (LinearMap.mulRight K (rann O W q)) fun m => ∑ n ∈ O, f m n * U n q
  · congr 1
    have e1 : ∀ m ∈ O, ∀ n ∈ O, ∀ k ∈ O, ∑ l ∈ O, V m n k l • (cre m * cre n * ann l * ann k : Module.End K (Finset ι → K))
        = ∑ s ∈ O, (∑ l ∈ O, V m n k l * U l s) • (cre m * cre n * rann O W s * ann k) := fun m _ n _ k _ =>
      subst_ann h ((LinearMap.mulRight K (ann k)).comp (LinearMap.mulLeft K (cre m * cre n))) (V m n k)
    have e2 : ∀ m ∈ O, ∀ n ∈ O, ∀ s ∈ O, ∑ k ∈ O, (∑ l ∈ O, V m n k l * U l s) • (cre m * cre n * rann O W s * ann k : Module.End K (Finset ι → K))
        = ∑ r ∈ O, (∑ k ∈ O, (∑ l ∈ O, V m n k l * U l s) * U k r) • (cre m * cre n * rann O W s * rann O W r) := fun m _ n _ s _ =>
      subst_ann h (LinearMap.mulLeft K (cre m * cre n * rann O W s)) fun k => ∑ l ∈ O, V m n k l * U l s
    have e3 : ∀ m ∈ O, ∀ s ∈ O, ∀ r ∈ O, ∑ n ∈ O, (∑ k ∈ O, (∑ l ∈ O, V m n k l * U l s) * U k r) •
          (cre m * cre n * rann O W s * rann O W r : Module.End K (Finset ι → K))
        = ∑ q ∈ O, (∑ n ∈ O, W q n * ∑ k ∈ O, (∑ l ∈ O, V m n k l * U l s) * U k r) • (cre m * rcre O U q * rann O W s * rann O W r) :=
      fun m _ s _ r _ => subst_cre h ((LinearMap.mulRight K (rann O W r)).comp ((LinearMap.mulRight K (rann O W s)).comp
        (LinearMap.mulLeft K (cre m)))) fun n => ∑ k ∈ O, (∑ l ∈ O, V m n k l * U l s) * U k r
    have e4 : ∀ q ∈ O, ∀ s ∈ O, ∀ r ∈ O, ∑ m ∈ O, (∑ n ∈ O, W q n * ∑ k ∈ O, (∑ l ∈ O, V m n k l * U l s) * U k r) •
          (cre m * rcre O U q * rann O W s * rann O W r : Module.End K (Finset ι → K))
        = ∑ p ∈ O, rot2 O U W V p q r s • (rcre O U p * rcre O U q * rann O W s * rann O W r) :=
      fun q _ s _ r _ => subst_cre h ((LinearMap.mulRight K (rann O W r)).comp ((LinearMap.mulRight K (rann O W s)).comp
        (LinearMap.mulRight K (rcre O U q)))) fun m => ∑ n ∈ O, W q n * ∑ k ∈ O, (∑ l ∈ O, V m n k l * U l s) * U k r
    calc ∑ m ∈ O, ∑ n ∈ O, ∑ k ∈ O, ∑ l ∈ O, V m n k l • (cre m * cre n * ann l * ann k : Module.End K (Finset ι → K))
        = ∑ m ∈ O, ∑ n ∈ O, ∑ s ∈ O, ∑ k ∈ O, (∑ l ∈ O, V m n k l * U l s) • (cre m * cre n * rann O W s * ann k) :=
          Finset.sum_congr rfl fun m hm => Finset.sum_congr rfl fun n hn =>
            (Finset.sum_congr rfl fun k hk => e1 m hm n hn k hk).trans Finset.sum_comm
      _ = ∑ m ∈ O, ∑ s ∈ O, ∑ r ∈ O, ∑ n ∈ O, (∑ k ∈ O, (∑ l ∈ O, V m n k l * U l s) * U k r) • (cre m * cre n * rann O W s * rann O W r) :=
          Finset.sum_congr rfl fun m hm => (Finset.sum_congr rfl fun n hn => Finset.sum_congr rfl fun s hs => e2 m hm n hn s hs).trans
            (Finset.sum_comm.trans (Finset.sum_congr rfl fun s _ => Finset.sum_comm))
      _ = ∑ s ∈ O, ∑ r ∈ O, ∑ q ∈ O, ∑ m ∈ O, (∑ n ∈ O, W q n * ∑ k ∈ O, (∑ l ∈ O, V m n k l * U l s) * U k r) •
            (cre m * rcre O U q * rann O W s * rann O W r) :=
          (Finset.sum_congr rfl fun m hm => Finset.sum_congr rfl fun s hs => Finset.sum_congr rfl fun r hr => e3 m hm s hs r hr).trans
            (Finset.sum_comm.trans (Finset.sum_congr rfl fun s _ => Finset.sum_comm.trans (Finset.sum_congr rfl fun r _ => Finset.sum_comm)))
      _ = ∑ s ∈ O, ∑ r ∈ O, ∑ q ∈ O, ∑ p ∈ O, rot2 O U W V p q r s • (rcre O U p * rcre O U q * rann O W s * rann O W r) :=
          Finset.sum_congr rfl fun s hs => Finset.sum_congr rfl fun r hr => Finset.sum_congr rfl fun q hq => e4 q hq s hs r hr
      _ = _ := by
          rw [Finset.sum_comm]
          have c1 : ∀ f : ι → ι → ι → ι → Module.End K (Finset ι → K), ∑ r ∈ O, ∑ s ∈ O, ∑ q ∈ O, ∑ p ∈ O, f p q r s
              = ∑ p ∈ O, ∑ q ∈ O, ∑ r ∈ O, ∑ s ∈ O, f p q r s := by
            intro f
            calc _ = ∑ r ∈ O, ∑ q ∈ O, ∑ s ∈ O, ∑ p ∈ O, f p q r s := Finset.sum_congr rfl fun r _ => Finset.sum_comm
              _ = ∑ r ∈ O, ∑ q ∈ O, ∑ p ∈ O, ∑ s ∈ O, f p q r s :=
                Finset.sum_congr rfl fun r _ => Finset.sum_congr rfl fun q _ => Finset.sum_comm
              _ = ∑ q ∈ O, ∑ r ∈ O, ∑ p ∈ O, ∑ s ∈ O, f p q r s := Finset.sum_comm
              _ = ∑ q ∈ O, ∑ p ∈ O, ∑ r ∈ O, ∑ s ∈ O, f p q r s := Finset.sum_congr rfl fun q _ => Finset.sum_comm
              _ = _ := Finset.sum_comm
          exact c1 fun p q r s => rot2 O U W V p q r s • (rcre O U p * rcre O U q * rann O W s * rann O W r)

/-- the rotation takes the Hamiltonian of the rotated integrals to that of the old ones -/
theorem rot_ham [CharZero K] (h : Inverse O U W) (f : ι → ι → K) (V : ι → ι → ι → ι → K) (ψ : Finset ι → K) :
    rot O U (ham O (rot1 O U W f) (rot2 O U W V) ψ) = ham O f V (rot O U ψ) := by
  rw [ham_eq h f V]
  simp only [ham, LinearMap.add_apply, LinearMap.sum_apply, LinearMap.smul_apply, Module.End.mul_apply, map_add, map_sum, map_smul]
  congr 1
  · refine Finset.sum_congr rfl fun p hp => Finset.sum_congr rfl fun q hq => ?_
    rw [rot_cre hp, rot_ann h hq]
  · congr 1
    refine Finset.sum_congr rfl fun p hp => Finset.sum_congr rfl fun q hq => Finset.sum_congr rfl fun r hr =>
      Finset.sum_congr rfl fun s hs => ?_
    rw [rot_cre hp, rot_cre hq, rot_ann h hs, rot_ann h hr]

/-! ### overlaps -/

theorem rdet_expand (S : Finset ι) : rdet O U S = ∑ T ∈ O.powerset, rdet O U S T • det T := by
  funext B
  simp only [Finset.sum_apply, Pi.smul_apply, smul_eq_mul, det_apply, mul_ite, mul_one, mul_zero]
  rw [Finset.sum_ite_eq]
  split_ifs with h
  · rfl
  · by_contra hB; exact h (Finset.mem_powerset.2 (rdet_subset hB))

/-- the overlaps intertwine the two matrices of the Hamiltonian -/
theorem overlap_ham [CharZero K] (h : Inverse O U W) (f : ι → ι → K) (V : ι → ι → ι → ι → K) {S : Finset ι} (hS : S ⊆ O) (B : Finset ι) :
    ∑ T ∈ O.powerset, rdet O U T B * elt (ham O (rot1 O U W f) (rot2 O U W V)) T S
      = ∑ T ∈ O.powerset, elt (ham O f V) B T * rdet O U S T := by
  have e := congrFun (rot_ham h f V (det S)) B
  rw [rot_det hS, rot_apply, rdet_expand S, map_sum] at e
  simp only [Finset.sum_apply, map_smul, Pi.smul_apply, smul_eq_mul] at e
  rw [Finset.sum_congr rfl fun T _ => mul_comm _ _]
  refine e.trans ?_
  exact Finset.sum_congr rfl fun T _ => mul_comm _ _

theorem rot_rdet [CharZero K] (h : Inverse O U W) {S : Finset ι} (hS : S ⊆ O) : rot O U (rdet O W S) = det S := by
  induction S using Finset.induction_on_min with
  | empty => rw [rdet_empty, rot_det (Finset.empty_subset _), rdet_empty]
  | insert m s hm ih =>
    have hmO := hS (Finset.mem_insert_self m s)
    rw [rdet_insert hm]
    have e : rot O U (rcre O W m (rdet O W s)) = cre m (rot O U (rdet O W s)) := by
      rw [rcre, LinearMap.sum_apply, map_sum, cre_eq h hmO, LinearMap.sum_apply]
      refine Finset.sum_congr rfl fun q hq => ?_
      rw [LinearMap.smul_apply, map_smul, rot_cre hq, LinearMap.smul_apply]
    rw [e, ih fun x hx => hS (Finset.mem_insert_of_mem hx)]
    funext T
    rw [cre_apply, det_apply, det_apply]
    have hms : m ∉ s := fun h => lt_irrefl _ (hm m h)
    by_cases hT : m ∈ T
    · rw [if_pos hT]
      by_cases e : T.erase m = s
      · have eT : T = insert m s := by rw [← e, Finset.insert_erase hT]
        rw [if_pos e, if_pos eT, e, sgn_min hm, mul_one]
      · rw [if_neg e, if_neg (fun h' => e (by rw [h', Finset.erase_insert hms])), mul_zero]
    · rw [if_neg hT, if_neg (fun h' => hT (by rw [h']; exact Finset.mem_insert_self _ _))]

/-- the overlaps for `U` and for its inverse are inverse matrices -/
theorem overlap_inv [CharZero K] (h : Inverse O U W) {S : Finset ι} (hS : S ⊆ O) (B : Finset ι) :
    ∑ T ∈ O.powerset, rdet O U T B * rdet O W S T = if B = S then 1 else 0 := by
  have e := congrFun (rot_rdet h hS) B
  rw [rot_apply, det_apply] at e
  rw [← e, Finset.sum_apply]
  exact Finset.sum_congr rfl fun T _ => mul_comm _ _

theorem Inverse.symm (h : Inverse O U W) : Inverse O W U := fun p hp q hq => ⟨(h p hp q hq).2, (h p hp q hq).1⟩

/-- the overlaps for the transposed matrix are the transposed overlaps -/
theorem overlap_transpose (h : Inverse O U W) {S T : Finset ι} (hS : S ⊆ O) (hT : T ⊆ O) :
    rdet O (fun p q => U q p) T S = rdet O U S T := by
  induction T using Finset.induction_on_min generalizing S with
  | empty =>
    rw [rdet_empty, det_apply]
    induction S using Finset.induction_on_min with
    | empty => rw [if_pos rfl, rdet_empty, det_apply, if_pos rfl]
    | insert m s hm _ =>
      rw [if_neg (Finset.insert_ne_empty _ _), rdet_insert hm, rcre_apply]
      exact (Finset.sum_eq_zero fun q _ => by rw [if_neg (Finset.notMem_empty _), mul_zero]).symm
  | insert m t hm ih =>
    have hmO := hT (Finset.mem_insert_self m t)
    have hmt : m ∉ t := fun h => lt_irrefl _ (hm m h)
    have ih := fun S hS => ih (S := S) hS fun x hx => hT (Finset.mem_insert_of_mem hx)
    have e : ann m (rdet O U S) t = rdet O U S (insert m t) := by
      rw [ann_apply, if_neg hmt, sgn_min hm, one_mul]
    rw [rdet_insert hm, rcre_apply, ← e, ann_eq h hmO, LinearMap.sum_apply, Finset.sum_apply]
    refine Finset.sum_congr rfl fun q hq => ?_
    rw [LinearMap.smul_apply, Pi.smul_apply, smul_eq_mul, rann_rdet h hq hS]
    congr 1
    split_ifs with hqS
    · rw [Pi.smul_apply, smul_eq_mul, ih (S.erase q) ((Finset.erase_subset _ _).trans hS)]
    · rfl

end Fock
