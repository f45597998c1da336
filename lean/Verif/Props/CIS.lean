import Verif.Props.CISym
import Mathlib.LinearAlgebra.Matrix.Charpoly.Coeff
import Mathlib.LinearAlgebra.Matrix.Charpoly.Basic
import Mathlib.Data.List.NodupEquivFin
/-!
# C74: the matrix over single excitations is the Tamm–Dancoff matrix
-/
noncomputable section
namespace CI
open Fock

variable {K : Type} [Field K]

/-! ### elements between single excitations of a determinant, any orbitals -/

section abstract
variable {ι : Type} [LinearOrder ι]

/-- the determinant with the electron of `i` moved to `a` -/
def move (R : Finset ι) (i a : ι) : Finset ι := insert a (R.erase i)

/-- the sign of `a†_a a_i` on the determinant `R` -/
def excSgn (K : Type) [Field K] (R : Finset ι) (i a : ι) : K := sgn K i (R.erase i) * sgn K a (R.erase i)

theorem excSgn_pm (R : Finset ι) (i a : ι) : excSgn K R i a = 1 ∨ excSgn K R i a = -1 := by
  unfold excSgn sgn
  rw [← pow_add]; exact neg_one_pow_eq_or K _

/-- Fock matrix of the determinant `R` -/
def fockOf (h : ι → ι → K) (V : ι → ι → ι → ι → K) (R : Finset ι) (p q : ι) : K := h p q + ∑ k ∈ R, (V p k q k - V p k k q)

theorem pm_sq {s : K} (h : s = 1 ∨ s = -1) : s * s = 1 := by rcases h with rfl | rfl <;> ring

theorem tau {x y : ι} (h : x ≠ y) : (if x < y then (-1 : K) else 1) * (if y < x then -1 else 1) = -1 := by
  rcases lt_or_gt_of_ne h with h | h <;> simp [h, h.not_gt]

theorem tau' {x y : ι} (h : x ≠ y) : (if y < x then (-1 : K) else 1) = -(if x < y then -1 else 1) := by
  rcases lt_or_gt_of_ne h with h | h <;> simp [h, h.not_gt]

variable [CharZero K]

/-- Elements between determinants that differ by two orbitals, in any order. -/
theorem slater_double' (U : Finset ι) (h : ι → ι → K) (V : ι → ι → ι → ι → K) (hV : ∀ p q r s, V p q r s = V q p s r) {C : Finset ι}
    {o1 o2 v1 v2 : ι} (ho1 : o1 ∉ C) (ho2 : o2 ∉ C) (hv1 : v1 ∉ C) (hv2 : v2 ∉ C) (h12 : o1 ≠ o2) (k12 : v1 ≠ v2)
    (a1 : o1 ≠ v1) (a2 : o1 ≠ v2) (a3 : o2 ≠ v1) (a4 : o2 ≠ v2) (u1 : o1 ∈ U) (u2 : o2 ∈ U) (w1 : v1 ∈ U) (w2 : v2 ∈ U) :
    elt (ham U h V) (insert v1 (insert v2 C)) (insert o1 (insert o2 C))
      = (if v2 < v1 then -1 else 1) * (if o2 < o1 then -1 else 1) * (sgn K v1 C * sgn K v2 C * sgn K o1 C * sgn K o2 C)
        * (V v1 v2 o1 o2 - V v1 v2 o2 o1) := by
  have key : ∀ {o1 o2 v1 v2 : ι}, o1 ∉ C → o2 ∉ C → v1 ∉ C → v2 ∉ C → o1 < o2 → v1 < v2 → o1 ≠ v1 → o1 ≠ v2 → o2 ≠ v1 → o2 ≠ v2 →
      o1 ∈ U → o2 ∈ U → v1 ∈ U → v2 ∈ U → elt (ham U h V) (insert v1 (insert v2 C)) (insert o1 (insert o2 C))
        = (sgn K v1 C * sgn K v2 C * sgn K o1 C * sgn K o2 C) * (V v1 v2 o1 o2 - V v1 v2 o2 o1) := by
    intro o1 o2 v1 v2 ho1 ho2 hv1 hv2 h12 k12 a1 a2 a3 a4 u1 u2 w1 w2
    rw [slater_double U h V hV ho1 ho2 hv1 hv2 h12 k12 a1 a2 a3 a4 u1 u2 w1 w2]
    have hv1' : v1 ∉ insert v2 C := by simp [hv1, k12.ne]
    have hv2' : v2 ∉ insert v1 C := by simp [hv2, k12.ne']
    have e1 : (min v1 o1 < v2 ∧ v2 < max v1 o1) ↔ v2 < o1 := by
      rw [min_lt_iff, lt_max_iff]
      exact ⟨fun hh => hh.2.resolve_left k12.not_gt, fun hh => ⟨Or.inl k12, Or.inr hh⟩⟩
    have e2 : (min v2 o2 < v1 ∧ v1 < max v2 o2) ↔ o2 < v1 := by
      rw [min_lt_iff, lt_max_iff]
      exact ⟨fun hh => hh.1.resolve_left k12.not_gt, fun hh => ⟨Or.inr hh, Or.inl k12⟩⟩
    have e : sgn K v1 C * sgn K v2 C * sgn K o1 C * sgn K o2 C = (-1) ^ btw C v1 o1 * (-1) ^ btw C v2 o2 := by
      rw [← sgn_btw hv1 ho1, ← sgn_btw hv2 ho2]; ring
    rw [e, btw_insert_left hv1', btw_insert hv2, Finset.insert_comm, btw_insert_left hv2', btw_insert hv1]
    simp only [e1, e2]
    by_cases c1 : v2 < o1
    · have c3 : ¬ o2 < v1 := fun hh => absurd (k12.trans (c1.trans h12)) hh.not_gt
      simp only [c1, c3, true_or, if_true, if_false]; ring
    · by_cases c3 : o2 < v1
      · simp only [c1, c3, or_true, if_true, if_false]; ring
      · simp only [c1, c3, or_false, if_false]; ring
  rcases lt_or_gt_of_ne h12 with h1 | h1 <;> rcases lt_or_gt_of_ne k12 with k1 | k1
  · rw [key ho1 ho2 hv1 hv2 h1 k1 a1 a2 a3 a4 u1 u2 w1 w2, if_neg k1.not_gt, if_neg h1.not_gt]; ring
  · rw [Finset.insert_comm v1 v2, key ho1 ho2 hv2 hv1 h1 k1 a2 a1 a4 a3 u1 u2 w2 w1, if_pos k1, if_neg h1.not_gt, hV v2 v1 o1 o2, hV v2 v1 o2 o1]
    ring
  · rw [Finset.insert_comm o1 o2, key ho2 ho1 hv1 hv2 h1 k1 a3 a4 a1 a2 u2 u1 w1 w2, if_neg k1.not_gt, if_pos h1]
    ring
  · rw [Finset.insert_comm v1 v2, Finset.insert_comm o1 o2, key ho2 ho1 hv2 hv1 h1 k1 a4 a3 a2 a1 u2 u1 w2 w1, if_pos k1, if_pos h1,
      hV v2 v1 o1 o2, hV v2 v1 o2 o1]
    ring

/-- Elements between two single excitations of a determinant. -/
theorem elt_singles (U : Finset ι) (h : ι → ι → K) (V : ι → ι → ι → ι → K) (hV : ∀ p q r s, V p q r s = V q p s r) {R : Finset ι}
    (hR : R ⊆ U) {i a j b : ι} (hi : i ∈ R) (hj : j ∈ R) (ha : a ∉ R) (hb : b ∉ R) (ua : a ∈ U) (ub : b ∈ U) :
    elt (ham U h V) (move R i a) (move R j b) = excSgn K R i a * excSgn K R j b *
      ((if i = j ∧ a = b then elt (ham U h V) R R else 0) + (if i = j then fockOf h V R a b else 0)
        - (if a = b then fockOf h V R j i else 0) + V a j i b - V a j b i) := by
  have hia : i ≠ a := fun e => ha (e ▸ hi)
  have hja : j ≠ a := fun e => ha (e ▸ hj)
  have hib : i ≠ b := fun e => hb (e ▸ hi)
  have hjb : j ≠ b := fun e => hb (e ▸ hj)
  have hCa : a ∉ R.erase i := fun e => ha (Finset.mem_of_mem_erase e)
  have hCb : b ∉ R.erase i := fun e => hb (Finset.mem_of_mem_erase e)
  have hCi : i ∉ R.erase i := Finset.notMem_erase i R
  have hCU : R.erase i ⊆ U := (Finset.erase_subset _ _).trans hR
  by_cases hij : i = j
  · subst hij
    by_cases hab : a = b
    · subst hab
      have hsub : move R i a ⊆ U := Finset.insert_subset ua hCU
      rw [pm_sq (excSgn_pm R i a), one_mul, slater_diag U h V hsub, slater_diag U h V hR]
      simp only [and_self, if_true]
      unfold fockOf move
      conv_rhs => rw [← Finset.insert_erase hi]
      simp only [Finset.sum_insert hCa, Finset.sum_insert hCi, Finset.sum_add_distrib, Finset.erase_insert hCi]
      have e1 : ∑ x ∈ R.erase i, (V x a x a - V x a a x) = ∑ x ∈ R.erase i, (V a x a x - V a x x a) :=
        Finset.sum_congr rfl fun x _ => by rw [hV x a x a, hV x a a x]
      have e2 : ∑ x ∈ R.erase i, (V x i x i - V x i i x) = ∑ x ∈ R.erase i, (V i x i x - V i x x i) :=
        Finset.sum_congr rfl fun x _ => by rw [hV x i x i, hV x i i x]
      rw [e1, e2]
      ring
    · rw [move, move, slater_single U h V hV hCb hCa (Ne.symm hab) hCU ub ua, if_neg (fun e => hab e.2), if_pos rfl, if_neg hab,
        btw_insert_left hCa, ← sgn_btw hCa hCb]
      unfold fockOf excSgn
      conv_rhs => rw [← Finset.insert_erase hi]
      simp only [Finset.sum_insert hCb, Finset.sum_insert hCi, Finset.erase_insert hCi]
      linear_combination (-(sgn K a (R.erase i) * sgn K b (R.erase i)) * (h a b + ∑ x ∈ R.erase i, (V a x b x - V a x x b))) * sgn_sq (K := K) i (R.erase i)
  · -- different holes
    set C := (R.erase i).erase j with hCdef
    have hji' : j ∈ R.erase i := Finset.mem_erase.mpr ⟨Ne.symm hij, hj⟩
    have eR1 : R.erase i = insert j C := (Finset.insert_erase hji').symm
    have eR2 : R.erase j = insert i C := by
      rw [hCdef, Finset.erase_right_comm, Finset.insert_erase (Finset.mem_erase.mpr ⟨hij, hi⟩)]
    have ci : i ∉ C := fun e => hCi (Finset.mem_of_mem_erase e)
    have cj : j ∉ C := Finset.notMem_erase j _
    have ca : a ∉ C := fun e => hCa (Finset.mem_of_mem_erase e)
    have cb : b ∉ C := fun e => hCb (Finset.mem_of_mem_erase e)
    have eR : R = insert i (insert j C) := by rw [← eR1, Finset.insert_erase hi]
    have cU : C ⊆ U := (Finset.erase_subset _ _).trans hCU
    have t1 := tau (K := K) hij
    have sg : excSgn K R i a * excSgn K R j b = -((if j < a then -1 else 1) * (if i < b then -1 else 1)) *
        (sgn K i C * sgn K a C * sgn K j C * sgn K b C) := by
      unfold excSgn
      rw [eR1, eR2, sgn_insert cj, sgn_insert cj, sgn_insert ci, sgn_insert ci]
      linear_combination ((if j < a then -1 else 1) * (if i < b then -1 else 1)) * (sgn K i C * sgn K a C * sgn K j C * sgn K b C) * t1
    rw [if_neg (show ¬ (i = j ∧ a = b) from fun e => hij e.1), if_neg hij, sg]
    by_cases hab : a = b
    · subst hab
      have n1 : i ∉ insert a C := by simp [ci, hia]
      have n2 : j ∉ insert a C := by simp [cj, hja]
      have hs : insert a C ⊆ U := Finset.insert_subset ua cU
      have E := slater_single U h V hV n1 n2 hij hs (hR hi) (hR hj)
      rw [Finset.insert_comm j a, Finset.insert_comm i a] at E
      rw [if_pos rfl, move, move, eR1, eR2, E, Finset.insert_comm a j, btw_insert_left n2, ← sgn_btw n2 n1, sgn_insert ca, sgn_insert ca]
      unfold fockOf
      rw [eR, Finset.sum_insert (by simp [hia.symm, ca]), Finset.sum_insert ci,
        Finset.sum_insert (show i ∉ insert j C by simp [hij, ci]), Finset.sum_insert cj, hV a j i a, hV a j a i]
      rw [tau' hja, tau' hia]
      linear_combination ((if j < a then (-1 : K) else 1) * (if i < a then -1 else 1) * sgn K i C * sgn K j C *
        (h j i + ∑ x ∈ C, (V j x i x - V j x x i) + (V j a i a - V j a a i))) * (1 - sgn_sq (K := K) a C) -
        (if j < a then (-1 : K) else 1) * (if i < a then -1 else 1) * sgn K i C * sgn K j C * sgn K a C * sgn K a C * hV j j i j
    · have n1 : j ∉ C := cj
      have E := slater_double' U h V hV cb ci ca cj (Ne.symm hib) (Ne.symm hja) (Ne.symm hab) hjb.symm hia hij ub (hR hi) ua (hR hj)
      rw [if_neg hab, move, move, eR1, eR2, E]
      ring_nf
end abstract

/-! ### the matrix over `ucis_basis` -/

/-- Model of the loops of examples/cis.py lines 47-50: `H[i, j] = ci_matrixel(b[0], b[1], k[0], k[1], ...)` over all pairs of the basis. -/
def IsMatrix (B : List Pair) (ha hb : ℕ → ℕ → K) (Ia Ib Iabab : ℕ → ℕ → ℕ → ℕ → K) (const : K)
    (H : Matrix (Fin B.length) (Fin B.length) K) : Prop :=
  ∀ i j, ∃ ba bb ka kb, B.get i = (some ba, some bb) ∧ B.get j = (some ka, some kb) ∧
    ci_matrixel ba bb ka kb ha hb Ia Ib Iabab const = .ok (H i j)

/-- the single excitations: occupied orbital and virtual orbital of one spin -/
abbrev Singles (n na nb : ℕ) : Type := (Fin na × Fin (n - na)) ⊕ (Fin nb × Fin (n - nb))

/-- Fock matrix of alpha electrons -/
def fockA (na nb : ℕ) (ha : ℕ → ℕ → K) (Ia Iabab : ℕ → ℕ → ℕ → ℕ → K) (p q : ℕ) : K :=
  ha p q + ∑ k ∈ Finset.range na, (Ia p k q k - Ia p k k q) + ∑ k ∈ Finset.range nb, Iabab p k q k

/-- Fock matrix of beta electrons -/
def fockB (na nb : ℕ) (hb : ℕ → ℕ → K) (Ib Iabab : ℕ → ℕ → ℕ → ℕ → K) (p q : ℕ) : K :=
  hb p q + ∑ k ∈ Finset.range nb, (Ib p k q k - Ib p k k q) + ∑ k ∈ Finset.range na, Iabab k p k q

/-- The Tamm–Dancoff matrix of an unrestricted reference, from its Fock matrices and the integrals `⟨pq|rs⟩`. -/
def tda (n na nb : ℕ) (ha hb : ℕ → ℕ → K) (Ia Ib Iabab : ℕ → ℕ → ℕ → ℕ → K) : Matrix (Singles n na nb) (Singles n na nb) K
  | .inl (i, a), .inl (j, b) => (if i = j then fockA na nb ha Ia Iabab (na + a) (na + b) else 0)
      - (if a = b then fockA na nb ha Ia Iabab j i else 0) + Ia (na + a) j i (na + b) - Ia (na + a) j (na + b) i
  | .inl (i, a), .inr (j, b) => Iabab (na + a) j i (nb + b)
  | .inr (i, a), .inl (j, b) => Iabab j (nb + a) (na + b) i
  | .inr (i, a), .inr (j, b) => (if i = j then fockB na nb hb Ib Iabab (nb + a) (nb + b) else 0)
      - (if a = b then fockB na nb hb Ib Iabab j i else 0) + Ib (nb + a) j i (nb + b) - Ib (nb + a) j (nb + b) i

/-- the determinant of a single excitation -/
def singleDet (n na nb : ℕ) : Singles n na nb → Dstring × Dstring
  | .inl (i, a) => (ofSet n (move (Finset.range na) i (na + a)), ofSet n (Finset.range nb))
  | .inr (i, a) => (ofSet n (Finset.range na), ofSet n (move (Finset.range nb) i (nb + a)))

theorem emb_move_up (A B : Finset ℕ) (i a : ℕ) : emb (move A i a) B = move (emb A B) (up i) (up a) := by
  unfold move
  rw [emb_insert_up]
  congr 1
  refine (emb_ext (fun j => ?_) (fun j => ?_)).symm <;> simp [up_inj, up_ne_dn.symm]
theorem emb_move_dn (A B : Finset ℕ) (i a : ℕ) : emb A (move B i a) = move (emb A B) (dn i) (dn a) := by
  unfold move
  rw [emb_insert_dn]
  congr 1
  refine (emb_ext (fun j => ?_) (fun j => ?_)).symm <;> simp [dn_inj, up_ne_dn]

theorem move_sdiff {A : Finset ℕ} {i a : ℕ} (hi : i ∈ A) (ha : a ∉ A) : A \ move A i a = {i} ∧ move A i a \ A = {a} := by
  have hia : i ≠ a := fun e => ha (e ▸ hi)
  constructor <;> ext x <;> simp only [move, Finset.mem_sdiff, Finset.mem_insert, Finset.mem_erase, Finset.mem_singleton]
  · constructor
    · rintro ⟨h1, h2⟩; by_contra hx; exact h2 (.inr ⟨hx, h1⟩)
    · rintro rfl; exact ⟨hi, by rintro (h | h); exacts [hia h, h.1 rfl]⟩
  · constructor
    · rintro ⟨rfl | h, h2⟩; exacts [rfl, absurd h.2 h2]
    · rintro rfl; exact ⟨.inl rfl, ha⟩

theorem move_inj {A : Finset ℕ} {i a j b : ℕ} (hi : i ∈ A) (ha : a ∉ A) (hj : j ∈ A) (hb : b ∉ A) (h : move A i a = move A j b) :
    i = j ∧ a = b := by
  have e1 := (move_sdiff hi ha).1
  have e2 := (move_sdiff hi ha).2
  rw [h, (move_sdiff hj hb).1] at e1
  rw [h, (move_sdiff hj hb).2] at e2
  exact ⟨(Finset.singleton_injective e1).symm, (Finset.singleton_injective e2).symm⟩

theorem move_ne {A : Finset ℕ} {i a : ℕ} (hi : i ∈ A) (ha : a ∉ A) : move A i a ≠ A := fun h => by
  have := (move_sdiff hi ha).1
  rw [h, Finset.sdiff_self] at this
  exact Finset.notMem_empty i (this ▸ Finset.mem_singleton_self i)

theorem move_card {A : Finset ℕ} {i a : ℕ} (hi : i ∈ A) (ha : a ∉ A) : (move A i a).card = A.card := by
  unfold move
  rw [Finset.card_insert_of_notMem (fun h => ha (Finset.mem_of_mem_erase h)), Finset.card_erase_add_one hi]

theorem move_subset {A : Finset ℕ} {n i a : ℕ} (hA : A ⊆ Finset.range n) (ha : a < n) : move A i a ⊆ Finset.range n :=
  Finset.insert_subset (Finset.mem_range.mpr ha) ((Finset.erase_subset _ _).trans hA)

section
variable {n na nb : ℕ}

/-- the emptied spin orbital -/
def hole : Singles n na nb → SO
  | .inl (i, _) => up i
  | .inr (i, _) => dn i
/-- the filled spin orbital -/
def part : Singles n na nb → SO
  | .inl (_, a) => up (na + a)
  | .inr (_, a) => dn (nb + a)

theorem singleDet_supp (hna : na ≤ n) (hnb : nb ≤ n) (x : Singles n na nb) :
    emb (supp (singleDet n na nb x).1) (supp (singleDet n na nb x).2) = move (emb (Finset.range na) (Finset.range nb)) (hole x) (part x) ∧
    (supp (singleDet n na nb x).1).card = na ∧ (supp (singleDet n na nb x).2).card = nb := by
  have sa := Finset.range_subset_range.mpr hna
  have sb := Finset.range_subset_range.mpr hnb
  rcases x with ⟨i, a⟩ | ⟨i, a⟩
  · have := move_subset (i := i) (a := na + a) sa (by omega)
    simp only [singleDet, supp_ofSet this, supp_ofSet sb, hole, part, Finset.card_range, emb_move_up, true_and, and_true]
    rw [move_card (by simp) (by simp), Finset.card_range]
  · have := move_subset (i := i) (a := nb + a) sb (by omega)
    simp only [singleDet, supp_ofSet this, supp_ofSet sa, hole, part, Finset.card_range, emb_move_dn, true_and]
    rw [move_card (by simp) (by simp), Finset.card_range]

theorem hole_part (hna : na ≤ n) (hnb : nb ≤ n) (x : Singles n na nb) : hole x ∈ emb (Finset.range na) (Finset.range nb) ∧
    part x ∉ emb (Finset.range na) (Finset.range nb) ∧ part x ∈ emb (Finset.range n) (Finset.range n) := by
  rcases x with ⟨i, a⟩ | ⟨i, a⟩ <;> simp only [hole, part, up_mem, dn_mem, Finset.mem_range] <;> omega

theorem singleDet_injective (hna : na ≤ n) (hnb : nb ≤ n) : Function.Injective (singleDet n na nb) := by
  have sa := Finset.range_subset_range.mpr hna
  have sb := Finset.range_subset_range.mpr hnb
  intro x y h
  rcases x with ⟨i, a⟩ | ⟨i, a⟩ <;> rcases y with ⟨j, b⟩ | ⟨j, b⟩ <;> simp only [singleDet, Prod.mk.injEq] at h
  · obtain ⟨e1, e2⟩ := move_inj (by simp) (by simp) (by simp) (by simp) (ofSet_inj (move_subset sa (by omega)) (move_subset sa (by omega)) h.1)
    rw [Fin.ext e1, Fin.ext (Nat.add_left_cancel e2)]
  · exact absurd (ofSet_inj (move_subset sa (by omega)) sa h.1) (move_ne (by simp) (by simp))
  · exact absurd (ofSet_inj (move_subset sb (by omega)) sb h.2) (move_ne (by simp) (by simp))
  · obtain ⟨e1, e2⟩ := move_inj (by simp) (by simp) (by simp) (by simp) (ofSet_inj (move_subset sb (by omega)) (move_subset sb (by omega)) h.2)
    rw [Fin.ext e1, Fin.ext (Nat.add_left_cancel e2)]

theorem fock_up (ha hb : ℕ → ℕ → K) (Ia Ib Iabab : ℕ → ℕ → ℕ → ℕ → K) (p q : ℕ) :
    fockOf (spinH ha hb) (spinV Ia Ib Iabab) (emb (Finset.range na) (Finset.range nb)) (up p) (up q) = fockA na nb ha Ia Iabab p q := by
  unfold fockOf fockA
  simp only [sum_emb, spinH, spinV, up, dn, ofLex_toLex, sub_zero]
  ring
theorem fock_dn (ha hb : ℕ → ℕ → K) (Ia Ib Iabab : ℕ → ℕ → ℕ → ℕ → K) (p q : ℕ) :
    fockOf (spinH ha hb) (spinV Ia Ib Iabab) (emb (Finset.range na) (Finset.range nb)) (dn p) (dn q) = fockB na nb hb Ib Iabab p q := by
  unfold fockOf fockB
  simp only [sum_emb, spinH, spinV, up, dn, ofLex_toLex, sub_zero]
  ring

variable [CharZero K]

/-- the sign of a single excitation -/
def singleSgn (K : Type) [Field K] (x : Singles n na nb) : K := excSgn K (emb (Finset.range na) (Finset.range nb)) (hole x) (part x)

theorem single_element (hna : na ≤ n) (hnb : nb ≤ n) {ha hb : ℕ → ℕ → K} {Ia Ib Iabab : ℕ → ℕ → ℕ → ℕ → K}
    (va : ∀ p q r s, Ia p q r s = Ia q p s r) (vb : ∀ p q r s, Ib p q r s = Ib q p s r) {const E : K}
    (hE : ci_matrixel (ofSet n (Finset.range na)) (ofSet n (Finset.range nb)) (ofSet n (Finset.range na)) (ofSet n (Finset.range nb))
      ha hb Ia Ib Iabab const = .ok E) (x y : Singles n na nb) :
    ci_matrixel (singleDet n na nb x).1 (singleDet n na nb x).2 (singleDet n na nb y).1 (singleDet n na nb y).2 ha hb Ia Ib Iabab const
      = .ok (singleSgn K x * singleSgn K y * (tda n na nb ha hb Ia Ib Iabab x y + if x = y then E else 0)) := by
  have sa := Finset.range_subset_range.mpr hna
  have sb := Finset.range_subset_range.mpr hnb
  have hn : ∀ x : Singles n na nb, (IsDet (singleDet n na nb x).1 ∧ (singleDet n na nb x).1.n = n) ∧
      IsDet (singleDet n na nb x).2 ∧ (singleDet n na nb x).2.n = n := by
    rintro (x | x) <;> exact ⟨⟨isDet_ofSet _ _, rfl⟩, isDet_ofSet _ _, rfl⟩
  obtain ⟨x1, x2, x3⟩ := singleDet_supp hna hnb x
  obtain ⟨y1, y2, y3⟩ := singleDet_supp hna hnb y
  rw [C35_ci_matrixel ha hb Ia Ib Iabab const (isDet_ofSet _ _) (isDet_ofSet _ _) (isDet_ofSet _ _) (isDet_ofSet _ _) rfl rfl rfl rfl rfl rfl
    va vb, if_pos rfl, supp_ofSet sa, supp_ofSet sb] at hE
  rw [C35_ci_matrixel ha hb Ia Ib Iabab const (hn x).1.1 (hn x).2.1 (hn y).1.1 (hn y).2.1 (hn x).1.2 (hn x).2.2 (hn y).1.2 (hn y).2.2
    (x2.trans y2.symm) (x3.trans y3.symm) va vb, x1, y1]
  obtain ⟨a1, a2, a3⟩ := hole_part hna hnb x
  obtain ⟨b1, b2, b3⟩ := hole_part hna hnb y
  have e := elt_singles (emb (Finset.range n) (Finset.range n)) (spinH ha hb) (spinV Ia Ib Iabab) (spinV_pair va vb) (emb_subset sa sb)
    a1 b1 a2 b2 a3 b3
  have hE : elt (ham (emb (Finset.range n) (Finset.range n)) (spinH ha hb) (spinV Ia Ib Iabab)) (emb (Finset.range na) (Finset.range nb))
    (emb (Finset.range na) (Finset.range nb)) + const = E := Except.ok.inj hE
  unfold spinHam
  rw [e]
  have hxy : (((singleDet n na nb x).1, (singleDet n na nb x).2) = ((singleDet n na nb y).1, (singleDet n na nb y).2)) ↔ x = y :=
    ⟨fun h => singleDet_injective hna hnb h, fun h => by rw [h]⟩
  simp only [hxy]
  have hconst : (if x = y then const else 0) = singleSgn K x * singleSgn K y * (if x = y then const else 0) := by
    split_ifs with h
    · subst h; rw [singleSgn, pm_sq (excSgn_pm _ _ _), one_mul]
    · rw [mul_zero]
  rw [hconst, ← hE]
  unfold singleSgn
  rw [← mul_add]
  congr 2
  rcases x with ⟨i, a⟩ | ⟨i, a⟩ <;> rcases y with ⟨j, b⟩ | ⟨j, b⟩
  · simp only [hole, part, up_inj, Nat.add_left_cancel_iff, Fin.val_inj, fock_up, tda, Sum.inl.injEq, Prod.mk.injEq]
    simp only [up, spinV, ofLex_toLex]
    split_ifs <;> ring
  · simp only [hole, part, up_ne_dn, false_and, if_false, tda, reduceCtorEq]
    simp only [up, dn, spinV, ofLex_toLex]
    ring
  · simp only [hole, part, up_ne_dn.symm, false_and, if_false, tda, reduceCtorEq]
    simp only [up, dn, spinV, ofLex_toLex]
    ring
  · simp only [hole, part, dn_inj, Nat.add_left_cancel_iff, Fin.val_inj, fock_dn, tda, Sum.inr.injEq, Prod.mk.injEq]
    simp only [dn, spinV, ofLex_toLex]
    split_ifs <;> ring

theorem ofSet_range (hna : na ≤ n) : ofSet n (Finset.range na) = ⟨n, aufbau n na⟩ := by
  have := ofSet_supp (isDet_aufbau n na)
  rwa [supp_aufbau, min_eq_left hna] at this

omit [CharZero K] in
theorem move_excitation (hna : na ≤ n) {i a : ℕ} (hi : i < na) (ha : na ≤ a) (han : a < n) :
    Excitation ⟨n, aufbau n na⟩ (ofSet n (move (Finset.range na) i a)) 1 := by
  have sa := Finset.range_subset_range.mpr hna
  refine ⟨isDet_ofSet _ _, rfl, ?_, ?_⟩ <;>
    rw [supp_aufbau, min_eq_left hna, supp_ofSet (move_subset sa han)]
  · rw [(move_sdiff (by simpa) (by simpa)).1, Finset.card_singleton]
  · rw [(move_sdiff (by simpa) (by simpa)).2, Finset.card_singleton]

/-- The single excitations are the determinants of `ucis_basis` without the reference. -/
theorem mem_singles (hna : na ≤ n) (hnb : nb ≤ n) {B : List Pair}
    (hB : EnumeratesU B ⟨n, aufbau n na⟩ ⟨n, aufbau n nb⟩ fun k l => k + l ≤ 1 ∧ (false = false → k + l = 1)) (p : Pair) :
    p ∈ B ↔ ∃ x : Singles n na nb, p = (some (singleDet n na nb x).1, some (singleDet n na nb x).2) := by
  have sa : supp ⟨n, aufbau n na⟩ = Finset.range na := by rw [supp_aufbau, min_eq_left hna]
  have sb : supp ⟨n, aufbau n nb⟩ = Finset.range nb := by rw [supp_aufbau, min_eq_left hnb]
  rw [hB.2]
  constructor
  · rintro ⟨da, db, k, l, rfl, h1, h2, -, h3⟩
    have h3 := h3 rfl
    by_cases hk : k = 0
    · obtain rfl : l = 1 := by omega
      subst hk
      obtain ⟨i, a, hi, ha, han, e⟩ := h2.one
      rw [sb] at *
      simp only [Finset.mem_range, not_lt] at hi ha han
      refine ⟨.inr (⟨i, hi⟩, ⟨a - nb, by omega⟩), ?_⟩
      rw [h1.zero (isDet_aufbau n na), e]
      simp only [singleDet, Nat.add_sub_cancel' ha, ofSet_range hna]
      rfl
    · obtain rfl : k = 1 := by omega
      obtain rfl : l = 0 := by omega
      obtain ⟨i, a, hi, ha, han, e⟩ := h1.one
      rw [sa] at *
      simp only [Finset.mem_range, not_lt] at hi ha han
      refine ⟨.inl (⟨i, hi⟩, ⟨a - na, by omega⟩), ?_⟩
      rw [h2.zero (isDet_aufbau n nb), e]
      simp only [singleDet, Nat.add_sub_cancel' ha, ofSet_range hnb]
      rfl
  · rintro ⟨⟨i, a⟩ | ⟨i, a⟩, rfl⟩
    · refine ⟨_, _, 1, 0, rfl, move_excitation hna i.2 (by omega) (by omega), ?_, by simp⟩
      simp only [singleDet, ofSet_range hnb]
      exact ⟨isDet_aufbau n nb, rfl, by simp⟩
    · refine ⟨_, _, 0, 1, rfl, ?_, move_excitation hnb i.2 (by omega) (by omega), by simp⟩
      simp only [singleDet, ofSet_range hna]
      exact ⟨isDet_aufbau n na, rfl, by simp⟩

/-- C74: the matrix of examples/cis.py, over `ucis_basis(n, na, nb, gs=False)`, is the Tamm–Dancoff matrix plus the energy of the reference,
up to the order and the signs of the basis functions. -/
theorem C74_tda (hna : na ≤ n) (hnb : nb ≤ n) {ha hb : ℕ → ℕ → K} {Ia Ib Iabab : ℕ → ℕ → ℕ → ℕ → K}
    (va : ∀ p q r s, Ia p q r s = Ia q p s r) (vb : ∀ p q r s, Ib p q r s = Ib q p s r) {const E : K}
    (hE : ci_matrixel ⟨n, aufbau n na⟩ ⟨n, aufbau n nb⟩ ⟨n, aufbau n na⟩ ⟨n, aufbau n nb⟩ ha hb Ia Ib Iabab const = .ok E) :
    ∃ (B : List Pair) (H : Matrix (Fin B.length) (Fin B.length) K) (e : Singles n na nb ≃ Fin B.length) (s : Singles n na nb → K),
      ucis_basis n na nb false = .ok B ∧ IsMatrix B ha hb Ia Ib Iabab const H ∧ (∀ x, s x = 1 ∨ s x = -1) ∧
      ∀ x y, H (e x) (e y) = s x * s y * (tda n na nb ha hb Ia Ib Iabab x y + if x = y then E else 0) := by
  classical
  obtain ⟨B, h1, h2⟩ := C33_ucis n na nb false
  have hm := mem_singles hna hnb h2
  let f : Singles n na nb → {p // p ∈ B} := fun x => ⟨_, (hm _).mpr ⟨x, rfl⟩⟩
  have hf : Function.Bijective f := by
    constructor
    · intro x y h
      have := Subtype.ext_iff.mp h
      simp only [f, Prod.mk.injEq, Option.some.injEq] at this
      exact singleDet_injective hna hnb (Prod.ext this.1 this.2)
    · rintro ⟨p, hp⟩
      obtain ⟨x, hx⟩ := (hm p).mp hp
      exact ⟨x, Subtype.ext hx.symm⟩
  let e : Singles n na nb ≃ Fin B.length := (Equiv.ofBijective f hf).trans (List.Nodup.getEquiv B h2.1).symm
  have he : ∀ x, B.get (e x) = (some (singleDet n na nb x).1, some (singleDet n na nb x).2) := fun x => by
    have := (List.Nodup.getEquiv B h2.1).apply_symm_apply (f x)
    exact congrArg Subtype.val this
  have he' : ∀ i, B.get i = (some (singleDet n na nb (e.symm i)).1, some (singleDet n na nb (e.symm i)).2) := fun i => by
    obtain ⟨x, rfl⟩ := e.surjective i
    rw [he, e.symm_apply_apply]
  clear_value e
  rw [← ofSet_range hna, ← ofSet_range hnb] at hE
  refine ⟨B, fun i j => singleSgn K (e.symm i) * singleSgn K (e.symm j) *
    (tda n na nb ha hb Ia Ib Iabab (e.symm i) (e.symm j) + if e.symm i = e.symm j then E else 0), e, singleSgn K, h1, fun i j => ?_,
    fun x => excSgn_pm _ _ _, fun x y => by simp⟩
  exact ⟨_, _, _, _, he' i, he' j, single_element hna hnb va vb hE _ _⟩

omit [CharZero K] in
theorem IsMatrix.unique {B : List Pair} {ha hb : ℕ → ℕ → K} {Ia Ib Iabab : ℕ → ℕ → ℕ → ℕ → K} {const : K}
    {H H' : Matrix (Fin B.length) (Fin B.length) K} (h : IsMatrix B ha hb Ia Ib Iabab const H) (h' : IsMatrix B ha hb Ia Ib Iabab const H') :
    H = H' := by
  ext i j
  obtain ⟨a, b, c, d, e1, e2, e3⟩ := h i j
  obtain ⟨a', b', c', d', e1', e2', e3'⟩ := h' i j
  rw [e1] at e1'; rw [e2] at e2'
  simp only [Prod.mk.injEq, Option.some.injEq] at e1' e2'
  rw [e1'.1, e1'.2, e2'.1, e2'.2, e3'] at e3
  exact (Except.ok.inj e3).symm

omit [CharZero K] in
theorem charpoly_signed {m l : Type} [Fintype m] [DecidableEq m] [Fintype l] [DecidableEq l] (e : m ≃ l) {s : m → K}
    (hs : ∀ x, s x = 1 ∨ s x = -1) {A : Matrix m m K} {H : Matrix l l K} (h : ∀ x y, H (e x) (e y) = s x * s y * A x y) :
    H.charpoly = A.charpoly := by
  have h1 : H = Matrix.reindex e e (Matrix.diagonal s * (A * Matrix.diagonal s)) := by
    ext i j
    obtain ⟨x, rfl⟩ := e.surjective i
    obtain ⟨y, rfl⟩ := e.surjective j
    rw [h]
    simp only [Matrix.reindex_apply, Matrix.submatrix_apply, e.symm_apply_apply, Matrix.diagonal_mul, Matrix.mul_diagonal]
    ring
  have h2 : Matrix.diagonal s * Matrix.diagonal s = 1 := by
    rw [Matrix.diagonal_mul_diagonal, ← Matrix.diagonal_one]
    congr 1; funext x; exact pm_sq (hs x)
  rw [h1, Matrix.charpoly_reindex, Matrix.charpoly_mul_comm, Matrix.mul_assoc, h2, Matrix.mul_one]

/-- C74: so, if `const` cancels the energy of the reference as in the example, the matrix has the characteristic polynomial of the
Tamm–Dancoff matrix. -/
theorem C74_spectrum (hna : na ≤ n) (hnb : nb ≤ n) {ha hb : ℕ → ℕ → K} {Ia Ib Iabab : ℕ → ℕ → ℕ → ℕ → K}
    (va : ∀ p q r s, Ia p q r s = Ia q p s r) (vb : ∀ p q r s, Ib p q r s = Ib q p s r) {const : K}
    (hE : ci_matrixel ⟨n, aufbau n na⟩ ⟨n, aufbau n nb⟩ ⟨n, aufbau n na⟩ ⟨n, aufbau n nb⟩ ha hb Ia Ib Iabab const = .ok 0) :
    ∃ (B : List Pair) (H : Matrix (Fin B.length) (Fin B.length) K), ucis_basis n na nb false = .ok B ∧
      IsMatrix B ha hb Ia Ib Iabab const H ∧ H.charpoly = (tda n na nb ha hb Ia Ib Iabab).charpoly := by
  obtain ⟨B, H, e, s, h1, h2, h3, h4⟩ := C74_tda hna hnb va vb hE
  exact ⟨B, H, h1, h2, charpoly_signed e h3 fun x y => by rw [h4, ite_self, add_zero]⟩
end

/-! ### closed shells -/

/-- Fock matrix of a closed shell -/
def fockR (no : ℕ) (h : ℕ → ℕ → K) (I : ℕ → ℕ → ℕ → ℕ → K) (p q : ℕ) : K :=
  h p q + ∑ k ∈ Finset.range no, (2 * I p k q k - I p k k q)

/-- singlet Tamm–Dancoff matrix of a closed shell -/
def singlet (n no : ℕ) (h : ℕ → ℕ → K) (I : ℕ → ℕ → ℕ → ℕ → K) : Matrix (Fin no × Fin (n - no)) (Fin no × Fin (n - no)) K :=
  fun x y => (if x.1 = y.1 then fockR no h I (no + x.2) (no + y.2) else 0) - (if x.2 = y.2 then fockR no h I y.1 x.1 else 0)
    + 2 * I (no + x.2) y.1 x.1 (no + y.2) - I (no + x.2) y.1 (no + y.2) x.1

/-- triplet Tamm–Dancoff matrix of a closed shell -/
def triplet (n no : ℕ) (h : ℕ → ℕ → K) (I : ℕ → ℕ → ℕ → ℕ → K) : Matrix (Fin no × Fin (n - no)) (Fin no × Fin (n - no)) K :=
  fun x y => (if x.1 = y.1 then fockR no h I (no + x.2) (no + y.2) else 0) - (if x.2 = y.2 then fockR no h I y.1 x.1 else 0)
    - I (no + x.2) y.1 (no + y.2) x.1

open Matrix in
theorem det_swap_blocks {R m : Type} [CommRing R] [Fintype m] [DecidableEq m] (X Y : Matrix m m R) :
    (fromBlocks X Y Y X).det = (X + Y).det * (X - Y).det := by
  have e : fromBlocks 1 1 0 1 * fromBlocks X Y Y X * fromBlocks 1 (-1) 0 1 = fromBlocks (X + Y) 0 Y (X - Y) := by
    rw [fromBlocks_multiply, fromBlocks_multiply]
    congr 1 <;> simp [add_comm, sub_eq_add_neg]
    abel
  have := congrArg Matrix.det e
  rw [det_mul, det_mul, det_fromBlocks_zero₂₁, det_fromBlocks_zero₂₁, det_fromBlocks_zero₁₂] at this
  simpa using this

open Matrix in
theorem charpoly_swap_blocks {m : Type} [Fintype m] [DecidableEq m] (X Y : Matrix m m K) :
    (fromBlocks X Y Y X).charpoly = (X + Y).charpoly * (X - Y).charpoly := by
  unfold Matrix.charpoly
  rw [charmatrix_fromBlocks, det_swap_blocks]
  congr 2
  · ext i j; simp [charmatrix, sub_eq_add_neg]; ring
  · ext i j; simp [charmatrix, sub_eq_add_neg]; ring

section
variable {n no : ℕ} [CharZero K]

/-- C74: for a closed shell the characteristic polynomial is the product of those of the singlet and the triplet matrices, the two lists of
excitation energies which the example concatenates. -/
theorem C74_singlet_triplet (hn : no ≤ n) {h : ℕ → ℕ → K} {I : ℕ → ℕ → ℕ → ℕ → K} (v : ∀ p q r s, I p q r s = I q p s r) {const : K}
    (hE : ci_matrixel ⟨n, aufbau n no⟩ ⟨n, aufbau n no⟩ ⟨n, aufbau n no⟩ ⟨n, aufbau n no⟩ h h I I I const = .ok 0) :
    ∃ (B : List Pair) (H : Matrix (Fin B.length) (Fin B.length) K), ucis_basis n no no false = .ok B ∧
      IsMatrix B h h I I I const H ∧ H.charpoly = (singlet n no h I).charpoly * (triplet n no h I).charpoly ∧
      H.charpoly.roots = (singlet n no h I).charpoly.roots + (triplet n no h I).charpoly.roots := by
  obtain ⟨B, H, h1, h2, h3⟩ := C74_spectrum hn hn v v hE
  have key : H.charpoly = (singlet n no h I).charpoly * (triplet n no h I).charpoly := by
    rw [h3]
    obtain ⟨Y, hY⟩ : ∃ Y : Matrix (Fin no × Fin (n - no)) (Fin no × Fin (n - no)) K,
      ∀ i a j b, Y (i, a) (j, b) = I (no + a) j i (no + b) := ⟨fun x y => I (no + x.2) y.1 x.1 (no + y.2), fun _ _ _ _ => rfl⟩
    obtain ⟨X, hX⟩ : ∃ X : Matrix (Fin no × Fin (n - no)) (Fin no × Fin (n - no)) K,
      ∀ x y, X x y = tda n no no h h I I I (.inl x) (.inl y) := ⟨fun x y => tda n no no h h I I I (.inl x) (.inl y), fun _ _ => rfl⟩
    have fA : fockA no no h I I = fockR no h I := by
      funext p q; unfold fockA fockR
      rw [add_assoc, ← Finset.sum_add_distrib]; congr 1
      exact Finset.sum_congr rfl fun _ _ => by ring
    have fB : fockB no no h I I = fockR no h I := by
      funext p q; unfold fockB fockR
      rw [add_assoc, ← Finset.sum_add_distrib]; congr 1
      exact Finset.sum_congr rfl fun k _ => by rw [v k p k q]; ring
    have e : tda n no no h h I I I = Matrix.fromBlocks X Y Y X := by
      ext x y
      rcases x with ⟨i, a⟩ | ⟨i, a⟩ <;> rcases y with ⟨j, b⟩ | ⟨j, b⟩
      · rw [Matrix.fromBlocks_apply₁₁, hX]
      · rw [Matrix.fromBlocks_apply₁₂, hY]; rfl
      · rw [Matrix.fromBlocks_apply₂₁, hY]; exact v j (no + a) (no + b) i
      · rw [Matrix.fromBlocks_apply₂₂, hX]
        simp only [tda, fA, fB]
    rw [e, charpoly_swap_blocks]
    congr 2
    · ext ⟨i, a⟩ ⟨j, b⟩
      rw [Matrix.add_apply, hX, hY]
      simp only [tda, singlet, fA]; ring
    · ext ⟨i, a⟩ ⟨j, b⟩
      rw [Matrix.sub_apply, hX, hY]
      simp only [tda, triplet, fA]; ring
  exact ⟨B, H, h1, h2, key, by
    rw [key, Polynomial.roots_mul]
    exact mul_ne_zero (Matrix.charpoly_monic _).ne_zero (Matrix.charpoly_monic _).ne_zero⟩

/-- a constant that cancels the energy of the reference exists -/
theorem exists_const {na nb : ℕ} (ha hb : ℕ → ℕ → K) {Ia Ib Iabab : ℕ → ℕ → ℕ → ℕ → K} (va : ∀ p q r s, Ia p q r s = Ia q p s r)
    (vb : ∀ p q r s, Ib p q r s = Ib q p s r) :
    ∃ const, ci_matrixel ⟨n, aufbau n na⟩ ⟨n, aufbau n nb⟩ ⟨n, aufbau n na⟩ ⟨n, aufbau n nb⟩ ha hb Ia Ib Iabab const = .ok 0 := by
  refine ⟨-elt (spinHam n n ha hb Ia Ib Iabab) (emb (supp ⟨n, aufbau n na⟩) (supp ⟨n, aufbau n nb⟩))
    (emb (supp ⟨n, aufbau n na⟩) (supp ⟨n, aufbau n nb⟩)), ?_⟩
  rw [C35_ci_matrixel ha hb Ia Ib Iabab _ (isDet_aufbau n na) (isDet_aufbau n nb) (isDet_aufbau n na) (isDet_aufbau n nb) rfl rfl rfl rfl
    rfl rfl va vb, if_pos rfl, add_neg_cancel]

/-- two orbitals and exchange integrals: a singlet at 7 and a triplet at 5 -/
example : ∃ (const : ℚ) (B : List Pair) (H : Matrix (Fin B.length) (Fin B.length) ℚ), ucis_basis 2 1 1 false = .ok B ∧
    IsMatrix B (fun p q => if p = 1 ∧ q = 1 then 7 else 0) (fun p q => if p = 1 ∧ q = 1 then 7 else 0)
      (fun p q r s => if p = s ∧ q = r then 1 else 0) (fun p q r s => if p = s ∧ q = r then 1 else 0)
      (fun p q r s => if p = s ∧ q = r then 1 else 0) const H ∧ H.charpoly.roots = {7, 5} := by
  have v : ∀ p q r s : ℕ, (if p = s ∧ q = r then (1 : ℚ) else 0) = if q = r ∧ p = s then 1 else 0 := fun p q r s => by
    simp only [and_comm]
  obtain ⟨const, hc⟩ := exists_const (n := 2) (na := 1) (nb := 1) (fun p q => if p = 1 ∧ q = 1 then (7 : ℚ) else 0)
    (fun p q => if p = 1 ∧ q = 1 then 7 else 0) (Ia := fun p q r s => if p = s ∧ q = r then 1 else 0)
    (Ib := fun p q r s => if p = s ∧ q = r then 1 else 0) (Iabab := fun p q r s => if p = s ∧ q = r then 1 else 0) v v
  obtain ⟨B, H, h1, h2, -, h3⟩ := C74_singlet_triplet (by omega) v hc
  refine ⟨const, B, H, h1, h2, ?_⟩
  have hd : ∀ (A : Matrix (Fin 1 × Fin (2 - 1)) (Fin 1 × Fin (2 - 1)) ℚ) (c : ℚ), A (0, 0) (0, 0) = c → A.charpoly.roots = {c} := by
    intro A c h
    have : A = Matrix.diagonal fun _ => c := by
      ext ⟨i, a⟩ ⟨j, b⟩
      rw [Subsingleton.elim (α := Fin 1) i 0, Subsingleton.elim (α := Fin 1) j 0, Subsingleton.elim (α := Fin 1) a 0,
        Subsingleton.elim (α := Fin 1) b 0]
      exact h.trans (by simp)
    rw [this, Matrix.charpoly_diagonal]
    simp
  rw [h3, hd _ 7 (by simp [singlet, fockR]; norm_num), hd _ 5 (by simp [triplet, fockR]; norm_num)]
  rfl

end
end CI
