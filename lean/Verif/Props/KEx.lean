import Verif.Model.KEx
import Verif.Model.CCEnergy
import Verif.Props.IntegralsK
import Verif.Props.CIMatrix
import Mathlib.Algebra.BigOperators.Field
import Mathlib.Algebra.BigOperators.Fin
import Mathlib.Data.Complex.BigOperators
import Mathlib.Tactic.FieldSimp
import Mathlib.Tactic.Linarith
import Mathlib.Tactic.Positivity
/-!
# C76: the k-point examples compute energies per cell of the supercell

The supercell has one orbital `(k, p)` for each orbital `p` of each k-point `k`.
-/
set_option linter.unusedSectionVars false
open scoped BigOperators
namespace Eri
variable {K V : Type} [Field K] [Inhabited V] {G : Type} [AddCommGroup G]

/-! ### specification: the supercell -/

/-- orbital `p` of k-point `k` -/
def orb (kmf : KMF V K) (P : ℕ × ℕ) : V := (kmf.mo_coeff P.1)[P.2]!

open Classical in
/-- The integral `⟨PQ|RS⟩ = (PR|QS)` of the supercell: zero unless momentum is conserved. -/
noncomputable def super (kmf : KMF V K) (κ : ℕ → G) (P Q R S : ℕ × ℕ) : K :=
  if κ P.1 + κ Q.1 = κ R.1 + κ S.1 then kmf.form P.1 R.1 Q.1 S.1 (orb kmf P) (orb kmf R) (orb kmf Q) (orb kmf S) / kmf.nk else 0

/-! ### loops -/

theorem foldl_add {M : Type} [AddCommMonoid M] (n : ℕ) (E : M) (g : ℕ → M) :
    (List.range n).foldl (fun E k => E + g k) E = E + ∑ k ∈ Finset.range n, g k := by
  induction n with
  | zero => simp
  | succ n ih => rw [List.range_succ, List.foldl_append, ih, Finset.sum_range_succ, ← add_assoc]; rfl

theorem mem_triples (nk a b c : ℕ) : (a, b, c) ∈ ((List.range nk).flatMap fun kp => (List.range nk).flatMap fun kq =>
    (List.range nk).map fun kr => (kp, kq, kr)) ↔ a < nk ∧ b < nk ∧ c < nk := by
  simp [List.mem_flatMap]

theorem fill_ok {nk n1 n2 n3 n4 : ℕ} {f : ℕ → ℕ → ℕ → R (Arr K)}
    (h : ∀ a < nk, ∀ b < nk, ∀ c < nk, ∃ X, f a b c = .ok X ∧ X.n1 = n1 ∧ X.n2 = n2 ∧ X.n3 = n3 ∧ X.n4 = n4) :
    ∃ H, fill nk n1 n2 n3 n4 f = .ok H ∧ ∀ a < nk, ∀ b < nk, ∀ c < nk, f a b c = .ok (H a b c) := by
  have key : ∀ (l : List (ℕ × ℕ × ℕ)) (H0 : ℕ → ℕ → ℕ → Arr K),
      (∀ t ∈ l, ∃ X, f t.1 t.2.1 t.2.2 = .ok X ∧ X.n1 = n1 ∧ X.n2 = n2 ∧ X.n3 = n3 ∧ X.n4 = n4) →
      ∃ H, l.foldlM (fun (h : ℕ → ℕ → ℕ → Arr K) (t : ℕ × ℕ × ℕ) => do
        let X ← f t.1 t.2.1 t.2.2
        if X.n1 = n1 ∧ X.n2 = n2 ∧ X.n3 = n3 ∧ X.n4 = n4 then
          return fun a b c => if a = t.1 ∧ b = t.2.1 ∧ c = t.2.2 then X else h a b c
        else (throw Err.value : R (ℕ → ℕ → ℕ → Arr K))) H0 = .ok H ∧
      ∀ a b c, ((a, b, c) ∈ l → f a b c = .ok (H a b c)) ∧ ((a, b, c) ∉ l → H a b c = H0 a b c) := by
    intro l
    induction l with
    | nil => intro H0 _; exact ⟨H0, rfl, fun a b c => ⟨fun h => by simp at h, fun _ => rfl⟩⟩
    | cons t l ih =>
      intro H0 hl
      obtain ⟨X, e, n⟩ := hl t (by simp)
      obtain ⟨H, eH, hH⟩ := ih (fun a b c => if a = t.1 ∧ b = t.2.1 ∧ c = t.2.2 then X else H0 a b c) fun t ht => hl t (by simp [ht])
      refine ⟨H, ?_, fun a b c => ?_⟩
      · rw [List.foldlM_cons, e]
        simp only [bind, Except.bind, if_pos n]
        exact eH
      · by_cases hm : (a, b, c) ∈ l
        · exact ⟨fun _ => (hH a b c).1 hm, fun hn => absurd (List.mem_cons_of_mem _ hm) hn⟩
        · have h2 := (hH a b c).2 hm
          obtain ⟨x, y, z⟩ := t
          constructor
          · intro hc
            rcases List.mem_cons.1 hc with hc | hc
            · obtain ⟨rfl, rfl, rfl⟩ : a = x ∧ b = y ∧ c = z := by simpa using hc
              rw [h2, if_pos ⟨rfl, rfl, rfl⟩]; exact e
            · exact absurd hc hm
          · intro hn
            rw [h2, if_neg]
            rintro ⟨rfl, rfl, rfl⟩
            exact hn (by simp)
  obtain ⟨H, e, hH⟩ := key _ (fun _ _ _ => Arr.zeros n1 n2 n3 n4) (fun t ht => by
    obtain ⟨a, b, c⟩ := t
    obtain ⟨h1, h2, h3⟩ := (mem_triples nk a b c).1 ht
    exact h a h1 b h2 c h3)
  exact ⟨H, e, fun a ha b hb c hc => (hH a b c).1 ((mem_triples nk a b c).2 ⟨ha, hb, hc⟩)⟩

/-! ### mean-field energy -/

/-- Index `k * nmo + p` of orbital `(k, p)` of the supercell, and back. -/
def pair (nmo P : ℕ) : ℕ × ℕ := (P / nmo, P % nmo)

theorem pair_mul {nmo k p : ℕ} (hp : p < nmo) : pair nmo (k * nmo + p) = (k, p) := by
  unfold pair
  rw [mul_comm, Nat.mul_add_div (by omega), Nat.div_eq_of_lt hp, Nat.mul_add_mod, Nat.mod_eq_of_lt hp, add_zero]

/-- the orbitals occupied in the supercell: the first `nocc` of each k-point -/
def occ (nk nmo nocc : ℕ) : Finset ℕ := (Finset.range nk ×ˢ Finset.range nocc).image fun P => P.1 * nmo + P.2

theorem sum_occ {M : Type} [AddCommMonoid M] {nk nmo nocc : ℕ} (ho : nocc ≤ nmo) (f : ℕ → M) :
    ∑ P ∈ occ nk nmo nocc, f P = ∑ k ∈ Finset.range nk, ∑ p ∈ Finset.range nocc, f (k * nmo + p) := by
  unfold occ
  rw [Finset.sum_image, Finset.sum_product]
  rintro ⟨k, p⟩ h ⟨l, q⟩ h' e
  simp only [Finset.coe_product, Set.mem_prod, Finset.coe_range, Set.mem_Iio] at h h'
  have := congrArg (pair nmo) e
  rwa [pair_mul (by omega), pair_mul (by omega)] at this

/-- one-electron integrals of the supercell -/
def superH (nmo : ℕ) (h1 : ℕ → ℕ → ℕ → K) (P Q : ℕ) : K := if P / nmo = Q / nmo then h1 (P / nmo) (P % nmo) (Q % nmo) else 0

/-- C76: examples/kpt_hamiltonian.py computes, with either order of the integrals, the energy per cell of the determinant of the supercell in
which the first `nocc` orbitals of each k-point are doubly occupied. -/
theorem C76_kscf [CharZero K] {kmf : KMF V K} {κ : ℕ → G} (h : Conserves kmf κ) (hm : ∀ k < kmf.nk, (kmf.mo_coeff k).length = kmf.nmo)
    (h0 : 0 < kmf.nk) (phys : Bool) {nocc : ℕ} (ho : nocc ≤ kmf.nmo) (h1 : ℕ → ℕ → ℕ → K) (enuc : K) :
    let D := CI.ofSet (kmf.nk * kmf.nmo) (occ kmf.nk kmf.nmo nocc)
    let I := fun P Q R S => super kmf κ (pair kmf.nmo P) (pair kmf.nmo Q) (pair kmf.nmo R) (pair kmf.nmo S)
    ∃ E, CI.ci_matrixel D D D D (superH kmf.nmo h1) (superH kmf.nmo h1) I I I (kmf.nk * enuc) = .ok E ∧
      kscf kmf phys nocc h1 enuc = .ok (E / kmf.nk) := by
  intro D I
  have hsub : occ kmf.nk kmf.nmo nocc ⊆ Finset.range (kmf.nk * kmf.nmo) := by
    intro P hP
    simp only [occ, Finset.mem_image, Finset.mem_product, Finset.mem_range, Prod.exists] at hP ⊢
    obtain ⟨k, p, ⟨hk, hp⟩, rfl⟩ := hP
    calc k * kmf.nmo + p < k * kmf.nmo + kmf.nmo := by omega
      _ = (k + 1) * kmf.nmo := by ring
      _ ≤ kmf.nk * kmf.nmo := Nat.mul_le_mul_right _ hk
  have hn : (kmf.nk : K) ≠ 0 := Nat.cast_ne_zero.mpr (by omega)
  refine ⟨_, CI.ci_diag (superH kmf.nmo h1) (superH kmf.nmo h1) I I I (kmf.nk * enuc) hsub hsub, ?_⟩
  rw [CI.spinHam, Fock.slater_diag _ _ _ (CI.emb_subset hsub hsub)]
  simp only [CI.sum_emb, CI.spinH, CI.spinV, ofLex_toLex, sub_zero]
  -- integrals over occupied orbitals
  have eH : ∀ k, ∀ i < nocc, superH kmf.nmo h1 (k * kmf.nmo + i) (k * kmf.nmo + i) = h1 k i i := by
    intro k i hi
    have := pair_mul (nmo := kmf.nmo) (k := k) (p := i) (by omega)
    simp only [pair, Prod.mk.injEq] at this
    simp only [superH, this.1, this.2, if_true]
  have eJ : ∀ k l, ∀ i < nocc, ∀ j < nocc, I (k * kmf.nmo + i) (l * kmf.nmo + j) (k * kmf.nmo + i) (l * kmf.nmo + j)
      = kmf.form k k l l (orb kmf (k, i)) (orb kmf (k, i)) (orb kmf (l, j)) (orb kmf (l, j)) / kmf.nk := by
    intro k l i hi j hj
    simp only [I, pair_mul (show i < kmf.nmo by omega), pair_mul (show j < kmf.nmo by omega), super, if_true]
  have eX : ∀ k l, ∀ i < nocc, ∀ j < nocc, I (k * kmf.nmo + i) (l * kmf.nmo + j) (l * kmf.nmo + j) (k * kmf.nmo + i)
      = kmf.form k l l k (orb kmf (k, i)) (orb kmf (l, j)) (orb kmf (l, j)) (orb kmf (k, i)) / kmf.nk := by
    intro k l i hi j hj
    change super kmf κ _ _ _ _ = _
    rw [pair_mul (show i < kmf.nmo by omega), pair_mul (show j < kmf.nmo by omega), super, if_pos (add_comm _ _)]
  have eo : ∀ k (hk : k < kmf.nk) i (hi : i < nocc), (kmf.mo_coeff k)[i]'(by rw [hm k hk]; omega) = orb kmf (k, i) := by
    intro k hk i hi
    rw [orb, getElem!_pos]
  -- the table of integrals
  obtain ⟨H, eq, hH⟩ := C41_get_solk_integrals h hm (!phys)
  have hX : ∀ k < kmf.nk, ∀ l < kmf.nk, ∀ i < nocc, ∀ j < nocc, (H k l l).val i j j i
      = kmf.form k l l k (orb kmf (k, i)) (orb kmf (l, j)) (orb kmf (l, j)) (orb kmf (k, i)) := by
    intro k hk l hl i hi j hj
    have := (hH k hk l hl l hl k hk (by cases phys <;> simp [add_comm])).2 i j j i (by rw [hm k hk]; omega) (by rw [hm l hl]; omega)
      (by rw [hm l hl]; omega) (by rw [hm k hk]; omega)
    rw [this]
    simp only [eo k hk i hi, eo l hl j hj, ite_self]
  have hJ : ∀ k < kmf.nk, ∀ l < kmf.nk, ∀ i < nocc, ∀ j < nocc,
      (if phys then (H k l k).val i j i j else (H k k l).val i i j j)
      = kmf.form k k l l (orb kmf (k, i)) (orb kmf (k, i)) (orb kmf (l, j)) (orb kmf (l, j)) := by
    intro k hk l hl i hi j hj
    cases phys
    · have := (hH k hk k hk l hl l hl (by simp)).2 i i j j (by rw [hm k hk]; omega) (by rw [hm k hk]; omega)
        (by rw [hm l hl]; omega) (by rw [hm l hl]; omega)
      rw [if_neg (by simp), this]
      simp only [eo k hk i hi, eo l hl j hj, Bool.not_false, if_true]
    · have := (hH k hk l hl k hk l hl (by simp)).2 i j i j (by rw [hm k hk]; omega) (by rw [hm l hl]; omega)
        (by rw [hm k hk]; omega) (by rw [hm l hl]; omega)
      rw [if_pos rfl, this]
      simp only [eo k hk i hi, eo l hl j hj, Bool.not_true, Bool.false_eq_true, if_false]
  unfold kscf
  rw [eq]
  change Except.ok _ = Except.ok _
  congr 1
  have body : ∀ kp : ℕ, (fun (E : K) (kq : ℕ) =>
      (if phys = true then E + 2 * (∑ i ∈ Finset.range nocc, ∑ j ∈ Finset.range nocc, ((H kp kq kp).div kmf.nk).val i j i j) / kmf.nk
        else E + 2 * (∑ i ∈ Finset.range nocc, ∑ j ∈ Finset.range nocc, ((H kp kp kq).div kmf.nk).val i i j j) / kmf.nk)
      - (∑ i ∈ Finset.range nocc, ∑ j ∈ Finset.range nocc, ((H kp kq kq).div kmf.nk).val i j j i) / kmf.nk)
      = fun E kq => E + (2 * (∑ i ∈ Finset.range nocc, ∑ j ∈ Finset.range nocc,
          (if phys then (H kp kq kp).val i j i j else (H kp kp kq).val i i j j) / kmf.nk) / kmf.nk
        - (∑ i ∈ Finset.range nocc, ∑ j ∈ Finset.range nocc, (H kp kq kq).val i j j i / kmf.nk) / kmf.nk) := by
    intro kp
    funext E kq
    cases phys <;> simp only [Arr.div, Bool.false_eq_true, if_true, if_false] <;> ring
  simp only [body, foldl_add]
  have sH : ∑ k ∈ Finset.range kmf.nk, (2 * ∑ i ∈ Finset.range nocc, h1 k i i) / (kmf.nk : K)
      = 2 * (∑ P ∈ occ kmf.nk kmf.nmo nocc, superH kmf.nmo h1 P P) / kmf.nk := by
    rw [sum_occ ho, Finset.mul_sum, Finset.sum_div]
    refine Finset.sum_congr rfl fun k _ => ?_
    rw [Finset.sum_congr rfl fun i hi => eH k i (Finset.mem_range.1 hi)]
  have sJ : ∑ k ∈ Finset.range kmf.nk, ∑ l ∈ Finset.range kmf.nk, (2 * ∑ i ∈ Finset.range nocc, ∑ j ∈ Finset.range nocc,
        (if phys = true then (H k l k).val i j i j else (H k k l).val i i j j) / (kmf.nk : K)) / kmf.nk
      = 2 * (∑ P ∈ occ kmf.nk kmf.nmo nocc, ∑ Q ∈ occ kmf.nk kmf.nmo nocc, I P Q P Q) / kmf.nk := by
    simp only [sum_occ ho, Finset.mul_sum, Finset.sum_div]
    refine Finset.sum_congr rfl fun k hk => ?_
    rw [Finset.sum_comm]
    refine Finset.sum_congr rfl fun i hi => Finset.sum_congr rfl fun l hl => Finset.sum_congr rfl fun j hj => ?_
    rw [hJ k (Finset.mem_range.1 hk) l (Finset.mem_range.1 hl) i (Finset.mem_range.1 hi) j (Finset.mem_range.1 hj),
      eJ k l i (Finset.mem_range.1 hi) j (Finset.mem_range.1 hj)]
  have sX : ∑ k ∈ Finset.range kmf.nk, ∑ l ∈ Finset.range kmf.nk, (∑ i ∈ Finset.range nocc, ∑ j ∈ Finset.range nocc,
        (H k l l).val i j j i / (kmf.nk : K)) / kmf.nk
      = (∑ P ∈ occ kmf.nk kmf.nmo nocc, ∑ Q ∈ occ kmf.nk kmf.nmo nocc, I P Q Q P) / kmf.nk := by
    simp only [sum_occ ho, Finset.sum_div]
    refine Finset.sum_congr rfl fun k hk => ?_
    rw [Finset.sum_comm]
    refine Finset.sum_congr rfl fun i hi => Finset.sum_congr rfl fun l hl => Finset.sum_congr rfl fun j hj => ?_
    rw [hX k (Finset.mem_range.1 hk) l (Finset.mem_range.1 hl) i (Finset.mem_range.1 hi) j (Finset.mem_range.1 hj),
      eX k l i (Finset.mem_range.1 hi) j (Finset.mem_range.1 hj)]
  simp only [Finset.sum_add_distrib, Finset.sum_sub_distrib]
  rw [sH, sJ, sX, Finset.sum_comm (f := fun P Q => I Q P Q P)]
  field_simp
  ring

/-! ### second-order energy -/

section mp2
variable (kmf : KMF V ℂ) (κ : ℕ → G) (nocc : ℕ) (e : ℕ → ℕ → ℝ)

/-- occupied and virtual orbitals of the supercell -/
abbrev KO (kmf : KMF V ℂ) (nocc : ℕ) := Fin kmf.nk × Fin nocc
abbrev KV (kmf : KMF V ℂ) (nocc : ℕ) := Fin kmf.nk × Fin (kmf.nmo - nocc)

/-- their k-points and numbers -/
def ko {kmf : KMF V ℂ} {nocc : ℕ} (i : KO kmf nocc) : ℕ × ℕ := (i.1, i.2)
def kv {kmf : KMF V ℂ} {nocc : ℕ} (a : KV kmf nocc) : ℕ × ℕ := (a.1, nocc + a.2)

/-- the energy denominator -/
def denom {kmf : KMF V ℂ} {nocc : ℕ} (e : ℕ → ℕ → ℝ) (a b : KV kmf nocc) (i j : KO kmf nocc) : ℝ :=
  e (kv a).1 (kv a).2 + e (kv b).1 (kv b).2 - e (ko i).1 (ko i).2 - e (ko j).1 (ko j).2

/-- integrals `⟨ij|ab⟩` of the supercell -/
noncomputable def superI (i j : KO kmf nocc) (a b : KV kmf nocc) : ℂ := super kmf κ (ko i) (ko j) (kv a) (kv b)

/-- first-order amplitudes of the supercell -/
noncomputable def superT (a b : KV kmf nocc) (i j : KO kmf nocc) : ℂ := -super kmf κ (kv a) (kv b) (ko i) (ko j) / denom e a b i j

variable {kmf κ nocc e}

theorem eris_ok (h : Conserves kmf κ) (hm : ∀ k < kmf.nk, (kmf.mo_coeff k).length = kmf.nmo) :
    ∃ H, kmp2_eris kmf = .ok H ∧ ∀ kp < kmf.nk, ∀ kq < kmf.nk, ∀ kr < kmf.nk, ∀ ks < kmf.nk, κ kp + κ kq = κ kr + κ ks →
      ∀ p < kmf.nmo, ∀ q < kmf.nmo, ∀ r < kmf.nmo, ∀ s < kmf.nmo, (H kp kq kr).val p q r s = super kmf κ (kp, p) (kq, q) (kr, r) (ks, s) := by
  have key : ∀ kp < kmf.nk, ∀ kq < kmf.nk, ∀ kr < kmf.nk, ∃ A, (do
      let ks := kmf.kconserv kp kr kq
      let X ← get_phys_solk kmf kp kq kr ks (kmf.mo_coeff kp) (kmf.mo_coeff kq) (kmf.mo_coeff kr) (kmf.mo_coeff ks)
      return X.div (kmf.nk : ℂ) : R (Arr ℂ)) = .ok A ∧ A.n1 = kmf.nmo ∧ A.n2 = kmf.nmo ∧ A.n3 = kmf.nmo ∧ A.n4 = kmf.nmo ∧
      ∀ ks < kmf.nk, κ kp + κ kq = κ kr + κ ks → ∀ p < kmf.nmo, ∀ q < kmf.nmo, ∀ r < kmf.nmo, ∀ s < kmf.nmo,
        A.val p q r s = super kmf κ (kp, p) (kq, q) (kr, r) (ks, s) := by
    intro kp hp kq hq kr hr
    have hs := h.range kp hp kr hr kq hq
    obtain ⟨A, eA, hA⟩ := C41_get_phys_solk h hp hq hr hs (kmf.mo_coeff kp) (kmf.mo_coeff kq) (kmf.mo_coeff kr)
      (kmf.mo_coeff (kmf.kconserv kp kr kq)) false
    obtain ⟨⟨n1, n2, n3, n4⟩, hA⟩ := hA
    rw [hm _ hp] at n1; rw [hm _ hq] at n2; rw [hm _ hr] at n3; rw [hm _ hs] at n4
    refine ⟨A.div kmf.nk, by simp only [eA]; rfl, n1, n2, n3, n4, fun ks hks hc p lp q lq r lr s ls => ?_⟩
    obtain rfl := (h.iff hp hr hq hks).2 hc
    have := hA p q r s (by rw [hm _ hp]; exact lp) (by rw [hm _ hq]; exact lq) (by rw [hm _ hr]; exact lr) (by rw [hm _ hs]; exact ls)
    beta_reduce at this
    rw [if_pos hc, if_neg (by simp)] at this
    simp only [Arr.div, this, super, if_pos hc, orb]
    rw [getElem!_pos (kmf.mo_coeff kp) p (by rw [hm _ hp]; exact lp), getElem!_pos (kmf.mo_coeff kq) q (by rw [hm _ hq]; exact lq),
      getElem!_pos (kmf.mo_coeff kr) r (by rw [hm _ hr]; exact lr), getElem!_pos (kmf.mo_coeff (kmf.kconserv kp kr kq)) s (by rw [hm _ hs]; exact ls)]
  obtain ⟨H, eH, hH⟩ := fill_ok (K := ℂ) fun a ha b hb c hc => by
    obtain ⟨A, eA, n1, n2, n3, n4, -⟩ := key a ha b hb c hc
    exact ⟨A, eA, n1, n2, n3, n4⟩
  refine ⟨H, eH, fun kp hp kq hq kr hr => ?_⟩
  obtain ⟨A, eA, -, -, -, -, hA⟩ := key kp hp kq hq kr hr
  have := eA.symm.trans (hH kp hp kq hq kr hr)
  obtain rfl := Except.ok.inj this
  exact hA

theorem abij_ok (H : ℕ → ℕ → ℕ → Arr ℂ) : ∃ T, kmp2_abij kmf nocc e H = .ok T ∧ ∀ ka < kmf.nk, ∀ kb < kmf.nk, ∀ ki < kmf.nk, ∀ a b i j,
    (T ka kb ki).val a b i j = -1 * (H ka kb ki).val (nocc + a) (nocc + b) i j
      / ((e ka (nocc + a) + e kb (nocc + b) - e ki i - e (kmf.kconserv ka ki kb) j : ℝ) : ℂ) := by
  obtain ⟨T, eT, hT⟩ := fill_ok (K := ℂ) (nk := kmf.nk) (n1 := kmf.nmo - nocc) (n2 := kmf.nmo - nocc) (n3 := nocc) (n4 := nocc)
    (f := fun ka kb ki => .ok ⟨kmf.nmo - nocc, kmf.nmo - nocc, nocc, nocc, fun a b i j => -1 * (H ka kb ki).val (nocc + a) (nocc + b) i j
      / ((e ka (nocc + a) + e kb (nocc + b) - e ki i - e (kmf.kconserv ka ki kb) j : ℝ) : ℂ)⟩) fun a _ b _ c _ => ⟨_, rfl, rfl, rfl, rfl, rfl⟩
  refine ⟨T, eT, fun ka ha kb hb ki hi a b i j => ?_⟩
  rw [← Except.ok.inj (hT ka ha kb hb ki hi)]

theorem comm4 {A B C D M : Type} [Fintype A] [Fintype B] [Fintype C] [Fintype D] [AddCommMonoid M] (f : A → B → C → D → M) :
    ∑ a, ∑ b, ∑ c, ∑ d, f a b c d = ∑ c, ∑ d, ∑ a, ∑ b, f a b c d := by
  have h1 : ∀ a, ∑ b, ∑ c, ∑ d, f a b c d = ∑ c, ∑ d, ∑ b, f a b c d := fun a => by
    rw [Finset.sum_comm]
    exact Finset.sum_congr rfl fun c _ => Finset.sum_comm
  rw [Finset.sum_congr rfl fun a _ => h1 a, Finset.sum_comm]
  exact Finset.sum_congr rfl fun c _ => Finset.sum_comm

/-- sums over orbitals of the supercell as sums over k-points and orbitals of a cell -/
theorem sum_super {A B C M : Type} [Fintype A] [Fintype B] [Fintype C] [AddCommMonoid M] (f : A × B → A × B → A × C → A × C → M) :
    ∑ a, ∑ b, ∑ i, ∑ j, f a b i j = ∑ ka, ∑ kb, ∑ ki, ∑ kj, ∑ i, ∑ j, ∑ a, ∑ b, f (ka, a) (kb, b) (ki, i) (kj, j) := by
  simp only [Fintype.sum_prod_type]
  refine Finset.sum_congr rfl fun ka _ => ?_
  rw [Finset.sum_comm]
  refine Finset.sum_congr rfl fun kb _ => ?_
  rw [Finset.sum_congr rfl fun a _ => Finset.sum_comm, Finset.sum_comm]
  refine Finset.sum_congr rfl fun ki _ => ?_
  rw [Finset.sum_congr rfl fun a _ => Finset.sum_congr rfl fun b _ => Finset.sum_comm, Finset.sum_congr rfl fun a _ => Finset.sum_comm,
    Finset.sum_comm]
  exact Finset.sum_congr rfl fun kj _ => comm4 _

/-- C76: examples/kmp2.py never fails and computes the closed-shell second-order energy (`rcc_energy` of the first-order amplitudes) of the
supercell; what it prints is this divided by the number of cells. -/
theorem C76_kmp2 (h : Conserves kmf κ) (hm : ∀ k < kmf.nk, (kmf.mo_coeff k).length = kmf.nmo) (ho : nocc ≤ kmf.nmo) :
    kmp2 kmf nocc e = .ok (CC.rcc_energy (fun _ _ => 0) (superT kmf κ nocc e) (fun _ _ => 0) (superI kmf κ nocc)).re := by
  obtain ⟨H, eH, hH⟩ := eris_ok (κ := κ) h hm
  obtain ⟨T, eT, hT⟩ := abij_ok (kmf := kmf) (nocc := nocc) (e := e) H
  unfold kmp2
  rw [eH]
  simp only [bind, Except.bind, eT]
  change Except.ok _ = Except.ok _
  congr 1
  have body : ∀ (E x y : ℝ), E + x - y = E + (x - y) := fun E x y => by ring
  simp only [body, foldl_add, zero_add]
  -- the supercell sums, with the k-point of the last orbital fixed by the others
  have kj : ∀ ka kb ki : Fin kmf.nk, ∃ kj : Fin kmf.nk, kmf.kconserv ka ki kb = kj := fun ka kb ki => ⟨⟨_, h.range _ ka.2 _ ki.2 _ kb.2⟩, rfl⟩
  choose kj hkj using kj
  have cons : ∀ ka kb ki : Fin kmf.nk, κ ka + κ kb = κ ki + κ (kj ka kb ki) := fun ka kb ki => by
    rw [← hkj]; exact (h.iff ka.2 ki.2 kb.2 (h.range _ ka.2 _ ki.2 _ kb.2)).1 rfl
  have hz : ∀ (ka kb ki k' : Fin kmf.nk), k' ≠ kj ka kb ki → ∀ a b i j, superT kmf κ nocc e (ka, a) (kb, b) (ki, i) (k', j) = 0 := by
    intro ka kb ki k' hne a b i j
    have : ¬ (κ ka + κ kb = κ ki + κ k') := by
      intro hc
      refine hne (Fin.ext ?_)
      rw [← hkj]
      exact (h.iff ka.2 ki.2 kb.2 k'.2).2 hc
    have e0 : super kmf κ (kv (ka, a)) (kv (kb, b)) (ko (ki, i)) (ko (k', j)) = 0 := if_neg this
    rw [superT, e0, neg_zero, zero_div]
  have hTv : ∀ (ka kb ki : Fin kmf.nk) (a b : Fin (kmf.nmo - nocc)) (i j : Fin nocc),
      superT kmf κ nocc e (ka, a) (kb, b) (ki, i) (kj ka kb ki, j) = (T ka kb ki).val a b i j := by
    intro ka kb ki a b i j
    rw [hT ka ka.2 kb kb.2 ki ki.2, hkj, hH ka ka.2 kb kb.2 ki ki.2 (kj ka kb ki) (kj ka kb ki).2 (cons ka kb ki) _ (by omega) _ (by omega) _
      (by omega) _ (by omega)]
    simp only [superT, denom, kv, ko, neg_mul, one_mul]
  have hIv : ∀ (ka kb ki : Fin kmf.nk) (a b : Fin (kmf.nmo - nocc)) (i j : Fin nocc),
      superI kmf κ nocc (ki, i) (kj ka kb ki, j) (ka, a) (kb, b) = (H ki (kj ka kb ki) ka).val i j (nocc + a) (nocc + b) := by
    intro ka kb ki a b i j
    rw [hH ki ki.2 (kj ka kb ki) (kj ka kb ki).2 ka ka.2 kb kb.2 (cons ka kb ki).symm _ (by omega) _ (by omega) _ (by omega) _ (by omega)]
    rfl
  have hIx : ∀ (ka kb ki : Fin kmf.nk) (a b : Fin (kmf.nmo - nocc)) (i j : Fin nocc),
      superI kmf κ nocc (ki, i) (kj ka kb ki, j) (kb, b) (ka, a) = (H ki (kj ka kb ki) kb).val i j (nocc + b) (nocc + a) := by
    intro ka kb ki a b i j
    rw [hH ki ki.2 (kj ka kb ki) (kj ka kb ki).2 kb kb.2 ka ka.2 ((cons ka kb ki).symm.trans (add_comm _ _)) _ (by omega) _ (by omega) _ (by omega) _ (by omega)]
    rfl
  have S1 : ∑ a, ∑ b, ∑ i, ∑ j, superT kmf κ nocc e a b i j * superI kmf κ nocc i j a b
      = ∑ ka : Fin kmf.nk, ∑ kb : Fin kmf.nk, ∑ ki : Fin kmf.nk, ∑ i : Fin nocc, ∑ j : Fin nocc, ∑ a : Fin (kmf.nmo - nocc),
        ∑ b : Fin (kmf.nmo - nocc), (H ki (kj ka kb ki) ka).val i j (nocc + a) (nocc + b) * (T ka kb ki).val a b i j := by
    rw [sum_super]
    refine Finset.sum_congr rfl fun ka _ => Finset.sum_congr rfl fun kb _ => Finset.sum_congr rfl fun ki _ => ?_
    rw [Finset.sum_eq_single (kj ka kb ki) (fun k' _ hne => by simp only [hz ka kb ki k' hne, zero_mul, Finset.sum_const_zero]) (by simp)]
    refine Finset.sum_congr rfl fun i _ => Finset.sum_congr rfl fun j _ => Finset.sum_congr rfl fun a _ => Finset.sum_congr rfl fun b _ => ?_
    rw [hTv, hIv, mul_comm]
  have S2 : ∑ a, ∑ b, ∑ i, ∑ j, superT kmf κ nocc e a b i j * superI kmf κ nocc i j b a
      = ∑ ka : Fin kmf.nk, ∑ kb : Fin kmf.nk, ∑ ki : Fin kmf.nk, ∑ i : Fin nocc, ∑ j : Fin nocc, ∑ b : Fin (kmf.nmo - nocc),
        ∑ a : Fin (kmf.nmo - nocc), (H ki (kj ka kb ki) kb).val i j (nocc + b) (nocc + a) * (T ka kb ki).val a b i j := by
    rw [sum_super]
    refine Finset.sum_congr rfl fun ka _ => Finset.sum_congr rfl fun kb _ => Finset.sum_congr rfl fun ki _ => ?_
    rw [Finset.sum_eq_single (kj ka kb ki) (fun k' _ hne => by simp only [hz ka kb ki k' hne, zero_mul, Finset.sum_const_zero]) (by simp)]
    refine Finset.sum_congr rfl fun i _ => Finset.sum_congr rfl fun j _ => ?_
    rw [Finset.sum_comm]
    refine Finset.sum_congr rfl fun b _ => Finset.sum_congr rfl fun a _ => ?_
    rw [hTv, hIx, mul_comm]
  simp only [CC.rcc_energy, mul_zero, add_zero, Finset.sum_const_zero]
  rw [S1, S2, Complex.sub_re]
  have two : ∀ z : ℂ, (2 * z).re = 2 * z.re := fun z => by simp
  simp only [Complex.re_sum, Finset.sum_range, Finset.mul_sum, hkj, two]
  simp only [Finset.sum_sub_distrib]

/-- The second-order energy of examples/kmp2.py is never positive when the integrals come from a Hermitian interaction and the orbital
energies have a gap; it is a sum of squares over the double excitations, and vanishes exactly if no integral couples to them. -/
theorem C76_kmp2_negative (h : Conserves kmf κ) (hm : ∀ k < kmf.nk, (kmf.mo_coeff k).length = kmf.nmo) (ho : nocc ≤ kmf.nmo)
    (herm : ∀ k₁ k₂ k₃ k₄ p q r s, kmf.form k₁ k₂ k₃ k₄ p q r s = star (kmf.form k₂ k₁ k₄ k₃ q p s r))
    (gap : ∀ (a b : KV kmf nocc) (i j : KO kmf nocc), 0 < denom e a b i j) :
    ∃ E, kmp2 kmf nocc e = .ok E ∧
      E = -∑ a : KV kmf nocc, ∑ b : KV kmf nocc, ∑ i : KO kmf nocc, ∑ j : KO kmf nocc,
        (Complex.normSq (superI kmf κ nocc i j a b)
          + Complex.normSq (superI kmf κ nocc i j a b - superI kmf κ nocc i j b a) / 2) / denom e a b i j ∧
      E ≤ 0 ∧ (E = 0 ↔ ∀ i j a b, superI kmf κ nocc i j a b = 0) := by
  have hw : ∀ (a b : KV kmf nocc) (i j : KO kmf nocc), super kmf κ (kv a) (kv b) (ko i) (ko j) = star (superI kmf κ nocc i j a b) := by
    intro a b i j
    unfold superI super
    by_cases hc : κ (kv a).1 + κ (kv b).1 = κ (ko i).1 + κ (ko j).1
    · rw [if_pos hc, if_pos hc.symm, herm, star_div₀, star_natCast]
    · rw [if_neg hc, if_neg (fun h => hc h.symm), star_zero]
  have hd : ∀ (a b : KV kmf nocc) (i j : KO kmf nocc), denom e b a i j = denom e a b i j := by
    intro a b i j; unfold denom; ring
  set x := superI kmf κ nocc
  have eE : (CC.rcc_energy (fun _ _ => 0) (superT kmf κ nocc e) (fun _ _ => 0) x).re
      = -∑ a : KV kmf nocc, ∑ b : KV kmf nocc, ∑ i : KO kmf nocc, ∑ j : KO kmf nocc,
        (Complex.normSq (x i j a b) + Complex.normSq (x i j a b - x i j b a) / 2) / denom e a b i j := by
    have t1 : ∀ a b i j, (superT kmf κ nocc e a b i j * x i j a b).re = -(Complex.normSq (x i j a b) / denom e a b i j) := by
      intro a b i j
      rw [superT, hw, neg_div, neg_mul, Complex.neg_re, div_mul_eq_mul_div, Complex.div_ofReal_re, Complex.star_def, mul_comm, Complex.mul_conj]
      rfl
    have t2 : ∀ a b i j, (superT kmf κ nocc e a b i j * x i j b a).re = -((star (x i j a b) * x i j b a).re / denom e a b i j) := by
      intro a b i j
      rw [superT, hw, neg_div, neg_mul, Complex.neg_re, div_mul_eq_mul_div, Complex.div_ofReal_re]
    have two : ∀ z : ℂ, (2 * z).re = 2 * z.re := fun z => by simp
    simp only [CC.rcc_energy, mul_zero, add_zero, Finset.sum_const_zero, Complex.sub_re, two, Complex.re_sum, t1, t2]
    have sq : ∀ a b i j, (Complex.normSq (x i j a b) + Complex.normSq (x i j a b - x i j b a) / 2) / denom e a b i j
        = Complex.normSq (x i j a b) / denom e a b i j * (3 / 2) + Complex.normSq (x i j b a) / denom e b a i j * (1 / 2)
          - (star (x i j a b) * x i j b a).re / denom e a b i j := by
      intro a b i j
      rw [hd a b, Complex.normSq_sub]
      have : (x i j a b * (starRingEnd ℂ) (x i j b a)).re = (star (x i j a b) * x i j b a).re := by
        simp only [Complex.mul_re, Complex.conj_re, Complex.conj_im, Complex.star_def]; ring
      rw [this]; ring
    simp only [sq, Finset.sum_sub_distrib, Finset.sum_add_distrib, ← Finset.sum_mul, Finset.sum_neg_distrib]
    rw [Finset.sum_comm (f := fun (a b : KV kmf nocc) => ∑ i : KO kmf nocc, ∑ j : KO kmf nocc, Complex.normSq (x i j b a) / denom e b a i j)]
    ring
  have nn : ∀ a b i j, 0 ≤ (Complex.normSq (x i j a b) + Complex.normSq (x i j a b - x i j b a) / 2) / denom e a b i j := fun a b i j =>
    div_nonneg (add_nonneg (Complex.normSq_nonneg _) (div_nonneg (Complex.normSq_nonneg _) (by norm_num))) (gap a b i j).le
  refine ⟨_, C76_kmp2 h hm ho, eE, ?_, ?_⟩
  · rw [eE, neg_nonpos]
    exact Finset.sum_nonneg fun a _ => Finset.sum_nonneg fun b _ => Finset.sum_nonneg fun i _ => Finset.sum_nonneg fun j _ => nn a b i j
  · change (CC.rcc_energy _ _ _ x).re = 0 ↔ _
    rw [eE, neg_eq_zero]
    constructor
    · intro h0 i j a b
      have h1 := (Finset.sum_eq_zero_iff_of_nonneg fun a _ => Finset.sum_nonneg fun b _ => Finset.sum_nonneg fun i _ =>
        Finset.sum_nonneg fun j _ => nn a b i j).1 h0 a (Finset.mem_univ _)
      have h2 := (Finset.sum_eq_zero_iff_of_nonneg fun b _ => Finset.sum_nonneg fun i _ =>
        Finset.sum_nonneg fun j _ => nn a b i j).1 h1 b (Finset.mem_univ _)
      have h3 := (Finset.sum_eq_zero_iff_of_nonneg fun i _ => Finset.sum_nonneg fun j _ => nn a b i j).1 h2 i (Finset.mem_univ _)
      have h4 := (Finset.sum_eq_zero_iff_of_nonneg fun j _ => nn a b i j).1 h3 j (Finset.mem_univ _)
      rcases div_eq_zero_iff.1 h4 with h5 | h5
      · have a1 := Complex.normSq_nonneg (x i j a b)
        have a2 := Complex.normSq_nonneg (x i j a b - x i j b a)
        exact Complex.normSq_eq_zero.1 (by linarith)
      · exact absurd h5 (gap a b i j).ne'
    · intro h0
      simp only [h0, sub_zero, Complex.normSq_zero, zero_div, add_zero, Finset.sum_const_zero]

end mp2

/-! ### a concrete case: three k-points of the cyclic group, two orbitals, one of them occupied -/

noncomputable def kmfC : KMF (ℕ → ℂ) ℂ where
  nk := 3
  kconserv k1 k2 k3 := (k1 + 2 * k2 + k3) % 3
  form _ _ _ _ p q r s := (star (p 0) * q 0 + star (p 1) * q 1) * (star (r 0) * s 0 + star (r 1) * s 1)
    + (star (p 0) * q 1 + star (p 1) * q 0) * (star (r 0) * s 1 + star (r 1) * s 0)
  mo_coeff _ := [fun μ => if μ = 0 then 1 else 0, fun μ => if μ = 1 then Complex.I else 0]
  nmo := 2

theorem kmfC_conserves : Conserves kmfC (fun k : ℕ => (k : ZMod 3)) where
  inj := by change ∀ k : ℕ, k < 3 → ∀ l : ℕ, l < 3 → (k : ZMod 3) = l → k = l; decide +kernel
  range k1 _ k2 _ k3 _ := Nat.mod_lt _ (by decide)
  sum k1 _ k2 _ k3 _ := by
    simp only [kmfC, ZMod.natCast_mod, Nat.cast_add, Nat.cast_mul]
    rw [show ((2 : ℕ) : ZMod 3) = -1 from by decide]; ring

/-- the hypotheses hold, and the energy is not zero -/
example : ∃ E, kmp2 kmfC 1 (fun _ p => p) = .ok E ∧ E < 0 := by
  obtain ⟨E, h1, -, h2, h3⟩ := C76_kmp2_negative (nocc := 1) (e := fun _ p => (p : ℝ)) kmfC_conserves (fun _ _ => rfl) (by decide)
    (by
      intro k₁ k₂ k₃ k₄ p q r s
      simp only [kmfC, star_add, star_mul', star_star]; ring)
    (by
      intro a b i j
      have hi : (i.2 : ℕ) = 0 := by omega
      have hj : (j.2 : ℕ) = 0 := by omega
      simp only [denom, kv, ko, hi, hj]
      push_cast
      have := (Nat.cast_nonneg (α := ℝ) (a.2 : ℕ))
      have := (Nat.cast_nonneg (α := ℝ) (b.2 : ℕ))
      linarith)
  refine ⟨E, h1, lt_of_le_of_ne h2 fun h0 => ?_⟩
  have := h3.1 h0 (⟨0, by decide⟩, 0) (⟨0, by decide⟩, 0) (⟨0, by decide⟩, ⟨0, by decide⟩) (⟨0, by decide⟩, ⟨0, by decide⟩)
  simp [superI, super, ko, kv, orb, kmfC] at this

/-- and so do those of the mean-field energy -/
example (phys : Bool) := C76_kscf kmfC_conserves (fun _ _ => rfl) (by decide) phys (nocc := 1) (by decide) (fun k p q => k + p * q) 7

end Eri
