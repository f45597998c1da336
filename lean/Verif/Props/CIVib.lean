import Verif.Props.CIBasis
import Mathlib.Algebra.Order.BigOperators.Group.Finset
/-!
# C33: the vibrational bases
-/
namespace CI

/-- occupation array of a function -/
def vec (n : ℕ) (f : ℕ → ℤ) : List ℤ := (List.range n).map f

/-- one quantum in mode `i` -/
def unit (i : ℕ) : ℕ → ℤ := fun j => if j = i then 1 else 0

@[simp] theorem length_vec (n : ℕ) (f : ℕ → ℤ) : (vec n f).length = n := by simp [vec]

theorem vec_eq {n : ℕ} {f g : ℕ → ℤ} : vec n f = vec n g ↔ ∀ i < n, f i = g i := by
  unfold vec
  rw [List.map_inj_left]; simp

theorem sum_vec (n : ℕ) (f : ℕ → ℤ) : (vec n f).sum = ∑ i ∈ Finset.range n, f i := by
  rfl

theorem exists_vec (l : List ℤ) : ∃ f, l = vec l.length f :=
  ⟨fun i => l.getD i 0, by
    apply List.ext_getElem
    · simp
    · intro i h1 h2; simp [vec, List.getElem?_eq_getElem h1]⟩

theorem raize_vec {n : ℕ} (f : ℕ → ℤ) {i : ℕ} (hi : i < n) :
    Pstring.raize ⟨n, vec n f⟩ i = .ok ⟨n, vec n (f + unit i)⟩ := by
  have h1 : (vec n f)[i]? = some (f i) := by simp [vec, hi]
  have h2 : (vec n f).set i (f i + 1) = vec n (f + unit i) := by
    apply List.ext_getElem
    · simp
    · intro j h1 h2
      simp only [vec, List.getElem_set, List.getElem_map, List.getElem_range, Pi.add_apply, unit]
      by_cases h : i = j
      · subst h; simp
      · rw [if_neg h, if_neg (Ne.symm h)]; simp
  simp [Pstring.raize, get, h1, h2, Pstring.new, bind, Except.bind]

theorem new_zero (n : ℕ) : Pstring.new n (List.replicate n 0) = .ok ⟨n, vec n 0⟩ := by
  have : List.replicate n (0 : ℤ) = vec n 0 := by
    apply List.ext_getElem
    · simp
    · intro j h1 h2; simp [vec]
  rw [this]; simp [Pstring.new]

theorem s_pstrings_eq (n : ℕ) : s_pstrings n = .ok ((List.range n).flatMap fun i => [⟨n, vec n (0 + unit i)⟩]) := by
  unfold s_pstrings
  simp only [new_zero, bind, Except.bind]
  refine collect_ok fun i hi => ?_
  rw [raize_vec _ (List.mem_range.mp hi)]; rfl

theorem d_pstrings_eq (n : ℕ) : d_pstrings n =
    .ok ((List.range n).flatMap fun i => (List.range' i (n - i)).flatMap fun j => [⟨n, vec n (0 + unit i + unit j)⟩]) := by
  unfold d_pstrings
  simp only [new_zero, bind, Except.bind]
  refine collect_ok fun i hi => collect_ok fun j hj => ?_
  rw [List.mem_range'_1] at hj; rw [List.mem_range] at hi
  simp only [raize_vec _ hi]
  rw [raize_vec _ (by omega)]; rfl

theorem sum_unit {n i : ℕ} (hi : i < n) : ∑ j ∈ Finset.range n, unit i j = 1 := by
  simp [unit, hi]

/-- a non-empty occupation contains a quantum -/
theorem take_unit {n : ℕ} {f : ℕ → ℤ} (h0 : ∀ i < n, 0 ≤ f i) (hs : 0 < ∑ i ∈ Finset.range n, f i) :
    ∃ i < n, ∃ g, (∀ j < n, 0 ≤ g j) ∧ f = g + unit i ∧ ∑ j ∈ Finset.range n, g j = ∑ j ∈ Finset.range n, f j - 1 := by
  obtain ⟨i, hi, hp⟩ := Finset.exists_lt_of_sum_lt (s := Finset.range n) (f := fun _ => (0 : ℤ)) (g := f) (by simpa using hs)
  rw [Finset.mem_range] at hi
  refine ⟨i, hi, f - unit i, fun j hj => ?_, by simp, ?_⟩
  · simp only [Pi.sub_apply, unit]
    split_ifs with h
    · subst h; omega
    · have := h0 j hj; omega
  · simp only [Pi.sub_apply]; rw [Finset.sum_sub_distrib, sum_unit hi]

theorem sum_zero_iff {n : ℕ} {f : ℕ → ℤ} (h0 : ∀ i < n, 0 ≤ f i) : ∑ i ∈ Finset.range n, f i = 0 ↔ ∀ i < n, f i = 0 := by
  rw [Finset.sum_eq_zero_iff_of_nonneg (fun i hi => h0 i (Finset.mem_range.mp hi))]; simp

/-- A vibrational state of `n` modes with `k` quanta. -/
def Quanta (n : ℕ) (p : Pstring) (k : ℤ) : Prop := p.n = n ∧ p.occ.length = n ∧ (∀ x ∈ p.occ, 0 ≤ x) ∧ p.occ.sum = k

theorem quanta_iff {n : ℕ} {p : Pstring} {k : ℤ} :
    Quanta n p k ↔ ∃ f : ℕ → ℤ, p = ⟨n, vec n f⟩ ∧ (∀ i < n, 0 ≤ f i) ∧ ∑ i ∈ Finset.range n, f i = k := by
  constructor
  · rintro ⟨rfl, h2, h3, h4⟩
    obtain ⟨n, occ⟩ := p
    obtain ⟨f, hf⟩ := exists_vec occ
    simp only at h2 h3 h4
    rw [h2] at hf
    subst hf
    exact ⟨f, rfl, fun i hi => h3 _ (by simpa [vec] using ⟨i, hi, rfl⟩), by rw [← sum_vec, h4]⟩
  · rintro ⟨f, rfl, h1, h2⟩
    refine ⟨rfl, length_vec _ _, ?_, by rw [sum_vec, h2]⟩
    simp only [vec, List.mem_map, List.mem_range]
    rintro x ⟨i, hi, rfl⟩; exact h1 i hi

theorem quanta0 {n : ℕ} {p : Pstring} : Quanta n p 0 ↔ p = ⟨n, vec n 0⟩ := by
  rw [quanta_iff]
  constructor
  · rintro ⟨f, rfl, h1, h2⟩
    rw [sum_zero_iff h1] at h2
    congr 1
    exact vec_eq.mpr h2
  · rintro rfl; exact ⟨0, rfl, fun _ _ => le_rfl, by simp⟩

theorem quanta1 {n : ℕ} {p : Pstring} : Quanta n p 1 ↔ ∃ i < n, p = ⟨n, vec n (0 + unit i)⟩ := by
  rw [quanta_iff]
  constructor
  · rintro ⟨f, rfl, h1, h2⟩
    obtain ⟨i, hi, g, hg, rfl, hs⟩ := take_unit h1 (by omega)
    rw [h2] at hs
    rw [show (1 : ℤ) - 1 = 0 from rfl, sum_zero_iff hg] at hs
    refine ⟨i, hi, ?_⟩
    congr 1
    exact vec_eq.mpr fun j hj => by simp [hs j hj]
  · rintro ⟨i, hi, rfl⟩
    refine ⟨_, rfl, fun j _ => ?_, ?_⟩
    · simp only [Pi.add_apply, unit]; split_ifs <;> simp
    · simp only [zero_add]; exact sum_unit hi

theorem quanta2 {n : ℕ} {p : Pstring} : Quanta n p 2 ↔ ∃ i j, i ≤ j ∧ j < n ∧ p = ⟨n, vec n (0 + unit i + unit j)⟩ := by
  rw [quanta_iff]
  constructor
  · rintro ⟨f, rfl, h1, h2⟩
    obtain ⟨i, hi, g, hg, rfl, hs⟩ := take_unit h1 (by omega)
    rw [h2] at hs
    obtain ⟨j, hj, g', hg', rfl, hs'⟩ := take_unit hg (by omega)
    rw [hs] at hs'
    rw [show (2 : ℤ) - 1 - 1 = 0 from rfl, sum_zero_iff hg'] at hs'
    rcases le_total i j with h | h
    · refine ⟨i, j, h, hj, ?_⟩
      congr 1
      exact vec_eq.mpr fun k hk => by simp [hs' k hk, add_comm]
    · refine ⟨j, i, h, hi, ?_⟩
      congr 1
      exact vec_eq.mpr fun k hk => by simp [hs' k hk]
  · rintro ⟨i, j, hij, hj, rfl⟩
    refine ⟨_, rfl, fun j _ => ?_, ?_⟩
    · simp only [Pi.add_apply, unit, Pi.zero_apply]; split_ifs <;> simp
    · simp only [Pi.add_apply, zero_add]
      rw [Finset.sum_add_distrib, sum_unit hj, sum_unit (lt_of_le_of_lt hij hj)]; norm_num

theorem unit_inj {n i i' : ℕ} (hi : i < n) (h : vec n (0 + unit i) = vec n (0 + unit i')) : i = i' := by
  have := vec_eq.mp h i hi
  simp only [Pi.add_apply, Pi.zero_apply, unit, if_true] at this
  by_contra hc
  rw [if_neg hc] at this; omega

theorem unit2_inj {n i i' j j' : ℕ} (hij : i ≤ j) (hij' : i' ≤ j') (hj : j < n)  (hj' : j' < n)
    (h : vec n (0 + unit i + unit j) = vec n (0 + unit i' + unit j')) : i = i' ∧ j = j' := by
  have h1 := vec_eq.mp h i (by omega)
  have h2 := vec_eq.mp h j (by omega)
  have h3 := vec_eq.mp h i' (by omega)
  simp only [Pi.add_apply, Pi.zero_apply, unit] at h1 h2 h3
  split_ifs at h1 h2 h3 <;> omega

/-- `B` lists the vibrational states of `n` modes whose number of quanta satisfies `P`, each exactly once. -/
def EnumeratesV (n : ℕ) (B : List Pstring) (P : ℤ → Prop) : Prop := B.Nodup ∧ ∀ p, p ∈ B ↔ ∃ k, P k ∧ Quanta n p k

theorem EnumeratesV.append {n : ℕ} {B C : List Pstring} {P Q : ℤ → Prop} (hB : EnumeratesV n B P) (hC : EnumeratesV n C Q)
    (hPQ : ∀ k, P k → Q k → False) : EnumeratesV n (B ++ C) fun k => P k ∨ Q k := by
  refine ⟨?_, fun p => ?_⟩
  · rw [List.nodup_append]
    refine ⟨hB.1, hC.1, ?_⟩
    rintro a ha b hb rfl
    obtain ⟨k, hk, h⟩ := (hB.2 a).mp ha
    obtain ⟨k', hk', h'⟩ := (hC.2 a).mp hb
    have : k = k' := h.2.2.2.symm.trans h'.2.2.2
    subst this
    exact hPQ k hk hk'
  · rw [List.mem_append, hB.2, hC.2]
    constructor
    · rintro (⟨k, h, h'⟩ | ⟨k, h, h'⟩)
      exacts [⟨k, Or.inl h, h'⟩, ⟨k, Or.inr h, h'⟩]
    · rintro ⟨k, h | h, h'⟩
      exacts [Or.inl ⟨k, h, h'⟩, Or.inr ⟨k, h, h'⟩]

theorem enumV0 (n : ℕ) : EnumeratesV n [⟨n, vec n 0⟩] (· = 0) :=
  ⟨by simp, fun p => by simp [quanta0]⟩

theorem enumV1 (n : ℕ) : EnumeratesV n ((List.range n).flatMap fun i => [⟨n, vec n (0 + unit i)⟩]) (· = 1) := by
  refine ⟨?_, fun p => ?_⟩
  · refine nodup_flatMap' List.nodup_range (fun _ _ => by simp) ?_
    intro i hi j hj x hx hx'
    simp only [List.mem_singleton] at hx hx'
    rw [hx, Pstring.mk.injEq] at hx'
    exact unit_inj (List.mem_range.mp hi) hx'.2
  · simp only [List.mem_flatMap, List.mem_range, List.mem_singleton, exists_eq_left, quanta1]

theorem enumV2 (n : ℕ) : EnumeratesV n
    ((List.range n).flatMap fun i => (List.range' i (n - i)).flatMap fun j => [⟨n, vec n (0 + unit i + unit j)⟩]) (· = 2) := by
  refine ⟨?_, fun p => ?_⟩
  · refine nodup_flatMap' List.nodup_range (fun i hi => nodup_flatMap' List.nodup_range' (fun _ _ => by simp) ?_) ?_
    · intro j hj j' hj' x hx hx'
      simp only [List.mem_singleton] at hx hx'
      rw [hx, Pstring.mk.injEq] at hx'
      rw [List.mem_range'_1] at hj hj'
      exact (unit2_inj (by omega) (by omega) (by omega) (by omega) hx'.2).2
    · intro i hi i' hi' x hx hx'
      simp only [List.mem_flatMap, List.mem_singleton, List.mem_range'_1] at hx hx'
      obtain ⟨j, hj, rfl⟩ := hx
      obtain ⟨j', hj', hx'⟩ := hx'
      rw [Pstring.mk.injEq] at hx'
      exact (unit2_inj (by omega) (by omega) (by omega) (by omega) hx'.2).1
  · simp only [List.mem_flatMap, List.mem_range, List.mem_singleton, exists_eq_left, quanta2, List.mem_range'_1]
    constructor
    · rintro ⟨i, hi, j, hj, rfl⟩; exact ⟨i, j, by omega, by omega, rfl⟩
    · rintro ⟨i, j, hij, hj, rfl⟩; exact ⟨i, by omega, j, by omega, rfl⟩

/-- C33: `vcis_basis` lists every vibrational state with at most one quantum, exactly once. -/
theorem C33_vcis (n : ℕ) : ∃ B, vcis_basis n = .ok B ∧ EnumeratesV n B fun k => 0 ≤ k ∧ k ≤ 1 := by
  unfold vcis_basis
  simp only [new_zero, s_pstrings_eq, bind, Except.bind, pure, Except.pure]
  refine ⟨_, rfl, ?_⟩
  have := (enumV0 n).append (enumV1 n) (by omega)
  refine ⟨this.1, fun p => (this.2 p).trans (exists_congr fun k => and_congr_left fun _ => by omega)⟩

/-- C33: `vcisd_basis` lists every vibrational state with at most two quanta, exactly once. -/
theorem C33_vcisd (n : ℕ) : ∃ B, vcisd_basis n = .ok B ∧ EnumeratesV n B fun k => 0 ≤ k ∧ k ≤ 2 := by
  unfold vcisd_basis
  simp only [new_zero, s_pstrings_eq, d_pstrings_eq, bind, Except.bind, pure, Except.pure]
  refine ⟨_, rfl, ?_⟩
  have := ((enumV0 n).append (enumV1 n) (by omega)).append (enumV2 n) (by omega)
  refine ⟨this.1, fun p => (this.2 p).trans (exists_congr fun k => and_congr_left fun _ => by omega)⟩

example : vcisd_basis 2 = .ok [⟨2, [0, 0]⟩, ⟨2, [1, 0]⟩, ⟨2, [0, 1]⟩, ⟨2, [2, 0]⟩, ⟨2, [1, 1]⟩, ⟨2, [0, 2]⟩] := by decide +kernel

end CI
