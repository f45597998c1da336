import Verif.Props.CIVib
/-!
# C91: the ladder operators of vibrational states
-/
namespace CI

/-- C91: `raize` adds one quantum to the mode given and changes nothing else. -/
theorem C91_raize {n : ℕ} {p : Pstring} {k : ℤ} (h : Quanta n p k) {i : ℕ} (hi : i < n) :
    ∃ q, p.raize i = .ok q ∧ Quanta n q (k + 1) ∧ ∀ j, q.occ.getD j 0 = p.occ.getD j 0 + if j = i then 1 else 0 := by
  obtain ⟨f, rfl, h0, hs⟩ := quanta_iff.mp h
  refine ⟨_, raize_vec f hi, quanta_iff.mpr ⟨_, rfl, fun j hj => ?_, ?_⟩, fun j => ?_⟩
  · have := h0 j hj
    simp only [Pi.add_apply, unit]; split_ifs <;> omega
  · simp only [Pi.add_apply]; rw [Finset.sum_add_distrib, sum_unit hi, hs]
  · by_cases hj : j < n
    · simp [vec, List.getD, hj, unit]
    · simp [vec, List.getD, hj]; omega

theorem lower_vec {n : ℕ} (f : ℕ → ℤ) {i : ℕ} (hi : i < n) :
    Pstring.lower ⟨n, vec n f⟩ i = .ok (if f i = 0 then none else some ⟨n, vec n (f - unit i)⟩) := by
  have h1 : (vec n f)[i]? = some (f i) := by simp [vec, hi]
  have h2 : (vec n f).set i (f i - 1) = vec n (f - unit i) := by
    apply List.ext_getElem
    · simp
    · intro j h1 h2
      simp only [vec, List.getElem_set, List.getElem_map, List.getElem_range, Pi.sub_apply, unit]
      by_cases h : i = j
      · subst h; simp
      · rw [if_neg h, if_neg (Ne.symm h)]; simp
  by_cases h : f i = 0
  · simp [Pstring.lower, get, h1, h, bind, Except.bind, pure, Except.pure]
  · simp [Pstring.lower, get, h1, h, h2, Pstring.new, bind, Except.bind, pure, Except.pure]

/-- C91: `lower` gives `None` exactly if there is no quantum in the mode, and otherwise takes one quantum from it and changes nothing else. -/
theorem C91_lower {n : ℕ} {p : Pstring} {k : ℤ} (h : Quanta n p k) {i : ℕ} (hi : i < n) :
    (p.occ.getD i 0 = 0 → p.lower i = .ok none) ∧
    (p.occ.getD i 0 ≠ 0 → ∃ q, p.lower i = .ok (some q) ∧ Quanta n q (k - 1) ∧ ∀ j, q.occ.getD j 0 = p.occ.getD j 0 - if j = i then 1 else 0) := by
  obtain ⟨f, rfl, h0, hs⟩ := quanta_iff.mp h
  have hg : (vec n f).getD i 0 = f i := by simp [vec, List.getD, hi]
  rw [hg]
  refine ⟨fun he => by rw [lower_vec f hi, if_pos he], fun he => ⟨_, by rw [lower_vec f hi, if_neg he], ?_, fun j => ?_⟩⟩
  · refine quanta_iff.mpr ⟨_, rfl, fun j hj => ?_, ?_⟩
    · have := h0 j hj
      simp only [Pi.sub_apply, unit]; split_ifs with h
      · subst h; omega
      · omega
    · simp only [Pi.sub_apply]; rw [Finset.sum_sub_distrib, sum_unit hi, hs]
  · by_cases hj : j < n
    · simp [vec, List.getD, hj, unit]
    · simp [vec, List.getD, hj]; omega

/-- C91: `lower` undoes `raize`, and `raize` undoes `lower` where it gives a state. -/
theorem C91_inverse {n : ℕ} {p : Pstring} {k : ℤ} (h : Quanta n p k) {i : ℕ} (hi : i < n) :
    (p.raize i >>= fun q => q.lower i) = .ok (some p) ∧ ∀ q, p.lower i = .ok (some q) → q.raize i = .ok p := by
  obtain ⟨f, rfl, h0, hs⟩ := quanta_iff.mp h
  constructor
  · rw [raize_vec f hi]
    change Pstring.lower _ i = _
    have : (f + unit i) i ≠ 0 := by
      have := h0 i hi
      simp only [Pi.add_apply, unit, if_pos]; omega
    rw [lower_vec _ hi, if_neg this, add_sub_cancel_right]
  · intro q hq
    rw [lower_vec f hi] at hq
    split_ifs at hq
    · cases hq
    · cases hq
      rw [raize_vec _ hi, sub_add_cancel]

/-- C91: operators of the same kind commute, and `raize` commutes with `lower` of another mode. -/
theorem C91_commute {n : ℕ} {p : Pstring} {k : ℤ} (h : Quanta n p k) {i j : ℕ} (hi : i < n) (hj : j < n) :
    (p.raize i >>= fun q => q.raize j) = (p.raize j >>= fun q => q.raize i) ∧
    (i ≠ j → (p.raize i >>= fun q => q.lower j) = (p.lower j >>= fun
      | none => pure none
      | some q => some <$> q.raize i)) := by
  obtain ⟨f, rfl, h0, hs⟩ := quanta_iff.mp h
  constructor
  · rw [raize_vec f hi, raize_vec f hj]
    change Pstring.raize _ j = Pstring.raize _ i
    rw [raize_vec _ hi, raize_vec _ hj, add_right_comm]
  · intro hij
    rw [raize_vec f hi, lower_vec f hj]
    change Pstring.lower _ j = _
    rw [lower_vec _ hj]
    have e : (f + unit i) j = f j := by simp [unit, hij.symm]
    rw [e]
    by_cases h : f j = 0
    · rw [if_pos h, if_pos h]; rfl
    · rw [if_neg h, if_neg h]
      change _ = some <$> Pstring.raize _ i
      rw [raize_vec _ hi, add_sub_right_comm]; rfl

/-- C91: a mode that does not exist is an `IndexError`. -/
theorem C91_index {n : ℕ} {p : Pstring} {k : ℤ} (h : Quanta n p k) {i : ℕ} (hi : n ≤ i) : p.raize i = .error .index ∧ p.lower i = .error .index := by
  have : p.occ[i]? = none := by rw [List.getElem?_eq_none_iff, h.2.1]; exact hi
  constructor
  · simp [Pstring.raize, get, this, bind, Except.bind]
  · simp [Pstring.lower, get, this, bind, Except.bind]

/-- C91: every state is reached from the vacuum by raising, as many times as there are quanta. -/
theorem C91_generated {n : ℕ} {p : Pstring} {k : ℕ} (h : Quanta n p k) :
    ∃ l : List ℕ, l.length = k ∧ (∀ i ∈ l, i < n) ∧ l.foldlM (fun q i => q.raize i) (⟨n, List.replicate n 0⟩ : Pstring) = .ok p := by
  induction k generalizing p with
  | zero =>
    refine ⟨[], rfl, by simp, ?_⟩
    have := quanta0.mp h
    subst this
    have e := new_zero n
    simp only [Pstring.new, List.length_replicate, if_true] at e
    exact e
  | succ k ih =>
    obtain ⟨f, rfl, h0, hs⟩ := quanta_iff.mp h
    obtain ⟨i, hi, g, hg, rfl, hsum⟩ := take_unit h0 (by rw [hs]; positivity)
    have hq : Quanta n ⟨n, vec n g⟩ k := quanta_iff.mpr ⟨g, rfl, hg, by rw [hsum, hs]; push_cast; ring⟩
    obtain ⟨l, hl, hm, he⟩ := ih hq
    refine ⟨l ++ [i], by simp [hl], fun j hj => ?_, ?_⟩
    · rcases List.mem_append.mp hj with h | h
      · exact hm j h
      · rw [List.mem_singleton.mp h]; exact hi
    · rw [List.foldlM_append, he]
      change (Pstring.raize _ i >>= _) = _
      rw [raize_vec g hi]; rfl

/-- C91: the bases of `vcis_basis` and `vcisd_basis` are closed under lowering. -/
theorem C91_closed (n : ℕ) :
    (∃ B, vcis_basis n = .ok B ∧ ∀ p ∈ B, ∀ i < n, ∃ r, p.lower i = .ok r ∧ ∀ q, r = some q → q ∈ B) ∧
    (∃ B, vcisd_basis n = .ok B ∧ ∀ p ∈ B, ∀ i < n, ∃ r, p.lower i = .ok r ∧ ∀ q, r = some q → q ∈ B) := by
  have key : ∀ {p : Pstring} {k : ℤ}, Quanta n p k → ∀ i < n, ∃ r, p.lower i = .ok r ∧ ∀ q, r = some q → Quanta n q (k - 1) := by
    intro p k h i hi
    obtain ⟨h1, h2⟩ := C91_lower h hi
    by_cases e : p.occ.getD i 0 = 0
    · exact ⟨none, h1 e, nofun⟩
    · obtain ⟨q, hq, hk, -⟩ := h2 e
      exact ⟨some q, hq, fun q' h => by cases h; exact hk⟩
  have nn : ∀ {p : Pstring} {k : ℤ}, Quanta n p k → 0 ≤ k := fun h => h.2.2.2 ▸ List.sum_nonneg h.2.2.1
  obtain ⟨B, hB, -, eB⟩ := C33_vcis n
  obtain ⟨C, hC, -, eC⟩ := C33_vcisd n
  refine ⟨⟨B, hB, fun p hp i hi => ?_⟩, ⟨C, hC, fun p hp i hi => ?_⟩⟩
  · obtain ⟨k, hk, h⟩ := (eB p).mp hp
    obtain ⟨r, hr, hq⟩ := key h i hi
    refine ⟨r, hr, fun q e => (eB q).mpr ⟨k - 1, ?_, hq q e⟩⟩
    have := nn (hq q e); omega
  · obtain ⟨k, hk, h⟩ := (eC p).mp hp
    obtain ⟨r, hr, hq⟩ := key h i hi
    refine ⟨r, hr, fun q e => (eC q).mpr ⟨k - 1, ?_, hq q e⟩⟩
    have := nn (hq q e); omega

/-- three modes with 2, 0 and 1 quanta -/
example : Quanta 3 ⟨3, [2, 0, 1]⟩ 3 ∧ Pstring.lower ⟨3, [2, 0, 1]⟩ 0 = .ok (some ⟨3, [1, 0, 1]⟩) ∧ Pstring.lower ⟨3, [2, 0, 1]⟩ 1 = .ok none ∧
    Pstring.raize ⟨3, [2, 0, 1]⟩ 1 = .ok ⟨3, [2, 1, 1]⟩ := by
  refine ⟨⟨rfl, rfl, by decide, by decide⟩, ?_, ?_, ?_⟩ <;> decide +kernel

end CI
