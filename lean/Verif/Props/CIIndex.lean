import Verif.Model.CIIndex
import Mathlib.Data.List.GetD
import Mathlib.Tactic.Ring
import Mathlib.Tactic.NormNum
import Mathlib.Tactic.SplitIfs
/-!
# C104: negative orbital numbers
-/
namespace CI

/-- The sign the code computes from the slice between the two orbitals. -/
def sliceSign (l : List ℤ) : ℤ := if l.sum % 2 = 0 then 1 else -1

/-- The result of an excitation with its sign replaced. -/
def withSign (s : ℤ → ℤ) (r : R (Option (ℤ × Dstring))) : R (Option (ℤ × Dstring)) := r.map (Option.map fun p => (s p.1, p.2))

theorem withSign_id (r : R (Option (ℤ × Dstring))) : withSign (fun s => s) r = r := by
  rcases r with e | _ | p <;> rfl

theorem position_nat {n k : ℕ} (h : k < n) : position n k = some k := by
  rw [position, if_pos (by omega)]; simp

theorem position_neg {n k : ℕ} (h : k < n) : position n ((k : ℤ) - n) = some k := by
  rw [position, if_neg (by omega), if_pos (by omega)]; simp

theorem position_spec {n k : ℕ} {i : ℤ} (h : position n i = some k) : k < n ∧ (i = k ∨ i = (k : ℤ) - n) := by
  rw [position] at h
  split_ifs at h with h1 h2
  · have := Option.some.inj h; omega
  · have := Option.some.inj h; omega

theorem position_none {n : ℕ} {i : ℤ} (h : ¬(-(n : ℤ) ≤ i ∧ i < n)) : position n i = none := by
  rw [position, if_neg (by omega), if_neg (by omega)]

theorem getZ_eq {l : List ℤ} {i : ℤ} {k : ℕ} (h : position l.length i = some k) : getZ l i = get l k := by
  rw [getZ, h]

theorem setZ_eq {l : List ℤ} {i x : ℤ} {k : ℕ} (h : position l.length i = some k) : setZ l i x = .ok (l.set k x) := by
  rw [setZ, h]

theorem getZ_lt {l : List ℤ} {k : ℕ} (h : k < l.length) : get l k = .ok (l.getD k 0) := by
  rw [get, List.getElem?_eq_getElem h, List.getD_eq_getElem _ _ h]

/-- What `excite` gives for two orbitals in range, apart from the sign. -/
def moved (d : Dstring) (i a : ℕ) (s : ℤ) : R (Option (ℤ × Dstring)) :=
  if d.occ.getD i 0 = 1 ∧ d.occ.getD a 0 = 0 then (Dstring.new d.n ((d.occ.set i 0).set a 1)).map fun new => some (s, new) else .ok none

theorem excite_moved (d : Dstring) {i a : ℕ} (hi : i < d.occ.length) (ha : a < d.occ.length) :
    d.excite i a = moved d i a (sliceSign (if i < a then slice d.occ (i + 1) a else slice d.occ (a + 1) i)) := by
  rw [Dstring.excite, getZ_lt hi, getZ_lt ha, moved]
  simp only [bind, Except.bind, pure, Except.pure]
  by_cases h1 : d.occ.getD i 0 = 1
  · by_cases h2 : d.occ.getD a 0 = 0
    · have hne : i ≠ a := fun h => by rw [h, h2] at h1; exact absurd h1 (by norm_num)
      rw [if_neg (by simpa using h1), if_neg (by simpa using h2), if_neg hne, if_pos (And.intro h1 h2)]
      by_cases h3 : i < a
      · rw [if_pos h3, if_pos h3, sliceSign]
        rcases Dstring.new d.n ((d.occ.set i 0).set a 1) <;> rfl
      · rw [if_neg h3, if_neg h3, sliceSign]
        rcases Dstring.new d.n ((d.occ.set i 0).set a 1) <;> rfl
    · rw [if_neg (by simpa using h1), if_pos h2, if_neg fun h => h2 h.2]
  · rw [if_pos h1, if_neg fun h => h1 h.1]

theorem exciteZ_moved (d : Dstring) {i a : ℤ} {k c : ℕ} (hi : position d.occ.length i = some k) (ha : position d.occ.length a = some c) :
    d.exciteZ i a = moved d k c (sliceSign (if i < a then sliceZ d.occ (i + 1) a else sliceZ d.occ (a + 1) i)) := by
  have ha' : ∀ x, position (d.occ.set k x).length a = some c := fun x => by rw [List.length_set, ha]
  rw [Dstring.exciteZ, getZ_eq hi, getZ_eq ha, getZ_lt (position_spec hi).1, getZ_lt (position_spec ha).1, moved]
  simp only [bind, Except.bind, pure, Except.pure]
  by_cases h1 : d.occ.getD k 0 = 1
  · by_cases h2 : d.occ.getD c 0 = 0
    · have hne : i ≠ a := fun h => by
        rw [h, ha] at hi
        rw [← Option.some.inj hi, h2] at h1
        exact absurd h1 (by norm_num)
      rw [if_neg (by simpa using h1), if_neg (by simpa using h2), if_neg hne, if_pos (And.intro h1 h2)]
      by_cases h3 : i < a
      · rw [if_pos h3, if_pos h3, setZ_eq hi, sliceSign]
        simp only [setZ_eq (ha' 0)]
        rcases Dstring.new d.n ((d.occ.set k 0).set c 1) <;> rfl
      · rw [if_neg h3, if_neg h3, setZ_eq hi, sliceSign]
        simp only [setZ_eq (ha' 0)]
        rcases Dstring.new d.n ((d.occ.set k 0).set c 1) <;> rfl
    · rw [if_neg (by simpa using h1), if_pos h2, if_neg fun h => h2 h.2]
  · rw [if_pos h1, if_neg fun h => h1 h.1]

theorem moved_withSign (d : Dstring) (i a : ℕ) (s : ℤ) (f : ℤ → ℤ) : withSign f (moved d i a s) = moved d i a (f s) := by
  unfold moved withSign
  split_ifs
  · rcases Dstring.new d.n ((d.occ.set i 0).set a 1) <;> rfl
  · rfl

theorem moved_congr (d : Dstring) (i a : ℕ) {s t : ℤ} (h : d.occ.getD i 0 = 1 → d.occ.getD a 0 = 0 → s = t) : moved d i a s = moved d i a t := by
  unfold moved
  split_ifs with hc
  · rw [h hc.1 hc.2]
  · rfl

theorem bound_nat {n k : ℕ} (h : k ≤ n) : bound n k = k := by rw [bound, if_neg (by omega)]; omega

theorem sliceZ_nat (l : List ℤ) {i j : ℕ} (hi : i ≤ l.length) (hj : j ≤ l.length) : sliceZ l i j = slice l i j := by
  rw [sliceZ, slice, bound_nat hi, bound_nat hj]

/-- C104: for orbital numbers from zero on the methods are those of the model with natural numbers. -/
theorem C104_nonnegative (d : Dstring) {i a : ℕ} (hi : i < d.occ.length) (ha : a < d.occ.length) : d.exciteZ i a = d.excite i a := by
  rw [exciteZ_moved d (position_nat hi) (position_nat ha), excite_moved d hi ha]
  congr 2
  by_cases h : i < a
  · rw [if_pos h, if_pos (by omega), ← Nat.cast_succ, sliceZ_nat _ (by omega) (by omega)]
  · rw [if_neg h, if_neg (by omega), ← Nat.cast_succ, sliceZ_nat _ (by omega) (by omega)]

/-- C104: whichever way the two orbitals are numbered, the electron that moves and the string that results are the same: only
the sign depends on the numbering. -/
theorem C104_string (d : Dstring) {i a : ℤ} {k c : ℕ} (hk : k < d.occ.length) (hc : c < d.occ.length) (hi : i = k ∨ i = (k : ℤ) - d.occ.length)
    (ha : a = c ∨ a = (c : ℤ) - d.occ.length) : (d.exciteZ i a).map str = (d.excite k c).map str := by
  have h1 : position d.occ.length i = some k := by rcases hi with rfl | rfl; exacts [position_nat hk, position_neg hk]
  have h2 : position d.occ.length a = some c := by rcases ha with rfl | rfl; exacts [position_nat hc, position_neg hc]
  rw [exciteZ_moved d h1 h2, excite_moved d hk hc]
  unfold moved
  split_ifs
  all_goals first | rfl | (rcases Dstring.new d.n ((d.occ.set k 0).set c 1) <;> rfl)

/-- C104: an orbital number outside `-n, …, n - 1` raises an `IndexError`, unless the first test has already failed. -/
theorem C104_range (d : Dstring) {i a : ℤ} : (¬(-(d.occ.length : ℤ) ≤ i ∧ i < d.occ.length) → d.exciteZ i a = .error .index) ∧
    ∀ k : ℕ, k < d.occ.length → (i = k ∨ i = (k : ℤ) - d.occ.length) → ¬(-(d.occ.length : ℤ) ≤ a ∧ a < d.occ.length) →
      d.exciteZ i a = if d.occ.getD k 0 = 1 then .error .index else .ok none := by
  constructor
  · intro h
    rw [Dstring.exciteZ, getZ, position_none h]; rfl
  · intro k hk hi ha
    have h1 : position d.occ.length i = some k := by rcases hi with rfl | rfl; exacts [position_nat hk, position_neg hk]
    rw [Dstring.exciteZ, getZ_eq h1, getZ_lt hk, getZ, position_none ha]
    by_cases h : d.occ.getD k 0 = 1
    · rw [if_pos h]; simp only [bind, Except.bind]; rw [if_neg (by simpa using h)]
    · rw [if_neg h]; simp only [bind, Except.bind]; rw [if_pos h]; rfl

/-- C104: with both orbitals counted from the end the result is right, sign included. -/
theorem C104_both_negative (d : Dstring) {i a : ℕ} (hi : i < d.occ.length) (ha : a < d.occ.length) :
    d.exciteZ ((i : ℤ) - d.occ.length) ((a : ℤ) - d.occ.length) = d.excite i a := by
  rw [exciteZ_moved d (position_neg hi) (position_neg ha), excite_moved d hi ha]
  refine moved_congr d i a fun h1 h2 => ?_
  have hne : i ≠ a := fun h => by rw [h, h2] at h1; exact absurd h1 (by norm_num)
  have hb : ∀ k : ℕ, k < d.occ.length → bound d.occ.length ((k : ℤ) - d.occ.length) = k := fun k hk => by rw [bound, if_pos (by omega)]; omega
  by_cases h : i < a
  · rw [if_pos h, if_pos (by omega), sliceZ, slice, hb a ha, show (i : ℤ) - d.occ.length + 1 = ((i + 1 : ℕ) : ℤ) - d.occ.length by push_cast; ring, hb (i + 1) (by omega)]
  · rw [if_neg h, if_neg (by omega), sliceZ, slice, hb i hi, show (a : ℤ) - d.occ.length + 1 = ((a + 1 : ℕ) : ℤ) - d.occ.length by push_cast; ring, hb (a + 1) (by omega)]

/-- The slice between two orbitals of which the lower one in the list is counted from the end. -/
theorem sliceZ_mixed (l : List ℤ) {p q : ℕ} (hp : p + 1 < l.length) (hq : q < l.length) : sliceZ l ((p : ℤ) - l.length + 1) q = slice l (p + 1) q := by
  rw [sliceZ, slice, bound_nat hq.le, bound, if_pos (by omega)]
  congr 1
  omega

theorem sliceZ_empty (l : List ℤ) {i j : ℕ} (h : j ≤ i) : slice l i j = [] := by
  rw [slice, List.drop_eq_nil_iff]; simp; omega

/-- C104: with the occupied orbital counted from the end and the empty one from the front the result is right if the electron
moves up; if it moves down the sign is always `1`, whatever it passes.  (The last orbital is the subject of `C104_last_from`.) -/
theorem C104_from_negative (d : Dstring) {i a : ℕ} (hi : i + 1 < d.occ.length) (ha : a < d.occ.length) :
    d.exciteZ ((i : ℤ) - d.occ.length) a = if i < a then d.excite i a else withSign (fun _ => 1) (d.excite i a) := by
  rw [exciteZ_moved d (position_neg (by omega)) (position_nat ha), excite_moved d (by omega) ha, if_pos (by omega), sliceZ_mixed _ hi ha]
  by_cases h : i < a
  · rw [if_pos h, if_pos h]
  · rw [if_neg h, if_neg h, moved_withSign, sliceZ_empty _ (by omega)]
    rfl

/-- C104: with the empty orbital counted from the end and the occupied one from the front the result is right if the electron
moves down; if it moves up the sign is always `1`.  (The last orbital is the subject of `C104_last_to`.) -/
theorem C104_to_negative (d : Dstring) {i a : ℕ} (hi : i < d.occ.length) (ha : a + 1 < d.occ.length) :
    d.exciteZ i ((a : ℤ) - d.occ.length) = if a < i then d.excite i a else withSign (fun _ => 1) (d.excite i a) := by
  rw [exciteZ_moved d (position_nat hi) (position_neg (by omega)), excite_moved d hi (by omega), if_neg (by omega), sliceZ_mixed _ ha hi]
  by_cases h : a < i
  · rw [if_pos h, if_neg (by omega)]
  · rw [if_neg h, moved_withSign, sliceZ_empty _ (by omega)]
    rfl

theorem sum_splitZ (l : List ℤ) {q : ℕ} (hq : q + 1 < l.length) : l.sum = (l.take q).sum + l.getD q 0 + (slice l (q + 1) (l.length - 1)).sum + l.getD (l.length - 1) 0 := by
  have h1 : l.sum = (l.take q).sum + (l.drop q).sum := by rw [← List.sum_append, List.take_append_drop]
  have h2 : l.drop q = l.getD q 0 :: l.drop (q + 1) := by rw [List.drop_eq_getElem_cons (by omega), List.getD_eq_getElem _ _ (by omega)]
  have h3 : (l.drop (q + 1)) = slice l (q + 1) (l.length - 1) ++ [l.getD (l.length - 1) 0] := by
    have : l = l.take (l.length - 1) ++ [l.getD (l.length - 1) 0] := by
      conv_lhs => rw [← List.take_append_drop (l.length - 1) l]
      congr 1
      rw [List.drop_eq_getElem_cons (by omega), List.drop_eq_nil_of_le (by omega), List.getD_eq_getElem _ _ (by omega)]
    conv_lhs => rw [this]
    rw [List.drop_append_of_le_length (by simp; omega), slice]
  rw [h1, h2, List.sum_cons, h3, List.sum_append]
  simp only [List.sum_cons, List.sum_nil]
  ring

/-- The factor by which the sign of `C104_last_from` and `C104_last_to` is wrong: one for an odd number of electrons. -/
def oddFactor (N : ℤ) : ℤ := if N % 2 = 1 then 1 else -1

theorem sliceZ_zero (l : List ℤ) {q : ℕ} (hq : q < l.length) : sliceZ l (((l.length - 1 : ℕ) : ℤ) - l.length + 1) q = l.take q := by
  rw [sliceZ, bound_nat hq.le, show (((l.length - 1 : ℕ) : ℤ) - l.length + 1) = ((0 : ℕ) : ℤ) by omega, bound_nat (by omega), List.drop_zero]

/-- C104: `excite(-1, a)` moves the electron of the last orbital; its sign is right for an odd number of electrons and wrong
for an even one, because the slice `occ[-1 + 1:a]` starts at the first orbital. -/
theorem C104_last_from (d : Dstring) {a : ℕ} (ha : a + 1 < d.occ.length) :
    d.exciteZ (-1) a = withSign (fun s => s * oddFactor d.occ.sum) (d.excite (d.occ.length - 1) a) := by
  have e : (-1 : ℤ) = ((d.occ.length - 1 : ℕ) : ℤ) - d.occ.length := by omega
  rw [e, exciteZ_moved d (position_neg (by omega)) (position_nat (by omega)), excite_moved d (by omega) (by omega), if_pos (by omega),
    if_neg (by omega), moved_withSign, sliceZ_zero _ (by omega)]
  refine moved_congr d _ _ fun h1 h2 => ?_
  have h := sum_splitZ d.occ ha
  rw [h1, h2] at h
  unfold sliceSign oddFactor
  split_ifs <;> omega

/-- C104: `excite(i, -1)` moves an electron to the last orbital; its sign is right for an odd number of electrons and wrong
for an even one, because the slice `occ[-1 + 1:i]` starts at the first orbital. -/
theorem C104_last_to (d : Dstring) {i : ℕ} (hi : i + 1 < d.occ.length) :
    d.exciteZ i (-1) = withSign (fun s => s * oddFactor d.occ.sum) (d.excite i (d.occ.length - 1)) := by
  have e : (-1 : ℤ) = ((d.occ.length - 1 : ℕ) : ℤ) - d.occ.length := by omega
  rw [e, exciteZ_moved d (position_nat (by omega)) (position_neg (by omega)), excite_moved d (by omega) (by omega), if_neg (by omega),
    if_pos (by omega), moved_withSign, sliceZ_zero _ (by omega)]
  refine moved_congr d _ _ fun h1 h2 => ?_
  have h := sum_splitZ d.occ hi
  rw [h1, h2] at h
  unfold sliceSign oddFactor
  split_ifs <;> omega

/-- C104: so the numbering of the orbitals can change the sign: two electrons in three orbitals, one of which passes the other. -/
theorem C104_refuted : ¬∀ (d : Dstring) (i a : ℕ), d.n = d.occ.length → i < d.n → a < d.n → d.exciteZ i ((a : ℤ) - d.n) = d.excite i a := by
  intro h
  have := h ⟨3, [1, 1, 0]⟩ 0 2 rfl (by norm_num) (by norm_num)
  revert this
  decide

/-- C104: raising and lowering occupation numbers counts from the end correctly. -/
theorem C104_phonon (d : Pstring) {p : ℤ} {k : ℕ} (hk : k < d.occ.length) (hp : p = k ∨ p = (k : ℤ) - d.occ.length) :
    d.raizeZ p = d.raize k ∧ d.lowerZ p = d.lower k := by
  have h1 : position d.occ.length p = some k := by rcases hp with rfl | rfl; exacts [position_nat hk, position_neg hk]
  rw [Pstring.raizeZ, Pstring.raize, Pstring.lowerZ, Pstring.lower, getZ_eq h1, getZ_lt hk]
  simp only [bind, Except.bind, setZ_eq h1]
  exact ⟨trivial, trivial⟩

/-- The five strings and signs of the theorems above on `[1, 1, 0, 1]`. -/
example : (⟨4, [1, 1, 0, 1]⟩ : Dstring).exciteZ (-3) (-2) = .ok (some (1, ⟨4, [1, 0, 1, 1]⟩)) ∧
    (⟨4, [1, 1, 0, 1]⟩ : Dstring).excite 0 2 = .ok (some (-1, ⟨4, [0, 1, 1, 1]⟩)) ∧
    (⟨4, [1, 1, 0, 1]⟩ : Dstring).exciteZ (-4) 2 = .ok (some (-1, ⟨4, [0, 1, 1, 1]⟩)) ∧
    (⟨4, [1, 1, 0, 1]⟩ : Dstring).exciteZ 0 (-2) = .ok (some (1, ⟨4, [0, 1, 1, 1]⟩)) ∧
    (⟨4, [1, 1, 0, 1]⟩ : Dstring).exciteZ (-1) 2 = .ok (some (1, ⟨4, [1, 1, 1, 0]⟩)) ∧
    (⟨4, [1, 1, 0, 0]⟩ : Dstring).exciteZ 0 (-1) = .ok (some (1, ⟨4, [0, 1, 0, 1]⟩)) ∧
    (⟨4, [1, 1, 0, 0]⟩ : Dstring).excite 0 3 = .ok (some (-1, ⟨4, [0, 1, 0, 1]⟩)) := by decide

/-- Counting from the end in a phonon string, and an orbital out of range. -/
example : (⟨2, [3, 0]⟩ : Pstring).raizeZ (-1) = .ok ⟨2, [3, 1]⟩ ∧ (⟨2, [3, 0]⟩ : Pstring).lowerZ (-2) = .ok (some ⟨2, [2, 0]⟩) ∧
    (⟨4, [1, 1, 0, 1]⟩ : Dstring).exciteZ (-5) 2 = .error .index ∧ (⟨4, [1, 1, 0, 1]⟩ : Dstring).exciteZ 2 (-5) = .ok none := by decide

end CI
