import Verif.Props.CISize
/-!
# C34: how often `q_strings` lists each determinant
-/
namespace CI
open Fock

theorem sorted4_inj {a b c d a' b' c' d' : ℕ} (h1 : a < b) (h2 : b < c) (h3 : c < d) (h1' : a' < b') (h2' : b' < c') (h3' : c' < d')
    (h : ({a, b, c, d} : Finset ℕ) = {a', b', c', d'}) : a = a' ∧ b = b' ∧ c = c' ∧ d = d' := by
  have m : ∀ x, (x = a ∨ x = b ∨ x = c ∨ x = d) ↔ (x = a' ∨ x = b' ∨ x = c' ∨ x = d') := fun x => by
    have := congrArg (x ∈ ·) h
    simpa only [Finset.mem_insert, Finset.mem_singleton, eq_iff_iff] using this
  have ma := (m a).mp (by simp); have mb := (m b).mp (by simp); have mc := (m c).mp (by simp); have md := (m d).mp (by simp)
  have na := (m a').mpr (by simp); have nd := (m d').mpr (by simp)
  omega

theorem uniq4 {n : ℕ} {S : Finset ℕ} (hS : S ⊆ Finset.range n) (h0 : 0 ∈ S) (h1 : 1 ∈ S) {a b k c l d a' b' k' c' l' d' : ℕ}
    (ha : a ∈ virL n S) (hb : b ∈ virL n S) (hk : k ∈ occL n S) (hc : c ∈ virL n S) (hl : l ∈ occL n S) (hd : d ∈ virL n S)
    (hab : a < b) (hjk : 1 < k) (hbc : b < c) (hkl : k < l) (hcd : c < d)
    (ha' : a' ∈ virL n S) (hb' : b' ∈ virL n S) (hk' : k' ∈ occL n S)
    (hc' : c' ∈ virL n S) (hl' : l' ∈ occL n S) (hd' : d' ∈ virL n S) (hab' : a' < b') (hjk' : 1 < k') (hbc' : b' < c') (hkl' : k' < l')
    (hcd' : c' < d')
    (h : some (ofSet n (repl S {l, k, 1, 0} {d, c, b, a})) = some (ofSet n (repl S {l', k', 1, 0} {d', c', b', a'}))) :
    (k = k' ∧ l = l') ∧ a = a' ∧ b = b' ∧ c = c' ∧ d = d' := by
  have o0 : 0 ∈ occL n S := mem_occL.mpr ⟨Finset.mem_range.mp (hS h0), h0⟩
  have o1 : 1 ∈ occL n S := mem_occL.mpr ⟨Finset.mem_range.mp (hS h1), h1⟩
  obtain ⟨e1, e2⟩ := some_repl_inj hS (by simpa using ⟨hl, hk, o1, o0⟩) (by simpa using ⟨hl', hk', o1, o0⟩)
    (by simpa using ⟨hd, hc, hb, ha⟩) (by simpa using ⟨hd', hc', hb', ha'⟩) h
  rw [rev4 0, rev4 0] at e1
  rw [rev4 a, rev4 a'] at e2
  exact ⟨(sorted4_inj (by omega) hjk hkl (by omega) hjk' hkl' e1).2.2, sorted4_inj hab hbc hcd hab' hbc' hcd' e2⟩

theorem nodup_qIn {n : ℕ} {S : Finset ℕ} (hS : S ⊆ Finset.range n) (h0 : 0 ∈ S) (h1 : 1 ∈ S) {a : ℕ} (ha : a ∈ virL n S) :
    (qIn n S 0 a 1).Nodup := by
  unfold qIn
  refine nodup_ite fun _ => nodup_flatMap' (nodup_virL n S) (fun b hb => nodup_ite fun hab => nodup_flatMap' (nodup_occL n S) (fun k hk =>
    nodup_ite fun hjk => nodup_flatMap' (nodup_virL n S) (fun c hc => nodup_ite fun hbc => nodup_flatMap' (nodup_occL n S) (fun l hl =>
    nodup_ite fun hkl => nodup_flatMap' (nodup_virL n S) (fun d hd => nodup_ite fun hcd => List.nodup_singleton _) ?_) ?_) ?_) ?_) ?_
  · intro d hd d' hd' y h h'
    simp only [List.mem_ite_nil_left, List.mem_singleton, not_le] at h h'
    exact (uniq4 hS h0 h1 ha hb hk hc hl hd (not_le.mp hab) (not_le.mp hjk) (not_le.mp hbc) (not_le.mp hkl) h.1 ha hb hk hc hl hd' (not_le.mp hab)
      (not_le.mp hjk) (not_le.mp hbc) (not_le.mp hkl) h'.1 (h.2.symm.trans h'.2)).2.2.2.2
  · intro l hl l' hl' y h h'
    simp only [List.mem_flatMap, List.mem_ite_nil_left, List.mem_singleton, not_le] at h h'
    obtain ⟨hkl, d, hd, hcd, h⟩ := h
    obtain ⟨hkl', d', hd', hcd', h'⟩ := h'
    exact (uniq4 hS h0 h1 ha hb hk hc hl hd (not_le.mp hab) (not_le.mp hjk) (not_le.mp hbc) hkl hcd ha hb hk hc hl' hd' (not_le.mp hab)
      (not_le.mp hjk) (not_le.mp hbc) hkl' hcd' (h.symm.trans h')).1.2
  · intro c hc c' hc' y h h'
    simp only [List.mem_flatMap, List.mem_ite_nil_left, List.mem_singleton, not_le] at h h'
    obtain ⟨hbc, l, hl, hkl, d, hd, hcd, h⟩ := h
    obtain ⟨hbc', l', hl', hkl', d', hd', hcd', h'⟩ := h'
    exact (uniq4 hS h0 h1 ha hb hk hc hl hd (not_le.mp hab) (not_le.mp hjk) hbc hkl hcd ha hb hk hc' hl' hd' (not_le.mp hab)
      (not_le.mp hjk) hbc' hkl' hcd' (h.symm.trans h')).2.2.2.1
  · intro k hk k' hk' y h h'
    simp only [List.mem_flatMap, List.mem_ite_nil_left, List.mem_singleton, not_le] at h h'
    obtain ⟨hjk, c, hc, hbc, l, hl, hkl, d, hd, hcd, h⟩ := h
    obtain ⟨hjk', c', hc', hbc', l', hl', hkl', d', hd', hcd', h'⟩ := h'
    exact (uniq4 hS h0 h1 ha hb hk hc hl hd (not_le.mp hab) hjk hbc hkl hcd ha hb hk' hc' hl' hd' (not_le.mp hab)
      hjk' hbc' hkl' hcd' (h.symm.trans h')).1.1
  · intro b hb b' hb' y h h'
    simp only [List.mem_flatMap, List.mem_ite_nil_left, List.mem_singleton, not_le] at h h'
    obtain ⟨hab, k, hk, hjk, c, hc, hbc, l, hl, hkl, d, hd, hcd, h⟩ := h
    obtain ⟨hab', k', hk', hjk', c', hc', hbc', l', hl', hkl', d', hd', hcd', h'⟩ := h'
    exact (uniq4 hS h0 h1 ha hb hk hc hl hd hab hjk hbc hkl hcd ha hb' hk' hc' hl' hd' hab'
      hjk' hbc' hkl' hcd' (h.symm.trans h')).2.2.1

theorem nodup_qM {n : ℕ} {S : Finset ℕ} (hS : S ⊆ Finset.range n) (h0 : 0 ∈ S) (h1 : 1 ∈ S) :
    ((virL n S).flatMap fun a => qIn n S 0 a 1).Nodup := by
  refine nodup_flatMap' (nodup_virL n S) (fun a ha => nodup_qIn hS h0 h1 ha) ?_
  intro a ha a' ha' y h h'
  obtain ⟨-, b, hb, hab, k, hk, hjk, c, hc, hbc, l, hl, hkl, d, hd, hcd, h⟩ := (mem_qIn y).mp h
  obtain ⟨-, b', hb', hab', k', hk', hjk', c', hc', hbc', l', hl', hkl', d', hd', hcd', h'⟩ := (mem_qIn y).mp h'
  exact (uniq4 hS h0 h1 ha hb hk hc hl hd hab hjk hbc hkl hcd ha' hb' hk' hc' hl' hd' hab'
      hjk' hbc' hkl' hcd' (h.symm.trans h')).2.1

/-- every entry of the list occurs equally often -/
theorem count_qL {n : ℕ} {S : Finset ℕ} (hS : S ⊆ Finset.range n) (h0 : 0 ∈ S) (h1 : 1 ∈ S) {x : Option Dstring} (hx : x ∈ qL n S) :
    (qL n S).count x = (n - S.card) * S.card := by
  have z : ∀ i a j, j ≤ i → (qIn n S i a j).count x = 0 := fun i a j h => by
    unfold qIn; rw [if_pos h]; rfl
  have e : (qL n S).count x = (n - S.card) * (S.card * ((virL n S).flatMap fun a => qIn n S 0 a 1).count x) := by
    unfold qL
    rw [List.count_flatMap, sum_valL n S hS]
    simp only [Function.comp]
    rw [List.count_flatMap, List.count_flatMap, List.count_flatMap]
    have e1 : ∀ a, ((valL n S).flatMap fun j => qIn n S 1 a j).count x = 0 := fun a => by
      rw [List.count_flatMap, sum_valL n S hS]
      simp only [Function.comp, z 1 a 0 (by omega), z 1 a 1 le_rfl, mul_zero, add_zero]
    have e0 : ∀ a, ((valL n S).flatMap fun j => qIn n S 0 a j).count x = S.card * (qIn n S 0 a 1).count x := fun a => by
      rw [List.count_flatMap, sum_valL n S hS]
      simp only [Function.comp, z 0 a 0 le_rfl, mul_zero, zero_add]
    simp only [Function.comp_def, e0, e1]
    rw [List.map_const', List.sum_replicate, smul_zero, mul_zero, add_zero, List.sum_map_mul_left]
  rw [e, List.count_eq_one_of_mem (nodup_qM hS h0 h1), mul_one]
  have : 0 < (qL n S).count x := List.count_pos_iff.mpr hx
  rw [e] at this
  exact List.count_pos_iff.mp (Nat.pos_of_ne_zero fun h => by rw [h] at this; simp at this)

/-- C34: how often `q_strings(n, m)` lists a determinant: `m (n - m)` times the quadruple excitations that empty the orbitals 0 and 1,
never anything else. -/
theorem C34_multiplicity {n m : ℕ} (h : m ≤ n) :
    ∃ L, q_strings n m = .ok L ∧ ∀ x, L.count x = (open Classical in
      if ∃ d, x = some d ∧ Excitation ⟨n, aufbau n m⟩ d 4 ∧ 0 ∉ supp d ∧ 1 ∉ supp d then m * (n - m) else 0) := by
  obtain ⟨L, hL, hm⟩ := C34_members n m
  refine ⟨L, hL, fun x => ?_⟩
  by_cases hx : x ∈ L
  · rw [if_pos ((hm x).mp hx)]
    have hS : Finset.range m ⊆ Finset.range n := Finset.range_subset_range.mpr h
    have e : q_strings n m = q_strings n m (some (bits n (Finset.range m))) := by
      have := aufbau_eq n m
      rw [min_eq_left h] at this
      rw [← this]; rfl
    rw [q_strings_bits n m hS fun k hk h => by rw [Finset.mem_range] at hk; simp only [Finset.mem_range]; omega, hL] at e
    have e := Except.ok.inj e
    subst e
    obtain ⟨d, -, hd, h0, h1⟩ := (hm x).mp hx
    have hc := hd.2.2.1
    rw [supp_aufbau, min_eq_left h] at hc
    have := Finset.card_le_card (Finset.sdiff_subset (s := Finset.range m) (t := supp d))
    rw [hc, Finset.card_range] at this
    rw [count_qL hS (by simp; omega) (by simp; omega) hx, Finset.card_range, mul_comm]
  · rw [if_neg fun h => hx ((hm x).mpr h), List.count_eq_zero_of_not_mem hx]

/-- four electrons in eight orbitals: the one quadruple excitation sixteen times -/
example : ∃ L, q_strings 8 4 = .ok L ∧ L.count (some ⟨8, [0, 0, 0, 0, 1, 1, 1, 1]⟩) = 16 := by
  obtain ⟨L, h, hc⟩ := C34_multiplicity (n := 8) (m := 4) (by norm_num)
  refine ⟨L, h, ?_⟩
  rw [hc, if_pos ⟨_, rfl, by unfold Excitation IsDet; decide +kernel, by decide +kernel, by decide +kernel⟩]

end CI
