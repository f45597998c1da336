import Verif.Props.CIBasis
/-!
# C34: `q_strings`; C33: the vibrational bases
-/
namespace CI
open Fock

/-! ## quadruple excitations -/

/-- the values of an occupation array, as the indices `q_strings` makes of them -/
def valL (n : ℕ) (S : Finset ℕ) : List ℕ := (List.range n).map fun i => if i ∈ S then 1 else 0

theorem toNat_bits (n : ℕ) (S : Finset ℕ) : (bits n S).map Int.toNat = valL n S := by
  unfold bits valL
  rw [List.map_map]
  refine List.map_congr_left fun i _ => ?_
  by_cases h : i ∈ S <;> simp [h]

theorem zero_mem_valL {n : ℕ} {S : Finset ℕ} : 0 ∈ valL n S ↔ ∃ a, a ∈ virL n S := by
  simp only [valL, List.mem_map, List.mem_range, mem_virL]
  refine exists_congr fun a => and_congr_right fun _ => ?_
  by_cases h : a ∈ S <;> simp [h]

theorem one_mem_valL {n : ℕ} {S : Finset ℕ} : 1 ∈ valL n S ↔ ∃ a, a ∈ occL n S := by
  simp only [valL, List.mem_map, List.mem_range, mem_occL]
  refine exists_congr fun a => and_congr_right fun _ => ?_
  by_cases h : a ∈ S <;> simp [h]

theorem mem_valL {n : ℕ} {S : Finset ℕ} {i : ℕ} (h : i ∈ valL n S) : i = 0 ∨ i = 1 := by
  simp only [valL, List.mem_map] at h
  obtain ⟨k, -, rfl⟩ := h
  split_ifs
  · exact Or.inr rfl
  · exact Or.inl rfl

def qIn (n : ℕ) (S : Finset ℕ) (i a j : ℕ) : List (Option Dstring) :=
  if j ≤ i then [] else (virL n S).flatMap fun b => if b ≤ a then [] else (occL n S).flatMap fun k =>
    if k ≤ j then [] else (virL n S).flatMap fun c => if c ≤ b then [] else (occL n S).flatMap fun l =>
      if l ≤ k then [] else (virL n S).flatMap fun d => if d ≤ c then [] else
        [some (ofSet n (repl S {l, k, j, i} {d, c, b, a}))]

def qL (n : ℕ) (S : Finset ℕ) : List (Option Dstring) :=
  (valL n S).flatMap fun i => (virL n S).flatMap fun a => (valL n S).flatMap fun j => qIn n S i a j

theorem q_strings_bits (n nocc : ℕ) {S : Finset ℕ} (hn : S ⊆ Finset.range n) (hS : ∀ k ∈ S, 1 < k → 0 ∈ S ∧ 1 ∈ S) :
    q_strings n nocc (some (bits n S)) = .ok (qL n S) := by
  unfold q_strings
  simp only [Option.getD_some, positions_bits, positions_virt, new_bits, bind, Except.bind, toNat_bits]
  refine collect_ok fun i hi => collect_ok fun a ha => collect_ok fun j hj => ?_
  unfold qIn
  by_cases hji : j ≤ i
  · rw [if_pos hji, if_pos hji]
  rw [if_neg hji, if_neg hji]
  refine collect_ok fun b hb => ?_
  by_cases hba : b ≤ a
  · rw [if_pos hba, if_pos hba]
  rw [if_neg hba, if_neg hba]
  refine collect_ok fun k hk => ?_
  by_cases hkj : k ≤ j
  · rw [if_pos hkj, if_pos hkj]
  rw [if_neg hkj, if_neg hkj]
  refine collect_ok fun c hc => ?_
  by_cases hcb : c ≤ b
  · rw [if_pos hcb, if_pos hcb]
  rw [if_neg hcb, if_neg hcb]
  refine collect_ok fun l hl => ?_
  by_cases hlk : l ≤ k
  · rw [if_pos hlk, if_pos hlk]
  rw [if_neg hlk, if_neg hlk]
  refine collect_ok fun d hd => ?_
  by_cases hdc : d ≤ c
  · rw [if_pos hdc, if_pos hdc]
  rw [if_neg hdc, if_neg hdc]
  have hi0 : i = 0 := by rcases mem_valL hi with h | h <;> rcases mem_valL hj with h' | h' <;> omega
  have hj1 : j = 1 := by rcases mem_valL hi with h | h <;> rcases mem_valL hj with h' | h' <;> omega
  subst hi0; subst hj1
  obtain ⟨h0, h1⟩ := hS k (mem_occL.mp hk).2 (not_le.mp hkj)
  have h0' : 0 ∈ occL n S := mem_occL.mpr ⟨Finset.mem_range.mp (hn h0), h0⟩
  have h1' : 1 ∈ occL n S := mem_occL.mpr ⟨Finset.mem_range.mp (hn h1), h1⟩
  obtain ⟨s, hs⟩ := exc1 (mem_occL.mp h0') (mem_virL.mp ha)
  obtain ⟨s', hs'⟩ := exc_step (I := {0}) (A := {a}) (mem_occL.mp h1') (mem_virL.mp hb) (by simp) (by simp; omega)
    (disj_vir (n := n) (by simpa using ha))
  obtain ⟨s'', hs''⟩ := exc_step (I := {1, 0}) (A := {b, a}) (mem_occL.mp hk) (mem_virL.mp hc) (by simp; omega)
    (by simp; omega) (disj_vir (n := n) (by simpa using ⟨hb, ha⟩))
  obtain ⟨s3, hs3⟩ := exc_step (I := {k, 1, 0}) (A := {c, b, a}) (mem_occL.mp hl) (mem_virL.mp hd) (by simp; omega)
    (by simp; omega) (disj_vir (n := n) (by simpa using ⟨hc, hb, ha⟩))
  simp only [hs, str, Option.map_some, exciteO, hs', hs'', hs3]; rfl

theorem rev4 (i j k l : ℕ) : ({l, k, j, i} : Finset ℕ) = {i, j, k, l} := by ext; simp; tauto

theorem mem_qIn {n : ℕ} {S : Finset ℕ} {i a j : ℕ} (x : Option Dstring) :
    x ∈ qIn n S i a j ↔ i < j ∧ ∃ b ∈ virL n S, a < b ∧ ∃ k ∈ occL n S, j < k ∧ ∃ c ∈ virL n S, b < c ∧ ∃ l ∈ occL n S,
      k < l ∧ ∃ d ∈ virL n S, c < d ∧ x = some (ofSet n (repl S {l, k, j, i} {d, c, b, a})) := by
  simp only [qIn, List.mem_flatMap, List.mem_ite_nil_left, List.mem_singleton, not_le]

theorem mem_qL {n : ℕ} {S : Finset ℕ} (hS : S ⊆ Finset.range n) (h0 : 0 ∈ S) (h1 : 1 ∈ S) (x : Option Dstring) :
    x ∈ qL n S ↔ ∃ d, x = some d ∧ Excitation (ofSet n S) d 4 ∧ 0 ∉ supp d ∧ 1 ∉ supp d := by
  simp only [qL, List.mem_flatMap, mem_qIn, excitation_iff hS]
  constructor
  · rintro ⟨i, hi, a, ha, j, hj, hij, b, hb, hab, k, hk, hjk, c, hc, hbc, l, hl, hkl, d, hd, hcd, rfl⟩
    have hi0 : i = 0 := by rcases mem_valL hi with h | h <;> rcases mem_valL hj with h' | h' <;> omega
    have hj1 : j = 1 := by rcases mem_valL hi with h | h <;> rcases mem_valL hj with h' | h' <;> omega
    subst hi0; subst hj1
    rw [mem_occL] at hk hl; rw [mem_virL] at ha hb hc hd
    have hA : ({d, c, b, a} : Finset ℕ) ⊆ Finset.range n := by
      intro x; simp only [Finset.mem_insert, Finset.mem_singleton, Finset.mem_range]; rintro (rfl | rfl | rfl | rfl)
      exacts [hd.1, hc.1, hb.1, ha.1]
    have hD : Disjoint S {d, c, b, a} := by
      rw [Finset.disjoint_right]; intro x; simp only [Finset.mem_insert, Finset.mem_singleton]
      rintro (rfl | rfl | rfl | rfl)
      exacts [hd.2, hc.2, hb.2, ha.2]
    refine ⟨_, rfl, ⟨{l, k, 1, 0}, {d, c, b, a}, ?_, hA, hD,
      card4.mpr ⟨0, 1, k, l, by omega, by omega, by omega, rev4 _ _ _ _⟩, card4.mpr ⟨a, b, c, d, hab, hbc, hcd, rev4 _ _ _ _⟩,
      rfl⟩, ?_, ?_⟩
    · intro x; simp only [Finset.mem_insert, Finset.mem_singleton]; rintro (rfl | rfl | rfl | rfl)
      exacts [hl.2, hk.2, h1, h0]
    · rw [supp_ofSet (repl_subset hS hA)]
      have : ∀ y, y ∉ S → y ≠ 0 := fun y hy h => hy (h ▸ h0)
      simp only [repl, Finset.mem_union, Finset.mem_sdiff, Finset.mem_insert, Finset.mem_singleton, or_true, not_true_eq_false,
        and_false, false_or, not_or]
      exact ⟨(this d hd.2).symm, (this c hc.2).symm, (this b hb.2).symm, (this a ha.2).symm⟩
    · rw [supp_ofSet (repl_subset hS hA)]
      have : ∀ y, y ∉ S → y ≠ 1 := fun y hy h => hy (h ▸ h1)
      simp only [repl, Finset.mem_union, Finset.mem_sdiff, Finset.mem_insert, Finset.mem_singleton, true_or, or_true,
        not_true_eq_false, and_false, false_or, not_or]
      exact ⟨(this d hd.2).symm, (this c hc.2).symm, (this b hb.2).symm, (this a ha.2).symm⟩
  · rintro ⟨d, rfl, ⟨I, A, hI, hA, hd, cI, cA, rfl⟩, n0, n1⟩
    rw [supp_ofSet (repl_subset hS hA)] at n0 n1
    have i0 : 0 ∈ I := by
      by_contra hh; exact n0 (Finset.mem_union_left _ (Finset.mem_sdiff.mpr ⟨h0, hh⟩))
    have i1 : 1 ∈ I := by
      by_contra hh; exact n1 (Finset.mem_union_left _ (Finset.mem_sdiff.mpr ⟨h1, hh⟩))
    obtain ⟨i, j, k, l, hij, hjk, hkl, rfl⟩ := card4.mp cI
    obtain ⟨a, b, c, d, hab, hbc, hcd, rfl⟩ := card4.mp cA
    have hi0 : i = 0 := by simp only [Finset.mem_insert, Finset.mem_singleton] at i0; omega
    have hj1 : j = 1 := by simp only [Finset.mem_insert, Finset.mem_singleton] at i1; omega
    subst hi0; subst hj1
    have o : ∀ x ∈ ({0, 1, k, l} : Finset ℕ), x ∈ occL n S := fun x hx => mem_occL.mpr ⟨Finset.mem_range.mp (hS (hI hx)), hI hx⟩
    have v : ∀ x ∈ ({a, b, c, d} : Finset ℕ), x ∈ virL n S :=
      fun x hx => mem_virL.mpr ⟨Finset.mem_range.mp (hA hx), Finset.disjoint_right.mp hd hx⟩
    refine ⟨0, zero_mem_valL.mpr ⟨a, v a (by simp)⟩, a, v a (by simp), 1, one_mem_valL.mpr ⟨0, o 0 (by simp)⟩, hij, b,
      v b (by simp), hab, k, o k (by simp), hjk, c, v c (by simp), hbc, l, o l (by simp), hkl, d, v d (by simp), hcd, ?_⟩
    rw [rev4 0, rev4 a]

/-- a list with a repeated element whose image is not empty gives a repetition -/
theorem not_nodup_flatMap {α β : Type} {l : List α} {f : α → List β} {x : α} {y : β} (hx : [x, x].Sublist l) (hy : y ∈ f x) :
    ¬ (l.flatMap f).Nodup := by
  intro h
  rw [List.nodup_flatMap] at h
  have := h.2.sublist hx
  simp only [List.pairwise_cons, List.mem_singleton, forall_eq] at this
  exact this.1 hy hy

theorem two_zeros {n : ℕ} {S : Finset ℕ} {a b : ℕ} (ha : a ∈ virL n S) (hb : b ∈ virL n S) (hab : a < b) :
    [0, 0].Sublist (valL n S) := by
  rw [mem_virL] at ha hb
  have h1 : [a, b].Sublist (List.range n) := by
    have : [a, b].Sublist (List.range n) ↔ _ := List.sublist_iff_exists_fin_orderEmbedding_get_eq
    rw [this]
    refine ⟨OrderEmbedding.ofStrictMono (fun i => ⟨if i.val = 0 then a else b, by split_ifs <;> simp <;> omega⟩) ?_, ?_⟩
    · intro i j hij
      have hi := i.2; have hj := j.2
      simp only [List.length_cons, List.length_nil] at hi hj
      rw [Fin.lt_def] at hij ⊢
      simp only
      split_ifs <;> omega
    · intro i
      have hi := i.2
      simp only [List.length_cons, List.length_nil] at hi
      obtain ⟨i, hi'⟩ := i
      interval_cases i <;> simp
  have := h1.map (fun i => if i ∈ S then 1 else 0)
  simpa [ha.2, hb.2, valL] using this

/-- C34: what `q_strings(n, nocc)` returns.  It never fails; every entry is a quadruple excitation of the reference, but only
those that empty the orbitals 0 and 1 are listed. -/
theorem C34_members (n nocc : ℕ) :
    ∃ L, q_strings n nocc = .ok L ∧ ∀ x, x ∈ L ↔
      ∃ d, x = some d ∧ Excitation ⟨n, aufbau n nocc⟩ d 4 ∧ 0 ∉ supp d ∧ 1 ∉ supp d := by
  have hS : Finset.range (min nocc n) ⊆ Finset.range n := Finset.range_subset_range.mpr (min_le_right _ _)
  have e : q_strings n nocc = q_strings n nocc (some (bits n (Finset.range (min nocc n)))) := by
    rw [← aufbau_eq]; rfl
  refine ⟨_, e.trans (q_strings_bits n nocc hS fun k hk h => ?_), fun x => ?_⟩
  · rw [Finset.mem_range] at hk; simp only [Finset.mem_range]; omega
  rw [aufbau_eq]
  by_cases h2 : 2 ≤ min nocc n
  · exact mem_qL hS (Finset.mem_range.mpr (by omega)) (Finset.mem_range.mpr (by omega)) x
  · have hE : ∀ d, ¬ Excitation ⟨n, bits n (Finset.range (min nocc n))⟩ d 4 := by
      rintro d ⟨-, -, h, -⟩
      have := Finset.card_le_card (Finset.sdiff_subset (s := supp ⟨n, bits n (Finset.range (min nocc n))⟩) (t := supp d))
      have e : supp ⟨n, bits n (Finset.range (min nocc n))⟩ = Finset.range (min nocc n) := supp_ofSet hS
      rw [h, e, Finset.card_range] at this; omega
    constructor
    · intro hx
      simp only [qL, List.mem_flatMap, mem_qIn] at hx
      obtain ⟨i, hi, a, ha, j, hj, hij, b, hb, hab, k, hk, hjk, -⟩ := hx
      rw [mem_occL, Finset.mem_range] at hk; omega
    · rintro ⟨d, -, h, -⟩; exact absurd h (hE d)

theorem exists_quad {n nocc : ℕ} (h4 : 4 ≤ nocc) (hn : nocc + 4 ≤ n) :
    ∃ d, Excitation ⟨n, aufbau n nocc⟩ d 4 ∧ 0 ∉ supp d ∧ 1 ∉ supp d := by
  have hS : Finset.range (min nocc n) ⊆ Finset.range n := Finset.range_subset_range.mpr (min_le_right _ _)
  have e : (⟨n, aufbau n nocc⟩ : Dstring) = ofSet n (Finset.range (min nocc n)) := by rw [aufbau_eq]; rfl
  have hm : min nocc n = nocc := by omega
  rw [e, hm]; rw [hm] at hS
  have hA : ({nocc, nocc + 1, nocc + 2, nocc + 3} : Finset ℕ) ⊆ Finset.range n := by
    intro x; simp only [Finset.mem_insert, Finset.mem_singleton, Finset.mem_range]; omega
  refine ⟨ofSet n (repl (Finset.range nocc) {0, 1, 2, 3} {nocc, nocc + 1, nocc + 2, nocc + 3}), ?_, ?_, ?_⟩
  · refine excitation_repl hS hA ?_ ?_ rfl (card4.mpr ⟨nocc, nocc + 1, nocc + 2, nocc + 3, by omega, by omega, by omega, rfl⟩)
    · intro x; simp only [Finset.mem_insert, Finset.mem_singleton, Finset.mem_range]; omega
    · rw [Finset.disjoint_left]; intro x
      simp only [Finset.mem_insert, Finset.mem_singleton, Finset.mem_range]; omega
  · rw [supp_ofSet (repl_subset hS hA)]
    simp only [repl, Finset.mem_union, Finset.mem_sdiff, Finset.mem_insert, Finset.mem_singleton, Finset.mem_range, true_or,
      not_true_eq_false, and_false, false_or]; omega
  · rw [supp_ofSet (repl_subset hS hA)]
    simp only [repl, Finset.mem_union, Finset.mem_sdiff, Finset.mem_insert, Finset.mem_singleton, Finset.mem_range, true_or,
      or_true, not_true_eq_false, and_false, false_or]; omega

/-- C34: with four or more electrons and four or more empty orbitals `q_strings` lists determinants more than once. -/
theorem C34_duplicates {n nocc : ℕ} (h4 : 4 ≤ nocc) (hn : nocc + 4 ≤ n) : ∃ L, q_strings n nocc = .ok L ∧ ¬ L.Nodup := by
  obtain ⟨L, hL, hm⟩ := C34_members n nocc
  refine ⟨L, hL, fun hnd => ?_⟩
  have hS : Finset.range (min nocc n) ⊆ Finset.range n := Finset.range_subset_range.mpr (min_le_right _ _)
  obtain ⟨d, hd⟩ := exists_quad h4 hn
  have hx := (hm (some d)).mpr ⟨d, rfl, hd⟩
  have e : q_strings n nocc = .ok (qL n (Finset.range (min nocc n))) := by
    have e : q_strings n nocc = q_strings n nocc (some (bits n (Finset.range (min nocc n)))) := by
      rw [← aufbau_eq]; rfl
    refine e.trans (q_strings_bits n nocc hS fun k hk h => ?_)
    rw [Finset.mem_range] at hk; simp only [Finset.mem_range]; omega
  rw [hL] at e
  have e := Except.ok.inj e
  subst e
  have hv : ∀ a, nocc ≤ a → a < n → a ∈ virL n (Finset.range (min nocc n)) := fun a h1 h2 => by
    rw [mem_virL, Finset.mem_range]; omega
  obtain ⟨i, hi, hx'⟩ := List.mem_flatMap.mp hx
  have hi0 : i = 0 := by
    rcases mem_valL hi with h | h
    · exact h
    · subst h
      obtain ⟨a, -, hx'⟩ := List.mem_flatMap.mp hx'
      obtain ⟨j, hj, hx'⟩ := List.mem_flatMap.mp hx'
      have := ((mem_qIn _).mp hx').1
      rcases mem_valL hj with h | h <;> omega
  subst hi0
  exact not_nodup_flatMap (two_zeros (hv nocc (by omega) (by omega)) (hv (nocc + 1) (by omega) (by omega)) (by omega)) hx' hnd

/-- C34 is false for the code: as soon as there are quadruple excitations at all, `q_strings` lists some of them more than
once.  It enumerates the quadruple excitations only when there are none. -/
theorem C34_refuted (n nocc : ℕ) :
    ∃ L, q_strings n nocc = .ok L ∧ (Enumerates L ⟨n, aufbau n nocc⟩ 4 ↔ nocc < 4 ∨ n < nocc + 4) := by
  obtain ⟨L, hL, hm⟩ := C34_members n nocc
  refine ⟨L, hL, ?_⟩
  have hS : Finset.range (min nocc n) ⊆ Finset.range n := Finset.range_subset_range.mpr (min_le_right _ _)
  constructor
  · intro h
    by_contra hc
    obtain ⟨L', hL', hd⟩ := C34_duplicates (n := n) (nocc := nocc) (by omega) (by omega)
    rw [hL] at hL'
    exact hd (Except.ok.inj hL' ▸ h.1)
  · intro hc
    have hE : ∀ d, ¬ Excitation ⟨n, aufbau n nocc⟩ d 4 := by
      rintro d ⟨-, hdn, h, h'⟩
      have h1 := Finset.card_le_card (Finset.sdiff_subset (s := supp ⟨n, aufbau n nocc⟩) (t := supp d))
      have h2 : supp d \ supp ⟨n, aufbau n nocc⟩ ⊆ Finset.range n \ supp ⟨n, aufbau n nocc⟩ :=
        Finset.sdiff_subset_sdiff (by have := supp_subset d; rwa [hdn] at this) subset_rfl
      have h3 := Finset.card_le_card h2
      rw [h'] at h3
      rw [h] at h1
      rw [supp_aufbau] at h1 h3
      rw [Finset.card_sdiff_of_subset hS, Finset.card_range, Finset.card_range] at h3
      rw [Finset.card_range] at h1
      omega
    have : L = [] := by
      rw [List.eq_nil_iff_forall_not_mem]
      intro x hx
      obtain ⟨d, -, h, -⟩ := (hm x).mp hx
      exact hE d h
    subst this
    exact ⟨List.nodup_nil, fun x => ⟨fun h => by simp at h, fun ⟨d, _, h⟩ => absurd h (hE d)⟩⟩

/-- C34: with five or more electrons the list is also incomplete. -/
theorem C34_incomplete {n nocc : ℕ} (h5 : 5 ≤ nocc) (hn : nocc + 4 ≤ n) :
    ∃ L d, q_strings n nocc = .ok L ∧ Excitation ⟨n, aufbau n nocc⟩ d 4 ∧ some d ∉ L := by
  obtain ⟨L, hL, hm⟩ := C34_members n nocc
  have hS : Finset.range (min nocc n) ⊆ Finset.range n := Finset.range_subset_range.mpr (min_le_right _ _)
  have e : (⟨n, aufbau n nocc⟩ : Dstring) = ofSet n (Finset.range (min nocc n)) := by rw [aufbau_eq]; rfl
  have hmin : min nocc n = nocc := by omega
  rw [hmin] at hS e
  have hA : ({nocc, nocc + 1, nocc + 2, nocc + 3} : Finset ℕ) ⊆ Finset.range n := by
    intro x; simp only [Finset.mem_insert, Finset.mem_singleton, Finset.mem_range]; omega
  refine ⟨L, ofSet n (repl (Finset.range nocc) {1, 2, 3, 4} {nocc, nocc + 1, nocc + 2, nocc + 3}), hL, ?_, fun h => ?_⟩
  · rw [e]
    refine excitation_repl hS hA ?_ ?_ rfl (card4.mpr ⟨nocc, nocc + 1, nocc + 2, nocc + 3, by omega, by omega, by omega, rfl⟩)
    · intro x; simp only [Finset.mem_insert, Finset.mem_singleton, Finset.mem_range]; omega
    · rw [Finset.disjoint_left]; intro x
      simp only [Finset.mem_insert, Finset.mem_singleton, Finset.mem_range]; omega
  · obtain ⟨d, hd, -, h0, -⟩ := (hm _).mp h
    simp only [Option.some.injEq] at hd
    rw [← hd, supp_ofSet (repl_subset hS hA)] at h0
    apply h0
    simp only [repl, Finset.mem_union, Finset.mem_sdiff, Finset.mem_insert, Finset.mem_singleton, Finset.mem_range]; omega

/-- C34, the part that holds: every entry of `q_strings` is a quadruple excitation of the reference, and with exactly four
electrons every one of them is listed.  Missing: without repetition, and completeness with five electrons or more
(`C34_refuted`, `C34_incomplete`). -/
theorem C34_sound_partial (n nocc : ℕ) :
    ∃ L, q_strings n nocc = .ok L ∧ (∀ x ∈ L, ∃ d, x = some d ∧ Excitation ⟨n, aufbau n nocc⟩ d 4) ∧
      (nocc ≤ 4 → ∀ d, Excitation ⟨n, aufbau n nocc⟩ d 4 → some d ∈ L) := by
  obtain ⟨L, hL, hm⟩ := C34_members n nocc
  refine ⟨L, hL, fun x hx => ?_, fun h4 d hd => (hm _).mpr ⟨d, rfl, hd, ?_⟩⟩
  · obtain ⟨d, h1, h2, -⟩ := (hm x).mp hx; exact ⟨d, h1, h2⟩
  · have hc := hd.2.2.1
    rw [supp_aufbau] at hc
    have h1 := Finset.card_le_card (Finset.sdiff_subset (s := Finset.range (min nocc n)) (t := supp d))
    rw [hc, Finset.card_range] at h1
    have hmin : min nocc n = 4 := by omega
    rw [hmin] at hc
    have h2 : Finset.range 4 \ supp d = Finset.range 4 :=
      Finset.eq_of_subset_of_card_le Finset.sdiff_subset (by rw [hc, Finset.card_range])
    constructor
    · have : 0 ∈ Finset.range 4 \ supp d := by rw [h2]; simp
      exact (Finset.mem_sdiff.mp this).2
    · have : 1 ∈ Finset.range 4 \ supp d := by rw [h2]; simp
      exact (Finset.mem_sdiff.mp this).2

/-- C34: with a reference in which orbital 0 is empty the call fails: `None` is asked to excite. -/
theorem C34_attribute_error : q_strings 9 4 (some [0, 1, 1, 1, 1, 0, 0, 0, 0]) = .error .attribute := by decide +kernel

/-- four electrons in eight orbitals: one quadruple excitation, listed sixteen times -/
example : q_strings 8 4 = .ok (List.replicate 16 (some ⟨8, [0, 0, 0, 0, 1, 1, 1, 1]⟩)) := by decide +kernel

end CI
