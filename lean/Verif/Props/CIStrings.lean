import Verif.Props.CIString
import Mathlib.Data.Finset.Sort
import Mathlib.Data.Finset.Powerset
import Mathlib.Data.Finset.Prod
import Mathlib.Data.Nat.Choose.Basic
import Mathlib.Data.List.Nodup
import Mathlib.Data.List.Lattice
/-!
# C32, C34: lists of excited strings
-/
namespace CI
open Fock

/-- `d` is a `k`-fold excitation of `ref`: a determinant over the same orbitals in which `k` orbitals of the reference are
empty and `k` others are filled. -/
def Excitation (ref d : Dstring) (k : ℕ) : Prop :=
  IsDet d ∧ d.n = ref.n ∧ (supp ref \ supp d).card = k ∧ (supp d \ supp ref).card = k

/-! ### loops -/

theorem collect_ok {α β : Type} {l : List α} {f : α → R (List β)} {g : α → List β} (h : ∀ x ∈ l, f x = .ok (g x)) :
    collect l f = .ok (l.flatMap g) := by
  induction l with
  | nil => rfl
  | cons x l ih =>
    simp only [collect, h x (List.mem_cons_self ..), ih fun y hy => h y (List.mem_cons_of_mem _ hy), bind, Except.bind,
      List.flatMap_cons]

theorem nodup_flatMap' {α β : Type} {l : List α} {f : α → List β} (hl : l.Nodup) (h1 : ∀ x ∈ l, (f x).Nodup)
    (h2 : ∀ x ∈ l, ∀ x' ∈ l, ∀ y, y ∈ f x → y ∈ f x' → x = x') : (l.flatMap f).Nodup := by
  rw [List.nodup_flatMap]
  refine ⟨h1, ?_⟩
  refine List.Pairwise.imp_of_mem ?_ hl
  intro x x' hx hx' hne y hy hy'
  exact hne (h2 x hx x' hx' y hy hy')

/-! ### occupied and empty orbitals -/

def occL (n : ℕ) (S : Finset ℕ) : List ℕ := (List.range n).filter (· ∈ S)
def virL (n : ℕ) (S : Finset ℕ) : List ℕ := (List.range n).filter (· ∉ S)

theorem mem_occL {n : ℕ} {S : Finset ℕ} {i : ℕ} : i ∈ occL n S ↔ i < n ∧ i ∈ S := by simp [occL]
theorem mem_virL {n : ℕ} {S : Finset ℕ} {i : ℕ} : i ∈ virL n S ↔ i < n ∧ i ∉ S := by simp [virL]
theorem nodup_occL (n : ℕ) (S : Finset ℕ) : (occL n S).Nodup := List.Nodup.filter _ List.nodup_range
theorem nodup_virL (n : ℕ) (S : Finset ℕ) : (virL n S).Nodup := List.Nodup.filter _ List.nodup_range

theorem positions_bits (n : ℕ) (S : Finset ℕ) : positions (bits n S) = occL n S := by
  unfold positions occL
  rw [length_bits]
  refine List.filter_congr fun i hi => ?_
  rw [getD_bits (List.mem_range.mp hi)]
  by_cases h : i ∈ S <;> simp [h]

theorem virt_bits (n : ℕ) (S : Finset ℕ) : virt (bits n S) = bits n (Finset.range n \ S) := by
  unfold virt bits
  rw [List.map_map]
  refine List.map_congr_left fun i hi => ?_
  have := List.mem_range.mp hi
  by_cases h : i ∈ S <;> simp [h, this]

theorem positions_virt (n : ℕ) (S : Finset ℕ) : positions (virt (bits n S)) = virL n S := by
  rw [virt_bits, positions_bits]
  unfold occL virL
  refine List.filter_congr fun i hi => ?_
  have := List.mem_range.mp hi
  by_cases h : i ∈ S <;> simp [h, this]

theorem aufbau_eq (n k : ℕ) : aufbau n k = bits n (Finset.range (min k n)) := by
  unfold aufbau bits
  refine List.map_congr_left fun i hi => ?_
  have := List.mem_range.mp hi
  by_cases h : i < k <;> simp [h, this]

/-! ### replacing orbitals -/

/-- `S` with `I` replaced by `A` -/
def repl (S I A : Finset ℕ) : Finset ℕ := (S \ I) ∪ A

theorem sdiff_repl {S I A : Finset ℕ} (hI : I ⊆ S) (hA : Disjoint S A) : S \ repl S I A = I ∧ repl S I A \ S = A := by
  rw [Finset.disjoint_left] at hA
  constructor
  · ext x; simp only [repl, Finset.mem_sdiff, Finset.mem_union]
    constructor
    · rintro ⟨h1, h2⟩; by_contra h; exact h2 (Or.inl ⟨h1, h⟩)
    · intro h; exact ⟨hI h, fun hh => hh.elim (fun h' => h'.2 h) (fun h' => hA (hI h) h')⟩
  · ext x; simp only [repl, Finset.mem_sdiff, Finset.mem_union]
    constructor
    · rintro ⟨h1 | h1, h2⟩
      · exact absurd h1.1 h2
      · exact h1
    · intro h; exact ⟨Or.inr h, fun hh => hA hh h⟩

theorem repl_sdiff (S T : Finset ℕ) : repl S (S \ T) (T \ S) = T := by
  ext x; simp only [repl, Finset.mem_sdiff, Finset.mem_union]; tauto

theorem repl_subset {n : ℕ} {S I A : Finset ℕ} (hS : S ⊆ Finset.range n) (hA : A ⊆ Finset.range n) :
    repl S I A ⊆ Finset.range n :=
  Finset.union_subset (Finset.sdiff_subset.trans hS) hA

theorem excitation_repl {n k : ℕ} {S I A : Finset ℕ} (hS : S ⊆ Finset.range n) (hA : A ⊆ Finset.range n) (hI : I ⊆ S)
    (hd : Disjoint S A) (cI : I.card = k) (cA : A.card = k) : Excitation (ofSet n S) (ofSet n (repl S I A)) k := by
  refine ⟨isDet_ofSet _ _, rfl, ?_, ?_⟩
  · rw [supp_ofSet hS, supp_ofSet (repl_subset hS hA), (sdiff_repl hI hd).1, cI]
  · rw [supp_ofSet hS, supp_ofSet (repl_subset hS hA), (sdiff_repl hI hd).2, cA]

theorem excitation_iff {n k : ℕ} {S : Finset ℕ} (hS : S ⊆ Finset.range n) (d : Dstring) :
    Excitation (ofSet n S) d k ↔
      ∃ I A : Finset ℕ, I ⊆ S ∧ A ⊆ Finset.range n ∧ Disjoint S A ∧ I.card = k ∧ A.card = k ∧ d = ofSet n (repl S I A) := by
  constructor
  · rintro ⟨h1, h2, h3, h4⟩
    rw [supp_ofSet hS] at h3 h4
    refine ⟨S \ supp d, supp d \ S, Finset.sdiff_subset, ?_, Finset.disjoint_sdiff, h3, h4, ?_⟩
    · exact Finset.sdiff_subset.trans ((supp_subset d).trans (by rw [h2]; exact subset_rfl))
    · rw [repl_sdiff]; change d.n = n at h2; rw [← h2, ofSet_supp h1]
  · rintro ⟨I, A, hI, hA, hd, cI, cA, rfl⟩
    exact excitation_repl hS hA hI hd cI cA

theorem repl_inj {n : ℕ} {S I A I' A' : Finset ℕ} (hS : S ⊆ Finset.range n) (hA : A ⊆ Finset.range n)
    (hA' : A' ⊆ Finset.range n) (hI : I ⊆ S) (hI' : I' ⊆ S) (hd : Disjoint S A) (hd' : Disjoint S A')
    (h : ofSet n (repl S I A) = ofSet n (repl S I' A')) : I = I' ∧ A = A' := by
  have e := ofSet_inj (repl_subset hS hA) (repl_subset hS hA') h
  constructor
  · rw [← (sdiff_repl hI hd).1, e, (sdiff_repl hI' hd').1]
  · rw [← (sdiff_repl hI hd).2, e, (sdiff_repl hI' hd').2]

/-! ### small sets in order -/

theorem card2 {I : Finset ℕ} : I.card = 2 ↔ ∃ i j, i < j ∧ I = {i, j} := by
  rw [Finset.card_eq_two]
  constructor
  · rintro ⟨x, y, h, rfl⟩
    rcases lt_or_gt_of_ne h with h | h
    · exact ⟨x, y, h, rfl⟩
    · exact ⟨y, x, h, Finset.pair_comm _ _⟩
  · rintro ⟨x, y, h, rfl⟩; exact ⟨x, y, h.ne, rfl⟩

theorem card3 {I : Finset ℕ} : I.card = 3 ↔ ∃ i j k, i < j ∧ j < k ∧ I = {i, j, k} := by
  constructor
  · intro h
    have hl : (I.sort (· ≤ ·)).length = 3 := by rw [Finset.length_sort, h]
    have hs := Finset.sortedLT_sort I
    have ht : (I.sort (· ≤ ·)).toFinset = I := Finset.sort_toFinset I _
    match hm : I.sort (· ≤ ·), hl, hs with
    | [x, y, z], _, hs =>
      rw [hm] at ht
      have := hs.pairwise
      simp only [List.pairwise_cons, List.mem_cons, List.not_mem_nil, or_false, forall_eq_or_imp, forall_eq] at this
      exact ⟨x, y, z, this.1.1, this.2.1, by rw [← ht]; simp⟩
  · rintro ⟨x, y, z, h1, h2, rfl⟩
    rw [Finset.card_eq_three]
    exact ⟨x, y, z, h1.ne, (h1.trans h2).ne, h2.ne, rfl⟩

theorem card4 {I : Finset ℕ} : I.card = 4 ↔ ∃ i j k l, i < j ∧ j < k ∧ k < l ∧ I = {i, j, k, l} := by
  constructor
  · intro h
    have hl : (I.sort (· ≤ ·)).length = 4 := by rw [Finset.length_sort, h]
    have hs := Finset.sortedLT_sort I
    have ht : (I.sort (· ≤ ·)).toFinset = I := Finset.sort_toFinset I _
    match hm : I.sort (· ≤ ·), hl, hs with
    | [x, y, z, w], _, hs =>
      rw [hm] at ht
      have := hs.pairwise
      simp only [List.pairwise_cons, List.mem_cons, List.not_mem_nil, or_false, forall_eq_or_imp, forall_eq] at this
      exact ⟨x, y, z, w, this.1.1, this.2.1.1, this.2.2.1, by rw [← ht]; simp⟩
  · rintro ⟨x, y, z, w, h1, h2, h3, rfl⟩
    rw [Finset.card_insert_of_notMem, Finset.card_eq_three.mpr ⟨y, z, w, h2.ne, (h2.trans h3).ne, h3.ne, rfl⟩]
    simp only [Finset.mem_insert, Finset.mem_singleton]; omega

theorem sorted2_inj {i j i' j' : ℕ} (h : i < j) (h' : i' < j') (e : ({i, j} : Finset ℕ) = {i', j'}) : i = i' ∧ j = j' := by
  have h1 := Finset.ext_iff.mp e i
  have h2 := Finset.ext_iff.mp e j
  have h3 := Finset.ext_iff.mp e i'
  simp only [Finset.mem_insert, Finset.mem_singleton, true_or, or_true, true_iff, iff_true] at h1 h2 h3
  omega

theorem sorted3_inj {i j k i' j' k' : ℕ} (h : i < j) (hh : j < k) (h' : i' < j') (hh' : j' < k')
    (e : ({i, j, k} : Finset ℕ) = {i', j', k'}) : i = i' ∧ j = j' ∧ k = k' := by
  have h1 := Finset.ext_iff.mp e i
  have h2 := Finset.ext_iff.mp e j
  have h3 := Finset.ext_iff.mp e k
  have h4 := Finset.ext_iff.mp e i'
  have h5 := Finset.ext_iff.mp e j'
  simp only [Finset.mem_insert, Finset.mem_singleton, true_or, or_true, true_iff, iff_true] at h1 h2 h3 h4 h5
  omega

/-! ### singles -/

theorem exc1 {n : ℕ} {S : Finset ℕ} {i a : ℕ} (hi : i < n ∧ i ∈ S) (ha : a < n ∧ a ∉ S) :
    ∃ s, (ofSet n S).excite i a = .ok (some (s, ofSet n (repl S {i} {a}))) := by
  refine ⟨(-1) ^ btw S i a, ?_⟩
  rw [excite_ofSet S hi.1 ha.1, if_pos ⟨hi.2, ha.2⟩]
  congr 4
  ext x; simp only [repl, Finset.mem_insert, Finset.mem_erase, Finset.mem_union, Finset.mem_sdiff, Finset.mem_singleton]; tauto

theorem exc_step {n : ℕ} {S I A : Finset ℕ} {j b : ℕ} (hj : j < n ∧ j ∈ S) (hb : b < n ∧ b ∉ S)
    (hI : j ∉ I) (hA : b ∉ A) (hd : Disjoint S A) :
    ∃ s, (ofSet n (repl S I A)).excite j b = .ok (some (s, ofSet n (repl S (insert j I) (insert b A)))) := by
  rw [Finset.disjoint_left] at hd
  refine ⟨(-1) ^ btw (repl S I A) j b, ?_⟩
  rw [excite_ofSet _ hj.1 hb.1, if_pos]
  · congr 4
    ext x
    simp only [repl, Finset.mem_insert, Finset.mem_erase, Finset.mem_union, Finset.mem_sdiff]
    have : x ∈ A → x ≠ j := fun h hh => hd hj.2 (hh ▸ h)
    tauto
  · simp only [repl, Finset.mem_union, Finset.mem_sdiff]
    exact ⟨Or.inl ⟨hj.2, hI⟩, fun h => h.elim (fun h => hb.2 h.1) hA⟩

theorem new_occ (d : Dstring) (h : IsDet d) : Dstring.new d.n d.occ = .ok d := by
  rw [Dstring.new, if_pos h.1]

def sL (n : ℕ) (S : Finset ℕ) : List (Option Dstring) :=
  (occL n S).flatMap fun i => (virL n S).flatMap fun a => [some (ofSet n (repl S {i} {a}))]

theorem s_strings_bits (n nocc : ℕ) (S : Finset ℕ) : s_strings n nocc (some (bits n S)) = .ok (sL n S) := by
  unfold s_strings
  simp only [Option.getD_some, positions_bits, positions_virt, new_bits, bind, Except.bind]
  refine collect_ok fun i hi => collect_ok fun a ha => ?_
  obtain ⟨s, hs⟩ := exc1 (mem_occL.mp hi) (mem_virL.mp ha)
  rw [hs]; rfl

def dL (n : ℕ) (S : Finset ℕ) : List (Option Dstring) :=
  (occL n S).flatMap fun i => (virL n S).flatMap fun a => (occL n S).flatMap fun j =>
    if j ≤ i then [] else (virL n S).flatMap fun b => if b ≤ a then [] else [some (ofSet n (repl S {j, i} {b, a}))]

theorem disj_vir {n : ℕ} {S A : Finset ℕ} (h : ∀ a ∈ A, a ∈ virL n S) : Disjoint S A := by
  rw [Finset.disjoint_left]; exact fun x hx hA => (mem_virL.mp (h x hA)).2 hx

theorem d_strings_bits (n nocc : ℕ) (S : Finset ℕ) :
    d_strings n nocc (some (bits n S)) = .ok (dL n S) := by
  unfold d_strings
  simp only [Option.getD_some, positions_bits, positions_virt, new_bits, bind, Except.bind]
  refine collect_ok fun i hi => collect_ok fun a ha => collect_ok fun j hj => ?_
  by_cases hji : j ≤ i
  · rw [if_pos hji, if_pos hji]
  rw [if_neg hji, if_neg hji]
  refine collect_ok fun b hb => ?_
  by_cases hba : b ≤ a
  · rw [if_pos hba, if_pos hba]
  rw [if_neg hba, if_neg hba]
  obtain ⟨s, hs⟩ := exc1 (mem_occL.mp hi) (mem_virL.mp ha)
  obtain ⟨s', hs'⟩ := exc_step (I := {i}) (A := {a}) (mem_occL.mp hj) (mem_virL.mp hb) (by simp; omega) (by simp; omega)
    (disj_vir (n := n) (by simpa using ha))
  simp only [hs, str, Option.map_some, exciteO, hs']; rfl

def tL (n : ℕ) (S : Finset ℕ) : List (Option Dstring) :=
  (occL n S).flatMap fun i => (virL n S).flatMap fun a => (occL n S).flatMap fun j =>
    if j ≤ i then [] else (virL n S).flatMap fun b => if b ≤ a then [] else (occL n S).flatMap fun k =>
      if k ≤ j then [] else (virL n S).flatMap fun c => if c ≤ b then [] else [some (ofSet n (repl S {k, j, i} {c, b, a}))]

theorem t_strings_bits (n nocc : ℕ) (S : Finset ℕ) :
    t_strings n nocc (some (bits n S)) = .ok (tL n S) := by
  unfold t_strings
  simp only [Option.getD_some, positions_bits, positions_virt, new_bits, bind, Except.bind]
  refine collect_ok fun i hi => collect_ok fun a ha => collect_ok fun j hj => ?_
  by_cases hji : j ≤ i
  · rw [if_pos hji, if_pos hji]
  rw [if_neg hji, if_neg hji]
  refine collect_ok fun b hb => ?_
  by_cases hba : b ≤ a
  · rw [if_pos hba, if_pos hba]
  rw [if_neg hba, if_neg hba]
  refine collect_ok fun k hk => ?_
  by_cases hkj : k ≤ j
  · rw [if_pos hkj, if_pos hkj]
  rw [if_neg hkj, if_neg hkj]
  refine collect_ok fun c hc => ?_
  by_cases hcb : c ≤ b
  · rw [if_pos hcb, if_pos hcb]
  rw [if_neg hcb, if_neg hcb]
  obtain ⟨s, hs⟩ := exc1 (mem_occL.mp hi) (mem_virL.mp ha)
  obtain ⟨s', hs'⟩ := exc_step (I := {i}) (A := {a}) (mem_occL.mp hj) (mem_virL.mp hb) (by simp; omega) (by simp; omega)
    (disj_vir (n := n) (by simpa using ha))
  obtain ⟨s'', hs''⟩ := exc_step (I := {j, i}) (A := {b, a}) (mem_occL.mp hk) (mem_virL.mp hc) (by simp; omega)
    (by simp; omega) (disj_vir (n := n) (by simpa using ⟨hb, ha⟩))
  simp only [hs, str, Option.map_some, exciteO, hs', hs'']; rfl

/-! ### the lists contain every excitation once -/

theorem mem_sL {n : ℕ} {S : Finset ℕ} (hS : S ⊆ Finset.range n) (x : Option Dstring) :
    x ∈ sL n S ↔ ∃ d, x = some d ∧ Excitation (ofSet n S) d 1 := by
  simp only [sL, List.mem_flatMap, List.mem_singleton, excitation_iff hS]
  constructor
  · rintro ⟨i, hi, a, ha, rfl⟩
    rw [mem_occL] at hi; rw [mem_virL] at ha
    exact ⟨_, rfl, {i}, {a}, by simpa using hi.2, by simpa using ha.1, by simpa using ha.2, rfl, rfl, rfl⟩
  · rintro ⟨d, rfl, I, A, hI, hA, hd, cI, cA, rfl⟩
    obtain ⟨i, rfl⟩ := Finset.card_eq_one.mp cI
    obtain ⟨a, rfl⟩ := Finset.card_eq_one.mp cA
    have hi : i ∈ S := by simpa using hI
    refine ⟨i, mem_occL.mpr ⟨Finset.mem_range.mp (hS hi), hi⟩, a, mem_virL.mpr ⟨by simpa using hA, by simpa using hd⟩, rfl⟩

theorem some_repl_inj {n : ℕ} {S I A I' A' : Finset ℕ} (hS : S ⊆ Finset.range n) (hI : ∀ x ∈ I, x ∈ occL n S)
    (hI' : ∀ x ∈ I', x ∈ occL n S) (hA : ∀ x ∈ A, x ∈ virL n S) (hA' : ∀ x ∈ A', x ∈ virL n S)
    (h : some (ofSet n (repl S I A)) = some (ofSet n (repl S I' A'))) : I = I' ∧ A = A' :=
  repl_inj hS (fun x hx => Finset.mem_range.mpr (mem_virL.mp (hA x hx)).1)
    (fun x hx => Finset.mem_range.mpr (mem_virL.mp (hA' x hx)).1) (fun x hx => (mem_occL.mp (hI x hx)).2)
    (fun x hx => (mem_occL.mp (hI' x hx)).2) (disj_vir hA) (disj_vir hA') (Option.some.inj h)

theorem nodup_sL {n : ℕ} {S : Finset ℕ} (hS : S ⊆ Finset.range n) : (sL n S).Nodup := by
  refine nodup_flatMap' (nodup_occL n S) (fun i hi => nodup_flatMap' (nodup_virL n S) (fun a ha => List.nodup_singleton _) ?_) ?_
  · intro a ha a' ha' y h h'
    rw [List.mem_singleton] at h h'
    have := some_repl_inj hS (by simpa using hi) (by simpa using hi) (by simpa using ha) (by simpa using ha') (h.symm.trans h')
    simpa using this.2
  · intro i hi i' hi' y h h'
    simp only [List.mem_flatMap, List.mem_singleton] at h h'
    obtain ⟨a, ha, h⟩ := h
    obtain ⟨a', ha', h'⟩ := h'
    have := some_repl_inj hS (by simpa using hi) (by simpa using hi') (by simpa using ha) (by simpa using ha') (h.symm.trans h')
    simpa using this.1

theorem mem_dL' {n : ℕ} {S : Finset ℕ} (x : Option Dstring) :
    x ∈ dL n S ↔ ∃ i ∈ occL n S, ∃ a ∈ virL n S, ∃ j ∈ occL n S, i < j ∧ ∃ b ∈ virL n S, a < b ∧
      x = some (ofSet n (repl S {j, i} {b, a})) := by
  simp only [dL, List.mem_flatMap, List.mem_ite_nil_left, List.mem_singleton, not_le]

theorem mem_dL {n : ℕ} {S : Finset ℕ} (hS : S ⊆ Finset.range n) (x : Option Dstring) :
    x ∈ dL n S ↔ ∃ d, x = some d ∧ Excitation (ofSet n S) d 2 := by
  simp only [mem_dL', excitation_iff hS]
  constructor
  · rintro ⟨i, hi, a, ha, j, hj, hij, b, hb, hab, rfl⟩
    rw [mem_occL] at hi hj; rw [mem_virL] at ha hb
    refine ⟨_, rfl, {j, i}, {b, a}, ?_, ?_, ?_, card2.mpr ⟨i, j, hij, Finset.pair_comm _ _⟩,
      card2.mpr ⟨a, b, hab, Finset.pair_comm _ _⟩, rfl⟩
    · intro x; simp only [Finset.mem_insert, Finset.mem_singleton]; rintro (rfl | rfl); exacts [hj.2, hi.2]
    · intro x; simp only [Finset.mem_insert, Finset.mem_singleton, Finset.mem_range]; rintro (rfl | rfl); exacts [hb.1, ha.1]
    · rw [Finset.disjoint_right]; intro x; simp only [Finset.mem_insert, Finset.mem_singleton]; rintro (rfl | rfl)
      exacts [hb.2, ha.2]
  · rintro ⟨d, rfl, I, A, hI, hA, hd, cI, cA, rfl⟩
    obtain ⟨i, j, hij, rfl⟩ := card2.mp cI
    obtain ⟨a, b, hab, rfl⟩ := card2.mp cA
    have o : ∀ x ∈ ({i, j} : Finset ℕ), x ∈ occL n S := fun x hx => mem_occL.mpr ⟨Finset.mem_range.mp (hS (hI hx)), hI hx⟩
    have v : ∀ x ∈ ({a, b} : Finset ℕ), x ∈ virL n S :=
      fun x hx => mem_virL.mpr ⟨Finset.mem_range.mp (hA hx), Finset.disjoint_right.mp hd hx⟩
    refine ⟨i, o i (by simp), a, v a (by simp), j, o j (by simp), hij, b, v b (by simp), hab, ?_⟩
    rw [Finset.pair_comm j i, Finset.pair_comm b a]

theorem nodup_ite {α : Type} {p : Prop} [Decidable p] {l : List α} (h : ¬ p → l.Nodup) : (if p then [] else l).Nodup := by
  split_ifs with hp
  · exact List.nodup_nil
  · exact h hp

theorem uniq2 {n : ℕ} {S : Finset ℕ} (hS : S ⊆ Finset.range n) {i a j b i' a' j' b' : ℕ}
    (hi : i ∈ occL n S) (ha : a ∈ virL n S) (hj : j ∈ occL n S) (hb : b ∈ virL n S) (hij : i < j) (hab : a < b)
    (hi' : i' ∈ occL n S) (ha' : a' ∈ virL n S) (hj' : j' ∈ occL n S) (hb' : b' ∈ virL n S) (hij' : i' < j') (hab' : a' < b')
    (h : some (ofSet n (repl S {j, i} {b, a})) = some (ofSet n (repl S {j', i'} {b', a'}))) :
    i = i' ∧ j = j' ∧ a = a' ∧ b = b' := by
  obtain ⟨h1, h2⟩ := some_repl_inj hS (by simpa using ⟨hj, hi⟩) (by simpa using ⟨hj', hi'⟩) (by simpa using ⟨hb, ha⟩)
    (by simpa using ⟨hb', ha'⟩) h
  rw [Finset.pair_comm j i, Finset.pair_comm j' i'] at h1
  rw [Finset.pair_comm b a, Finset.pair_comm b' a'] at h2
  have := sorted2_inj hij hij' h1
  have := sorted2_inj hab hab' h2
  tauto

theorem nodup_dL {n : ℕ} {S : Finset ℕ} (hS : S ⊆ Finset.range n) : (dL n S).Nodup := by
  refine nodup_flatMap' (nodup_occL n S) (fun i hi => nodup_flatMap' (nodup_virL n S) (fun a ha =>
    nodup_flatMap' (nodup_occL n S) (fun j hj => nodup_ite fun hij => nodup_flatMap' (nodup_virL n S) (fun b hb =>
    nodup_ite fun hab => List.nodup_singleton _) ?_) ?_) ?_) ?_
  · intro b hb b' hb' y h h'
    simp only [List.mem_ite_nil_left, List.mem_singleton, not_le] at h h'
    exact (uniq2 hS hi ha hj hb (not_le.mp hij) h.1 hi ha hj hb' (not_le.mp hij) h'.1 (h.2.symm.trans h'.2)).2.2.2
  · intro j hj j' hj' y h h'
    simp only [List.mem_flatMap, List.mem_ite_nil_left, List.mem_singleton, not_le] at h h'
    obtain ⟨hij, b, hb, hab, h⟩ := h
    obtain ⟨hij', b', hb', hab', h'⟩ := h'
    exact (uniq2 hS hi ha hj hb hij hab hi ha hj' hb' hij' hab' (h.symm.trans h')).2.1
  · intro a ha a' ha' y h h'
    simp only [List.mem_flatMap, List.mem_ite_nil_left, List.mem_singleton, not_le] at h h'
    obtain ⟨j, hj, hij, b, hb, hab, h⟩ := h
    obtain ⟨j', hj', hij', b', hb', hab', h'⟩ := h'
    exact (uniq2 hS hi ha hj hb hij hab hi ha' hj' hb' hij' hab' (h.symm.trans h')).2.2.1
  · intro i hi i' hi' y h h'
    simp only [List.mem_flatMap, List.mem_ite_nil_left, List.mem_singleton, not_le] at h h'
    obtain ⟨a, ha, j, hj, hij, b, hb, hab, h⟩ := h
    obtain ⟨a', ha', j', hj', hij', b', hb', hab', h'⟩ := h'
    exact (uniq2 hS hi ha hj hb hij hab hi' ha' hj' hb' hij' hab' (h.symm.trans h')).1

theorem rev3 (i j k : ℕ) : ({k, j, i} : Finset ℕ) = {i, j, k} := by ext; simp; tauto

theorem mem_tL {n : ℕ} {S : Finset ℕ} (hS : S ⊆ Finset.range n) (x : Option Dstring) :
    x ∈ tL n S ↔ ∃ d, x = some d ∧ Excitation (ofSet n S) d 3 := by
  simp only [tL, List.mem_flatMap, List.mem_ite_nil_left, List.mem_singleton, not_le, excitation_iff hS]
  constructor
  · rintro ⟨i, hi, a, ha, j, hj, hij, b, hb, hab, k, hk, hjk, c, hc, hbc, rfl⟩
    rw [mem_occL] at hi hj hk; rw [mem_virL] at ha hb hc
    refine ⟨_, rfl, {k, j, i}, {c, b, a}, ?_, ?_, ?_, card3.mpr ⟨i, j, k, hij, hjk, rev3 _ _ _⟩,
      card3.mpr ⟨a, b, c, hab, hbc, rev3 _ _ _⟩, rfl⟩
    · intro x; simp only [Finset.mem_insert, Finset.mem_singleton]; rintro (rfl | rfl | rfl); exacts [hk.2, hj.2, hi.2]
    · intro x; simp only [Finset.mem_insert, Finset.mem_singleton, Finset.mem_range]; rintro (rfl | rfl | rfl)
      exacts [hc.1, hb.1, ha.1]
    · rw [Finset.disjoint_right]; intro x; simp only [Finset.mem_insert, Finset.mem_singleton]; rintro (rfl | rfl | rfl)
      exacts [hc.2, hb.2, ha.2]
  · rintro ⟨d, rfl, I, A, hI, hA, hd, cI, cA, rfl⟩
    obtain ⟨i, j, k, hij, hjk, rfl⟩ := card3.mp cI
    obtain ⟨a, b, c, hab, hbc, rfl⟩ := card3.mp cA
    have o : ∀ x ∈ ({i, j, k} : Finset ℕ), x ∈ occL n S := fun x hx => mem_occL.mpr ⟨Finset.mem_range.mp (hS (hI hx)), hI hx⟩
    have v : ∀ x ∈ ({a, b, c} : Finset ℕ), x ∈ virL n S :=
      fun x hx => mem_virL.mpr ⟨Finset.mem_range.mp (hA hx), Finset.disjoint_right.mp hd hx⟩
    refine ⟨i, o i (by simp), a, v a (by simp), j, o j (by simp), hij, b, v b (by simp), hab, k, o k (by simp), hjk, c,
      v c (by simp), hbc, ?_⟩
    rw [rev3 i, rev3 a]

theorem uniq3 {n : ℕ} {S : Finset ℕ} (hS : S ⊆ Finset.range n) {i a j b k c i' a' j' b' k' c' : ℕ}
    (hi : i ∈ occL n S) (ha : a ∈ virL n S) (hj : j ∈ occL n S) (hb : b ∈ virL n S) (hk : k ∈ occL n S) (hc : c ∈ virL n S)
    (hij : i < j) (hab : a < b) (hjk : j < k) (hbc : b < c)
    (hi' : i' ∈ occL n S) (ha' : a' ∈ virL n S) (hj' : j' ∈ occL n S) (hb' : b' ∈ virL n S) (hk' : k' ∈ occL n S)
    (hc' : c' ∈ virL n S) (hij' : i' < j') (hab' : a' < b') (hjk' : j' < k') (hbc' : b' < c')
    (h : some (ofSet n (repl S {k, j, i} {c, b, a})) = some (ofSet n (repl S {k', j', i'} {c', b', a'}))) :
    (i = i' ∧ j = j' ∧ k = k') ∧ a = a' ∧ b = b' ∧ c = c' := by
  obtain ⟨h1, h2⟩ := some_repl_inj hS (by simpa using ⟨hk, hj, hi⟩) (by simpa using ⟨hk', hj', hi'⟩)
    (by simpa using ⟨hc, hb, ha⟩) (by simpa using ⟨hc', hb', ha'⟩) h
  rw [rev3 i, rev3 i'] at h1
  rw [rev3 a, rev3 a'] at h2
  exact ⟨sorted3_inj hij hjk hij' hjk' h1, sorted3_inj hab hbc hab' hbc' h2⟩

theorem nodup_tL {n : ℕ} {S : Finset ℕ} (hS : S ⊆ Finset.range n) : (tL n S).Nodup := by
  refine nodup_flatMap' (nodup_occL n S) (fun i hi => nodup_flatMap' (nodup_virL n S) (fun a ha =>
    nodup_flatMap' (nodup_occL n S) (fun j hj => nodup_ite fun hij => nodup_flatMap' (nodup_virL n S) (fun b hb =>
    nodup_ite fun hab => nodup_flatMap' (nodup_occL n S) (fun k hk => nodup_ite fun hjk => nodup_flatMap' (nodup_virL n S)
    (fun c hc => nodup_ite fun hbc => List.nodup_singleton _) ?_) ?_) ?_) ?_) ?_) ?_
  · intro c hc c' hc' y h h'
    simp only [List.mem_ite_nil_left, List.mem_singleton, not_le] at h h'
    exact (uniq3 hS hi ha hj hb hk hc (not_le.mp hij) (not_le.mp hab) (not_le.mp hjk) h.1 hi ha hj hb hk hc' (not_le.mp hij)
      (not_le.mp hab) (not_le.mp hjk) h'.1 (h.2.symm.trans h'.2)).2.2.2
  · intro k hk k' hk' y h h'
    simp only [List.mem_flatMap, List.mem_ite_nil_left, List.mem_singleton, not_le] at h h'
    obtain ⟨hjk, c, hc, hbc, h⟩ := h
    obtain ⟨hjk', c', hc', hbc', h'⟩ := h'
    exact (uniq3 hS hi ha hj hb hk hc (not_le.mp hij) (not_le.mp hab) hjk hbc hi ha hj hb hk' hc' (not_le.mp hij)
      (not_le.mp hab) hjk' hbc' (h.symm.trans h')).1.2.2
  · intro b hb b' hb' y h h'
    simp only [List.mem_flatMap, List.mem_ite_nil_left, List.mem_singleton, not_le] at h h'
    obtain ⟨hab, k, hk, hjk, c, hc, hbc, h⟩ := h
    obtain ⟨hab', k', hk', hjk', c', hc', hbc', h'⟩ := h'
    exact (uniq3 hS hi ha hj hb hk hc (not_le.mp hij) hab hjk hbc hi ha hj hb' hk' hc' (not_le.mp hij)
      hab' hjk' hbc' (h.symm.trans h')).2.2.1
  · intro j hj j' hj' y h h'
    simp only [List.mem_flatMap, List.mem_ite_nil_left, List.mem_singleton, not_le] at h h'
    obtain ⟨hij, b, hb, hab, k, hk, hjk, c, hc, hbc, h⟩ := h
    obtain ⟨hij', b', hb', hab', k', hk', hjk', c', hc', hbc', h'⟩ := h'
    exact (uniq3 hS hi ha hj hb hk hc hij hab hjk hbc hi ha hj' hb' hk' hc' hij'
      hab' hjk' hbc' (h.symm.trans h')).1.2.1
  · intro a ha a' ha' y h h'
    simp only [List.mem_flatMap, List.mem_ite_nil_left, List.mem_singleton, not_le] at h h'
    obtain ⟨j, hj, hij, b, hb, hab, k, hk, hjk, c, hc, hbc, h⟩ := h
    obtain ⟨j', hj', hij', b', hb', hab', k', hk', hjk', c', hc', hbc', h'⟩ := h'
    exact (uniq3 hS hi ha hj hb hk hc hij hab hjk hbc hi ha' hj' hb' hk' hc' hij'
      hab' hjk' hbc' (h.symm.trans h')).2.1
  · intro i hi i' hi' y h h'
    simp only [List.mem_flatMap, List.mem_ite_nil_left, List.mem_singleton, not_le] at h h'
    obtain ⟨a, ha, j, hj, hij, b, hb, hab, k, hk, hjk, c, hc, hbc, h⟩ := h
    obtain ⟨a', ha', j', hj', hij', b', hb', hab', k', hk', hjk', c', hc', hbc', h'⟩ := h'
    exact (uniq3 hS hi ha hj hb hk hc hij hab hjk hbc hi' ha' hj' hb' hk' hc' hij'
      hab' hjk' hbc' (h.symm.trans h')).1.1

/-- The list `L` holds every `k`-fold excitation of `ref` exactly once and nothing else. -/
def Enumerates (L : List (Option Dstring)) (ref : Dstring) (k : ℕ) : Prop :=
  L.Nodup ∧ ∀ x, x ∈ L ↔ ∃ d, x = some d ∧ Excitation ref d k

/-- C32: `s_strings` with an explicit reference lists every single excitation of it exactly once. -/
theorem C32_singles {ref : Dstring} (h : IsDet ref) (nocc : ℕ) :
    ∃ L, s_strings ref.n nocc (some ref.occ) = .ok L ∧ Enumerates L ref 1 := by
  have e := ofSet_supp h
  have hb : ref.occ = bits ref.n (supp ref) := (congrArg Dstring.occ e).symm
  refine ⟨_, by rw [hb]; exact s_strings_bits _ _ _, nodup_sL (supp_subset ref), fun x => ?_⟩
  rw [mem_sL (supp_subset ref), e]

/-- C32: `d_strings` with an explicit reference lists every double excitation of it exactly once. -/
theorem C32_doubles {ref : Dstring} (h : IsDet ref) (nocc : ℕ) :
    ∃ L, d_strings ref.n nocc (some ref.occ) = .ok L ∧ Enumerates L ref 2 := by
  have e := ofSet_supp h
  have hb : ref.occ = bits ref.n (supp ref) := (congrArg Dstring.occ e).symm
  refine ⟨_, by rw [hb]; exact d_strings_bits _ _ _, nodup_dL (supp_subset ref), fun x => ?_⟩
  rw [mem_dL (supp_subset ref), e]

/-- C32: `t_strings` with an explicit reference lists every triple excitation of it exactly once. -/
theorem C32_triples {ref : Dstring} (h : IsDet ref) (nocc : ℕ) :
    ∃ L, t_strings ref.n nocc (some ref.occ) = .ok L ∧ Enumerates L ref 3 := by
  have e := ofSet_supp h
  have hb : ref.occ = bits ref.n (supp ref) := (congrArg Dstring.occ e).symm
  refine ⟨_, by rw [hb]; exact t_strings_bits _ _ _, nodup_tL (supp_subset ref), fun x => ?_⟩
  rw [mem_tL (supp_subset ref), e]

theorem isDet_aufbau (n nocc : ℕ) : IsDet ⟨n, aufbau n nocc⟩ := by
  rw [aufbau_eq]; exact isDet_ofSet n _

/-- C32: without a reference the lowest `nocc` orbitals are occupied: every single, double and triple excitation of that
determinant is listed exactly once, for all `n` and `nocc`. -/
theorem C32_default (n nocc : ℕ) :
    (∃ L, s_strings n nocc = .ok L ∧ Enumerates L ⟨n, aufbau n nocc⟩ 1) ∧
    (∃ L, d_strings n nocc = .ok L ∧ Enumerates L ⟨n, aufbau n nocc⟩ 2) ∧
    (∃ L, t_strings n nocc = .ok L ∧ Enumerates L ⟨n, aufbau n nocc⟩ 3) :=
  ⟨C32_singles (isDet_aufbau n nocc) nocc, C32_doubles (isDet_aufbau n nocc) nocc, C32_triples (isDet_aufbau n nocc) nocc⟩

/-- the default reference holds the lowest orbitals -/
theorem supp_aufbau (n nocc : ℕ) : supp ⟨n, aufbau n nocc⟩ = Finset.range (min nocc n) := by
  rw [aufbau_eq]
  exact supp_ofSet (n := n) (Finset.range_subset_range.mpr (min_le_right _ _))

/-! ### counting -/

/-- C32: the number of strings is the product of two binomial coefficients. -/
theorem C32_count {ref : Dstring} {L : List (Option Dstring)} {k : ℕ} (h : IsDet ref) (hL : Enumerates L ref k) :
    L.length = (supp ref).card.choose k * (ref.n - (supp ref).card).choose k := by
  classical
  have hS := supp_subset ref
  have e := ofSet_supp h
  set S := supp ref with hSd
  set n := ref.n with hn
  let f : Finset ℕ × Finset ℕ → Option Dstring := fun p => some (ofSet n (repl S p.1 p.2))
  have e1 : L.toFinset = (Finset.powersetCard k S ×ˢ Finset.powersetCard k (Finset.range n \ S)).image f := by
    ext x
    rw [List.mem_toFinset, hL.2, Finset.mem_image]
    constructor
    · rintro ⟨d, rfl, hd⟩
      rw [← e, excitation_iff hS] at hd
      obtain ⟨I, A, hI, hA, hd, cI, cA, rfl⟩ := hd
      refine ⟨(I, A), ?_, rfl⟩
      rw [Finset.mem_product, Finset.mem_powersetCard, Finset.mem_powersetCard]
      exact ⟨⟨hI, cI⟩, Finset.subset_sdiff.mpr ⟨hA, hd.symm⟩, cA⟩
    · rintro ⟨⟨I, A⟩, hm, rfl⟩
      rw [Finset.mem_product, Finset.mem_powersetCard, Finset.mem_powersetCard] at hm
      obtain ⟨⟨hI, cI⟩, hA, cA⟩ := hm
      rw [Finset.subset_sdiff] at hA
      refine ⟨_, rfl, ?_⟩
      rw [← e, excitation_iff hS]
      exact ⟨I, A, hI, hA.1, hA.2.symm, cI, cA, rfl⟩
  rw [← List.toFinset_card_of_nodup hL.1, e1, Finset.card_image_of_injOn, Finset.card_product, Finset.card_powersetCard,
    Finset.card_powersetCard, Finset.card_sdiff_of_subset hS, Finset.card_range]
  rintro ⟨I, A⟩ h1 ⟨I', A'⟩ h2 hh
  simp only [Finset.coe_product, Set.mem_prod, Finset.mem_coe, Finset.mem_powersetCard, Finset.subset_sdiff] at h1 h2
  obtain ⟨a, b⟩ := repl_inj hS h1.2.1.1 h2.2.1.1 h1.1.1 h2.1.1 h1.2.1.2.symm h2.2.1.2.symm (Option.some.inj hh)
  rw [a, b]

theorem level_ofSet {n : ℕ} {S T : Finset ℕ} (hS : S ⊆ Finset.range n) (hT : T ⊆ Finset.range n) :
    level (ofSet n S) (ofSet n T) = ((S \ T).card + (T \ S).card : ℕ) := by
  have e : List.zipWith (fun o1 o2 : ℤ => |o1 - o2|) (bits n S) (bits n T) = bits n ((S \ T) ∪ (T \ S)) := by
    unfold bits
    rw [List.zipWith_map, List.zipWith_self]
    refine List.map_congr_left fun i _ => ?_
    by_cases h1 : i ∈ S <;> by_cases h2 : i ∈ T <;> simp [h1, h2]
  change (List.zipWith _ (bits n S) (bits n T)).sum = _
  rw [e, sum_bits, ← Finset.card_union_of_disjoint]
  · congr 2
    ext x
    simp only [Finset.mem_filter, and_iff_left_iff_imp, Finset.mem_union, Finset.mem_sdiff]
    rintro (h | h)
    · exact Finset.mem_range.mp (hS h.1)
    · exact Finset.mem_range.mp (hT h.1)
  · rw [Finset.disjoint_left]
    intro x h1 h2
    exact (Finset.mem_sdiff.mp h1).2 (Finset.mem_sdiff.mp h2).1

/-- C32: a string of `s_strings`, `d_strings` or `t_strings` is at distance `2k` from the reference, in the sense of the
code's own function `level`. -/
theorem C32_level {ref d : Dstring} {k : ℕ} (h : IsDet ref) (hd : Excitation ref d k) : level ref d = 2 * k := by
  obtain ⟨h1, h2, h3, h4⟩ := hd
  have a := level_ofSet (supp_subset ref) (h2 ▸ supp_subset d)
  rw [ofSet_supp h, h3, h4, ← h2, ofSet_supp h1] at a
  rw [a]; push_cast; ring

/-- the singles of two electrons in four orbitals, listed by the code -/
example : s_strings 4 2 = .ok [some ⟨4, [0, 1, 1, 0]⟩, some ⟨4, [0, 1, 0, 1]⟩, some ⟨4, [1, 0, 1, 0]⟩, some ⟨4, [1, 0, 0, 1]⟩] := by
  decide
example : Excitation ⟨4, [1, 1, 0, 0]⟩ ⟨4, [0, 1, 0, 1]⟩ 1 := ⟨by simp [IsDet], rfl, by decide, by decide⟩

end CI
