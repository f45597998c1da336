import Verif.Props.CIExp
/-!
# C37: `gmakeCfromT`, the missing term of `makeCfromT`, and errors
-/
set_option linter.unusedSectionVars false
set_option linter.unusedSimpArgs false
namespace CI
open Fock
variable {K : Type} [Field K] [CharZero K]

/-! ### the orbitals of the general reference -/

/-- The `i`-th occupied orbital of the general reference with `no` electrons in `nmo` spin orbitals. -/
def focc (nmo no i : ℕ) : ℕ := if i < no - no / 2 then i else nmo / 2 + (i - (no - no / 2))

/-- The `a`-th virtual orbital of the general reference. -/
def fvir (nmo no a : ℕ) : ℕ :=
  if a < nmo / 2 - (no - no / 2) then (no - no / 2) + a else nmo / 2 + no / 2 + (a - (nmo / 2 - (no - no / 2)))

/-- The occupied orbitals of the general reference: the lowest `no - no/2` orbitals of the first half, the lowest `no/2` of the
second half. -/
def gref (nmo no : ℕ) : Finset ℕ := Finset.range (no - no / 2) ∪ (Finset.range (no / 2)).image (nmo / 2 + ·)

theorem mem_gref {nmo no x : ℕ} : x ∈ gref nmo no ↔ x < no - no / 2 ∨ (nmo / 2 ≤ x ∧ x < nmo / 2 + no / 2) := by
  simp only [gref, Finset.mem_union, Finset.mem_range, Finset.mem_image]
  constructor
  · rintro (h | ⟨y, h, rfl⟩)
    · exact Or.inl h
    · right; omega
  · rintro (h | ⟨h1, h2⟩)
    · exact Or.inl h
    · exact Or.inr ⟨x - nmo / 2, by omega, by omega⟩

theorem filter_split (m p : ℕ) (P : ℕ → Bool) (h : p ≤ m) (h1 : ∀ i < p, P i = true) (h2 : ∀ i, p ≤ i → i < m → P i = false) :
    (List.range m).filter P = List.range p ∧ (List.range m).filter (fun i => !P i) = (List.range (m - p)).map (p + ·) := by
  have e : List.range m = List.range p ++ (List.range (m - p)).map (p + ·) := by
    rw [← List.range_add]; congr 1; omega
  constructor
  · rw [e, List.filter_append, List.filter_eq_self.mpr, List.filter_eq_nil_iff.mpr, List.append_nil]
    · intro x hx
      obtain ⟨y, hy, rfl⟩ := List.mem_map.mp hx
      rw [List.mem_range] at hy
      rw [h2 _ (by omega) (by omega)]; simp
    · intro x hx; exact h1 x (List.mem_range.mp hx)
  · rw [e, List.filter_append, List.filter_eq_nil_iff.mpr, List.filter_eq_self.mpr, List.nil_append]
    · intro x hx
      obtain ⟨y, hy, rfl⟩ := List.mem_map.mp hx
      rw [List.mem_range] at hy
      rw [h2 _ (by omega) (by omega)]; rfl
    · intro x hx; rw [h1 x (List.mem_range.mp hx)]; simp

theorem occL_gref {nmo no : ℕ} (h : nmo % 2 = 0) (hn : no ≤ nmo) :
    occL nmo (gref nmo no) = List.range (no - no / 2) ++ (List.range (no / 2)).map (nmo / 2 + ·) := by
  have e : List.range nmo = List.range (nmo / 2) ++ (List.range (nmo / 2)).map (nmo / 2 + ·) := by
    rw [← List.range_add]; congr 1; omega
  rw [occL, e, List.filter_append, List.filter_map]
  congr 1
  · exact (filter_split _ _ _ (by omega) (fun i hi => by simp [mem_gref]; omega) (fun i h1 h2 => by simp [mem_gref]; omega)).1
  · congr 1
    exact (filter_split _ _ _ (by omega) (fun i hi => by simp [mem_gref]; omega) (fun i h1 h2 => by simp [mem_gref]; omega)).1

theorem virL_gref {nmo no : ℕ} (h : nmo % 2 = 0) (hn : no ≤ nmo) :
    virL nmo (gref nmo no) = (List.range (nmo / 2 - (no - no / 2))).map ((no - no / 2) + ·)
      ++ ((List.range (nmo / 2 - no / 2)).map (no / 2 + ·)).map (nmo / 2 + ·) := by
  have e : List.range nmo = List.range (nmo / 2) ++ (List.range (nmo / 2)).map (nmo / 2 + ·) := by
    rw [← List.range_add]; congr 1; omega
  rw [virL, e, List.filter_append, List.filter_map]
  congr 1
  · rw [← (filter_split (nmo / 2) (no - no / 2) (fun i => decide (i ∈ gref nmo no)) (by omega) (fun i hi => by simp [mem_gref]; omega)
      (fun i h1 h2 => by simp [mem_gref]; omega)).2]
    refine List.filter_congr fun i _ => ?_
    simp
  · congr 1
    rw [← (filter_split (nmo / 2) (no / 2) (fun i => decide (nmo / 2 + i ∈ gref nmo no)) (by omega) (fun i hi => by simp [mem_gref]; omega)
      (fun i h1 h2 => by simp [mem_gref]; omega)).2]
    refine List.filter_congr fun i _ => ?_
    simp

section
variable {no nv : ℕ} (h : (no + nv) % 2 = 0)
include h

theorem length_occ : (occL (no + nv) (gref (no + nv) no)).length = no := by
  rw [occL_gref h (by omega)]; simp; omega

theorem length_vir : (virL (no + nv) (gref (no + nv) no)).length = nv := by
  rw [virL_gref h (by omega)]; simp; omega

theorem getD_occ {i : ℕ} (hi : i < no) : (occL (no + nv) (gref (no + nv) no)).getD i 0 = focc (no + nv) no i := by
  rw [occL_gref h (by omega), focc]
  by_cases hh : i < no - no / 2
  · rw [List.getD_append _ _ _ _ (by simpa using hh), if_pos hh]; simp [hh]
  · rw [List.getD_append_right _ _ _ _ (by simp; omega), if_neg hh, List.length_range]
    have : i - (no - no / 2) < no / 2 := by omega
    simp [this]

theorem getD_vir {a : ℕ} (ha : a < nv) : (virL (no + nv) (gref (no + nv) no)).getD a 0 = fvir (no + nv) no a := by
  rw [virL_gref h (by omega), fvir]
  by_cases hh : a < (no + nv) / 2 - (no - no / 2)
  · rw [List.getD_append _ _ _ _ (by simpa using hh), if_pos hh]; simp [hh]
  · rw [List.getD_append_right _ _ _ _ (by simp; omega), if_neg hh, List.length_map, List.length_range]
    have : a - ((no + nv) / 2 - (no - no / 2)) < (no + nv) / 2 - no / 2 := by omega
    simp [this, Nat.add_assoc]

theorem focc_mem {i : ℕ} (hi : i < no) : focc (no + nv) no i ∈ gref (no + nv) no := by
  rw [mem_gref, focc]; split_ifs <;> omega

theorem fvir_mem {a : ℕ} (ha : a < nv) : fvir (no + nv) no a ∉ gref (no + nv) no ∧ fvir (no + nv) no a < no + nv := by
  rw [mem_gref, fvir]; split_ifs <;> omega

theorem gref_sub : gref (no + nv) no ⊆ Finset.range (no + nv) := by
  intro x hx; rw [mem_gref] at hx; rw [Finset.mem_range]; omega

theorem gocc_ofSet : (⟨no + nv, gocc (no + nv) no⟩ : Dstring) = ofSet (no + nv) (gref (no + nv) no) := by
  have := ofSet_supp (isDet_gocc no h)
  rw [(C33_reference h (by omega : no ≤ no + nv)).2] at this
  exact this.symm

theorem gocc_bits : gocc (no + nv) no = bits (no + nv) (gref (no + nv) no) := congrArg Dstring.occ (gocc_ofSet h)

theorem clusterG_occ (T1 : ℕ → ℕ → K) {T2 : ℕ → ℕ → ℕ → ℕ → K} (hT : Anti no nv T2) :
    clusterG no nv (focc (no + nv) no) (fvir (no + nv) no) T1 T2 =
      oT1 (occL (no + nv) (gref (no + nv) no)) (virL (no + nv) (gref (no + nv) no)) T1
      + oT2 (occL (no + nv) (gref (no + nv) no)) (virL (no + nv) (gref (no + nv) no)) T2 := by
  refine clusterG_eq (length_occ h) (length_vir h) (fun i hi => getD_occ h hi) (fun a ha => getD_vir h ha) ?_ ?_ ?_ T1 hT
  · intro i hi j hj; unfold focc; split_ifs <;> omega
  · intro i hi j hj; unfold fvir; split_ifs <;> omega
  · intro i hi a ha e; exact (fvir_mem h ha).1 (e ▸ focc_mem h hi)
end

/-! ### bases -/

theorem gcis_head {nmo n : ℕ} (h : nmo % 2 = 0) {B : List (Option Dstring)} (hB : gcis_basis nmo n = .ok B) :
    ∃ t, B = some ⟨nmo, gocc nmo n⟩ :: t := by
  obtain ⟨s, hs, -⟩ := C32_singles (isDet_gocc n h) n
  simp only at hs
  unfold gcis_basis at hB
  simp only [new_gocc n h, hs, bind, Except.bind, pure, Except.pure, Except.ok.injEq, if_true] at hB
  exact ⟨_, hB.symm⟩

theorem gcisd_head {nmo n : ℕ} (h : nmo % 2 = 0) {B : List (Option Dstring)} (hB : gcisd_basis nmo n = .ok B) :
    ∃ t, B = some ⟨nmo, gocc nmo n⟩ :: t := by
  obtain ⟨s, hs, -⟩ := C32_singles (isDet_gocc n h) n
  obtain ⟨d, hd, -⟩ := C32_doubles (isDet_gocc n h) n
  simp only at hs hd
  unfold gcisd_basis at hB
  simp only [new_gocc n h, hs, hd, bind, Except.bind, pure, Except.pure, Except.ok.injEq] at hB
  exact ⟨_, hB.symm⟩

theorem gcisdt_head {nmo n : ℕ} (h : nmo % 2 = 0) {B : List (Option Dstring)} (hB : gcisdt_basis nmo n = .ok B) :
    ∃ t, B = some ⟨nmo, gocc nmo n⟩ :: t := by
  obtain ⟨s, hs, -⟩ := C32_singles (isDet_gocc n h) n
  obtain ⟨d, hd, -⟩ := C32_doubles (isDet_gocc n h) n
  obtain ⟨t, ht, -⟩ := C32_triples (isDet_gocc n h) n
  simp only at hs hd ht
  unfold gcisdt_basis at hB
  simp only [new_gocc n h, hs, hd, ht, bind, Except.bind, pure, Except.pure, Except.ok.injEq] at hB
  exact ⟨_, hB.symm⟩

theorem collect_nil {α β : Type} (l : List α) (f : α → R (List β)) (hf : ∀ x ∈ l, f x = .ok []) : collect l f = .ok [] := by
  have := collect_ok (l := l) (f := f) (g := fun _ => []) hf
  rw [this]; simp

/-- Without four occupied or without four virtual orbitals `q_strings` finds nothing. -/
theorem q_strings_nil {no nv : ℕ} (h : (no + nv) % 2 = 0) (h4 : no < 4 ∨ nv < 4) :
    q_strings (no + nv) no (some (gocc (no + nv) no)) = .ok [] := by
  rw [gocc_bits h]
  unfold q_strings
  simp only [Option.getD_some, positions_bits, positions_virt, new_bits, bind, Except.bind, toNat_bits]
  refine collect_nil _ _ fun i hi => collect_nil _ _ fun a ha => collect_nil _ _ fun j hj => ?_
  by_cases hji : j ≤ i
  · rw [if_pos hji]
  rw [if_neg hji]
  refine collect_nil _ _ fun b hb => ?_
  by_cases hba : b ≤ a
  · rw [if_pos hba]
  rw [if_neg hba]
  refine collect_nil _ _ fun k hk => ?_
  by_cases hkj : k ≤ j
  · rw [if_pos hkj]
  rw [if_neg hkj]
  refine collect_nil _ _ fun c hc => ?_
  by_cases hcb : c ≤ b
  · rw [if_pos hcb]
  rw [if_neg hcb]
  refine collect_nil _ _ fun l hl => ?_
  by_cases hlk : l ≤ k
  · rw [if_pos hlk]
  rw [if_neg hlk]
  refine collect_nil _ _ fun d hd => ?_
  by_cases hdc : d ≤ c
  · rw [if_pos hdc]
  exfalso
  have hj1 : j = 1 := by rcases mem_valL hi with h | h <;> rcases mem_valL hj with h' | h' <;> omega
  simp only [mem_occL, mem_virL, mem_gref] at hk hl ha hb hc hd
  rcases h4 with h4 | h4 <;> omega

theorem C33_gcisdtq {no nv : ℕ} (h : (no + nv) % 2 = 0) (h4 : no < 4 ∨ nv < 4) :
    ∃ B t, gcisdtq_basis (no + nv) no = .ok B ∧ EnumeratesG B ⟨no + nv, gocc (no + nv) no⟩ (fun k => k ≤ 4) ∧
      B = some ⟨no + nv, gocc (no + nv) no⟩ :: t := by
  obtain ⟨s, hs, es⟩ := C32_singles (isDet_gocc no h) no
  obtain ⟨d, hd, ed⟩ := C32_doubles (isDet_gocc no h) no
  obtain ⟨t, ht, et⟩ := C32_triples (isDet_gocc no h) no
  have er := enumerates_ref (isDet_gocc no h)
  simp only at hs hd ht
  unfold gcisdtq_basis
  simp only [new_gocc no h, hs, hd, ht, q_strings_nil h h4, bind, Except.bind, pure, Except.pure]
  have eq : Enumerates [] ⟨no + nv, gocc (no + nv) no⟩ 4 := by
    refine ⟨List.nodup_nil, fun x => ?_⟩
    simp only [List.not_mem_nil, false_iff]
    rintro ⟨d, -, h1, h2, h3, h4'⟩
    have hs := supp_subset d
    rw [h2] at hs
    rw [gocc_ofSet h, supp_ofSet (gref_sub h)] at h3 h4'
    have c1 : (gref (no + nv) no).card = no := by
      have := length_occ h
      rw [← List.toFinset_card_of_nodup (nodup_occL _ _)] at this
      refine Eq.trans (congrArg Finset.card ?_) this
      ext x
      simp only [List.mem_toFinset, mem_occL]
      exact ⟨fun hx => ⟨Finset.mem_range.mp (gref_sub h hx), hx⟩, fun hx => hx.2⟩
    have c2 : (gref (no + nv) no \ supp d).card ≤ no := (Finset.card_le_card Finset.sdiff_subset).trans c1.le
    have c3 : (supp d \ gref (no + nv) no).card ≤ nv := by
      have : supp d \ gref (no + nv) no ⊆ Finset.range (no + nv) \ gref (no + nv) no := Finset.sdiff_subset_sdiff hs (Finset.Subset.refl _)
      refine (Finset.card_le_card this).trans ?_
      rw [Finset.card_sdiff_of_subset (gref_sub h), c1, Finset.card_range]; omega
    omega
  exact ⟨_, _, rfl, ((((er.toG.append es (by omega)).append ed (by omega)).append et (by omega)).append eq (by omega)).congr
    fun k => by omega, rfl⟩

theorem EnumeratesG.full {no nv order : ℕ} (h : (no + nv) % 2 = 0) {B : List (Option Dstring)} {D : List Dstring}
    (he : EnumeratesG B (ofSet (no + nv) (gref (no + nv) no)) fun k => k ≤ order) (hB : Basis (no + nv) B D) :
    FullG (D.map supp) (gref (no + nv) no) (no + nv) order ∧
    ∀ S ∈ D.map supp, (S ∩ (Finset.range (no + nv) \ gref (no + nv) no)).card ≤ order := by
  constructor
  · intro A k hA hk
    have : some (ofSet (no + nv) A) ∈ B := (he.2 _).mpr ⟨_, k, rfl, excitation_level (gref_sub h) hA, hk⟩
    rw [hB.1] at this
    obtain ⟨d, hd, e⟩ := List.mem_map.mp this
    simp only [Option.some.injEq] at e
    refine List.mem_map.mpr ⟨d, hd, ?_⟩
    rw [e, supp_ofSet hA.1]
  · intro S hS
    obtain ⟨d, hd, rfl⟩ := List.mem_map.mp hS
    have : some d ∈ B := by rw [hB.1]; exact List.mem_map.mpr ⟨d, hd, rfl⟩
    obtain ⟨d', k, e, h1, h3⟩ := (he.2 _).mp this
    simp only [Option.some.injEq] at e
    have l1 := level_excitation (gref_sub h) h1
    rw [e]
    have : supp d' ∩ (Finset.range (no + nv) \ gref (no + nv) no) = supp d' \ gref (no + nv) no := by
      ext x; simp only [Finset.mem_inter, Finset.mem_sdiff]
      exact ⟨fun hx => ⟨hx.1, hx.2.2⟩, fun hx => ⟨hx.1, l1.1 hx.1, hx.2⟩⟩
    rw [this, l1.2.1]
    exact h3

theorem gmakeC_spec {no nv order : ℕ} (h : (no + nv) % 2 = 0) {B : List (Option Dstring)} {f : List K → R (List K)} {v w : Finset ℕ → K}
    (he : EnumeratesG B (ofSet (no + nv) (gref (no + nv) no)) fun k => k ≤ order)
    {t : List (Option Dstring)} (hh : B = some (ofSet (no + nv) (gref (no + nv) no)) :: t)
    (hf : ∀ D, Basis (no + nv) B D → FullG (D.map supp) (gref (no + nv) no) (no + nv) order → Adds (D.map supp) f v)
    (hw : ∀ S, (S ∩ (Finset.range (no + nv) \ gref (no + nv) no)).card ≤ order → w S = det (gref (no + nv) no) S + v S) :
    ∃ D, Basis (no + nv) B D ∧ f ((List.replicate B.length (0 : K)).set 0 1) = .ok (D.map fun d => w (supp d)) := by
  obtain ⟨D, hD⟩ := he.basis
  change Basis (no + nv) B D at hD
  refine ⟨D, hD, ?_⟩
  obtain ⟨hF, hcard⟩ := he.full h hD
  have hL : ∃ t', D.map supp = gref (no + nv) no :: t' := by
    have h1 := hD.1
    rw [hh] at h1
    cases D with
    | nil => simp at h1
    | cons d D' =>
      simp only [List.map_cons, List.cons.injEq, Option.some.injEq] at h1
      refine ⟨D'.map supp, ?_⟩
      rw [List.map_cons, ← h1.1, supp_ofSet (gref_sub h)]
  obtain ⟨t', ht'⟩ := hL
  have hlen : B.length = (D.map supp).length := by rw [hD.1]; simp
  rw [init_tab hD.nodup ht' hlen, hf D hD hF]
  congr 1
  rw [tab]
  apply List.ext_getElem
  · simp
  · intro k h1 h2
    simp only [List.length_map, List.length_range] at h1
    rw [List.getElem_map, List.getElem_map, List.getElem_range]
    have e : (D.map supp).getD k ∅ = supp D[k] := by simp [h1]
    rw [e, hw]
    exact hcard _ (List.mem_map.mpr ⟨_, List.getElem_mem h1, rfl⟩)

theorem gmakeC_stages {no nv order : ℕ} (h : (no + nv) % 2 = 0) (ho : 1 ≤ order) (T1 : ℕ → ℕ → K) (T2 : ℕ → ℕ → ℕ → ℕ → K)
    {B : List (Option Dstring)}
    (hB : (if order = 1 then gcis_basis (no + nv) no
      else if order = 2 then gcisd_basis (no + nv) no
      else if order = 3 then gcisdt_basis (no + nv) no
      else if order = 4 then gcisdtq_basis (no + nv) no
      else throw .exception : R (List (Option Dstring))) = .ok B) (hpos : 0 < B.length) :
    gmakeCfromT no nv T1 T2 order (some (gocc (no + nv) no)) =
      stagesG B (ofSet (no + nv) (gref (no + nv) no)) (occL (no + nv) (gref (no + nv) no)) (virL (no + nv) (gref (no + nv) no)) T1 T2
        order ((List.replicate B.length (0 : K)).set 0 1) := by
  have h2 : ¬ (order < 1) := by omega
  unfold gmakeCfromT
  rw [gocc_bits h]
  simp only [if_neg h2, pure_bind, hB, ok_bind', Option.getD_some, new_bits, positions_bits, positions_virt, List.length_replicate,
    if_pos hpos]
  rfl

section
variable {no nv : ℕ} (h : (no + nv) % 2 = 0) (T1 : ℕ → ℕ → K) {T2 : ℕ → ℕ → ℕ → ℕ → K}
include h

/-- C37: `gmakeCfromT` with `order = 1`, given the occupation of the reference of `gcis_basis`, returns the coefficients of
`exp(T1 + T2)` applied to that reference, on that basis. -/
theorem C37_gmakeCfromT_1 (hT : Anti no nv T2) :
    ∃ B D, gcis_basis (no + nv) no = .ok B ∧ Basis (no + nv) B D ∧
      gmakeCfromT no nv T1 T2 1 (some (gocc (no + nv) no)) = .ok (D.map fun d =>
        IsNilpotent.exp (clusterG no nv (focc (no + nv) no) (fvir (no + nv) no) T1 T2) (det (gref (no + nv) no)) (supp d)) := by
  obtain ⟨B, hB, he⟩ := C33_gcis no true h
  obtain ⟨t, ht⟩ := gcis_head h hB
  rw [gocc_ofSet h] at he ht
  have he := he.congr (Q := fun k => k ≤ 1) fun k => by simp
  have hpos : 0 < B.length := by rw [ht]; simp
  rw [clusterG_occ h T1 hT, gmakeC_stages h (by omega) T1 T2 (B := B) (by rw [if_pos rfl]; exact hB) hpos]
  have ho : ∀ i, i < (occL (no + nv) (gref (no + nv) no)).length → (occL (no + nv) (gref (no + nv) no)).getD i 0 ∈ gref (no + nv) no :=
    fun i hi => by rw [length_occ h] at hi; rw [getD_occ h hi]; exact focc_mem h hi
  have hv : ∀ a, a < (virL (no + nv) (gref (no + nv) no)).length → (virL (no + nv) (gref (no + nv) no)).getD a 0 ∉ gref (no + nv) no :=
    fun a ha => by rw [length_vir h] at ha; rw [getD_vir h ha]; exact (fvir_mem h ha).1
  have hn : ∀ a, a < (virL (no + nv) (gref (no + nv) no)).length → (virL (no + nv) (gref (no + nv) no)).getD a 0 < no + nv :=
    fun a ha => by rw [length_vir h] at ha; rw [getD_vir h ha]; exact (fvir_mem h ha).2
  have ho2 : ∀ i, i < (occL (no + nv) (gref (no + nv) no)).length →
      (occL (no + nv) (gref (no + nv) no)).getD i 0 ∉ Finset.range (no + nv) \ gref (no + nv) no :=
    fun i hi => by simp [-List.getD_eq_getElem?_getD, ho i hi]
  have hv2 : ∀ a, a < (virL (no + nv) (gref (no + nv) no)).length →
      (virL (no + nv) (gref (no + nv) no)).getD a 0 ∈ Finset.range (no + nv) \ gref (no + nv) no :=
    fun a ha => by simp [-List.getD_eq_getElem?_getD, hv a ha, hn a ha]
  have e1 := exc_oT1 ho2 hv2 T1
  have e2 := exc_oT2 ho2 hv2 T2
  have r1 := raises_oT1 ho2 hv2 T1
  have r2 := raises_oT2 ho2 hv2 T2
  set R := gref (no + nv) no with hR
  set X1 := oT1 (occL (no + nv) R) (virL (no + nv) R) T1 with hX1
  set X2 := oT2 (occL (no + nv) R) (virL (no + nv) R) T2 with hX2
  have := gmakeC_spec (K := K) h (v :=
        X1 (det R) + 0) he ht (f := stagesG B (ofSet (no + nv) R) (occL (no + nv) R) (virL (no + nv) R) T1 T2 1)
      (w := IsNilpotent.exp (X1 + X2) (det R))
    (fun D hD hF => by
      unfold stagesG
      simp only [show ¬ (1 ≥ 2) by omega, show ¬ (1 ≥ 3) by omega, show ¬ (1 ≥ 4) by omega, if_true, if_false, bind_assoc, pure_bind]
      refine Adds.seq (add_g_T1 hD.locates hF (gref_sub h) ho hv hn T1 T2 (by omega)) ?_
      exact Adds.ok)
    (fun S hS => by
      rw [exp_one r1 r2 _ hS]
      have sw : ∀ φ, X2 (X1 φ) = X1 (X2 φ) := fun φ => e2.comm_apply e1 φ
      simp only [LinearMap.add_apply, LinearMap.smul_apply, Module.End.mul_apply, map_add, map_smul, sw]
      simp only [LinearMap.add_apply, Module.End.one_apply, Pi.add_apply, Pi.zero_apply, Pi.smul_apply, smul_eq_mul]
      ring)
  obtain ⟨D, h1, h2⟩ := this
  exact ⟨B, D, hB, h1, h2⟩

/-- C37: `gmakeCfromT` with `order = 2`, given the occupation of the reference of `gcisd_basis`, returns the coefficients of
`exp(T1 + T2)` applied to that reference, on that basis. -/
theorem C37_gmakeCfromT_2 (hT : Anti no nv T2) :
    ∃ B D, gcisd_basis (no + nv) no = .ok B ∧ Basis (no + nv) B D ∧
      gmakeCfromT no nv T1 T2 2 (some (gocc (no + nv) no)) = .ok (D.map fun d =>
        IsNilpotent.exp (clusterG no nv (focc (no + nv) no) (fvir (no + nv) no) T1 T2) (det (gref (no + nv) no)) (supp d)) := by
  obtain ⟨B, hB, he⟩ := C33_gcisd no h
  obtain ⟨t, ht⟩ := gcisd_head h hB
  rw [gocc_ofSet h] at he ht

  have hpos : 0 < B.length := by rw [ht]; simp
  rw [clusterG_occ h T1 hT, gmakeC_stages h (by omega) T1 T2 (B := B) (by rw [if_neg (by omega), if_pos rfl]; exact hB) hpos]
  have ho : ∀ i, i < (occL (no + nv) (gref (no + nv) no)).length → (occL (no + nv) (gref (no + nv) no)).getD i 0 ∈ gref (no + nv) no :=
    fun i hi => by rw [length_occ h] at hi; rw [getD_occ h hi]; exact focc_mem h hi
  have hv : ∀ a, a < (virL (no + nv) (gref (no + nv) no)).length → (virL (no + nv) (gref (no + nv) no)).getD a 0 ∉ gref (no + nv) no :=
    fun a ha => by rw [length_vir h] at ha; rw [getD_vir h ha]; exact (fvir_mem h ha).1
  have hn : ∀ a, a < (virL (no + nv) (gref (no + nv) no)).length → (virL (no + nv) (gref (no + nv) no)).getD a 0 < no + nv :=
    fun a ha => by rw [length_vir h] at ha; rw [getD_vir h ha]; exact (fvir_mem h ha).2
  have ho2 : ∀ i, i < (occL (no + nv) (gref (no + nv) no)).length →
      (occL (no + nv) (gref (no + nv) no)).getD i 0 ∉ Finset.range (no + nv) \ gref (no + nv) no :=
    fun i hi => by simp [-List.getD_eq_getElem?_getD, ho i hi]
  have hv2 : ∀ a, a < (virL (no + nv) (gref (no + nv) no)).length →
      (virL (no + nv) (gref (no + nv) no)).getD a 0 ∈ Finset.range (no + nv) \ gref (no + nv) no :=
    fun a ha => by simp [-List.getD_eq_getElem?_getD, hv a ha, hn a ha]
  have e1 := exc_oT1 ho2 hv2 T1
  have e2 := exc_oT2 ho2 hv2 T2
  have r1 := raises_oT1 ho2 hv2 T1
  have r2 := raises_oT2 ho2 hv2 T2
  set R := gref (no + nv) no with hR
  set X1 := oT1 (occL (no + nv) R) (virL (no + nv) R) T1 with hX1
  set X2 := oT2 (occL (no + nv) R) (virL (no + nv) R) T2 with hX2
  have := gmakeC_spec (K := K) h (v :=
        X1 (det R) +
        (X2 (det R) +
        ((1 / 2 : K) • X1 (X1 (det R)) + 0))) he ht (f := stagesG B (ofSet (no + nv) R) (occL (no + nv) R) (virL (no + nv) R) T1 T2 2)
      (w := IsNilpotent.exp (X1 + X2) (det R))
    (fun D hD hF => by
      unfold stagesG
      simp only [show 2 ≥ 2 by omega, show ¬ (2 ≥ 3) by omega, show ¬ (2 ≥ 4) by omega, if_true, if_false, bind_assoc, pure_bind]
      refine Adds.seq (add_g_T1 hD.locates hF (gref_sub h) ho hv hn T1 T2 (by omega)) ?_
      refine Adds.seq (add_g_T2 hD.locates hF (gref_sub h) ho hv hn T1 T2 (by omega)) ?_
      refine Adds.seq (add_g_T1_T1 hD.locates hF (gref_sub h) ho hv hn T1 T2 (by omega)) ?_
      exact Adds.ok)
    (fun S hS => by
      rw [exp_two r1 r2 (e1.comm e2) _ hS]
      have sw : ∀ φ, X2 (X1 φ) = X1 (X2 φ) := fun φ => e2.comm_apply e1 φ
      simp only [LinearMap.add_apply, LinearMap.smul_apply, Module.End.mul_apply, map_add, map_smul, sw]
      simp only [LinearMap.add_apply, Module.End.one_apply, Pi.add_apply, Pi.zero_apply, Pi.smul_apply, smul_eq_mul]
      ring)
  obtain ⟨D, h1, h2⟩ := this
  exact ⟨B, D, hB, h1, h2⟩

/-- C37: `gmakeCfromT` with `order = 3`, given the occupation of the reference of `gcisdt_basis`, returns the coefficients of
`exp(T1 + T2)` applied to that reference, on that basis. -/
theorem C37_gmakeCfromT_3 (hT : Anti no nv T2) :
    ∃ B D, gcisdt_basis (no + nv) no = .ok B ∧ Basis (no + nv) B D ∧
      gmakeCfromT no nv T1 T2 3 (some (gocc (no + nv) no)) = .ok (D.map fun d =>
        IsNilpotent.exp (clusterG no nv (focc (no + nv) no) (fvir (no + nv) no) T1 T2) (det (gref (no + nv) no)) (supp d)) := by
  obtain ⟨B, hB, he⟩ := C33_gcisdt no h
  obtain ⟨t, ht⟩ := gcisdt_head h hB
  rw [gocc_ofSet h] at he ht

  have hpos : 0 < B.length := by rw [ht]; simp
  rw [clusterG_occ h T1 hT, gmakeC_stages h (by omega) T1 T2 (B := B) (by rw [if_neg (by omega), if_neg (by omega), if_pos rfl]; exact hB) hpos]
  have ho : ∀ i, i < (occL (no + nv) (gref (no + nv) no)).length → (occL (no + nv) (gref (no + nv) no)).getD i 0 ∈ gref (no + nv) no :=
    fun i hi => by rw [length_occ h] at hi; rw [getD_occ h hi]; exact focc_mem h hi
  have hv : ∀ a, a < (virL (no + nv) (gref (no + nv) no)).length → (virL (no + nv) (gref (no + nv) no)).getD a 0 ∉ gref (no + nv) no :=
    fun a ha => by rw [length_vir h] at ha; rw [getD_vir h ha]; exact (fvir_mem h ha).1
  have hn : ∀ a, a < (virL (no + nv) (gref (no + nv) no)).length → (virL (no + nv) (gref (no + nv) no)).getD a 0 < no + nv :=
    fun a ha => by rw [length_vir h] at ha; rw [getD_vir h ha]; exact (fvir_mem h ha).2
  have ho2 : ∀ i, i < (occL (no + nv) (gref (no + nv) no)).length →
      (occL (no + nv) (gref (no + nv) no)).getD i 0 ∉ Finset.range (no + nv) \ gref (no + nv) no :=
    fun i hi => by simp [-List.getD_eq_getElem?_getD, ho i hi]
  have hv2 : ∀ a, a < (virL (no + nv) (gref (no + nv) no)).length →
      (virL (no + nv) (gref (no + nv) no)).getD a 0 ∈ Finset.range (no + nv) \ gref (no + nv) no :=
    fun a ha => by simp [-List.getD_eq_getElem?_getD, hv a ha, hn a ha]
  have e1 := exc_oT1 ho2 hv2 T1
  have e2 := exc_oT2 ho2 hv2 T2
  have r1 := raises_oT1 ho2 hv2 T1
  have r2 := raises_oT2 ho2 hv2 T2
  set R := gref (no + nv) no with hR
  set X1 := oT1 (occL (no + nv) R) (virL (no + nv) R) T1 with hX1
  set X2 := oT2 (occL (no + nv) R) (virL (no + nv) R) T2 with hX2
  have := gmakeC_spec (K := K) h (v :=
        X1 (det R) +
        (X2 (det R) +
        ((1 / 2 : K) • X1 (X1 (det R)) +
        (X2 (X1 (det R)) +
        ((1 / 6 : K) • X1 (X1 (X1 (det R))) + 0))))) he ht (f := stagesG B (ofSet (no + nv) R) (occL (no + nv) R) (virL (no + nv) R) T1 T2 3)
      (w := IsNilpotent.exp (X1 + X2) (det R))
    (fun D hD hF => by
      unfold stagesG
      simp only [show 3 ≥ 2 by omega, show 3 ≥ 3 by omega, show ¬ (3 ≥ 4) by omega, if_true, if_false, bind_assoc, pure_bind]
      refine Adds.seq (add_g_T1 hD.locates hF (gref_sub h) ho hv hn T1 T2 (by omega)) ?_
      refine Adds.seq (add_g_T2 hD.locates hF (gref_sub h) ho hv hn T1 T2 (by omega)) ?_
      refine Adds.seq (add_g_T1_T1 hD.locates hF (gref_sub h) ho hv hn T1 T2 (by omega)) ?_
      refine Adds.seq (add_g_T1_T2 hD.locates hF (gref_sub h) ho hv hn T1 T2 (by omega)) ?_
      refine Adds.seq (add_g_T1_T1_T1 hD.locates hF (gref_sub h) ho hv hn T1 T2 (by omega)) ?_
      exact Adds.ok)
    (fun S hS => by
      rw [exp_three r1 r2 (e1.comm e2) _ hS]
      have sw : ∀ φ, X2 (X1 φ) = X1 (X2 φ) := fun φ => e2.comm_apply e1 φ
      simp only [LinearMap.add_apply, LinearMap.smul_apply, Module.End.mul_apply, map_add, map_smul, sw]
      simp only [LinearMap.add_apply, Module.End.one_apply, Pi.add_apply, Pi.zero_apply, Pi.smul_apply, smul_eq_mul]
      ring)
  obtain ⟨D, h1, h2⟩ := this
  exact ⟨B, D, hB, h1, h2⟩

/-- C46: `gmakeCfromT` with `order = 4`, given the occupation of the reference of `gcisdtq_basis`, returns the coefficients of
`exp(T1 + T2)` applied to that reference, on that basis (fewer than four occupied or fewer than four virtual orbitals). -/
theorem C46_gmakeCfromT_4 (hT : Anti no nv T2) (h4 : no < 4 ∨ nv < 4) :
    ∃ B D, gcisdtq_basis (no + nv) no = .ok B ∧ Basis (no + nv) B D ∧
      gmakeCfromT no nv T1 T2 4 (some (gocc (no + nv) no)) = .ok (D.map fun d =>
        IsNilpotent.exp (clusterG no nv (focc (no + nv) no) (fvir (no + nv) no) T1 T2) (det (gref (no + nv) no)) (supp d)) := by
  obtain ⟨B, t, hB, he, ht⟩ := C33_gcisdtq h h4
  rw [gocc_ofSet h] at he ht

  have hpos : 0 < B.length := by rw [ht]; simp
  rw [clusterG_occ h T1 hT, gmakeC_stages h (by omega) T1 T2 (B := B) (by rw [if_neg (by omega), if_neg (by omega), if_neg (by omega), if_pos rfl]; exact hB) hpos]
  have ho : ∀ i, i < (occL (no + nv) (gref (no + nv) no)).length → (occL (no + nv) (gref (no + nv) no)).getD i 0 ∈ gref (no + nv) no :=
    fun i hi => by rw [length_occ h] at hi; rw [getD_occ h hi]; exact focc_mem h hi
  have hv : ∀ a, a < (virL (no + nv) (gref (no + nv) no)).length → (virL (no + nv) (gref (no + nv) no)).getD a 0 ∉ gref (no + nv) no :=
    fun a ha => by rw [length_vir h] at ha; rw [getD_vir h ha]; exact (fvir_mem h ha).1
  have hn : ∀ a, a < (virL (no + nv) (gref (no + nv) no)).length → (virL (no + nv) (gref (no + nv) no)).getD a 0 < no + nv :=
    fun a ha => by rw [length_vir h] at ha; rw [getD_vir h ha]; exact (fvir_mem h ha).2
  have ho2 : ∀ i, i < (occL (no + nv) (gref (no + nv) no)).length →
      (occL (no + nv) (gref (no + nv) no)).getD i 0 ∉ Finset.range (no + nv) \ gref (no + nv) no :=
    fun i hi => by simp [-List.getD_eq_getElem?_getD, ho i hi]
  have hv2 : ∀ a, a < (virL (no + nv) (gref (no + nv) no)).length →
      (virL (no + nv) (gref (no + nv) no)).getD a 0 ∈ Finset.range (no + nv) \ gref (no + nv) no :=
    fun a ha => by simp [-List.getD_eq_getElem?_getD, hv a ha, hn a ha]
  have e1 := exc_oT1 ho2 hv2 T1
  have e2 := exc_oT2 ho2 hv2 T2
  have r1 := raises_oT1 ho2 hv2 T1
  have r2 := raises_oT2 ho2 hv2 T2
  set R := gref (no + nv) no with hR
  set X1 := oT1 (occL (no + nv) R) (virL (no + nv) R) T1 with hX1
  set X2 := oT2 (occL (no + nv) R) (virL (no + nv) R) T2 with hX2
  have := gmakeC_spec (K := K) h (v :=
        X1 (det R) +
        (X2 (det R) +
        ((1 / 2 : K) • X1 (X1 (det R)) +
        (X2 (X1 (det R)) +
        ((1 / 6 : K) • X1 (X1 (X1 (det R))) +
        ((1 / 2 : K) • X2 (X2 (det R)) +
        ((1 / 2 : K) • X2 (X1 (X1 (det R))) +
        ((1 / 24 : K) • X1 (X1 (X1 (X1 (det R)))) + 0)))))))) he ht (f := stagesG B (ofSet (no + nv) R) (occL (no + nv) R) (virL (no + nv) R) T1 T2 4)
      (w := IsNilpotent.exp (X1 + X2) (det R))
    (fun D hD hF => by
      unfold stagesG
      simp only [show 4 ≥ 2 by omega, show 4 ≥ 3 by omega, show 4 ≥ 4 by omega, if_true, if_false, bind_assoc, pure_bind]
      refine Adds.seq (add_g_T1 hD.locates hF (gref_sub h) ho hv hn T1 T2 (by omega)) ?_
      refine Adds.seq (add_g_T2 hD.locates hF (gref_sub h) ho hv hn T1 T2 (by omega)) ?_
      refine Adds.seq (add_g_T1_T1 hD.locates hF (gref_sub h) ho hv hn T1 T2 (by omega)) ?_
      refine Adds.seq (add_g_T1_T2 hD.locates hF (gref_sub h) ho hv hn T1 T2 (by omega)) ?_
      refine Adds.seq (add_g_T1_T1_T1 hD.locates hF (gref_sub h) ho hv hn T1 T2 (by omega)) ?_
      refine Adds.seq (add_g_T2_T2 hD.locates hF (gref_sub h) ho hv hn T1 T2 (by omega)) ?_
      refine Adds.seq (add_g_T1_T1_T2 hD.locates hF (gref_sub h) ho hv hn T1 T2 (by omega)) ?_
      exact (add_g_T1_T1_T1_T1 hD.locates hF (gref_sub h) ho hv hn T1 T2 (by omega)).congr (add_zero _))
    (fun S hS => by
      rw [exp_four r1 r2 (e1.comm e2) _ hS]
      have sw : ∀ φ, X2 (X1 φ) = X1 (X2 φ) := fun φ => e2.comm_apply e1 φ
      simp only [LinearMap.add_apply, LinearMap.smul_apply, Module.End.mul_apply, map_add, map_smul, sw]
      simp only [LinearMap.add_apply, Module.End.one_apply, Pi.add_apply, Pi.zero_apply, Pi.smul_apply, smul_eq_mul]
      ring)
  obtain ⟨D, h1, h2⟩ := this
  exact ⟨B, D, hB, h1, h2⟩

end

/-! ### errors -/

/-- C37: an order outside `1 .. 4` raises an exception, and different numbers of alpha and beta orbitals an `AssertionError`. -/
theorem C37_errors (noa nva nob nvb : ℕ) (T1a T1b : ℕ → ℕ → K) (T2aa T2ab T2bb : ℕ → ℕ → ℕ → ℕ → K) (order : ℕ) :
    (noa + nva ≠ nob + nvb → makeCfromT noa nva nob nvb T1a T1b T2aa T2ab T2bb order = .error .assertion) ∧
    (noa + nva = nob + nvb → (order < 1 ∨ 4 < order) →
      makeCfromT noa nva nob nvb T1a T1b T2aa T2ab T2bb order = .error .exception) := by
  constructor
  · intro h
    unfold makeCfromT
    simp only [if_pos h]; rfl
  · intro h h1
    have h' : ¬ (noa + nva ≠ nob + nvb) := fun x => x h
    unfold makeCfromT
    simp only [if_neg h', pure_bind]
    rcases h1 with h1 | h1
    · simp only [if_pos h1]; rfl
    · simp only [if_neg (show ¬ order < 1 by omega), if_neg (show ¬ order = 1 by omega), if_neg (show ¬ order = 2 by omega),
        if_neg (show ¬ order = 3 by omega), if_neg (show ¬ order = 4 by omega)]
      rfl

/-- C37: the same for `gmakeCfromT`. -/
theorem C37_g_errors (no nv : ℕ) (T1 : ℕ → ℕ → K) (T2 : ℕ → ℕ → ℕ → ℕ → K) (order : ℕ) (occ : Option (List ℤ))
    (h1 : order < 1 ∨ 4 < order) : gmakeCfromT no nv T1 T2 order occ = .error .exception := by
  unfold gmakeCfromT
  rcases h1 with h1 | h1
  · simp only [if_pos h1]; rfl
  · simp only [if_neg (show ¬ order < 1 by omega), if_neg (show ¬ order = 1 by omega), if_neg (show ¬ order = 2 by omega),
      if_neg (show ¬ order = 3 by omega), if_neg (show ¬ order = 4 by omega)]
    rfl

/-- C37: without the `occ` argument `gmakeCfromT` never returns (unless there are no orbitals): its default occupation has only half
as many entries as there are spin orbitals, which `Dstring` refuses with an `AssertionError`. -/
theorem C37_g_default_refuted (no nv : ℕ) (T1 : ℕ → ℕ → K) (T2 : ℕ → ℕ → ℕ → ℕ → K) (order : ℕ) (h : 1 ≤ order ∧ order ≤ 3)
    (hn : no + nv ≠ 0) : gmakeCfromT no nv T1 T2 order = .error .assertion := by
  have e : Dstring.new (no + nv) (aufbau ((no + nv) / 2) no) = .error .assertion := by
    unfold Dstring.new
    rw [if_neg]
    rw [length_aufbau]; omega
  unfold gmakeCfromT
  have hh : ¬ order < 1 := by omega
  rcases Nat.mod_two_eq_zero_or_one (no + nv) with hm | hm
  · obtain ⟨B, hB, -⟩ := C33_gcis no true hm
    obtain ⟨B2, hB2, -⟩ := C33_gcisd no hm
    obtain ⟨B3, hB3, -⟩ := C33_gcisdt no hm
    have : order = 1 ∨ order = 2 ∨ order = 3 := by omega
    rcases this with rfl | rfl | rfl
    · simp only [if_neg hh, pure_bind, if_true, hB, ok_bind', Option.getD_none, e]; rfl
    · simp only [if_neg hh, pure_bind, if_true, hB2, ok_bind', Option.getD_none, e, show ¬ (2 = 1) by omega, if_false]; rfl
    · simp only [if_neg hh, pure_bind, if_true, hB3, ok_bind', Option.getD_none, e, show ¬ (3 = 1) by omega, show ¬ (3 = 2) by omega,
        if_false]; rfl
  · obtain ⟨o1, o2, o3, -⟩ := C33_odd no true hm
    have : order = 1 ∨ order = 2 ∨ order = 3 := by omega
    rcases this with rfl | rfl | rfl
    · simp only [if_neg hh, pure_bind, if_true, o1]; rfl
    · simp only [if_neg hh, pure_bind, if_true, o2, show ¬ (2 = 1) by omega, if_false]; rfl
    · simp only [if_neg hh, pure_bind, if_true, o3, show ¬ (3 = 1) by omega, show ¬ (3 = 2) by omega, if_false]; rfl

/-! ### the missing term -/

theorem E_dn_det (A B : Finset ℕ) {i a : ℕ} (hia : i ≠ a) :
    E (K := K) (dn i) (dn a) (det (emb A B)) =
      if i ∈ B ∧ a ∉ B then ((-1) ^ btw B i a : K) • det (emb A (insert a (B.erase i))) else 0 := by
  rw [E_exc _ (fun e => hia (dn_inj.mp e)), exc_dn]
  split_ifs <;> rfl

theorem E_up_det (A B : Finset ℕ) {i a : ℕ} (hia : i ≠ a) :
    E (K := K) (up i) (up a) (det (emb A B)) =
      if i ∈ A ∧ a ∉ A then ((-1) ^ btw A i a : K) • det (emb (insert a (A.erase i)) B) else 0 := by
  rw [E_exc _ (fun e => hia (up_inj.mp e)), exc_up]
  split_ifs <;> rfl

/-- amplitudes of two electrons in two virtual orbitals -/
def T1w (a i : ℕ) : ℚ := if a = i then 1 else 0
def T2w (a b i j : ℕ) : ℚ := (if a = 0 ∧ b = 1 then 1 else if a = 1 ∧ b = 0 then -1 else 0)
  * (if i = 0 ∧ j = 1 then 1 else if i = 1 ∧ j = 0 then -1 else 0)

theorem anti_T2w : Anti 2 2 T2w := by
  intro a b i j ha hb hi hj
  interval_cases a <;> interval_cases b <;> interval_cases i <;> interval_cases j <;> simp [T2w]

theorem missing_value : (oT1b 2 2 T1w (oT1b 2 2 T1w (oT2aa 2 2 T2w (det (uref 2 2))))) (emb {2, 3} {2, 3}) = 2 := by
  have a1 : E (K := ℚ) (up 0) (up 2) (det (emb (Finset.range 2) (Finset.range 2))) = (-1 : ℚ) • det (emb {1, 2} (Finset.range 2)) := by
    rw [E_up_det _ _ (by decide), if_pos (by decide), show btw (Finset.range 2) 0 2 = 1 by decide,
      show insert 2 ((Finset.range 2).erase 0) = ({1, 2} : Finset ℕ) by decide, pow_one]
  have a2 : E (K := ℚ) (up 1) (up 3) (det (emb {1, 2} (Finset.range 2))) = (-1 : ℚ) • det (emb {2, 3} (Finset.range 2)) := by
    rw [E_up_det _ _ (by decide), if_pos (by decide), show btw ({1, 2} : Finset ℕ) 1 3 = 1 by decide,
      show insert 3 (({1, 2} : Finset ℕ).erase 1) = ({2, 3} : Finset ℕ) by decide, pow_one]
  have b1 : E (K := ℚ) (dn 0) (dn 2) (det (emb {2, 3} (Finset.range 2))) = (-1 : ℚ) • det (emb {2, 3} {1, 2}) := by
    rw [E_dn_det _ _ (by decide), if_pos (by decide), show btw (Finset.range 2) 0 2 = 1 by decide,
      show insert 2 ((Finset.range 2).erase 0) = ({1, 2} : Finset ℕ) by decide, pow_one]
  have b2 : E (K := ℚ) (dn 1) (dn 3) (det (emb {2, 3} (Finset.range 2))) = (1 : ℚ) • det (emb {2, 3} {0, 3}) := by
    rw [E_dn_det _ _ (by decide), if_pos (by decide), show btw (Finset.range 2) 1 3 = 0 by decide,
      show insert 3 ((Finset.range 2).erase 1) = ({0, 3} : Finset ℕ) by decide, pow_zero]
  have b3 : E (K := ℚ) (dn 0) (dn 2) (det (emb {2, 3} {1, 2})) = 0 := by
    rw [E_dn_det _ _ (by decide), if_neg (by decide)]
  have b4 : E (K := ℚ) (dn 1) (dn 3) (det (emb {2, 3} {1, 2})) = (-1 : ℚ) • det (emb {2, 3} {2, 3}) := by
    rw [E_dn_det _ _ (by decide), if_pos (by decide), show btw ({1, 2} : Finset ℕ) 1 3 = 1 by decide,
      show insert 3 (({1, 2} : Finset ℕ).erase 1) = ({2, 3} : Finset ℕ) by decide, pow_one]
  have b5 : E (K := ℚ) (dn 0) (dn 2) (det (emb {2, 3} {0, 3})) = (1 : ℚ) • det (emb {2, 3} {2, 3}) := by
    rw [E_dn_det _ _ (by decide), if_pos (by decide), show btw ({0, 3} : Finset ℕ) 0 2 = 0 by decide,
      show insert 2 (({0, 3} : Finset ℕ).erase 0) = ({2, 3} : Finset ℕ) by decide, pow_zero]
  have b6 : E (K := ℚ) (dn 1) (dn 3) (det (emb {2, 3} {0, 3})) = 0 := by
    rw [E_dn_det _ _ (by decide), if_neg (by decide)]
  have x2 : oT2aa (K := ℚ) 2 2 T2w (det (uref 2 2)) = det (emb {2, 3} (Finset.range 2)) := by
    simp [oT2aa, uref, tri, T2w, Finset.sum_range_succ, a1, a2]
  have x1 : ∀ φ : Finset SO → ℚ, oT1b 2 2 T1w φ = E (dn 0) (dn 2) φ + E (dn 1) (dn 3) φ := by
    intro φ
    simp [oT1b, T1w, Finset.sum_range_succ]
  rw [x2, x1, x1, b1, b2]
  simp only [map_add, map_smul, b3, b4, b5, b6, smul_zero, smul_smul, Pi.add_apply, Pi.smul_apply, det_apply]
  simp; norm_num

/-- C46 fails: with two electrons of each spin in four orbitals the coefficient of the quadruple excitation lacks the
contribution `T1b² T2aa / 2`. -/
theorem C46_order4_refuted :
    ¬ ∀ (noa nva nob nvb : ℕ) (T1a T1b : ℕ → ℕ → ℚ) (T2aa T2ab T2bb : ℕ → ℕ → ℕ → ℕ → ℚ), noa + nva = nob + nvb →
      Anti noa nva T2aa → Anti nob nvb T2bb →
      ∃ B D, ucisdtq_basis (noa + nva) noa nob = .ok B ∧ PBasis (noa + nva) (nob + nvb) B D ∧
        makeCfromT noa nva nob nvb T1a T1b T2aa T2ab T2bb 4 = .ok (D.map fun d =>
          IsNilpotent.exp (clusterU noa nva nob nvb T1a T1b T2aa T2ab T2bb) (det (uref noa nob)) (psupp d)) := by
  intro hall
  have h0 : Anti (K := ℚ) 2 2 fun _ _ _ _ => 0 := fun _ _ _ _ _ _ _ _ => by simp
  obtain ⟨B, D, hB, hD, hC⟩ := hall 2 2 2 2 (fun _ _ => 0) T1w T2w (fun _ _ _ _ => 0) (fun _ _ _ _ => 0) rfl anti_T2w h0
  obtain ⟨B', D', hB', hD', hC'⟩ := C46_order4_partial (K := ℚ) (fun _ _ => 0) T1w (T2ab := fun _ _ _ _ => 0) (show 2 + 2 = 2 + 2 from rfl) anti_T2w h0
    (by omega) (by omega)
  have eB : B = B' := by rw [hB] at hB'; exact Except.ok.inj hB'
  subst eB
  have eD : D = D' := by
    have := hD.1.symm.trans hD'.1
    refine List.map_injective_iff.mpr ?_ this
    intro x y e
    simp only [Prod.mk.injEq, Option.some.injEq] at e
    exact Prod.ext e.1 e.2
  subst eD
  rw [hC] at hC'
  have e := Except.ok.inj hC'
  rw [List.map_inj_left] at e
  obtain ⟨B2, hB2, he⟩ := C33_ucisdtq (n := 4) (na := 2) (nb := 2) (by omega) (by omega)
  have eB : B = B2 := by have := hB.symm.trans hB2; exact Except.ok.inj this
  subst eB
  have hr := aufbau_ofSet 2 2
  simp only [Nat.reduceAdd] at hr
  rw [hr] at he
  obtain ⟨hF, -⟩ := EnumeratesU.full (noa := 2) (nva := 2) (nob := 2) (nvb := 2) he hD
  have hl : Level (Finset.range 2) (2 + 2) {2, 3} 2 := by unfold Level; decide
  have hm := hF {2, 3} {2, 3} 2 2 hl hl (by omega)
  obtain ⟨d, hd, ed⟩ := List.mem_map.mp hm
  have := e d hd
  rw [ed, Pi.smul_apply, missing_value] at this
  generalize (IsNilpotent.exp _ : Module.End ℚ (Finset SO → ℚ)) (det (uref 2 2)) (emb {2, 3} {2, 3}) = x at this
  have h1 : (1 / 2 : ℚ) • (2 : ℚ) = 1 := by norm_num
  rw [h1] at this
  linarith

/-! ### concrete cases -/

/-- two electrons of each spin in four orbitals -/
example : ∃ B D, ucisdt_basis 4 2 2 = .ok B ∧ PBasis 4 4 B D ∧
    makeCfromT 2 2 2 2 T1w T1w T2w (fun a b i j => T1w a i * T1w b j) T2w 3 = .ok (D.map fun d =>
      IsNilpotent.exp (clusterU 2 2 2 2 T1w T1w T2w (fun a b i j => T1w a i * T1w b j) T2w) (det (uref 2 2)) (psupp d)) :=
  C37_makeCfromT_3 T1w T1w rfl anti_T2w anti_T2w

/-- two electrons in four spin orbitals -/
example : ∃ B D, gcisd_basis 4 2 = .ok B ∧ Basis 4 B D ∧
    gmakeCfromT 2 2 T1w T2w 2 (some [1, 0, 1, 0]) = .ok (D.map fun d =>
      IsNilpotent.exp (clusterG 2 2 (focc 4 2) (fvir 4 2) T1w T2w) (det {0, 2}) (supp d)) :=
  C37_gmakeCfromT_2 (no := 2) (nv := 2) (by decide) T1w anti_T2w

/-- and what the code returns there -/
example : gmakeCfromT 2 2 T1w T2w 2 (some [1, 0, 1, 0]) = .ok [1, 1, 0, 0, 1, 2] := by decide +kernel

end CI
