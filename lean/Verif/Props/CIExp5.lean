import Verif.Props.CIExp4
/-!
# C46: `makeCfromT` with `order = 4`, all cases
-/
set_option linter.unusedSectionVars false
set_option linter.unusedVariables false
namespace CI
open Fock
variable {K : Type} [Field K] [CharZero K]

theorem mem_prod_iff {la lb : List (Option Dstring)} {x : Pair} : x ∈ prod la lb ↔ x.1 ∈ la ∧ x.2 ∈ lb := by
  obtain ⟨a, b⟩ := x
  simp only [prod, List.mem_flatMap, List.mem_map, Prod.mk.injEq]
  exact ⟨fun ⟨a', ha, b', hb, e1, e2⟩ => ⟨e1 ▸ ha, e2 ▸ hb⟩, fun h => ⟨a, h.1, b, h.2, rfl, rfl⟩⟩

/-- C46, C34: what `ucisdtq_basis` lists: the determinants with at most four excitations in all, those with four excitations of one spin
only if the orbitals 0 and 1 of that spin are emptied. -/
theorem C46_ucisdtq_members (n na nb : ℕ) :
    ∃ B, ucisdtq_basis n na nb = .ok B ∧ ∀ x, x ∈ B ↔ ∃ da db k l, x = (some da, some db) ∧
      Excitation ⟨n, aufbau n na⟩ da k ∧ Excitation ⟨n, aufbau n nb⟩ db l ∧ k + l ≤ 4 ∧
      (k = 4 → 0 ∉ supp da ∧ 1 ∉ supp da) ∧ (l = 4 → 0 ∉ supp db ∧ 1 ∉ supp db) := by
  obtain ⟨⟨sa, hsa, esa⟩, ⟨da, hda, eda⟩, ⟨ta, hta, eta⟩⟩ := C32_default n na
  obtain ⟨⟨sb, hsb, esb⟩, ⟨db, hdb, edb⟩, ⟨tb, htb, etb⟩⟩ := C32_default n nb
  obtain ⟨qa, hqa, eqa⟩ := C34_members n na
  obtain ⟨qb, hqb, eqb⟩ := C34_members n nb
  have ea := enumerates_ref (isDet_aufbau n na)
  have eb := enumerates_ref (isDet_aufbau n nb)
  unfold ucisdtq_basis
  simp only [hsa, hsb, hda, hdb, hta, htb, hqa, hqb, new_aufbau, bind, Except.bind, pure, Except.pure, withA_eq, withB_eq, ref_eq]
  refine ⟨_, rfl, fun x => ?_⟩
  obtain ⟨a, b⟩ := x
  simp only [List.mem_append, mem_prod_iff, ea.2, eb.2, esa.2, esb.2, eda.2, edb.2, eta.2, etb.2, eqa, eqb, Prod.mk.injEq]
  constructor
  · rintro ((((((((((((((⟨⟨d, e, h⟩, d', e', h'⟩ | ⟨⟨d, e, h⟩, d', e', h'⟩) | ⟨⟨d, e, h⟩, d', e', h'⟩) | ⟨⟨d, e, h⟩, d', e', h'⟩) | ⟨⟨d, e, h⟩, d', e', h'⟩) |
      ⟨⟨d, e, h⟩, d', e', h'⟩) | ⟨⟨d, e, h⟩, d', e', h'⟩) | ⟨⟨d, e, h⟩, d', e', h'⟩) | ⟨⟨d, e, h⟩, d', e', h'⟩) | ⟨⟨d, e, h⟩, d', e', h'⟩) |
      ⟨⟨d, e, h, q⟩, d', e', h'⟩) | ⟨⟨d, e, h⟩, d', e', h', q⟩) | ⟨⟨d, e, h⟩, d', e', h'⟩) | ⟨⟨d, e, h⟩, d', e', h'⟩) | ⟨⟨d, e, h⟩, d', e', h'⟩) <;>
    exact ⟨d, d', _, _, ⟨e, e'⟩, h, h', by norm_num, by first | (intro hh; omega) | exact fun _ => q, by first | (intro hh; omega) | exact fun _ => q⟩
  · rintro ⟨d, d', k, l, ⟨e, e'⟩, h, h', hkl, q, q'⟩
    have hk : k ≤ 4 := by omega
    have hl : l ≤ 4 - k := by omega
    interval_cases k <;> interval_cases l
    all_goals first
      | (have q := q rfl; simp only [e, e', Option.some.injEq, exists_eq_left', h, h', q, not_false_eq_true, and_true, true_and, or_true, true_or]; done)
      | (have q' := q' rfl; simp only [e, e', Option.some.injEq, exists_eq_left', h, h', q', not_false_eq_true, and_true, true_and, or_true, true_or]; done)
      | (simp only [e, e', Option.some.injEq, exists_eq_left', h, h', and_true, true_and, or_true, true_or]; done)

theorem index2_supp {na nb : ℕ} {D : List (Dstring × Dstring)} (h : ∀ d ∈ D, (IsDet d.1 ∧ d.1.n = na) ∧ (IsDet d.2 ∧ d.2.n = nb)) {S T : Finset ℕ}
    (hS : S ⊆ Finset.range na) (hT : T ⊆ Finset.range nb) :
    index2 (D.map fun d => (some d.1, some d.2)) (ofSet na S) (ofSet nb T) = pos (D.map psupp) (emb S T) := by
  have := index2_map D (ofSet na S, ofSet nb T)
  rw [this]
  unfold pos
  have inj : ∀ d ∈ D, d = (ofSet na S, ofSet nb T) ↔ psupp d = emb S T := fun d hd => by
    have hx := h d hd
    constructor
    · rintro rfl; rw [psupp, supp_ofSet hS, supp_ofSet hT]
    · intro e
      obtain ⟨e1, e2⟩ := emb_inj.mp e
      refine Prod.ext ?_ ?_
      · rw [← ofSet_of hx.1, e1]
      · rw [← ofSet_of hx.2, e2]
  have e : ∀ D : List (Dstring × Dstring), (∀ d ∈ D, d = (ofSet na S, ofSet nb T) ↔ psupp d = emb S T) →
      ((ofSet na S, ofSet nb T) ∈ D ↔ emb S T ∈ D.map psupp) ∧
      D.idxOf (ofSet na S, ofSet nb T) = (D.map psupp).idxOf (emb S T) := by
    intro D
    induction D with
    | nil => simp
    | cons x l ih =>
      intro hD
      have hh := hD x (by simp)
      obtain ⟨i1, i2⟩ := ih fun d hd => hD d (by simp [hd])
      constructor
      · rw [List.map_cons, List.mem_cons, List.mem_cons, i1, eq_comm, hh, eq_comm]
      · by_cases h : x = (ofSet na S, ofSet nb T)
        · rw [List.map_cons, hh.mp h, List.idxOf_cons_self, h, List.idxOf_cons_self]
        · rw [List.map_cons, List.idxOf_cons_ne _ h, List.idxOf_cons_ne _ (fun h' => h (hh.mpr h')), i2]
  obtain ⟨e1, e2⟩ := e D inj
  simp only [e1, e2]

/-- a determinant within `na` alpha and `nb` beta orbitals -/
def InOrbs (na nb : ℕ) (S : Finset SO) : Prop := ∃ A B, A ⊆ Finset.range na ∧ B ⊆ Finset.range nb ∧ S = emb A B

/-- determinants outside them -/
def outU (na : ℕ) (k : ℕ) : Finset SO := emb (out na k) ∅

theorem outU_inj (na : ℕ) : Function.Injective (outU na) := fun x y e => out_inj na (emb_inj.mp e).1

theorem outU_not (na nb k : ℕ) : ¬ InOrbs na nb (outU na k) := by
  rintro ⟨A, B, hA, -, e⟩
  exact out_not na k ((emb_inj.mp e).1 ▸ hA)

theorem within_supp {na nb : ℕ} {D : List (Dstring × Dstring)} (h : ∀ d ∈ D, (IsDet d.1 ∧ d.1.n = na) ∧ (IsDet d.2 ∧ d.2.n = nb)) :
    ∀ S ∈ D.map psupp, InOrbs na nb S := by
  intro S hS
  obtain ⟨d, hd, rfl⟩ := List.mem_map.mp hS
  have hx := h d hd
  refine ⟨supp d.1, supp d.2, ?_, ?_, rfl⟩
  · have := supp_subset d.1; rwa [hx.1.2] at this
  · have := supp_subset d.2; rwa [hx.2.2] at this

theorem plocates_firsts {na nb : ℕ} {D : List (Dstring × Dstring)} (h : ∀ d ∈ D, (IsDet d.1 ∧ d.1.n = na) ∧ (IsDet d.2 ∧ d.2.n = nb)) :
    PLocates na nb (D.map fun d => (some d.1, some d.2)) (firsts (outU na) (D.map psupp)) :=
  ⟨nodup_firsts (outU_inj na) (outU_not na nb) (within_supp h), fun S T hS hT => by
    rw [index2_supp h hS hT, pos_firsts (outU_inj na) (outU_not na nb) (within_supp h) ⟨S, T, hS, hT, rfl⟩]⟩

theorem pdets {na nb : ℕ} {B : List Pair} (h : ∀ x ∈ B, ∃ d : Dstring × Dstring, x = (some d.1, some d.2) ∧ (IsDet d.1 ∧ d.1.n = na) ∧ (IsDet d.2 ∧ d.2.n = nb)) :
    ∃ D : List (Dstring × Dstring), B = D.map (fun d => (some d.1, some d.2)) ∧ ∀ d ∈ D, (IsDet d.1 ∧ d.1.n = na) ∧ (IsDet d.2 ∧ d.2.n = nb) := by
  induction B with
  | nil => exact ⟨[], rfl, by simp⟩
  | cons x l ih =>
    obtain ⟨D, e, hD⟩ := ih fun y hy => h y (by simp [hy])
    obtain ⟨d, rfl, hd⟩ := h x (by simp)
    refine ⟨d :: D, by rw [e]; rfl, ?_⟩
    intro y hy
    rcases List.mem_cons.mp hy with rfl | hy
    exacts [hd, hD y hy]

/-- with at most four electrons, or fewer than four empty orbitals, quadruple excitations empty the orbitals 0 and 1 -/
theorem quad_empty {n m : ℕ} (hm : m ≤ 4 ∨ n < m + 4) {d : Dstring} (h : Excitation ⟨n, aufbau n m⟩ d 4) : 0 ∉ supp d ∧ 1 ∉ supp d := by
  obtain ⟨L, hL, -, hc⟩ := C34_sound_partial n m
  obtain ⟨L', hL', hm'⟩ := C34_members n m
  rw [hL] at hL'
  have e := Except.ok.inj hL'
  subst e
  have : some d ∈ L := by
    rcases hm with hm | hm
    · exact hc hm d h
    · obtain ⟨L'', hL'', he⟩ := C34_refuted n m
      rw [hL] at hL''
      have e := Except.ok.inj hL''
      subst e
      exact ((he.mpr (Or.inr hm)).2 _).mpr ⟨d, rfl, h⟩
  obtain ⟨d', e, -, h'⟩ := (hm' _).mp this
  simp only [Option.some.injEq] at e
  exact e ▸ h'

section
variable {noa nva nob nvb : ℕ} (T1a T1b : ℕ → ℕ → K) {T2aa T2ab T2bb : ℕ → ℕ → ℕ → ℕ → K}

/-- C46: what `makeCfromT` returns with `order = 4` when each spin has at most four electrons or fewer than four empty orbitals: at the
first place of each determinant the coefficient of `exp(T1 + T2)` without the term `T1b² T2aa / 2`, at repetitions zero. -/
theorem C46_makeCfromT_four (hn : noa + nva = nob + nvb) (haa : Anti noa nva T2aa) (hbb : Anti nob nvb T2bb) (ha : noa ≤ 4 ∨ nva < 4)
    (hb : nob ≤ 4 ∨ nvb < 4) :
    ∃ D : List (Dstring × Dstring), ucisdtq_basis (noa + nva) noa nob = .ok (D.map fun d => (some d.1, some d.2)) ∧
      (∀ d, d ∈ D ↔ ∃ k l, Excitation ⟨noa + nva, aufbau (noa + nva) noa⟩ d.1 k ∧ Excitation ⟨noa + nva, aufbau (noa + nva) nob⟩ d.2 l ∧ k + l ≤ 4) ∧
      makeCfromT noa nva nob nvb T1a T1b T2aa T2ab T2bb 4 = .ok ((List.range D.length).map fun k =>
        if D.idxOf (D.getD k (⟨0, []⟩, ⟨0, []⟩)) = k then
          IsNilpotent.exp (clusterU noa nva nob nvb T1a T1b T2aa T2ab T2bb) (det (uref noa nob)) (psupp (D.getD k (⟨0, []⟩, ⟨0, []⟩)))
            - ((1 / 2 : K) • oT1b nob nvb T1b (oT1b nob nvb T1b (oT2aa noa nva T2aa (det (uref noa nob))))) (psupp (D.getD k (⟨0, []⟩, ⟨0, []⟩)))
        else 0) := by
  obtain ⟨B, hB, hmB⟩ := C46_ucisdtq_members (noa + nva) noa nob
  obtain ⟨t, ht⟩ := ucisdtq_head hB
  have hm : ∀ x, x ∈ B ↔ ∃ da db k l, x = (some da, some db) ∧
      Excitation ⟨noa + nva, aufbau (noa + nva) noa⟩ da k ∧ Excitation ⟨noa + nva, aufbau (noa + nva) nob⟩ db l ∧ k + l ≤ 4 := fun x => by
    rw [hmB]
    refine exists_congr fun da => exists_congr fun db => exists_congr fun k => exists_congr fun l => and_congr_right fun _ =>
      and_congr_right fun h1 => and_congr_right fun h2 => ⟨fun h => h.1, fun h => ⟨h, ?_, ?_⟩⟩
    · rintro rfl; exact quad_empty (by omega) h1
    · rintro rfl; exact quad_empty (by omega) h2
  obtain ⟨D, hD, hd⟩ := pdets (na := noa + nva) (nb := nob + nvb) (B := B) fun x hx => by
    obtain ⟨da, db, k, l, rfl, h1, h2, -⟩ := (hm x).mp hx
    exact ⟨(da, db), rfl, ⟨h1.1, h1.2.1⟩, ⟨h2.1, h2.2.1.trans hn⟩⟩
  have hmD : ∀ d, d ∈ D ↔ ∃ k l, Excitation ⟨noa + nva, aufbau (noa + nva) noa⟩ d.1 k ∧ Excitation ⟨noa + nva, aufbau (noa + nva) nob⟩ d.2 l ∧ k + l ≤ 4 := fun d => by
    have h1 := hm (some d.1, some d.2)
    have h2 : (some d.1, some d.2) ∈ B ↔ d ∈ D := by
      rw [hD]
      constructor
      · intro h
        obtain ⟨d', hd', e⟩ := List.mem_map.mp h
        simp only [Prod.mk.injEq, Option.some.injEq] at e
        rwa [show d = d' from Prod.ext e.1.symm e.2.symm]
      · exact fun h => List.mem_map.mpr ⟨d, h, rfl⟩
    rw [← h2, h1]
    constructor
    · rintro ⟨da, db, k, l, e, h⟩
      simp only [Prod.mk.injEq, Option.some.injEq] at e
      exact ⟨k, l, e.1 ▸ e.2 ▸ h⟩
    · rintro ⟨k, l, h⟩
      exact ⟨d.1, d.2, k, l, rfl, h⟩
  refine ⟨D, by rw [hB, hD], hmD, ?_⟩
  have hr : (⟨noa + nva, aufbau (noa + nva) nob⟩ : Dstring) = ofSet (nob + nvb) (Finset.range nob) := by rw [hn, aufbau_ofSet]
  rw [aufbau_ofSet, hr] at ht
  simp only [aufbau_ofSet, hr] at hmD hm
  have hpos : 0 < B.length := by rw [ht]; simp
  rw [clusterU_eq _ _ _ _ _ _ haa hbb]
  rw [makeC_stages T1a T1b hn (by omega) (B := B) (by rw [if_neg (by omega), if_neg (by omega), if_neg (by omega), if_pos rfl]; exact hB) hpos]
  obtain ⟨v, hv, hw⟩ := adds_order4 noa nva nob nvb T1a T1b T2aa T2ab T2bb
  have hloc : PLocates (noa + nva) (nob + nvb) B (firsts (outU (noa + nva)) (D.map psupp)) := by rw [hD]; exact plocates_firsts hd
  have hF : Full (firsts (outU (noa + nva)) (D.map psupp)) noa (noa + nva) nob (nob + nvb) 4 := by
    intro A A' k l hA hA' hkl
    refine mem_firsts (outU_inj _) (outU_not _ (nob + nvb)) (within_supp hd) ?_
    have : (ofSet (noa + nva) A, ofSet (nob + nvb) A') ∈ D :=
      (hmD _).mpr ⟨k, l, excitation_level (range_sub _ _) hA, excitation_level (range_sub _ _) hA', hkl⟩
    refine List.mem_map.mpr ⟨_, this, ?_⟩
    rw [psupp, supp_ofSet hA.1, supp_ofSet hA'.1]
  have hhead : ∃ t', firsts (outU (noa + nva)) (D.map psupp) = uref noa nob :: t' := by
    rw [hD] at ht
    cases D with
    | nil => simp at ht
    | cons d D' =>
      simp only [List.map_cons, List.cons.injEq, Prod.mk.injEq, Option.some.injEq] at ht
      have e : firsts (outU (noa + nva)) ((d :: D').map psupp) = psupp d :: (firsts (outU (noa + nva)) ((d :: D').map psupp)).tail := cons_firsts
      have hs : psupp d = uref noa nob := by
        rw [psupp, ht.1.1, ht.1.2, supp_ofSet (range_sub _ _), supp_ofSet (range_sub _ _)]; rfl
      rw [hs] at e
      exact ⟨_, e⟩
  obtain ⟨t', ht'⟩ := hhead
  have hlen : B.length = (firsts (outU (noa + nva)) (D.map psupp)).length := by rw [hD, length_firsts]; simp
  rw [init_tab hloc.1 ht' hlen, hv B _ hloc hF]
  congr 1
  have hlD : (firsts (outU (noa + nva)) (D.map psupp)).length = D.length := by rw [length_firsts, List.length_map]
  rw [tab, hlD]
  refine List.map_congr_left fun k hk => ?_
  have hk := List.mem_range.mp hk
  have g1 : (D.map psupp).getD k ∅ = psupp D[k] := by simp [hk]
  have g2 : D.getD k (⟨0, []⟩, ⟨0, []⟩) = D[k] := by simp [hk]
  have hx := hd D[k] (List.getElem_mem hk)
  have gi : (D.map psupp).idxOf (psupp D[k]) = D.idxOf D[k] := by
    have s1 := supp_subset D[k].1
    have s2 := supp_subset D[k].2
    rw [hx.1.2] at s1
    rw [hx.2.2] at s2
    have := index2_supp hd s1 s2
    rw [ofSet_of hx.1, ofSet_of hx.2, index2_map D D[k], if_pos (List.getElem_mem hk)] at this
    change _ = pos (D.map psupp) (psupp D[k]) at this
    unfold pos at this
    rw [if_pos (List.mem_map.mpr ⟨_, List.getElem_mem hk, rfl⟩)] at this
    exact (Except.ok.inj this).symm
  have hkf : k < (firsts (outU (noa + nva)) (D.map psupp)).length := by rw [hlD]; exact hk
  rw [List.getD_eq_getElem _ _ hkf, getElem_firsts hkf, g1, g2, gi]
  by_cases hf : D.idxOf D[k] = k
  · rw [if_pos hf, if_pos hf, ← hw, Pi.sub_apply]
    obtain ⟨j, l, h1, h2, hjl⟩ := (hmD D[k]).mp (List.getElem_mem hk)
    have l1 := level_excitation (range_sub _ _) h1
    have l2 := level_excitation (range_sub _ _) h2
    have : psupp D[k] ∩ uvir noa nva nob nvb = emb (supp D[k].1 \ Finset.range noa) (supp D[k].2 \ Finset.range nob) := by
      refine emb_ext (fun i => ?_) (fun i => ?_)
      · rw [psupp, Finset.mem_inter, up_mem, up_vir, Finset.mem_sdiff, Finset.mem_range]
        constructor
        · rintro ⟨h, h', -⟩; exact ⟨h, by omega⟩
        · rintro ⟨h, h'⟩
          exact ⟨h, by omega, Finset.mem_range.mp (l1.1 h)⟩
      · rw [psupp, Finset.mem_inter, dn_mem, dn_vir, Finset.mem_sdiff, Finset.mem_range]
        constructor
        · rintro ⟨h, h', -⟩; exact ⟨h, by omega⟩
        · rintro ⟨h, h'⟩
          exact ⟨h, by omega, Finset.mem_range.mp (l2.1 h)⟩
    rw [this, card_emb, l1.2.1, l2.2.1]
    exact hjl
  · rw [if_neg hf, if_neg hf]
    have h0 : (outU (noa + nva) k ∩ uvir noa nva nob nvb).card = 0 := by
      have : outU (noa + nva) k ∩ uvir noa nva nob nvb = emb ∅ ∅ := by
        refine emb_ext (fun i => ?_) (fun i => ?_)
        · rw [outU, Finset.mem_inter, up_mem, up_vir, out, Finset.mem_singleton]
          simp only [Finset.notMem_empty, iff_false]
          omega
        · rw [outU, Finset.mem_inter, dn_mem]
          simp
      rw [this, card_emb]
      rfl
    have hw0 := hw (outU (noa + nva) k) (by rw [h0]; omega)
    have r1 := (raises_oT1a (noa := noa) (nva := nva) (nob := nob) (nvb := nvb) T1a).add (raises_oT1b (noa := noa) (nva := nva) (nob := nob) (nvb := nvb) T1b)
    have r2 := ((raises_oT2aa (noa := noa) (nva := nva) (nob := nob) (nvb := nvb) T2aa).add (raises_oT2ab (noa := noa) (nva := nva) (nob := nob) (nvb := nvb) T2ab)).add
      (raises_oT2bb (noa := noa) (nva := nva) (nob := nob) (nvb := nvb) T2bb)
    have rm := ((raises_oT1b (noa := noa) (nva := nva) (nob := nob) (nvb := nvb) T1b).mul ((raises_oT1b (noa := noa) (nva := nva) (nob := nob) (nvb := nvb) T1b).mul
      (raises_oT2aa (noa := noa) (nva := nva) (nob := nob) (nvb := nvb) T2aa))).smul (1 / 2 : K)
    have z := r1 0 (det (uref noa nob)) (Lev.all _) (outU (noa + nva) k) (lt_of_eq_of_lt (by convert h0) Nat.one_pos)
    have zm := rm 0 (det (uref noa nob)) (Lev.all _) (outU (noa + nva) k) (lt_of_eq_of_lt (b := 0) (by convert h0) (by norm_num))
    rw [← hw0, Pi.sub_apply, exp_one r1 r2 _ (le_of_eq_of_le (b := 0) (by convert h0) (by norm_num))]
    have zm' : ((1 / 2 : K) • oT1b nob nvb T1b (oT1b nob nvb T1b (oT2aa noa nva T2aa (det (uref noa nob))))) (outU (noa + nva) k) = 0 := zm
    rw [zm', LinearMap.add_apply, Pi.add_apply, z, Module.End.one_apply, det_apply, if_neg, add_zero, sub_zero]
    intro e
    have := (emb_inj.mp e).1
    have hk' : noa + nva + k ∈ Finset.range noa := by rw [← this, out]; simp
    have := Finset.mem_range.mp hk'
    omega

end

/-! ### the missing determinants -/

theorem Safe.bindE {n m : ℕ} {A : Finset ℕ} (hA : A ⊆ Finset.range n) {i a : ℕ} (hi : i < n) (ha : a < n) {f : Option (ℤ × Dstring) → List K → R (List K)}
    (h0 : Safe m (f none)) (hf : ∀ σ A', A' ⊆ Finset.range n → Safe m (f (some (σ, ofSet n A')))) :
    Safe m (fun C => ((ofSet n A).excite i a).bind fun rs => f rs C) := by
  intro C hC
  rw [excite_ofSet A hi ha]
  by_cases hc : i ∈ A ∧ a ∉ A
  · rw [if_pos hc]; exact hf _ _ (exc_sub hA ha) C hC
  · rw [if_neg hc]; exact h0 C hC

theorem Safe.leafU {na nb : ℕ} {B : List Pair} {L : List (Finset SO)} (hB : PLocates na nb B L) {S T : Finset ℕ} (hS : S ⊆ Finset.range na)
    (hT : T ⊆ Finset.range nb) (x : K) : Safe L.length (fun C => (index2 B (ofSet na S) (ofSet nb T)).bind fun idx => addAt C idx x) := by
  intro C hC
  rw [hB.2 S T hS hT]
  unfold pos
  by_cases h : emb S T ∈ L
  · left
    rw [if_pos h]
    have := List.idxOf_lt_length_iff.mpr h
    refine ⟨C.modify (L.idxOf (emb S T)) (· + x), ?_, by simpa using hC⟩
    simp only [Except.bind, addAt, hC, this, if_true]
  · right; rw [if_neg h]; rfl

theorem Fails.leafU {na nb : ℕ} {B : List Pair} {L : List (Finset SO)} (hB : PLocates na nb B L) {S T : Finset ℕ} (hS : S ⊆ Finset.range na)
    (hT : T ⊆ Finset.range nb) (h : emb S T ∉ L) (x : K) :
    Fails L.length (fun C => (index2 B (ofSet na S) (ofSet nb T)).bind fun idx => addAt C idx x) := by
  intro C hC
  rw [hB.2 S T hS hT]
  unfold pos
  rw [if_neg h]; rfl

theorem Safe.fails {m : ℕ} {f g : List K → R (List K)} (hf : Safe m f) (hg : Fails m g) : Fails m (fun C => f C >>= g) := by
  intro C hC
  simp only [bind, Except.bind]
  rcases hf C hC with ⟨C', e, hC'⟩ | e
  · rw [e]; exact hg C' hC'
  · rw [e]

theorem Fails.seq {m : ℕ} {f g : List K → R (List K)} (hf : Fails m f) : Fails m (fun C => f C >>= g) := by
  intro C hC
  simp only [bind, Except.bind]
  rw [hf C hC]

/-- the reference with the electrons of the orbitals 1 to 4 moved to the first four empty ones -/
def quadSet (o : ℕ) : Finset ℕ :=
  insert (3 + o) ((insert (2 + o) ((insert (1 + o) ((insert (0 + o) ((Finset.range o).erase 1)).erase 2)).erase 3)).erase 4)

local macro "quad_mem" : tactic => `(tactic| (simp only [Finset.mem_insert, Finset.mem_erase, Finset.mem_range]; omega))

section
variable {noa nva nob nvb : ℕ} {B : List Pair} {L : List (Finset SO)} (hB : PLocates (noa + nva) (nob + nvb) B L) (T1a T1b : ℕ → ℕ → K)
  (T2aa T2ab T2bb : ℕ → ℕ → ℕ → ℕ → K)
include hB

/-- every step of the loops leaves the length alone or raises `ValueError` -/
local macro "safe_u" : tactic => `(tactic| focus
  have hra := range_sub noa nva
  have hrb := range_sub nob nvb
  repeat' first
    | exact Safe.ok _
    | exact Safe.leafU hB (by assumption) (by assumption) _
    | (refine Safe.loop fun p hp => ?_
       simp only [List.mem_range, List.mem_range'_1] at hp
       change Safe _ (fun C => _))
    | refine Safe.bindE (by assumption) (by omega) (by omega) ?_ fun σ A hA => ?_
    | (show Safe _ (fun C => (index2 _ _ _).bind fun idx => addAt C idx _)
       exact Safe.leafU hB (by assumption) (by assumption) _)
    | (show Safe _ (fun C => (Dstring.excite _ _ _).bind fun rs => _)
       refine Safe.bindE (by assumption) (by omega) (by omega) ?_ fun σ A hA => ?_)
    | dsimp only)

theorem safe_u_T1a : Safe L.length (u_T1a B (ofSet (noa + nva) (Finset.range noa)) (ofSet (nob + nvb) (Finset.range nob)) noa nva nob nvb T1a T1b T2aa T2ab T2bb) := by
  unfold u_T1a
  safe_u

theorem safe_u_T1b : Safe L.length (u_T1b B (ofSet (noa + nva) (Finset.range noa)) (ofSet (nob + nvb) (Finset.range nob)) noa nva nob nvb T1a T1b T2aa T2ab T2bb) := by
  unfold u_T1b
  safe_u

theorem safe_u_T2aa : Safe L.length (u_T2aa B (ofSet (noa + nva) (Finset.range noa)) (ofSet (nob + nvb) (Finset.range nob)) noa nva nob nvb T1a T1b T2aa T2ab T2bb) := by
  unfold u_T2aa
  safe_u

theorem safe_u_T2bb : Safe L.length (u_T2bb B (ofSet (noa + nva) (Finset.range noa)) (ofSet (nob + nvb) (Finset.range nob)) noa nva nob nvb T1a T1b T2aa T2ab T2bb) := by
  unfold u_T2bb
  safe_u

theorem safe_u_T2ab : Safe L.length (u_T2ab B (ofSet (noa + nva) (Finset.range noa)) (ofSet (nob + nvb) (Finset.range nob)) noa nva nob nvb T1a T1b T2aa T2ab T2bb) := by
  unfold u_T2ab
  safe_u

theorem safe_u_T1a_T1a : Safe L.length (u_T1a_T1a B (ofSet (noa + nva) (Finset.range noa)) (ofSet (nob + nvb) (Finset.range nob)) noa nva nob nvb T1a T1b T2aa T2ab T2bb) := by
  unfold u_T1a_T1a
  safe_u

theorem safe_u_T1b_T1b : Safe L.length (u_T1b_T1b B (ofSet (noa + nva) (Finset.range noa)) (ofSet (nob + nvb) (Finset.range nob)) noa nva nob nvb T1a T1b T2aa T2ab T2bb) := by
  unfold u_T1b_T1b
  safe_u

theorem safe_u_T1a_T1b : Safe L.length (u_T1a_T1b B (ofSet (noa + nva) (Finset.range noa)) (ofSet (nob + nvb) (Finset.range nob)) noa nva nob nvb T1a T1b T2aa T2ab T2bb) := by
  unfold u_T1a_T1b
  safe_u

theorem safe_u_T1a_T2aa : Safe L.length (u_T1a_T2aa B (ofSet (noa + nva) (Finset.range noa)) (ofSet (nob + nvb) (Finset.range nob)) noa nva nob nvb T1a T1b T2aa T2ab T2bb) := by
  unfold u_T1a_T2aa
  safe_u

theorem safe_u_T1a_T2ab : Safe L.length (u_T1a_T2ab B (ofSet (noa + nva) (Finset.range noa)) (ofSet (nob + nvb) (Finset.range nob)) noa nva nob nvb T1a T1b T2aa T2ab T2bb) := by
  unfold u_T1a_T2ab
  safe_u

theorem safe_u_T1b_T2aa : Safe L.length (u_T1b_T2aa B (ofSet (noa + nva) (Finset.range noa)) (ofSet (nob + nvb) (Finset.range nob)) noa nva nob nvb T1a T1b T2aa T2ab T2bb) := by
  unfold u_T1b_T2aa
  safe_u

theorem safe_u_T1a_T2bb : Safe L.length (u_T1a_T2bb B (ofSet (noa + nva) (Finset.range noa)) (ofSet (nob + nvb) (Finset.range nob)) noa nva nob nvb T1a T1b T2aa T2ab T2bb) := by
  unfold u_T1a_T2bb
  safe_u

theorem safe_u_T1b_T2ab : Safe L.length (u_T1b_T2ab B (ofSet (noa + nva) (Finset.range noa)) (ofSet (nob + nvb) (Finset.range nob)) noa nva nob nvb T1a T1b T2aa T2ab T2bb) := by
  unfold u_T1b_T2ab
  safe_u

theorem safe_u_T1b_T2bb : Safe L.length (u_T1b_T2bb B (ofSet (noa + nva) (Finset.range noa)) (ofSet (nob + nvb) (Finset.range nob)) noa nva nob nvb T1a T1b T2aa T2ab T2bb) := by
  unfold u_T1b_T2bb
  safe_u

theorem safe_u_T1a_T1a_T1a : Safe L.length (u_T1a_T1a_T1a B (ofSet (noa + nva) (Finset.range noa)) (ofSet (nob + nvb) (Finset.range nob)) noa nva nob nvb T1a T1b T2aa T2ab T2bb) := by
  unfold u_T1a_T1a_T1a
  safe_u

theorem safe_u_T1a_T1a_T1b : Safe L.length (u_T1a_T1a_T1b B (ofSet (noa + nva) (Finset.range noa)) (ofSet (nob + nvb) (Finset.range nob)) noa nva nob nvb T1a T1b T2aa T2ab T2bb) := by
  unfold u_T1a_T1a_T1b
  safe_u

theorem safe_u_T1a_T1b_T1b : Safe L.length (u_T1a_T1b_T1b B (ofSet (noa + nva) (Finset.range noa)) (ofSet (nob + nvb) (Finset.range nob)) noa nva nob nvb T1a T1b T2aa T2ab T2bb) := by
  unfold u_T1a_T1b_T1b
  safe_u

theorem safe_u_T1b_T1b_T1b : Safe L.length (u_T1b_T1b_T1b B (ofSet (noa + nva) (Finset.range noa)) (ofSet (nob + nvb) (Finset.range nob)) noa nva nob nvb T1a T1b T2aa T2ab T2bb) := by
  unfold u_T1b_T1b_T1b
  safe_u

theorem safe_u_T2aa_T2aa : Safe L.length (u_T2aa_T2aa B (ofSet (noa + nva) (Finset.range noa)) (ofSet (nob + nvb) (Finset.range nob)) noa nva nob nvb T1a T1b T2aa T2ab T2bb) := by
  unfold u_T2aa_T2aa
  safe_u

theorem safe_u_T2aa_T2ab : Safe L.length (u_T2aa_T2ab B (ofSet (noa + nva) (Finset.range noa)) (ofSet (nob + nvb) (Finset.range nob)) noa nva nob nvb T1a T1b T2aa T2ab T2bb) := by
  unfold u_T2aa_T2ab
  safe_u

theorem safe_u_T2aa_T2bb : Safe L.length (u_T2aa_T2bb B (ofSet (noa + nva) (Finset.range noa)) (ofSet (nob + nvb) (Finset.range nob)) noa nva nob nvb T1a T1b T2aa T2ab T2bb) := by
  unfold u_T2aa_T2bb
  safe_u

theorem safe_u_T2ab_T2ab : Safe L.length (u_T2ab_T2ab B (ofSet (noa + nva) (Finset.range noa)) (ofSet (nob + nvb) (Finset.range nob)) noa nva nob nvb T1a T1b T2aa T2ab T2bb) := by
  unfold u_T2ab_T2ab
  safe_u

theorem safe_u_T2ab_T2bb : Safe L.length (u_T2ab_T2bb B (ofSet (noa + nva) (Finset.range noa)) (ofSet (nob + nvb) (Finset.range nob)) noa nva nob nvb T1a T1b T2aa T2ab T2bb) := by
  unfold u_T2ab_T2bb
  safe_u

theorem safe_u_T2bb_T2bb : Safe L.length (u_T2bb_T2bb B (ofSet (noa + nva) (Finset.range noa)) (ofSet (nob + nvb) (Finset.range nob)) noa nva nob nvb T1a T1b T2aa T2ab T2bb) := by
  unfold u_T2bb_T2bb
  safe_u

theorem fails_u_T2aa_T2aa (h5 : 5 ≤ noa) (h4 : 4 ≤ nva) (hmiss : emb (quadSet noa) (Finset.range nob) ∉ L) :
    Fails L.length (u_T2aa_T2aa B (ofSet (noa + nva) (Finset.range noa)) (ofSet (nob + nvb) (Finset.range nob)) noa nva nob nvb T1a T1b T2aa T2ab T2bb) := by
  unfold u_T2aa_T2aa
  refine Fails.loop (fun p hp => by simp only [List.mem_range, List.mem_range'_1] at hp; change Safe _ (fun C => _); safe_u) (x := 1) (List.mem_range.mpr (by omega)) ?_
  change Fails _ (fun C => _)
  refine Fails.loop (fun p hp => by simp only [List.mem_range, List.mem_range'_1] at hp; change Safe _ (fun C => _); safe_u) (x := 2) (List.mem_range'_1.mpr (by omega)) ?_
  change Fails _ (fun C => _)
  refine Fails.loop (fun p hp => by simp only [List.mem_range, List.mem_range'_1] at hp; change Safe _ (fun C => _); safe_u) (x := 3) (List.mem_range.mpr (by omega)) ?_
  change Fails _ (fun C => _)
  refine Fails.loop (fun p hp => by simp only [List.mem_range, List.mem_range'_1] at hp; change Safe _ (fun C => _); safe_u) (x := 4) (List.mem_range'_1.mpr (by omega)) ?_
  change Fails _ (fun C => _)
  refine Fails.loop (fun p hp => by simp only [List.mem_range, List.mem_range'_1] at hp; change Safe _ (fun C => _); safe_u) (x := 0) (List.mem_range.mpr (by omega)) ?_
  change Fails _ (fun C => _)
  refine Fails.loop (fun p hp => by simp only [List.mem_range, List.mem_range'_1] at hp; change Safe _ (fun C => _); safe_u) (x := 1) (List.mem_range'_1.mpr (by omega)) ?_
  change Fails _ (fun C => _)
  refine Fails.loop (fun p hp => by simp only [List.mem_range, List.mem_range'_1] at hp; change Safe _ (fun C => _); safe_u) (x := 2) (List.mem_range.mpr (by omega)) ?_
  change Fails _ (fun C => _)
  refine Fails.loop (fun p hp => by simp only [List.mem_range, List.mem_range'_1] at hp; change Safe _ (fun C => _); safe_u) (x := 3) (List.mem_range'_1.mpr (by omega)) ?_
  change Fails _ (fun C => _)
  have s1 := exc_sub (i := 1) (range_sub noa nva) (show 0 + noa < noa + nva by omega)
  have s2 := exc_sub (i := 2) s1 (show 1 + noa < noa + nva by omega)
  have s3 := exc_sub (i := 3) s2 (show 2 + noa < noa + nva by omega)
  have s4 := exc_sub (i := 4) s3 (show 3 + noa < noa + nva by omega)
  refine Fails.exc (range_sub noa nva) (by quad_mem) (by omega) (by quad_mem) fun σ1 => ?_
  refine Fails.exc s1 (by quad_mem) (by omega) (by quad_mem) fun σ2 => ?_
  refine Fails.exc s2 (by quad_mem) (by omega) (by quad_mem) fun σ3 => ?_
  refine Fails.exc s3 (by quad_mem) (by omega) (by quad_mem) fun σ4 => ?_
  exact Fails.leafU hB s4 (range_sub _ _) hmiss _

theorem fails_u_T2bb_T2bb (h5 : 5 ≤ nob) (h4 : 4 ≤ nvb) (hmiss : emb (Finset.range noa) (quadSet nob) ∉ L) :
    Fails L.length (u_T2bb_T2bb B (ofSet (noa + nva) (Finset.range noa)) (ofSet (nob + nvb) (Finset.range nob)) noa nva nob nvb T1a T1b T2aa T2ab T2bb) := by
  unfold u_T2bb_T2bb
  refine Fails.loop (fun p hp => by simp only [List.mem_range, List.mem_range'_1] at hp; change Safe _ (fun C => _); safe_u) (x := 1) (List.mem_range.mpr (by omega)) ?_
  change Fails _ (fun C => _)
  refine Fails.loop (fun p hp => by simp only [List.mem_range, List.mem_range'_1] at hp; change Safe _ (fun C => _); safe_u) (x := 2) (List.mem_range'_1.mpr (by omega)) ?_
  change Fails _ (fun C => _)
  refine Fails.loop (fun p hp => by simp only [List.mem_range, List.mem_range'_1] at hp; change Safe _ (fun C => _); safe_u) (x := 3) (List.mem_range.mpr (by omega)) ?_
  change Fails _ (fun C => _)
  refine Fails.loop (fun p hp => by simp only [List.mem_range, List.mem_range'_1] at hp; change Safe _ (fun C => _); safe_u) (x := 4) (List.mem_range'_1.mpr (by omega)) ?_
  change Fails _ (fun C => _)
  refine Fails.loop (fun p hp => by simp only [List.mem_range, List.mem_range'_1] at hp; change Safe _ (fun C => _); safe_u) (x := 0) (List.mem_range.mpr (by omega)) ?_
  change Fails _ (fun C => _)
  refine Fails.loop (fun p hp => by simp only [List.mem_range, List.mem_range'_1] at hp; change Safe _ (fun C => _); safe_u) (x := 1) (List.mem_range'_1.mpr (by omega)) ?_
  change Fails _ (fun C => _)
  refine Fails.loop (fun p hp => by simp only [List.mem_range, List.mem_range'_1] at hp; change Safe _ (fun C => _); safe_u) (x := 2) (List.mem_range.mpr (by omega)) ?_
  change Fails _ (fun C => _)
  refine Fails.loop (fun p hp => by simp only [List.mem_range, List.mem_range'_1] at hp; change Safe _ (fun C => _); safe_u) (x := 3) (List.mem_range'_1.mpr (by omega)) ?_
  change Fails _ (fun C => _)
  have s1 := exc_sub (i := 1) (range_sub nob nvb) (show 0 + nob < nob + nvb by omega)
  have s2 := exc_sub (i := 2) s1 (show 1 + nob < nob + nvb by omega)
  have s3 := exc_sub (i := 3) s2 (show 2 + nob < nob + nvb by omega)
  have s4 := exc_sub (i := 4) s3 (show 3 + nob < nob + nvb by omega)
  refine Fails.exc (range_sub nob nvb) (by quad_mem) (by omega) (by quad_mem) fun σ1 => ?_
  refine Fails.exc s1 (by quad_mem) (by omega) (by quad_mem) fun σ2 => ?_
  refine Fails.exc s2 (by quad_mem) (by omega) (by quad_mem) fun σ3 => ?_
  refine Fails.exc s3 (by quad_mem) (by omega) (by quad_mem) fun σ4 => ?_
  exact Fails.leafU hB (range_sub _ _) s4 hmiss _

end

theorem level_quad {o v : ℕ} (h5 : 5 ≤ o) (h4 : 4 ≤ v) : Level (Finset.range o) (o + v) (quadSet o) 4 := by
  have l0 := Level.ref (range_sub o v)
  have l1 := l0.step (i := 1) (a := 0 + o) (by quad_mem) (by quad_mem) (by omega) (by quad_mem) (by quad_mem)
  have l2 := l1.step (i := 2) (a := 1 + o) (by quad_mem) (by quad_mem) (by omega) (by quad_mem) (by quad_mem)
  have l3 := l2.step (i := 3) (a := 2 + o) (by quad_mem) (by quad_mem) (by omega) (by quad_mem) (by quad_mem)
  exact l3.step (i := 4) (a := 3 + o) (by quad_mem) (by quad_mem) (by omega) (by quad_mem) (by quad_mem)

theorem zero_quad {o : ℕ} (h5 : 5 ≤ o) : 0 ∈ quadSet o := by
  unfold quadSet
  quad_mem

theorem notMem_firsts {ι : Type} [DecidableEq ι] {junk : ℕ → Finset ι} {l : List (Finset ι)} {P : Finset ι → Prop} (inj : Function.Injective junk)
    (hj : ∀ k, ¬ P (junk k)) (h : ∀ S ∈ l, P S) {T : Finset ι} (hT : P T) (hm : T ∉ l) : T ∉ firsts junk l := by
  have := pos_firsts inj hj h hT
  unfold pos at this
  rw [if_neg hm] at this
  intro hc
  rw [if_pos hc] at this
  exact absurd this (by simp)

/-- C46: when one spin has five or more electrons and four or more empty orbitals, `makeCfromT` with `order = 4` always raises `ValueError`,
whatever the amplitudes: the determinant in which the electrons of its orbitals 1 to 4 are excited is missing from the basis. -/
theorem C46_makeCfromT_error {noa nva nob nvb : ℕ} (hn : noa + nva = nob + nvb) (h : (5 ≤ noa ∧ 4 ≤ nva) ∨ (5 ≤ nob ∧ 4 ≤ nvb))
    (T1a T1b : ℕ → ℕ → K) (T2aa T2ab T2bb : ℕ → ℕ → ℕ → ℕ → K) :
    makeCfromT noa nva nob nvb T1a T1b T2aa T2ab T2bb 4 = .error .value := by
  obtain ⟨B, hB, hm⟩ := C46_ucisdtq_members (noa + nva) noa nob
  obtain ⟨t, ht⟩ := ucisdtq_head hB
  obtain ⟨D, hD, hd⟩ := pdets (na := noa + nva) (nb := nob + nvb) (B := B) fun x hx => by
    obtain ⟨da, db, k, l, rfl, h1, h2, -⟩ := (hm x).mp hx
    exact ⟨(da, db), rfl, ⟨h1.1, h1.2.1⟩, ⟨h2.1, h2.2.1.trans hn⟩⟩
  have hr : (⟨noa + nva, aufbau (noa + nva) nob⟩ : Dstring) = ofSet (nob + nvb) (Finset.range nob) := by rw [hn, aufbau_ofSet]
  simp only [aufbau_ofSet, hr] at hm
  have hpos : 0 < B.length := by rw [ht]; simp
  rw [makeC_stages T1a T1b hn (by omega) (B := B) (by rw [if_neg (by omega), if_neg (by omega), if_neg (by omega), if_pos rfl]; exact hB) hpos]
  have hloc : PLocates (noa + nva) (nob + nvb) B (firsts (outU (noa + nva)) (D.map psupp)) := by rw [hD]; exact plocates_firsts hd
  have hlen : B.length = (firsts (outU (noa + nva)) (D.map psupp)).length := by rw [hD, length_firsts]; simp
  have mem : ∀ S T, emb S T ∈ D.map psupp → ∃ k l, Level (Finset.range noa) (noa + nva) S k ∧ Level (Finset.range nob) (nob + nvb) T l ∧
      (k = 4 → 0 ∉ S) ∧ (l = 4 → 0 ∉ T) := fun S T hS => by
    obtain ⟨d, hdD, e⟩ := List.mem_map.mp hS
    obtain ⟨da, db, k, l, e', h1, h2, -, q, q'⟩ := (hm (some d.1, some d.2)).mp (by rw [hD]; exact List.mem_map.mpr ⟨d, hdD, rfl⟩)
    simp only [Prod.mk.injEq, Option.some.injEq] at e'
    obtain ⟨e1, e2⟩ := emb_inj.mp e
    rw [← e'.1] at h1 q
    rw [← e'.2] at h2 q'
    rw [← e1, ← e2]
    exact ⟨k, l, level_excitation (range_sub _ _) h1, level_excitation (range_sub _ _) h2, fun h => (q h).1, fun h => (q' h).1⟩
  have key : Fails (firsts (outU (noa + nva)) (D.map psupp)).length
      (stagesU B (ofSet (noa + nva) (Finset.range noa)) (ofSet (nob + nvb) (Finset.range nob)) noa nva nob nvb T1a T1b T2aa T2ab T2bb 4) := by
    unfold stagesU
    simp only [show 4 ≥ 2 by omega, show 4 ≥ 3 by omega, show 4 ≥ 4 by omega, if_true, bind_assoc]
    refine Safe.fails (safe_u_T1a hloc _ _ _ _ _) ?_
    refine Safe.fails (safe_u_T1b hloc _ _ _ _ _) ?_
    refine Safe.fails (safe_u_T2aa hloc _ _ _ _ _) ?_
    refine Safe.fails (safe_u_T2bb hloc _ _ _ _ _) ?_
    refine Safe.fails (safe_u_T2ab hloc _ _ _ _ _) ?_
    refine Safe.fails (safe_u_T1a_T1a hloc _ _ _ _ _) ?_
    refine Safe.fails (safe_u_T1b_T1b hloc _ _ _ _ _) ?_
    refine Safe.fails (safe_u_T1a_T1b hloc _ _ _ _ _) ?_
    refine Safe.fails (safe_u_T1a_T2aa hloc _ _ _ _ _) ?_
    refine Safe.fails (safe_u_T1a_T2ab hloc _ _ _ _ _) ?_
    refine Safe.fails (safe_u_T1b_T2aa hloc _ _ _ _ _) ?_
    refine Safe.fails (safe_u_T1a_T2bb hloc _ _ _ _ _) ?_
    refine Safe.fails (safe_u_T1b_T2ab hloc _ _ _ _ _) ?_
    refine Safe.fails (safe_u_T1b_T2bb hloc _ _ _ _ _) ?_
    refine Safe.fails (safe_u_T1a_T1a_T1a hloc _ _ _ _ _) ?_
    refine Safe.fails (safe_u_T1a_T1a_T1b hloc _ _ _ _ _) ?_
    refine Safe.fails (safe_u_T1a_T1b_T1b hloc _ _ _ _ _) ?_
    refine Safe.fails (safe_u_T1b_T1b_T1b hloc _ _ _ _ _) ?_
    by_cases hh : 5 ≤ noa ∧ 4 ≤ nva
    · refine Fails.seq (fails_u_T2aa_T2aa hloc _ _ _ _ _ hh.1 hh.2 (notMem_firsts (outU_inj _) (outU_not _ (nob + nvb)) (within_supp hd) ?_ ?_))
      · exact ⟨_, _, (level_quad hh.1 hh.2).1, range_sub _ _, rfl⟩
      · intro hc
        obtain ⟨k, l, l1, -, q, -⟩ := mem _ _ hc
        have := l1.2.1.symm.trans (level_quad hh.1 hh.2).2.1
        exact q this (zero_quad hh.1)
    · have hb : 5 ≤ nob ∧ 4 ≤ nvb := by omega
      refine Safe.fails (safe_u_T2aa_T2aa hloc _ _ _ _ _) ?_
      refine Safe.fails (safe_u_T2aa_T2ab hloc _ _ _ _ _) ?_
      refine Safe.fails (safe_u_T2aa_T2bb hloc _ _ _ _ _) ?_
      refine Safe.fails (safe_u_T2ab_T2ab hloc _ _ _ _ _) ?_
      refine Safe.fails (safe_u_T2ab_T2bb hloc _ _ _ _ _) ?_
      refine Fails.seq (fails_u_T2bb_T2bb hloc _ _ _ _ _ hb.1 hb.2 (notMem_firsts (outU_inj _) (outU_not _ (nob + nvb)) (within_supp hd) ?_ ?_))
      · exact ⟨_, _, range_sub _ _, (level_quad hb.1 hb.2).1, rfl⟩
      · intro hc
        obtain ⟨k, l, -, l2, -, q⟩ := mem _ _ hc
        have := l2.2.1.symm.trans (level_quad hb.1 hb.2).2.1
        exact q this (zero_quad hb.1)
  exact key _ (by rw [← hlen]; simp)

/-- five electrons of each spin in nine orbitals -/
example : makeCfromT 5 4 5 4 (fun _ _ => (0 : ℚ)) (fun _ _ => 0) (fun _ _ _ _ => 0) (fun _ _ _ _ => 0) (fun _ _ _ _ => 0) 4 = .error .value :=
  C46_makeCfromT_error (by norm_num) (Or.inl ⟨le_rfl, le_rfl⟩) _ _ _ _ _

/-- four electrons of each spin in eight orbitals: the quadruple excitation of the alpha electrons is listed -/
example : ∃ D : List (Dstring × Dstring), ucisdtq_basis 8 4 4 = .ok (D.map fun d => (some d.1, some d.2)) ∧
    ((⟨8, [0, 0, 0, 0, 1, 1, 1, 1]⟩, ⟨8, [1, 1, 1, 1, 0, 0, 0, 0]⟩) : Dstring × Dstring) ∈ D := by
  obtain ⟨D, h1, h2, -⟩ := C46_makeCfromT_four (K := ℚ) (noa := 4) (nva := 4) (nob := 4) (nvb := 4) (fun _ _ => 1) (fun _ _ => 1)
    (T2aa := fun _ _ _ _ => 0) (T2ab := fun _ _ _ _ => 1) (T2bb := fun _ _ _ _ => 0) rfl (by unfold Anti; simp) (by unfold Anti; simp) (Or.inl le_rfl) (Or.inl le_rfl)
  exact ⟨D, h1, (h2 _).mpr ⟨4, 0, by unfold Excitation IsDet; decide +kernel, by unfold Excitation IsDet; decide +kernel, le_rfl⟩⟩

end CI
