import Verif.Props.CIExp2
/-!
# C46: `gmakeCfromT` with `order = 4` where there are quadruple excitations

`gcisdtq_basis` lists quadruple excitations several times, and with five or more electrons not all of them (C34).  With four
electrons the coefficients of `exp(T)` end up at the first place where a determinant stands and zeros at the others; with more
`basis.index` raises `ValueError`.
-/
set_option linter.unusedSectionVars false
namespace CI
open Fock
variable {K : Type} [Field K] [CharZero K]

/-! ### a basis with repetitions -/

theorem index_supp {n : ℕ} {D : List Dstring} (h : ∀ d ∈ D, IsDet d ∧ d.n = n) {T : Finset ℕ} (hT : T ⊆ Finset.range n) :
    CI.index (D.map some) (ofSet n T) = pos (D.map supp) T := by
  rw [index_map]
  unfold pos
  have e : ∀ D : List Dstring, (∀ d ∈ D, IsDet d ∧ d.n = n) → (ofSet n T ∈ D ↔ T ∈ D.map supp) ∧
      D.idxOf (ofSet n T) = (D.map supp).idxOf T := by
    intro D
    induction D with
    | nil => simp
    | cons x l ih =>
      intro hD
      have hx := hD x (by simp)
      obtain ⟨i1, i2⟩ := ih fun d hd => hD d (by simp [hd])
      have hx' : x = ofSet n (supp x) := by have := ofSet_supp hx.1; rw [hx.2] at this; exact this.symm
      have hh : x = ofSet n T ↔ supp x = T := by
        constructor
        · intro h; rw [h, supp_ofSet hT]
        · intro h; rw [hx', h]
      constructor
      · rw [List.map_cons, List.mem_cons, List.mem_cons, i1, eq_comm, hh, eq_comm]
      · by_cases h : x = ofSet n T
        · rw [List.map_cons, h, List.idxOf_cons_self, supp_ofSet hT, List.idxOf_cons_self]
        · rw [List.map_cons, List.idxOf_cons_ne _ h, List.idxOf_cons_ne _ (fun h' => h (hh.mpr h')), i2]
  obtain ⟨e1, e2⟩ := e D h
  simp only [e1, e2]

/-- the list with other sets in place of the repetitions -/
def firsts {ι : Type} [DecidableEq ι] (junk : ℕ → Finset ι) (l : List (Finset ι)) : List (Finset ι) :=
  (List.range l.length).map fun k => if l.idxOf (l.getD k ∅) = k then l.getD k ∅ else junk k

section
variable {ι : Type} [DecidableEq ι] {junk : ℕ → Finset ι} {l : List (Finset ι)} {P : Finset ι → Prop}

variable (junk l) in
theorem length_firsts : (firsts junk l).length = l.length := by simp [firsts]

theorem getElem_firsts {k : ℕ} (hk : k < (firsts junk l).length) :
    (firsts junk l)[k] = if l.idxOf (l.getD k ∅) = k then l.getD k ∅ else junk k := by
  simp [firsts]

theorem nodup_firsts (inj : Function.Injective junk) (hj : ∀ k, ¬ P (junk k)) (h : ∀ S ∈ l, P S) : (firsts junk l).Nodup := by
  unfold firsts
  refine List.Nodup.map_on ?_ List.nodup_range
  intro x hx y hy e
  have s : ∀ k < l.length, ∀ j, l.getD k ∅ ≠ junk j := fun k hk j hh => by
    have hm : l.getD k ∅ ∈ l := by rw [List.getD_eq_getElem _ _ hk]; exact List.getElem_mem hk
    exact hj j (hh ▸ h _ hm)
  have hx := List.mem_range.mp hx
  have hy := List.mem_range.mp hy
  split_ifs at e with h1 h2 h2
  · rw [e] at h1; exact h1.symm.trans h2
  · exact absurd e (s x hx y)
  · exact absurd e.symm (s y hy x)
  · exact inj e

theorem pos_firsts (inj : Function.Injective junk) (hj : ∀ k, ¬ P (junk k)) (h : ∀ S ∈ l, P S) {T : Finset ι} (hT : P T) :
    pos (firsts junk l) T = pos l T := by
  unfold pos
  by_cases hm : T ∈ l
  · have hk := List.idxOf_lt_length_iff.mpr hm
    have hk' : l.idxOf T < (firsts junk l).length := by rw [length_firsts]; exact hk
    have g : l.getD (l.idxOf T) ∅ = T := by rw [List.getD_eq_getElem _ _ hk]; exact List.getElem_idxOf hk
    have e : (firsts junk l)[l.idxOf T] = T := by
      rw [getElem_firsts hk', g, if_pos rfl]
    have hm' : T ∈ firsts junk l := by rw [← e]; exact List.getElem_mem hk'
    rw [if_pos hm, if_pos hm']
    congr 1
    conv_lhs => rw [← e]
    exact (nodup_firsts inj hj h).idxOf_getElem _ hk'
  · rw [if_neg hm, if_neg]
    intro hc
    obtain ⟨k, hk, e⟩ := List.mem_map.mp hc
    have hk := List.mem_range.mp hk
    split_ifs at e with h1
    · refine hm ?_
      rw [← e, List.getD_eq_getElem _ _ hk]; exact List.getElem_mem hk
    · exact hj k (e ▸ hT)

theorem mem_firsts (inj : Function.Injective junk) (hj : ∀ k, ¬ P (junk k)) (h : ∀ S ∈ l, P S) {T : Finset ι} (hT : T ∈ l) : T ∈ firsts junk l := by
  have := pos_firsts inj hj h (h T hT)
  unfold pos at this
  rw [if_pos hT] at this
  by_contra hc
  rw [if_neg hc] at this
  exact absurd this (by simp)

theorem cons_firsts {S : Finset ι} : firsts junk (S :: l) = S :: (firsts junk (S :: l)).tail := by
  unfold firsts
  rw [List.length_cons, List.range_succ_eq_map, List.map_cons]
  simp only [List.getD_cons_zero, List.idxOf_cons_self, if_true, List.tail_cons]

end

/-- sets outside `n` orbitals -/
def out (n : ℕ) (k : ℕ) : Finset ℕ := {n + k}

theorem out_inj (n : ℕ) : Function.Injective (out n) := fun x y e => by
  have := Finset.singleton_injective e; omega

theorem out_not (n k : ℕ) : ¬ out n k ⊆ Finset.range n := by
  intro h
  rw [out, Finset.singleton_subset_iff, Finset.mem_range] at h; omega

theorem supp_sub {n : ℕ} {D : List Dstring} (h : ∀ d ∈ D, IsDet d ∧ d.n = n) : ∀ S ∈ D.map supp, S ⊆ Finset.range n := by
  intro S hS
  obtain ⟨d, hd, rfl⟩ := List.mem_map.mp hS
  have := supp_subset d
  rwa [(h d hd).2] at this

theorem locates_firsts {n : ℕ} {D : List Dstring} (h : ∀ d ∈ D, IsDet d ∧ d.n = n) : Locates n (D.map some) (firsts (out n) (D.map supp)) :=
  ⟨nodup_firsts (out_inj n) (out_not n) (supp_sub h), fun T hT => by rw [index_supp h hT, pos_firsts (out_inj n) (out_not n) (supp_sub h) hT]⟩

/-! ### the basis -/

/-- C46, C34: what `gcisdtq_basis` lists when there are four or more electrons. -/
theorem C46_gcisdtq_members {no nv : ℕ} (h : (no + nv) % 2 = 0) (h4 : 4 ≤ no) :
    ∃ B t, gcisdtq_basis (no + nv) no = .ok B ∧ B = some ⟨no + nv, gocc (no + nv) no⟩ :: t ∧
      ∀ x, x ∈ B ↔ ∃ d k, x = some d ∧ Excitation ⟨no + nv, gocc (no + nv) no⟩ d k ∧ (k ≤ 3 ∨ k = 4 ∧ 0 ∉ supp d ∧ 1 ∉ supp d) := by
  obtain ⟨s, hs, es⟩ := C32_singles (isDet_gocc no h) no
  obtain ⟨d, hd, ed⟩ := C32_doubles (isDet_gocc no h) no
  obtain ⟨t, ht, et⟩ := C32_triples (isDet_gocc no h) no
  have er := enumerates_ref (isDet_gocc no h)
  simp only at hs hd ht
  have h0 : 0 ∈ gref (no + nv) no := by rw [mem_gref]; omega
  have h1 : 1 ∈ gref (no + nv) no := by rw [mem_gref]; omega
  have hq : q_strings (no + nv) no (some (gocc (no + nv) no)) = .ok (qL (no + nv) (gref (no + nv) no)) := by
    rw [gocc_bits h]
    exact q_strings_bits _ _ (gref_sub h) fun k _ _ => ⟨h0, h1⟩
  have mq := mem_qL (gref_sub h) h0 h1
  rw [← gocc_ofSet h] at mq
  unfold gcisdtq_basis
  simp only [new_gocc no h, hs, hd, ht, hq, bind, Except.bind, pure, Except.pure]
  refine ⟨_, _, rfl, rfl, fun x => ?_⟩
  have er' := er.2 x
  simp only [List.mem_singleton] at er'
  simp only [List.mem_append, List.mem_cons, List.not_mem_nil, or_false, er', es.2 x, ed.2 x, et.2 x, mq x]
  constructor
  · rintro ((((⟨d, e, h⟩ | ⟨d, e, h⟩) | ⟨d, e, h⟩) | ⟨d, e, h⟩) | ⟨d, e, h, h'⟩)
    exacts [⟨d, 0, e, h, by omega⟩, ⟨d, 1, e, h, by omega⟩, ⟨d, 2, e, h, by omega⟩, ⟨d, 3, e, h, by omega⟩, ⟨d, 4, e, h, Or.inr ⟨rfl, h'⟩⟩]
  · rintro ⟨d, k, e, h, hk | ⟨rfl, h'⟩⟩
    · interval_cases k
      exacts [Or.inl (Or.inl (Or.inl (Or.inl ⟨d, e, h⟩))), Or.inl (Or.inl (Or.inl (Or.inr ⟨d, e, h⟩))), Or.inl (Or.inl (Or.inr ⟨d, e, h⟩)),
        Or.inl (Or.inr ⟨d, e, h⟩)]
    · exact Or.inr ⟨d, e, h, h'⟩

theorem card_gref {no nv : ℕ} (h : (no + nv) % 2 = 0) : (gref (no + nv) no).card = no := by
  have := length_occ h
  rw [← List.toFinset_card_of_nodup (nodup_occL _ _)] at this
  refine Eq.trans (congrArg Finset.card ?_) this
  ext x
  simp only [List.mem_toFinset, mem_occL]
  exact ⟨fun hx => ⟨Finset.mem_range.mp (gref_sub h hx), hx⟩, fun hx => hx.2⟩

/-- the determinants of a list without `None` -/
theorem dets {n : ℕ} {B : List (Option Dstring)} (h : ∀ x ∈ B, ∃ d, x = some d ∧ IsDet d ∧ d.n = n) :
    ∃ D : List Dstring, B = D.map some ∧ ∀ d ∈ D, IsDet d ∧ d.n = n := by
  induction B with
  | nil => exact ⟨[], rfl, by simp⟩
  | cons x l ih =>
    obtain ⟨D, e, hD⟩ := ih fun y hy => h y (by simp [hy])
    obtain ⟨d, rfl, hd⟩ := h x (by simp)
    refine ⟨d :: D, by rw [e]; rfl, ?_⟩
    intro y hy
    rcases List.mem_cons.mp hy with rfl | hy
    exacts [hd, hD y hy]

section
variable {no nv : ℕ} (h : (no + nv) % 2 = 0) (T1 : ℕ → ℕ → K) {T2 : ℕ → ℕ → ℕ → ℕ → K}
include h

theorem full_firsts {B : List (Option Dstring)} {D : List Dstring} (hD : B = D.map some) (hd : ∀ d ∈ D, IsDet d ∧ d.n = no + nv) {order : ℕ}
    (hm : ∀ d k, Excitation ⟨no + nv, gocc (no + nv) no⟩ d k → k ≤ order → some d ∈ B) :
    FullG (firsts (out (no + nv)) (D.map supp)) (gref (no + nv) no) (no + nv) order := by
  intro A k hA hk
  refine mem_firsts (out_inj _) (out_not _) (supp_sub hd) ?_
  have := hm (ofSet (no + nv) A) k (by rw [gocc_ofSet h]; exact excitation_level (gref_sub h) hA) hk
  rw [hD] at this
  obtain ⟨d, hd', e⟩ := List.mem_map.mp this
  simp only [Option.some.injEq] at e
  exact List.mem_map.mpr ⟨d, hd', by rw [e, supp_ofSet hA.1]⟩

theorem head_firsts {B t : List (Option Dstring)} {D : List Dstring} (hD : B = D.map some)
    (ht : B = some ⟨no + nv, gocc (no + nv) no⟩ :: t) : ∃ t', firsts (out (no + nv)) (D.map supp) = gref (no + nv) no :: t' := by
  rw [gocc_ofSet h, hD] at ht
  cases D with
  | nil => simp at ht
  | cons d D' =>
    simp only [List.map_cons, List.cons.injEq, Option.some.injEq] at ht
    have e : firsts (out (no + nv)) ((d :: D').map supp) = supp d :: (firsts (out (no + nv)) ((d :: D').map supp)).tail := cons_firsts
    have hs : supp d = gref (no + nv) no := by rw [ht.1, supp_ofSet (gref_sub h)]
    rw [hs] at e
    exact ⟨_, e⟩

/-- C46: `gmakeCfromT` with `order = 4` and four electrons: on the determinants `D` of `gcisdtq_basis`, all excitations of the
reference up to the fourth, it returns the coefficients of `exp(T1 + T2)` where a determinant stands for the first time and zero
where it is repeated. -/
theorem C46_gmakeCfromT_four (hno : no = 4) (hT : Anti no nv T2) :
    ∃ D : List Dstring, gcisdtq_basis (no + nv) no = .ok (D.map some) ∧
      (∀ d, d ∈ D ↔ ∃ k, Excitation ⟨no + nv, gocc (no + nv) no⟩ d k ∧ k ≤ 4) ∧
      gmakeCfromT no nv T1 T2 4 (some (gocc (no + nv) no)) = .ok ((List.range D.length).map fun k =>
        if D.idxOf (D.getD k ⟨0, []⟩) = k then
          IsNilpotent.exp (clusterG no nv (focc (no + nv) no) (fvir (no + nv) no) T1 T2) (det (gref (no + nv) no)) (supp (D.getD k ⟨0, []⟩))
        else 0) := by
  obtain ⟨B, t, hB, ht, hmB⟩ := C46_gcisdtq_members h (by omega : 4 ≤ no)
  have hm : ∀ x, x ∈ B ↔ ∃ d k, x = some d ∧ Excitation ⟨no + nv, gocc (no + nv) no⟩ d k ∧ k ≤ 4 := fun x => by
    rw [hmB]
    refine exists_congr fun d => exists_congr fun k => and_congr_right fun _ => and_congr_right fun hd => ?_
    constructor
    · omega
    · intro hk
      by_cases h3 : k ≤ 3
      · exact Or.inl h3
      · have hk4 : k = 4 := by omega
        subst hk4
        refine Or.inr ⟨rfl, ?_⟩
        have hc := hd.2.2.1
        rw [gocc_ofSet h, supp_ofSet (gref_sub h)] at hc
        have hs : gref (no + nv) no \ supp d = gref (no + nv) no :=
          Finset.eq_of_subset_of_card_le Finset.sdiff_subset (by rw [hc, card_gref h, hno])
        have n : ∀ x ∈ gref (no + nv) no, x ∉ supp d := fun x hx => by rw [← hs] at hx; exact (Finset.mem_sdiff.mp hx).2
        exact ⟨n 0 (by rw [mem_gref]; omega), n 1 (by rw [mem_gref]; omega)⟩
  obtain ⟨D, hD, hd⟩ := dets (n := no + nv) (B := B) fun x hx => by
    obtain ⟨d, k, rfl, hd, -⟩ := (hm x).mp hx
    exact ⟨d, rfl, hd.1, hd.2.1⟩
  have hmD : ∀ d, d ∈ D ↔ ∃ k, Excitation ⟨no + nv, gocc (no + nv) no⟩ d k ∧ k ≤ 4 := fun d => by
    have := hm (some d)
    rw [hD] at this
    simp only [List.mem_map, Option.some.injEq, exists_eq_right] at this
    rw [this]
    exact ⟨fun ⟨d', k, e, h⟩ => ⟨k, e ▸ h⟩, fun ⟨k, h⟩ => ⟨d, k, rfl, h⟩⟩
  refine ⟨D, by rw [hB, hD], hmD, ?_⟩
  have hpos : 0 < B.length := by rw [ht]; simp
  rw [clusterG_occ h T1 hT, gmakeC_stages h (by omega) T1 T2 (B := B) (by rw [if_neg (by omega), if_neg (by omega), if_neg (by omega), if_pos rfl]; exact hB) hpos]
  have ho : ∀ i, i < (occL (no + nv) (gref (no + nv) no)).length → (occL (no + nv) (gref (no + nv) no)).getD i 0 ∈ gref (no + nv) no :=
    fun i hi => by rw [length_occ h] at hi; rw [getD_occ h hi]; exact focc_mem h hi
  have hv : ∀ a, a < (virL (no + nv) (gref (no + nv) no)).length → (virL (no + nv) (gref (no + nv) no)).getD a 0 ∉ gref (no + nv) no :=
    fun a ha => by rw [length_vir h] at ha; rw [getD_vir h ha]; exact (fvir_mem h ha).1
  have hn : ∀ a, a < (virL (no + nv) (gref (no + nv) no)).length → (virL (no + nv) (gref (no + nv) no)).getD a 0 < no + nv :=
    fun a ha => by rw [length_vir h] at ha; rw [getD_vir h ha]; exact (fvir_mem h ha).2
  have ho2 : ∀ i, i < (occL (no + nv) (gref (no + nv) no)).length →
      (occL (no + nv) (gref (no + nv) no)).getD i 0 ∉ Finset.range (no + nv) \ gref (no + nv) no :=
    fun i hi => by simp [-List.getD_eq_getElem?_getD, ho i hi]
  have hv2 : ∀ a, a < (virL (no + nv) (gref (no + nv) no)).length →
      (virL (no + nv) (gref (no + nv) no)).getD a 0 ∈ Finset.range (no + nv) \ gref (no + nv) no :=
    fun a ha => by simp [-List.getD_eq_getElem?_getD, hv a ha, hn a ha]
  have e1 := exc_oT1 ho2 hv2 T1
  have e2 := exc_oT2 ho2 hv2 T2
  have r1 := raises_oT1 ho2 hv2 T1
  have r2 := raises_oT2 ho2 hv2 T2
  have hF := full_firsts h hD hd (order := 4) fun d k hE hk => (hm _).mpr ⟨d, k, rfl, hE, hk⟩
  obtain ⟨t', ht'⟩ := head_firsts h hD ht
  have hloc : Locates (no + nv) B (firsts (out (no + nv)) (D.map supp)) := by rw [hD]; exact locates_firsts hd
  set R := gref (no + nv) no with hR
  set X1 := oT1 (occL (no + nv) R) (virL (no + nv) R) T1 with hX1
  set X2 := oT2 (occL (no + nv) R) (virL (no + nv) R) T2 with hX2
  have hA : Adds (firsts (out (no + nv)) (D.map supp)) (stagesG B (ofSet (no + nv) R) (occL (no + nv) R) (virL (no + nv) R) T1 T2 4)
        (X1 (det R) +
        (X2 (det R) +
        ((1 / 2 : K) • X1 (X1 (det R)) +
        (X2 (X1 (det R)) +
        ((1 / 6 : K) • X1 (X1 (X1 (det R))) +
        ((1 / 2 : K) • X2 (X2 (det R)) +
        ((1 / 2 : K) • X2 (X1 (X1 (det R))) +
        ((1 / 24 : K) • X1 (X1 (X1 (X1 (det R)))) + 0)))))))) := by
    unfold stagesG
    simp only [show 4 ≥ 2 by omega, show 4 ≥ 3 by omega, show 4 ≥ 4 by omega, if_true, bind_assoc]
    refine Adds.seq (add_g_T1 hloc hF (gref_sub h) ho hv hn T1 T2 (by omega)) ?_
    refine Adds.seq (add_g_T2 hloc hF (gref_sub h) ho hv hn T1 T2 (by omega)) ?_
    refine Adds.seq (add_g_T1_T1 hloc hF (gref_sub h) ho hv hn T1 T2 (by omega)) ?_
    refine Adds.seq (add_g_T1_T2 hloc hF (gref_sub h) ho hv hn T1 T2 (by omega)) ?_
    refine Adds.seq (add_g_T1_T1_T1 hloc hF (gref_sub h) ho hv hn T1 T2 (by omega)) ?_
    refine Adds.seq (add_g_T2_T2 hloc hF (gref_sub h) ho hv hn T1 T2 (by omega)) ?_
    refine Adds.seq (add_g_T1_T1_T2 hloc hF (gref_sub h) ho hv hn T1 T2 (by omega)) ?_
    exact (add_g_T1_T1_T1_T1 hloc hF (gref_sub h) ho hv hn T1 T2 (by omega)).congr (add_zero _)
  have hlen : B.length = (firsts (out (no + nv)) (D.map supp)).length := by rw [hD, length_firsts]; simp
  rw [init_tab hloc.1 ht' hlen, hA]
  congr 1
  have hlD : (firsts (out (no + nv)) (D.map supp)).length = D.length := by rw [length_firsts, List.length_map]
  rw [tab, hlD]
  refine List.map_congr_left fun k hk => ?_
  have hk := List.mem_range.mp hk
  have hw : ∀ S, (S ∩ (Finset.range (no + nv) \ R)).card ≤ 4 → IsNilpotent.exp (X1 + X2) (det R) S = det R S + (X1 (det R) +
        (X2 (det R) +
        ((1 / 2 : K) • X1 (X1 (det R)) +
        (X2 (X1 (det R)) +
        ((1 / 6 : K) • X1 (X1 (X1 (det R))) +
        ((1 / 2 : K) • X2 (X2 (det R)) +
        ((1 / 2 : K) • X2 (X1 (X1 (det R))) +
        ((1 / 24 : K) • X1 (X1 (X1 (X1 (det R)))) + 0)))))))) S := fun S hS => by
      rw [exp_four r1 r2 (e1.comm e2) _ hS]
      have sw : ∀ φ, X2 (X1 φ) = X1 (X2 φ) := fun φ => e2.comm_apply e1 φ
      simp only [LinearMap.add_apply, LinearMap.smul_apply, Module.End.mul_apply, map_add, map_smul, sw]
      simp only [LinearMap.add_apply, Module.End.one_apply, Pi.add_apply, Pi.zero_apply, Pi.smul_apply, smul_eq_mul]
      ring
  have hkm : k < (D.map supp).length := by rw [List.length_map]; exact hk
  have g1 : (D.map supp).getD k ∅ = supp D[k] := by simp [hk]
  have g2 : D.getD k ⟨0, []⟩ = D[k] := by simp [hk]
  have gi : (D.map supp).idxOf (supp D[k]) = D.idxOf D[k] := by
    have := index_supp hd (T := supp D[k]) (supp_sub hd _ (List.mem_map.mpr ⟨_, List.getElem_mem hk, rfl⟩))
    have hx := hd D[k] (List.getElem_mem hk)
    have hx' : ofSet (no + nv) (supp D[k]) = D[k] := by have := ofSet_supp hx.1; rwa [hx.2] at this
    rw [hx', index_map, if_pos (List.getElem_mem hk)] at this
    unfold pos at this
    rw [if_pos (List.mem_map.mpr ⟨_, List.getElem_mem hk, rfl⟩)] at this
    exact (Except.ok.inj this).symm
  have hkf : k < (firsts (out (no + nv)) (D.map supp)).length := by rw [hlD]; exact hk
  rw [List.getD_eq_getElem _ _ hkf, getElem_firsts hkf, g1, g2, gi]
  by_cases hf : D.idxOf D[k] = k
  · rw [if_pos hf, if_pos hf, hw]
    obtain ⟨j, hE, hj⟩ := (hmD D[k]).mp (List.getElem_mem hk)
    rw [gocc_ofSet h] at hE
    have l1 := level_excitation (gref_sub h) hE
    have : supp D[k] ∩ (Finset.range (no + nv) \ R) = supp D[k] \ R := by
      ext x; simp only [Finset.mem_inter, Finset.mem_sdiff]
      exact ⟨fun hx => ⟨hx.1, hx.2.2⟩, fun hx => ⟨hx.1, l1.1 hx.1, hx.2⟩⟩
    rw [this, l1.2.1]
    exact hj
  · rw [if_neg hf, if_neg hf]
    have h0 : ((out (no + nv) k) ∩ (Finset.range (no + nv) \ R)).card = 0 := by
      rw [Finset.card_eq_zero]
      ext x
      simp only [out, Finset.mem_inter, Finset.mem_singleton, Finset.mem_sdiff, Finset.mem_range, Finset.notMem_empty, iff_false]
      omega
    rw [← hw _ (by rw [h0]; omega), exp_one r1 r2 _ (by rw [h0]; omega)]
    have z := r1 0 (det R) (Lev.all _) (out (no + nv) k) (by rw [h0]; omega)
    rw [LinearMap.add_apply, Pi.add_apply, z, Module.End.one_apply, det_apply, if_neg, add_zero]
    intro e
    have h00 : (0 : ℕ) ∈ R := by rw [hR, mem_gref]; omega
    rw [← e, out, Finset.mem_singleton] at h00
    omega

end

/-! ### the missing determinants -/

/-- The step leaves the length alone or raises `ValueError`. -/
def Safe (m : ℕ) (f : List K → R (List K)) : Prop :=
  ∀ C : List K, C.length = m → (∃ C', f C = .ok C' ∧ C'.length = m) ∨ f C = .error .value

/-- The step raises `ValueError`. -/
def Fails (m : ℕ) (f : List K → R (List K)) : Prop := ∀ C : List K, C.length = m → f C = .error .value

theorem Fails.safe {m : ℕ} {f : List K → R (List K)} (h : Fails m f) : Safe m f := fun C hC => Or.inr (h C hC)

theorem Safe.ok (m : ℕ) : Safe m (fun C : List K => .ok C) := fun C hC => Or.inl ⟨C, rfl, hC⟩

theorem Safe.ite {m : ℕ} {p : Prop} [Decidable p] {f : List K → R (List K)} (h : Safe m f) : Safe m (fun C => if p then .ok C else f C) := by
  intro C hC
  by_cases hp : p
  · simp only [hp, if_true]; exact Or.inl ⟨C, rfl, hC⟩
  · simp only [hp, if_false]; exact h C hC

theorem Fails.ite {m : ℕ} {p : Prop} [Decidable p] {f : List K → R (List K)} (hp : ¬ p) (h : Fails m f) :
    Fails m (fun C => if p then .ok C else f C) := by
  intro C hC
  simp only [hp, if_false]; exact h C hC

theorem Safe.loop {α : Type} {m : ℕ} {l : List α} {step : α → List K → R (List K)} (h : ∀ x ∈ l, Safe m (step x)) :
    Safe m (CI.loop l step) := by
  induction l with
  | nil => exact Safe.ok m
  | cons x l ih =>
    intro C hC
    have ih := ih fun y hy => h y (by simp [hy])
    simp only [CI.loop, bind, Except.bind]
    rcases h x (by simp) C hC with ⟨C', e, hC'⟩ | e
    · rw [e]; exact ih C' hC'
    · rw [e]; exact Or.inr rfl

theorem Fails.loop {α : Type} {m : ℕ} {l : List α} {step : α → List K → R (List K)} (h : ∀ x ∈ l, Safe m (step x)) {x : α}
    (hx : x ∈ l) (hf : Fails m (step x)) : Fails m (CI.loop l step) := by
  induction l with
  | nil => simp at hx
  | cons y l ih =>
    intro C hC
    simp only [CI.loop, bind, Except.bind]
    rcases h y (by simp) C hC with ⟨C', e, hC'⟩ | e
    · rw [e]
      rcases List.mem_cons.mp hx with rfl | hx
      · rw [hf C hC] at e; exact absurd e (by simp)
      · exact ih (fun z hz => h z (by simp [hz])) hx C' hC'
    · rw [e]

theorem mem_enum {l : List ℕ} {p : ℕ × ℕ} : p ∈ enum l ↔ p.1 < l.length ∧ l.getD p.1 0 = p.2 := by
  obtain ⟨i, x⟩ := p
  simp only [enum, List.mem_map, Prod.mk.injEq, Prod.exists]
  constructor
  · rintro ⟨a, b, hm, rfl, rfl⟩
    rw [List.mem_zipIdx_iff_getElem?] at hm
    obtain ⟨hlt, e⟩ := List.getElem?_eq_some_iff.mp hm
    exact ⟨hlt, by rw [List.getD_eq_getElem _ _ hlt, e]⟩
  · rintro ⟨hlt, e⟩
    refine ⟨x, i, ?_, rfl, rfl⟩
    rw [List.mem_zipIdx_iff_getElem?]
    refine List.getElem?_eq_some_iff.mpr ⟨hlt, ?_⟩
    rw [← e, List.getD_eq_getElem _ _ hlt]

theorem Safe.leaf {n : ℕ} {B : List (Option Dstring)} {L : List (Finset ℕ)} (hB : Locates n B L) {S : Finset ℕ} (hS : S ⊆ Finset.range n) (x : K) :
    Safe L.length (fun C => (index B (ofSet n S)).bind fun idx => addAt C idx x) := by
  intro C hC
  rw [hB.2 S hS]
  unfold pos
  by_cases h : S ∈ L
  · left
    rw [if_pos h]
    have := List.idxOf_lt_length_iff.mpr h
    refine ⟨C.modify (L.idxOf S) (· + x), ?_, by simpa using hC⟩
    simp only [Except.bind, addAt, hC, this, if_true]
  · right; rw [if_neg h]; rfl

theorem Fails.leaf {n : ℕ} {B : List (Option Dstring)} {L : List (Finset ℕ)} (hB : Locates n B L) {S : Finset ℕ} (hS : S ⊆ Finset.range n)
    (h : S ∉ L) (x : K) : Fails L.length (fun C => (index B (ofSet n S)).bind fun idx => addAt C idx x) := by
  intro C hC
  rw [hB.2 S hS]
  unfold pos
  rw [if_neg h]; rfl

theorem exc_sub {n : ℕ} {A : Finset ℕ} {i a : ℕ} (hA : A ⊆ Finset.range n) (ha : a < n) : insert a (A.erase i) ⊆ Finset.range n := by
  intro x hx
  rw [Finset.mem_insert, Finset.mem_erase] at hx
  rcases hx with rfl | hx
  · exact Finset.mem_range.mpr ha
  · exact hA hx.2

theorem Safe.exc {n m : ℕ} {A : Finset ℕ} (hA : A ⊆ Finset.range n) {i a : ℕ} (hi : i < n) (ha : a < n) {f : ℤ → Dstring → List K → R (List K)}
    (hf : ∀ σ A', A' ⊆ Finset.range n → Safe m (f σ (ofSet n A'))) :
    Safe m (fun C => ((ofSet n A).excite i a).bind fun rs => match rs with
      | none => .ok C
      | some (s, d) => f s d C) := by
  intro C hC
  rw [excite_ofSet A hi ha]
  by_cases hc : i ∈ A ∧ a ∉ A
  · rw [if_pos hc]; exact hf _ _ (exc_sub hA ha) C hC
  · rw [if_neg hc]; exact Or.inl ⟨C, rfl, hC⟩

theorem Fails.exc {n m : ℕ} {A : Finset ℕ} (hA : A ⊆ Finset.range n) {i a : ℕ} (hi : i ∈ A) (hn : a < n) (ha : a ∉ A) {f : ℤ → Dstring → List K → R (List K)}
    (hf : ∀ σ, Fails m (f σ (ofSet n (insert a (A.erase i))))) :
    Fails m (fun C => ((ofSet n A).excite i a).bind fun rs => match rs with
      | none => .ok C
      | some (s, d) => f s d C) := by
  intro C hC
  rw [excite_ofSet A (Finset.mem_range.mp (hA hi)) hn, if_pos ⟨hi, ha⟩]
  exact hf _ C hC

section
variable {n : ℕ} {R : Finset ℕ} {B : List (Option Dstring)} {L : List (Finset ℕ)} (hB : Locates n B L)
  (hR : R ⊆ Finset.range n) {iocc ivir : List ℕ} (ho : ∀ q x, (q, x) ∈ enum iocc → x < n)
  (hv : ∀ q x, (q, x) ∈ enum ivir → x < n) (T1 : ℕ → ℕ → K) (T2 : ℕ → ℕ → ℕ → ℕ → K)
include hB hR ho hv

/-- every step of the loops leaves the length alone or raises `ValueError` -/
local macro "safe_steps" : tactic => `(tactic| focus
  repeat' first
    | exact Safe.ok _
    | (refine Safe.loop fun p hp => ?_
       obtain ⟨q, x⟩ := p
       change Safe _ (fun C => _))
    | refine Safe.ite ?_
    | refine Safe.exc (by assumption) (by first | exact ho _ _ (by assumption) | exact hv _ _ (by assumption))
        (by first | exact ho _ _ (by assumption) | exact hv _ _ (by assumption)) fun σ A hA => ?_
    | exact Safe.leaf hB (by assumption) _)

theorem fails_T2_T2 {qi i qj j qk k ql l qa a qb b qc c qd d : ℕ} (hi : (qi, i) ∈ enum iocc) (hj : (qj, j) ∈ enum iocc) (hk : (qk, k) ∈ enum iocc)
    (hl : (ql, l) ∈ enum iocc) (ha : (qa, a) ∈ enum ivir) (hb : (qb, b) ∈ enum ivir) (hc : (qc, c) ∈ enum ivir) (hd : (qd, d) ∈ enum ivir)
    (hij : i < j) (hjk : j < k) (hkl : k < l) (hab : a < b) (hbc : b < c) (hcd : c < d)
    (ri : i ∈ R) (rj : j ∈ R) (rk : k ∈ R) (rl : l ∈ R) (ra : a ∉ R) (rb : b ∉ R) (rc : c ∉ R) (rd : d ∉ R)
    (hmiss : insert d ((insert c ((insert b ((insert a (R.erase i)).erase j)).erase k)).erase l) ∉ L) :
    Fails L.length (g_T2_T2 B (ofSet n R) iocc ivir T1 T2) := by
  have hna := hv _ _ ha
  have hnb := hv _ _ hb
  have hnc := hv _ _ hc
  have hnd := hv _ _ hd
  have ne : ∀ x ∈ R, ∀ y ∉ R, x ≠ y := fun x hx y hy e => hy (e ▸ hx)
  unfold g_T2_T2
  refine Fails.loop (fun p hp => by obtain ⟨q, x⟩ := p; change Safe _ (fun C => _); safe_steps) hi ?_
  change Fails _ (fun C => _)
  refine Fails.loop (fun p hp => by obtain ⟨q, x⟩ := p; change Safe _ (fun C => _); safe_steps) hj ?_
  change Fails _ (fun C => _)
  refine Fails.ite (not_le.mpr hij) ?_
  refine Fails.loop (fun p hp => by obtain ⟨q, x⟩ := p; change Safe _ (fun C => _); safe_steps) hk ?_
  change Fails _ (fun C => _)
  refine Fails.loop (fun p hp => by obtain ⟨q, x⟩ := p; change Safe _ (fun C => _); safe_steps) hl ?_
  change Fails _ (fun C => _)
  refine Fails.ite (not_le.mpr hkl) ?_
  refine Fails.loop (fun p hp => by obtain ⟨q, x⟩ := p; change Safe _ (fun C => _); safe_steps) ha ?_
  change Fails _ (fun C => _)
  refine Fails.loop (fun p hp => by obtain ⟨q, x⟩ := p; change Safe _ (fun C => _); safe_steps) hb ?_
  change Fails _ (fun C => _)
  refine Fails.ite (not_le.mpr hab) ?_
  refine Fails.loop (fun p hp => by obtain ⟨q, x⟩ := p; change Safe _ (fun C => _); safe_steps) hc ?_
  change Fails _ (fun C => _)
  refine Fails.loop (fun p hp => by obtain ⟨q, x⟩ := p; change Safe _ (fun C => _); safe_steps) hd ?_
  change Fails _ (fun C => _)
  refine Fails.ite (not_le.mpr hcd) ?_
  have s1 := exc_sub (i := i) hR hna
  have s2 := exc_sub (i := j) s1 hnb
  have s3 := exc_sub (i := k) s2 hnc
  have s4 := exc_sub (i := l) s3 hnd
  refine Fails.exc hR ri hna ra fun σ1 => ?_
  refine Fails.exc s1 (by simp [Finset.mem_insert, Finset.mem_erase, rj, hij.ne', ne j rj a ra]) hnb (by simp [rb, hab.ne']) fun σ2 => ?_
  refine Fails.exc s2 (by simp [rk, hjk.ne', (hij.trans hjk).ne', ne k rk a ra, ne k rk b rb]) hnc (by simp [rc, (hab.trans hbc).ne', hbc.ne']) fun σ3 => ?_
  refine Fails.exc s3 (by simp [rl, hkl.ne', (hjk.trans hkl).ne', (hij.trans (hjk.trans hkl)).ne', ne l rl a ra, ne l rl b rb, ne l rl c rc]) hnd
    (by simp [rd, (hab.trans (hbc.trans hcd)).ne', (hbc.trans hcd).ne', hcd.ne']) fun σ4 => ?_
  exact Fails.leaf hB s4 hmiss _
end

/-- C46: with five or more electrons and four or more virtual orbitals `gmakeCfromT` with `order = 4` always raises `ValueError`: the
determinant in which the electrons of the second to the fifth occupied orbital are excited is missing from the basis. -/
theorem C46_gmakeCfromT_error {no nv : ℕ} (h : (no + nv) % 2 = 0) (h5 : 5 ≤ no) (h4 : 4 ≤ nv) (T1 : ℕ → ℕ → K) (T2 : ℕ → ℕ → ℕ → ℕ → K) :
    gmakeCfromT no nv T1 T2 4 (some (gocc (no + nv) no)) = .error .value := by
  obtain ⟨B, t, hB, ht, hm⟩ := C46_gcisdtq_members h (by omega : 4 ≤ no)
  obtain ⟨D, hD, hd⟩ := dets (n := no + nv) (B := B) fun x hx => by
    obtain ⟨d, k, rfl, hd, -⟩ := (hm x).mp hx
    exact ⟨d, rfl, hd.1, hd.2.1⟩
  have hpos : 0 < B.length := by rw [ht]; simp
  rw [gmakeC_stages h (by omega) T1 T2 (B := B) (by rw [if_neg (by omega), if_neg (by omega), if_neg (by omega), if_pos rfl]; exact hB) hpos]
  have ho : ∀ i, i < (occL (no + nv) (gref (no + nv) no)).length → (occL (no + nv) (gref (no + nv) no)).getD i 0 ∈ gref (no + nv) no :=
    fun i hi => by rw [length_occ h] at hi; rw [getD_occ h hi]; exact focc_mem h hi
  have hv : ∀ a, a < (virL (no + nv) (gref (no + nv) no)).length → (virL (no + nv) (gref (no + nv) no)).getD a 0 ∉ gref (no + nv) no :=
    fun a ha => by rw [length_vir h] at ha; rw [getD_vir h ha]; exact (fvir_mem h ha).1
  have hn : ∀ a, a < (virL (no + nv) (gref (no + nv) no)).length → (virL (no + nv) (gref (no + nv) no)).getD a 0 < no + nv :=
    fun a ha => by rw [length_vir h] at ha; rw [getD_vir h ha]; exact (fvir_mem h ha).2
  have hF := full_firsts h hD hd (order := 3) fun d k hE hk => (hm _).mpr ⟨d, k, rfl, hE, Or.inl hk⟩
  obtain ⟨t', ht'⟩ := head_firsts h hD ht
  have hloc : Locates (no + nv) B (firsts (out (no + nv)) (D.map supp)) := by rw [hD]; exact locates_firsts hd
  have mo : ∀ i, i < no → (i, focc (no + nv) no i) ∈ enum (occL (no + nv) (gref (no + nv) no)) := fun i hi =>
    mem_enum.mpr ⟨by rw [length_occ h]; exact hi, getD_occ h hi⟩
  have mv : ∀ a, a < nv → (a, fvir (no + nv) no a) ∈ enum (virL (no + nv) (gref (no + nv) no)) := fun a ha =>
    mem_enum.mpr ⟨by rw [length_vir h]; exact ha, getD_vir h ha⟩
  have lo : ∀ i j, i < j → j < no → focc (no + nv) no i < focc (no + nv) no j := fun i j hij hj => by unfold focc; split_ifs <;> omega
  have lv : ∀ a b, a < b → b < nv → fvir (no + nv) no a < fvir (no + nv) no b := fun a b hab hb => by unfold fvir; split_ifs <;> omega
  have h00 : focc (no + nv) no 0 = 0 := by unfold focc; split_ifs <;> omega
  have p0 : ∀ i, 0 < i → i < no → focc (no + nv) no i ≠ 0 := fun i hi hin => by have := lo 0 i hi hin; omega
  have key : Fails (firsts (out (no + nv)) (D.map supp)).length (g_T2_T2 B (ofSet (no + nv) (gref (no + nv) no)) (occL (no + nv) (gref (no + nv) no))
      (virL (no + nv) (gref (no + nv) no)) T1 T2) := by
    have fm : ∀ i, i < no → focc (no + nv) no i ∈ gref (no + nv) no := fun i hi => focc_mem h hi
    have vm : ∀ a, a < nv → fvir (no + nv) no a ∉ gref (no + nv) no := fun a ha => (fvir_mem h ha).1
    have vn : ∀ a, a < nv → fvir (no + nv) no a < no + nv := fun a ha => (fvir_mem h ha).2
    have ne : ∀ i, i < no → ∀ a, a < nv → focc (no + nv) no i ≠ fvir (no + nv) no a := fun i hi a ha e => vm a ha (e ▸ fm i hi)
    refine fails_T2_T2 hloc (gref_sub h) ?_ ?_ T1 T2 (mo 1 (by omega)) (mo 2 (by omega)) (mo 3 (by omega)) (mo 4 (by omega)) (mv 0 (by omega))
      (mv 1 (by omega)) (mv 2 (by omega)) (mv 3 (by omega)) (lo _ _ (by omega) (by omega)) (lo _ _ (by omega) (by omega)) (lo _ _ (by omega) (by omega))
      (lv _ _ (by omega) (by omega)) (lv _ _ (by omega) (by omega)) (lv _ _ (by omega) (by omega)) (fm _ (by omega)) (fm _ (by omega)) (fm _ (by omega))
      (fm _ (by omega)) (vm _ (by omega)) (vm _ (by omega)) (vm _ (by omega)) (vm _ (by omega)) ?_
    · intro q x hx
      obtain ⟨h1, h2⟩ := mem_enum.mp hx
      simp only at h1 h2
      rw [← h2]
      exact Finset.mem_range.mp (gref_sub h (ho q h1))
    · intro q x hx
      obtain ⟨h1, h2⟩ := mem_enum.mp hx
      simp only at h1 h2
      rw [← h2]
      exact hn q h1
    · have oo : ∀ i j, i < no → j < no → i ≠ j → focc (no + nv) no i ≠ focc (no + nv) no j := fun i j hi hj hij => by
        rcases Nat.lt_or_gt_of_ne hij with hh | hh
        · exact (lo i j hh hj).ne
        · exact (lo j i hh hi).ne'
      have vv : ∀ i j, i < nv → j < nv → i ≠ j → fvir (no + nv) no i ≠ fvir (no + nv) no j := fun i j hi hj hij => by
        rcases Nat.lt_or_gt_of_ne hij with hh | hh
        · exact (lv i j hh hj).ne
        · exact (lv j i hh hi).ne'
      have l0 := Level.ref (gref_sub h)
      have l1 := l0.step (fm 1 (by omega)) (vm 0 (by omega)) (vn 0 (by omega)) (fm 1 (by omega)) (vm 0 (by omega))
      have l2 := l1.step (fm 2 (by omega)) (vm 1 (by omega)) (vn 1 (by omega))
        (by simp [fm 2 (by omega), oo 2 1 (by omega) (by omega) (by omega)]) (by simp [vm 1 (by omega), vv 1 0 (by omega) (by omega) (by omega)])
      have l3 := l2.step (fm 3 (by omega)) (vm 2 (by omega)) (vn 2 (by omega))
        (by simp [fm 3 (by omega), oo 3 1 (by omega) (by omega) (by omega), oo 3 2 (by omega) (by omega) (by omega)])
        (by simp [vm 2 (by omega), vv 2 0 (by omega) (by omega) (by omega), vv 2 1 (by omega) (by omega) (by omega)])
      have l4 := l3.step (fm 4 (by omega)) (vm 3 (by omega)) (vn 3 (by omega))
        (by simp [fm 4 (by omega), oo 4 1 (by omega) (by omega) (by omega), oo 4 2 (by omega) (by omega) (by omega), oo 4 3 (by omega) (by omega) (by omega)])
        (by simp [vm 3 (by omega), vv 3 0 (by omega) (by omega) (by omega), vv 3 1 (by omega) (by omega) (by omega), vv 3 2 (by omega) (by omega) (by omega)])
      intro hmem
      have hz : (0 : ℕ) ∈ insert (fvir (no + nv) no 3) ((insert (fvir (no + nv) no 2) ((insert (fvir (no + nv) no 1)
          ((insert (fvir (no + nv) no 0) ((gref (no + nv) no).erase (focc (no + nv) no 1))).erase (focc (no + nv) no 2))).erase (focc (no + nv) no 3))).erase
          (focc (no + nv) no 4)) := by
        have z0 : (0 : ℕ) ∈ gref (no + nv) no := h00 ▸ fm 0 (by omega)
        simp only [Finset.mem_insert, Finset.mem_erase]
        exact Or.inr ⟨(p0 4 (by omega) (by omega)).symm, Or.inr ⟨(p0 3 (by omega) (by omega)).symm, Or.inr ⟨(p0 2 (by omega) (by omega)).symm,
          Or.inr ⟨(p0 1 (by omega) (by omega)).symm, z0⟩⟩⟩⟩
      obtain ⟨k, hk, e⟩ := List.mem_map.mp hmem
      have hk := List.mem_range.mp hk
      split_ifs at e with hf
      · have hkD : k < D.length := by simpa using hk
        have g1 : (D.map supp).getD k ∅ = supp D[k] := by simp [hkD]
        rw [g1] at e
        obtain ⟨d, j, e', hE, hj⟩ := (hm (some D[k])).mp (by rw [hD]; exact List.mem_map.mpr ⟨_, List.getElem_mem hkD, rfl⟩)
        simp only [Option.some.injEq] at e'
        rw [← e'] at hE hj
        rw [gocc_ofSet h] at hE
        have lj := level_excitation (gref_sub h) hE
        rw [← e] at l4 hz
        have hj4 : j = 4 := by have a := lj.2.1; have b := l4.2.1; omega
        rcases hj with hj | ⟨-, hj, -⟩
        · omega
        · exact hj hz
      · rw [← e, out, Finset.mem_singleton] at hz; omega
  have hlen : B.length = (firsts (out (no + nv)) (D.map supp)).length := by rw [hD, length_firsts]; simp
  rw [init_tab hloc.1 ht' hlen]
  have a1 := fun c => add_g_T1 hloc hF (gref_sub h) ho hv hn T1 T2 (by omega) c
  have a2 := fun c => add_g_T2 hloc hF (gref_sub h) ho hv hn T1 T2 (by omega) c
  have a3 := fun c => add_g_T1_T1 hloc hF (gref_sub h) ho hv hn T1 T2 (by omega) c
  have a4 := fun c => add_g_T1_T2 hloc hF (gref_sub h) ho hv hn T1 T2 (by omega) c
  have a5 := fun c => add_g_T1_T1_T1 hloc hF (gref_sub h) ho hv hn T1 T2 (by omega) c
  unfold stagesG
  simp only [show 4 ≥ 2 by omega, show 4 ≥ 3 by omega, show 4 ≥ 4 by omega, if_true, a1, a2, a3, a4, a5, ok_bind']
  rw [key _ (by simp [tab])]
  rfl

/-- six electrons in ten spin orbitals -/
example : gmakeCfromT 6 4 (fun _ _ => (0 : ℚ)) (fun _ _ _ _ => 0) 4 (some (gocc 10 6)) = .error .value :=
  C46_gmakeCfromT_error (no := 6) (nv := 4) (by norm_num) (by norm_num) (by norm_num) _ _

/-- four electrons in eight spin orbitals: the coefficient of the quadruple excitation stands at its first place only -/
example : ∃ D : List Dstring, gcisdtq_basis 8 4 = .ok (D.map some) ∧ (⟨8, [0, 0, 1, 1, 0, 0, 1, 1]⟩ : Dstring) ∈ D := by
  obtain ⟨D, h1, h2, -⟩ := C46_gmakeCfromT_four (K := ℚ) (no := 4) (nv := 4) (by norm_num) (fun _ _ => 1) rfl (T2 := fun _ _ _ _ => 0)
    (by unfold Anti; simp)
  exact ⟨D, h1, (h2 _).mpr ⟨4, by unfold Excitation IsDet; decide +kernel, le_rfl⟩⟩

end CI
