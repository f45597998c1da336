import Verif.Props.CIStrings
import Mathlib.Data.List.GetD
/-!
# C33, C34: bases, and quadruple excitations
-/
namespace CI
open Fock

/-! ## levels -/

theorem Excitation.unique {ref d : Dstring} {k k' : ℕ} (h : Excitation ref d k) (h' : Excitation ref d k') : k = k' := by
  rw [← h.2.2.1, h'.2.2.1]

theorem excitation_zero {ref d : Dstring} (h : IsDet ref) : Excitation ref d 0 ↔ d = ref := by
  constructor
  · rintro ⟨h1, h2, h3, h4⟩
    rw [Finset.card_eq_zero, Finset.sdiff_eq_empty_iff_subset] at h3 h4
    rw [← ofSet_supp h1, ← ofSet_supp h, h2, Finset.Subset.antisymm h3 h4]
  · rintro rfl; exact ⟨h, rfl, by simp, by simp⟩

theorem enumerates_ref {ref : Dstring} (h : IsDet ref) : Enumerates [some ref] ref 0 := by
  refine ⟨List.nodup_singleton _, fun x => ?_⟩
  simp only [List.mem_singleton, excitation_zero h]
  exact ⟨fun hx => ⟨ref, hx, rfl⟩, fun ⟨d, hx, hd⟩ => hd ▸ hx⟩

/-! ## unrestricted bases -/

/-- `B` holds every pair of an alpha excitation of level `k` and a beta excitation of level `l` with `P k l`, exactly once,
and nothing else. -/
def EnumeratesU (B : List Pair) (refa refb : Dstring) (P : ℕ → ℕ → Prop) : Prop :=
  B.Nodup ∧ ∀ x, x ∈ B ↔ ∃ da db k l, x = (some da, some db) ∧ Excitation refa da k ∧ Excitation refb db l ∧ P k l

theorem EnumeratesU.append {B B' : List Pair} {refa refb : Dstring} {P Q : ℕ → ℕ → Prop} (h : EnumeratesU B refa refb P)
    (h' : EnumeratesU B' refa refb Q) (hPQ : ∀ k l, P k l → Q k l → False) :
    EnumeratesU (B ++ B') refa refb fun k l => P k l ∨ Q k l := by
  refine ⟨List.nodup_append.mpr ⟨h.1, h'.1, ?_⟩, fun x => ?_⟩
  · rintro x hx y hy rfl
    obtain ⟨da, db, k, l, rfl, h1, h2, h3⟩ := (h.2 x).mp hx
    obtain ⟨da', db', k', l', e, h1', h2', h3'⟩ := (h'.2 _).mp hy
    simp only [Prod.mk.injEq, Option.some.injEq] at e
    obtain ⟨rfl, rfl⟩ := e
    rw [h1.unique h1', h2.unique h2'] at h3
    exact hPQ _ _ h3 h3'
  · rw [List.mem_append, h.2, h'.2]
    constructor
    · rintro (⟨da, db, k, l, e, h1, h2, h3⟩ | ⟨da, db, k, l, e, h1, h2, h3⟩)
      · exact ⟨da, db, k, l, e, h1, h2, Or.inl h3⟩
      · exact ⟨da, db, k, l, e, h1, h2, Or.inr h3⟩
    · rintro ⟨da, db, k, l, e, h1, h2, h3 | h3⟩
      · exact Or.inl ⟨da, db, k, l, e, h1, h2, h3⟩
      · exact Or.inr ⟨da, db, k, l, e, h1, h2, h3⟩

theorem EnumeratesU.congr {B : List Pair} {refa refb : Dstring} {P Q : ℕ → ℕ → Prop} (h : EnumeratesU B refa refb P)
    (hPQ : ∀ k l, P k l ↔ Q k l) : EnumeratesU B refa refb Q := by
  have : P = Q := by funext k l; exact propext (hPQ k l)
  exact this ▸ h

theorem enumerates_prod {La Lb : List (Option Dstring)} {refa refb : Dstring} {m m' : ℕ} (ha : Enumerates La refa m)
    (hb : Enumerates Lb refb m') : EnumeratesU (prod La Lb) refa refb fun k l => k = m ∧ l = m' := by
  refine ⟨nodup_flatMap' ha.1 (fun a _ => hb.1.map fun x y h => (Prod.mk.injEq _ _ _ _ ▸ h : a = a ∧ x = y).2) ?_, fun x => ?_⟩
  · intro a _ a' _ y h h'
    obtain ⟨b, -, rfl⟩ := List.mem_map.mp h
    obtain ⟨b', -, e⟩ := List.mem_map.mp h'
    simp only [Prod.mk.injEq] at e
    exact e.1.symm
  · simp only [prod, List.mem_flatMap, List.mem_map, ha.2, hb.2]
    constructor
    · rintro ⟨_, ⟨da, rfl, h1⟩, _, ⟨db, rfl, h2⟩, rfl⟩
      exact ⟨da, db, m, m', rfl, h1, h2, rfl, rfl⟩
    · rintro ⟨da, db, k, l, rfl, h1, h2, rfl, rfl⟩
      exact ⟨_, ⟨da, rfl, h1⟩, _, ⟨db, rfl, h2⟩, rfl⟩

theorem withB_eq (la : List (Option Dstring)) (refb : Dstring) : withB la refb = prod la [some refb] := by
  unfold withB prod; simp only [List.map_cons, List.map_nil]
  induction la with
  | nil => rfl
  | cons x l ih => simp [ih]

theorem withA_eq (refa : Dstring) (lb : List (Option Dstring)) : withA refa lb = prod [some refa] lb := by
  simp [withA, prod]

theorem ref_eq (refa refb : Dstring) : [(some refa, some refb)] = prod [some refa] [some refb] := rfl

theorem new_aufbau (n k : ℕ) : Dstring.new n (aufbau n k) = .ok ⟨n, aufbau n k⟩ := new_occ ⟨n, aufbau n k⟩ (isDet_aufbau n k)

/-- C33: `ucis_basis(n, na, nb)` lists the reference and all single excitations (alpha or beta), each exactly once; with
`gs=False` the reference is left out. -/
theorem C33_ucis (n na nb : ℕ) (gs : Bool) :
    ∃ B, ucis_basis n na nb gs = .ok B ∧
      EnumeratesU B ⟨n, aufbau n na⟩ ⟨n, aufbau n nb⟩ fun k l => k + l ≤ 1 ∧ (gs = false → k + l = 1) := by
  obtain ⟨⟨sa, hsa, esa⟩, -, -⟩ := C32_default n na
  obtain ⟨⟨sb, hsb, esb⟩, -, -⟩ := C32_default n nb
  have ea := enumerates_ref (isDet_aufbau n na)
  have eb := enumerates_ref (isDet_aufbau n nb)
  unfold ucis_basis
  simp only [hsa, hsb, new_aufbau, bind, Except.bind, pure, Except.pure, withA_eq, withB_eq, ref_eq]
  refine ⟨_, rfl, ?_⟩
  cases gs
  · refine (EnumeratesU.append (enumerates_prod esa eb) (enumerates_prod ea esb) (by intros; omega)).congr fun k l => ?_
    simp; omega
  · refine (((enumerates_prod ea eb).append (enumerates_prod esa eb) (by intros; omega)).append (enumerates_prod ea esb)
      (by intros; omega)).congr fun k l => ?_
    simp; omega

/-- C33: `ucisd_basis` lists every determinant with at most two excitations in all, exactly once. -/
theorem C33_ucisd (n na nb : ℕ) :
    ∃ B, ucisd_basis n na nb = .ok B ∧ EnumeratesU B ⟨n, aufbau n na⟩ ⟨n, aufbau n nb⟩ fun k l => k + l ≤ 2 := by
  obtain ⟨⟨sa, hsa, esa⟩, ⟨da, hda, eda⟩, -⟩ := C32_default n na
  obtain ⟨⟨sb, hsb, esb⟩, ⟨db, hdb, edb⟩, -⟩ := C32_default n nb
  have ea := enumerates_ref (isDet_aufbau n na)
  have eb := enumerates_ref (isDet_aufbau n nb)
  unfold ucisd_basis
  simp only [hsa, hsb, hda, hdb, new_aufbau, bind, Except.bind, pure, Except.pure, withA_eq, withB_eq, ref_eq]
  refine ⟨_, rfl, ?_⟩
  refine ((((((enumerates_prod ea eb).append (enumerates_prod esa eb) (by intros; omega)).append (enumerates_prod ea esb)
      (by intros; omega)).append (enumerates_prod eda eb) (by intros; omega)).append (enumerates_prod ea edb)
      (by intros; omega)).append (enumerates_prod esa esb) (by intros; omega)).congr fun k l => ?_
  omega

/-- C33: `ucisdt_basis` lists every determinant with at most three excitations in all, exactly once. -/
theorem C33_ucisdt (n na nb : ℕ) :
    ∃ B, ucisdt_basis n na nb = .ok B ∧ EnumeratesU B ⟨n, aufbau n na⟩ ⟨n, aufbau n nb⟩ fun k l => k + l ≤ 3 := by
  obtain ⟨⟨sa, hsa, esa⟩, ⟨da, hda, eda⟩, ⟨ta, hta, eta⟩⟩ := C32_default n na
  obtain ⟨⟨sb, hsb, esb⟩, ⟨db, hdb, edb⟩, ⟨tb, htb, etb⟩⟩ := C32_default n nb
  have ea := enumerates_ref (isDet_aufbau n na)
  have eb := enumerates_ref (isDet_aufbau n nb)
  unfold ucisdt_basis
  simp only [hsa, hsb, hda, hdb, hta, htb, new_aufbau, bind, Except.bind, pure, Except.pure, withA_eq, withB_eq, ref_eq]
  refine ⟨_, rfl, ?_⟩
  refine ((((((((((enumerates_prod ea eb).append (enumerates_prod esa eb) (by intros; omega)).append (enumerates_prod ea esb)
      (by intros; omega)).append (enumerates_prod eda eb) (by intros; omega)).append (enumerates_prod ea edb)
      (by intros; omega)).append (enumerates_prod esa esb) (by intros; omega)).append (enumerates_prod eta eb)
      (by intros; omega)).append (enumerates_prod ea etb) (by intros; omega)).append (enumerates_prod eda esb)
      (by intros; omega)).append (enumerates_prod esa edb) (by intros; omega)).congr fun k l => ?_
  omega

/-! ## general bases -/

/-- `B` holds every excitation of `ref` of a level satisfying `P`, exactly once, and nothing else. -/
def EnumeratesG (B : List (Option Dstring)) (ref : Dstring) (P : ℕ → Prop) : Prop :=
  B.Nodup ∧ ∀ x, x ∈ B ↔ ∃ d k, x = some d ∧ Excitation ref d k ∧ P k

theorem EnumeratesG.append {B B' : List (Option Dstring)} {ref : Dstring} {P : ℕ → Prop} {m : ℕ} (h : EnumeratesG B ref P)
    (h' : Enumerates B' ref m) (hP : ¬ P m) : EnumeratesG (B ++ B') ref fun k => P k ∨ k = m := by
  refine ⟨List.nodup_append.mpr ⟨h.1, h'.1, ?_⟩, fun x => ?_⟩
  · rintro x hx y hy rfl
    obtain ⟨d, k, rfl, h1, h2⟩ := (h.2 x).mp hx
    obtain ⟨d', e, h1'⟩ := (h'.2 _).mp hy
    simp only [Option.some.injEq] at e
    subst e
    exact hP (h1.unique h1' ▸ h2)
  · rw [List.mem_append, h.2, h'.2]
    constructor
    · rintro (⟨d, k, e, h1, h2⟩ | ⟨d, e, h1⟩)
      · exact ⟨d, k, e, h1, Or.inl h2⟩
      · exact ⟨d, m, e, h1, Or.inr rfl⟩
    · rintro ⟨d, k, e, h1, h2 | h2⟩
      · exact Or.inl ⟨d, k, e, h1, h2⟩
      · exact Or.inr ⟨d, e, h2 ▸ h1⟩

theorem Enumerates.toG {B : List (Option Dstring)} {ref : Dstring} {m : ℕ} (h : Enumerates B ref m) :
    EnumeratesG B ref fun k => k = m := by
  refine ⟨h.1, fun x => ?_⟩
  rw [h.2]
  exact ⟨fun ⟨d, e, h1⟩ => ⟨d, m, e, h1, rfl⟩, fun ⟨d, k, e, h1, h2⟩ => ⟨d, e, h2 ▸ h1⟩⟩

theorem EnumeratesG.congr {B : List (Option Dstring)} {ref : Dstring} {P Q : ℕ → Prop} (h : EnumeratesG B ref P)
    (hPQ : ∀ k, P k ↔ Q k) : EnumeratesG B ref Q := by
  have : P = Q := by funext k; exact propext (hPQ k)
  exact this ▸ h

theorem length_aufbau (n k : ℕ) : (aufbau n k).length = n := by simp [aufbau]

theorem isDet_gocc {nmo : ℕ} (n : ℕ) (h : nmo % 2 = 0) : IsDet ⟨nmo, gocc nmo n⟩ := by
  refine ⟨?_, fun x hx => ?_⟩
  · simp only [gocc, List.length_append, length_aufbau]; omega
  · rcases List.mem_append.mp hx with hx | hx
    · exact (isDet_aufbau _ _).2 x hx
    · exact (isDet_aufbau _ _).2 x hx

theorem new_gocc {nmo : ℕ} (n : ℕ) (h : nmo % 2 = 0) : Dstring.new nmo (gocc nmo n) = .ok ⟨nmo, gocc nmo n⟩ :=
  new_occ ⟨nmo, gocc nmo n⟩ (isDet_gocc n h)

theorem sum_aufbau (n k : ℕ) : (aufbau n k).sum = (min k n : ℕ) := by
  have := sum_occ (isDet_aufbau n k)
  rw [supp_aufbau, Finset.card_range] at this
  exact this

/-- C33: the reference of the general bases has `n` electrons: the lowest `n - n/2` orbitals of the first half and the lowest
`n/2` orbitals of the second half. -/
theorem C33_reference {nmo n : ℕ} (h : nmo % 2 = 0) (hn : n ≤ nmo) :
    (gocc nmo n).sum = n ∧ supp ⟨nmo, gocc nmo n⟩
      = Finset.range (n - n / 2) ∪ (Finset.range (n / 2)).image (nmo / 2 + ·) := by
  constructor
  · rw [gocc, List.sum_append, sum_aufbau, sum_aufbau]; omega
  · ext i
    change i ∈ (Finset.range nmo).filter (fun i => (gocc nmo n).getD i 0 = 1) ↔ _
    simp only [Finset.mem_filter, Finset.mem_range, Finset.mem_union, Finset.mem_image]
    have hl : (aufbau (nmo / 2) (n - n / 2)).length = nmo / 2 := length_aufbau _ _
    constructor
    · rintro ⟨h1, h2⟩
      by_cases hi : i < nmo / 2
      · left
        rw [gocc, List.getD_append _ _ _ _ (by rw [hl]; exact hi), aufbau_eq, getD_bits hi] at h2
        by_contra hh; simp at h2; omega
      · right
        rw [gocc, List.getD_append_right _ _ _ _ (by rw [hl]; omega), hl, aufbau_eq, getD_bits (by omega)] at h2
        refine ⟨i - nmo / 2, ?_, by omega⟩
        by_contra hh; simp at h2; omega
    · rintro (h1 | ⟨j, h1, rfl⟩)
      · refine ⟨by omega, ?_⟩
        rw [gocc, List.getD_append _ _ _ _ (by rw [hl]; omega), aufbau_eq, getD_bits (by omega)]
        simp; omega
      · refine ⟨by omega, ?_⟩
        rw [gocc, List.getD_append_right _ _ _ _ (by rw [hl]; omega), hl, aufbau_eq, getD_bits (by omega)]
        simp; omega

/-- C33: `gcis_basis`, for an even number of orbitals. -/
theorem C33_gcis {nmo : ℕ} (n : ℕ) (gs : Bool) (h : nmo % 2 = 0) :
    ∃ B, gcis_basis nmo n gs = .ok B ∧ EnumeratesG B ⟨nmo, gocc nmo n⟩ fun k => k ≤ 1 ∧ (gs = false → k = 1) := by
  obtain ⟨s, hs, es⟩ := C32_singles (isDet_gocc n h) n
  have er := enumerates_ref (isDet_gocc n h)
  simp only at hs
  unfold gcis_basis
  simp only [new_gocc n h, hs, bind, Except.bind, pure, Except.pure]
  refine ⟨_, rfl, ?_⟩
  cases gs
  · refine es.toG.congr fun k => ?_
    simp; omega
  · refine (er.toG.append es (by omega)).congr fun k => ?_
    simp; omega

/-- C33: `gcisd_basis` lists every determinant with at most two excitations, exactly once. -/
theorem C33_gcisd {nmo : ℕ} (n : ℕ) (h : nmo % 2 = 0) :
    ∃ B, gcisd_basis nmo n = .ok B ∧ EnumeratesG B ⟨nmo, gocc nmo n⟩ fun k => k ≤ 2 := by
  obtain ⟨s, hs, es⟩ := C32_singles (isDet_gocc n h) n
  obtain ⟨d, hd, ed⟩ := C32_doubles (isDet_gocc n h) n
  have er := enumerates_ref (isDet_gocc n h)
  simp only at hs hd
  unfold gcisd_basis
  simp only [new_gocc n h, hs, hd, bind, Except.bind, pure, Except.pure]
  exact ⟨_, rfl, ((er.toG.append es (by omega)).append ed (by omega)).congr fun k => by omega⟩

/-- C33: `gcisdt_basis` lists every determinant with at most three excitations, exactly once. -/
theorem C33_gcisdt {nmo : ℕ} (n : ℕ) (h : nmo % 2 = 0) :
    ∃ B, gcisdt_basis nmo n = .ok B ∧ EnumeratesG B ⟨nmo, gocc nmo n⟩ fun k => k ≤ 3 := by
  obtain ⟨s, hs, es⟩ := C32_singles (isDet_gocc n h) n
  obtain ⟨d, hd, ed⟩ := C32_doubles (isDet_gocc n h) n
  obtain ⟨t, ht, et⟩ := C32_triples (isDet_gocc n h) n
  have er := enumerates_ref (isDet_gocc n h)
  simp only at hs hd ht
  unfold gcisdt_basis
  simp only [new_gocc n h, hs, hd, ht, bind, Except.bind, pure, Except.pure]
  exact ⟨_, rfl, (((er.toG.append es (by omega)).append ed (by omega)).append et (by omega)).congr fun k => by omega⟩

/-- C33: for an odd number of orbitals every general basis function raises an `AssertionError`. -/
theorem C33_odd {nmo : ℕ} (n : ℕ) (gs : Bool) (h : nmo % 2 = 1) :
    gcis_basis nmo n gs = .error .assertion ∧ gcisd_basis nmo n = .error .assertion ∧
    gcisdt_basis nmo n = .error .assertion ∧ gcisdtq_basis nmo n = .error .assertion := by
  have e : Dstring.new nmo (gocc nmo n) = .error .assertion := by
    unfold Dstring.new
    rw [if_neg]
    simp only [gocc, List.length_append, length_aufbau]; omega
  simp [gcis_basis, gcisd_basis, gcisdt_basis, gcisdtq_basis, e, bind, Except.bind]

/-- one electron of each spin in three orbitals: nine determinants with at most one excitation per spin or two of one -/
example : (ucisd_basis 3 1 1).map List.length = .ok 9 := by decide +kernel
/-- one electron of each spin in two orbitals per spin, generalized: the reference and its four singles -/
example : (gcis_basis 4 2 true).map List.length = .ok 5 ∧ (gcis_basis 4 2 false).map List.length = .ok 4 := by decide +kernel
example : gcisd_basis 3 1 = .error .assertion := (C33_odd (nmo := 3) 1 true rfl).2.1

end CI
