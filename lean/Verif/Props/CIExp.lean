import Verif.Props.CIExpSpec
import Verif.Props.CIExpG
import Verif.Props.CIExpU
import Verif.Props.CIExpU4
import Verif.Props.CIQuad
/-!
# C37: the coefficients of the exponential ansatz
-/
set_option linter.unusedSectionVars false
set_option linter.unusedSimpArgs false
namespace CI
open Fock
variable {K : Type} [Field K] [CharZero K]

/-! ### bases -/

theorem exists_map {α β : Type} (f : β → α) (B : List α) (h : ∀ x ∈ B, ∃ d, x = f d) : ∃ D : List β, B = D.map f := by
  induction B with
  | nil => exact ⟨[], rfl⟩
  | cons x l ih =>
    obtain ⟨d, rfl⟩ := h x (by simp)
    obtain ⟨D, rfl⟩ := ih fun y hy => h y (by simp [hy])
    exact ⟨d :: D, rfl⟩

theorem EnumeratesU.basis {B : List Pair} {refa refb : Dstring} {P : ℕ → ℕ → Prop} (h : EnumeratesU B refa refb P) :
    ∃ D, PBasis refa.n refb.n B D := by
  obtain ⟨D, hD⟩ := exists_map (fun d : Dstring × Dstring => (some d.1, some d.2)) B fun x hx => by
    obtain ⟨da, db, -, -, rfl, -⟩ := (h.2 x).mp hx
    exact ⟨(da, db), rfl⟩
  refine ⟨D, hD, List.Nodup.of_map (fun d : Dstring × Dstring => (some d.1, some d.2)) (hD ▸ h.1), fun d hd => ?_⟩
  have : (some d.1, some d.2) ∈ B := by rw [hD]; exact List.mem_map.mpr ⟨d, hd, rfl⟩
  obtain ⟨da, db, k, l, e, h1, h2, -⟩ := (h.2 _).mp this
  simp only [Prod.mk.injEq, Option.some.injEq] at e
  obtain ⟨e1, e2⟩ := e
  rw [e1, e2]
  exact ⟨⟨h1.1, h1.2.1⟩, ⟨h2.1, h2.2.1⟩⟩

theorem EnumeratesG.basis {B : List (Option Dstring)} {ref : Dstring} {P : ℕ → Prop} (h : EnumeratesG B ref P) :
    ∃ D, Basis ref.n B D := by
  obtain ⟨D, hD⟩ := exists_map (fun d : Dstring => some d) B fun x hx => by
    obtain ⟨d, -, rfl, -⟩ := (h.2 x).mp hx
    exact ⟨d, rfl⟩
  refine ⟨D, hD, List.Nodup.of_map (fun d : Dstring => some d) (hD ▸ h.1), fun d hd => ?_⟩
  have : some d ∈ B := by rw [hD]; exact List.mem_map.mpr ⟨d, hd, rfl⟩
  obtain ⟨d', k, e, h1, -⟩ := (h.2 _).mp this
  simp only [Option.some.injEq] at e
  rw [e]
  exact ⟨h1.1, h1.2.1⟩

theorem excitation_level {n : ℕ} {R A : Finset ℕ} {k : ℕ} (hR : R ⊆ Finset.range n) (h : Level R n A k) :
    Excitation (ofSet n R) (ofSet n A) k := by
  refine ⟨isDet_ofSet n A, rfl, ?_, ?_⟩
  · rw [supp_ofSet hR, supp_ofSet h.1]; exact h.2.2
  · rw [supp_ofSet hR, supp_ofSet h.1]; exact h.2.1

theorem level_excitation {n : ℕ} {R : Finset ℕ} {d : Dstring} {k : ℕ} (hR : R ⊆ Finset.range n) (h : Excitation (ofSet n R) d k) :
    Level R n (supp d) k := by
  obtain ⟨-, h2, h3, h4⟩ := h
  rw [supp_ofSet hR] at h3 h4
  refine ⟨?_, h4, h3⟩
  have := supp_subset d
  rw [h2] at this
  exact this

theorem aufbau_ofSet (o v : ℕ) : (⟨o + v, aufbau (o + v) o⟩ : Dstring) = ofSet (o + v) (Finset.range o) := by
  rw [aufbau_eq, Nat.min_eq_left (by omega)]; rfl

theorem range_sub (o v : ℕ) : Finset.range o ⊆ Finset.range (o + v) := Finset.range_subset_range.mpr (by omega)

/-- A list of pairs enumerating the determinants up to a total level, in the form used below. -/
theorem EnumeratesU.full {noa nva nob nvb order : ℕ} {B : List Pair} {D : List (Dstring × Dstring)}
    (h : EnumeratesU B (ofSet (noa + nva) (Finset.range noa)) (ofSet (nob + nvb) (Finset.range nob)) fun k l => k + l ≤ order)
    (hB : PBasis (noa + nva) (nob + nvb) B D) :
    Full (D.map psupp) noa (noa + nva) nob (nob + nvb) order ∧
    ∀ S ∈ D.map psupp, (S ∩ uvir noa nva nob nvb).card ≤ order := by
  constructor
  · intro A A' k l hA hA' hkl
    have : (some (ofSet (noa + nva) A), some (ofSet (nob + nvb) A')) ∈ B :=
      (h.2 _).mpr ⟨_, _, k, l, rfl, excitation_level (range_sub _ _) hA, excitation_level (range_sub _ _) hA', hkl⟩
    rw [hB.1] at this
    obtain ⟨d, hd, e⟩ := List.mem_map.mp this
    simp only [Prod.mk.injEq, Option.some.injEq] at e
    refine List.mem_map.mpr ⟨d, hd, ?_⟩
    rw [psupp, e.1, e.2, supp_ofSet hA.1, supp_ofSet hA'.1]
  · intro S hS
    obtain ⟨d, hd, rfl⟩ := List.mem_map.mp hS
    have : (some d.1, some d.2) ∈ B := by rw [hB.1]; exact List.mem_map.mpr ⟨d, hd, rfl⟩
    obtain ⟨da, db, k, l, e, h1, h2, h3⟩ := (h.2 _).mp this
    simp only [Prod.mk.injEq, Option.some.injEq] at e
    have l1 := level_excitation (range_sub _ _) h1
    have l2 := level_excitation (range_sub _ _) h2
    rw [psupp, e.1, e.2]
    have : emb (supp da) (supp db) ∩ uvir noa nva nob nvb = emb (supp da \ Finset.range noa) (supp db \ Finset.range nob) := by
      refine emb_ext (fun i => ?_) (fun i => ?_)
      · rw [Finset.mem_inter, up_mem, up_vir, Finset.mem_sdiff, Finset.mem_range]
        constructor
        · rintro ⟨a, b⟩; exact ⟨a, by omega⟩
        · rintro ⟨a, b⟩; have := Finset.mem_range.mp (l1.1 a); exact ⟨a, by omega⟩
      · rw [Finset.mem_inter, dn_mem, dn_vir, Finset.mem_sdiff, Finset.mem_range]
        constructor
        · rintro ⟨a, b⟩; exact ⟨a, by omega⟩
        · rintro ⟨a, b⟩; have := Finset.mem_range.mp (l2.1 a); exact ⟨a, by omega⟩
    rw [this, card_emb, l1.2.1, l2.2.1]
    exact h3

/-- `ucisdtq_basis` lists every determinant with at most four excitations in all exactly once, provided no spin allows quadruple
excitations. -/
theorem C33_ucisdtq {n na nb : ℕ} (ha : na < 4 ∨ n < na + 4) (hb : nb < 4 ∨ n < nb + 4) :
    ∃ B, ucisdtq_basis n na nb = .ok B ∧ EnumeratesU B ⟨n, aufbau n na⟩ ⟨n, aufbau n nb⟩ fun k l => k + l ≤ 4 := by
  obtain ⟨⟨sa, hsa, esa⟩, ⟨da, hda, eda⟩, ⟨ta, hta, eta⟩⟩ := C32_default n na
  obtain ⟨⟨sb, hsb, esb⟩, ⟨db, hdb, edb⟩, ⟨tb, htb, etb⟩⟩ := C32_default n nb
  obtain ⟨qa, hqa, eqa⟩ := C34_refuted n na
  obtain ⟨qb, hqb, eqb⟩ := C34_refuted n nb
  have eqa := eqa.mpr ha
  have eqb := eqb.mpr hb
  have ea := enumerates_ref (isDet_aufbau n na)
  have eb := enumerates_ref (isDet_aufbau n nb)
  unfold ucisdtq_basis
  simp only [hsa, hsb, hda, hdb, hta, htb, hqa, hqb, new_aufbau, bind, Except.bind, pure, Except.pure, withA_eq, withB_eq, ref_eq]
  refine ⟨_, rfl, ?_⟩
  refine (((((((((((((((enumerates_prod ea eb).append (enumerates_prod esa eb) (by intros; omega)).append (enumerates_prod ea esb)
      (by intros; omega)).append (enumerates_prod eda eb) (by intros; omega)).append (enumerates_prod ea edb)
      (by intros; omega)).append (enumerates_prod esa esb) (by intros; omega)).append (enumerates_prod eta eb)
      (by intros; omega)).append (enumerates_prod ea etb) (by intros; omega)).append (enumerates_prod eda esb)
      (by intros; omega)).append (enumerates_prod esa edb) (by intros; omega)).append (enumerates_prod eqa eb)
      (by intros; omega)).append (enumerates_prod ea eqb) (by intros; omega)).append (enumerates_prod eta esb)
      (by intros; omega)).append (enumerates_prod eda edb) (by intros; omega)).append (enumerates_prod esa etb)
      (by intros; omega)).congr fun k l => ?_
  omega

/-- The first determinant of the bases is the reference. -/
theorem ucis_head {n na nb : ℕ} {B : List Pair} (h : ucis_basis n na nb = .ok B) :
    ∃ t, B = (some ⟨n, aufbau n na⟩, some ⟨n, aufbau n nb⟩) :: t := by
  obtain ⟨⟨sa, hsa, -⟩, -, -⟩ := C32_default n na
  obtain ⟨⟨sb, hsb, -⟩, -, -⟩ := C32_default n nb
  unfold ucis_basis at h
  simp only [hsa, hsb, new_aufbau, bind, Except.bind, pure, Except.pure, Except.ok.injEq] at h
  exact ⟨_, h.symm⟩

theorem ucisd_head {n na nb : ℕ} {B : List Pair} (h : ucisd_basis n na nb = .ok B) :
    ∃ t, B = (some ⟨n, aufbau n na⟩, some ⟨n, aufbau n nb⟩) :: t := by
  obtain ⟨⟨sa, hsa, -⟩, ⟨da, hda, -⟩, -⟩ := C32_default n na
  obtain ⟨⟨sb, hsb, -⟩, ⟨db, hdb, -⟩, -⟩ := C32_default n nb
  unfold ucisd_basis at h
  simp only [hsa, hsb, hda, hdb, new_aufbau, bind, Except.bind, pure, Except.pure, Except.ok.injEq] at h
  exact ⟨_, h.symm⟩

theorem ucisdt_head {n na nb : ℕ} {B : List Pair} (h : ucisdt_basis n na nb = .ok B) :
    ∃ t, B = (some ⟨n, aufbau n na⟩, some ⟨n, aufbau n nb⟩) :: t := by
  obtain ⟨⟨sa, hsa, -⟩, ⟨da, hda, -⟩, ⟨ta, hta, -⟩⟩ := C32_default n na
  obtain ⟨⟨sb, hsb, -⟩, ⟨db, hdb, -⟩, ⟨tb, htb, -⟩⟩ := C32_default n nb
  unfold ucisdt_basis at h
  simp only [hsa, hsb, hda, hdb, hta, htb, new_aufbau, bind, Except.bind, pure, Except.pure, Except.ok.injEq] at h
  exact ⟨_, h.symm⟩

theorem ucisdtq_head {n na nb : ℕ} {B : List Pair} (h : ucisdtq_basis n na nb = .ok B) :
    ∃ t, B = (some ⟨n, aufbau n na⟩, some ⟨n, aufbau n nb⟩) :: t := by
  obtain ⟨⟨sa, hsa, -⟩, ⟨da, hda, -⟩, ⟨ta, hta, -⟩⟩ := C32_default n na
  obtain ⟨⟨sb, hsb, -⟩, ⟨db, hdb, -⟩, ⟨tb, htb, -⟩⟩ := C32_default n nb
  obtain ⟨qa, hqa, -⟩ := C34_refuted n na
  obtain ⟨qb, hqb, -⟩ := C34_refuted n nb
  unfold ucisdtq_basis at h
  simp only [hsa, hsb, hda, hdb, hta, htb, hqa, hqb, new_aufbau, bind, Except.bind, pure, Except.pure, Except.ok.injEq] at h
  exact ⟨_, h.symm⟩

/-- the initial coefficients `C = zeros; C[0] = 1` -/
theorem init_tab {ι : Type} [LinearOrder ι] {L : List (Finset ι)} (hL : L.Nodup) {S : Finset ι} {t : List (Finset ι)} (h : L = S :: t)
    {m : ℕ} (hm : m = L.length) :
    (List.replicate m (0 : K)).set 0 1 = tab L.length fun k => det S (L.getD k ∅) := by
  subst hm
  have h0 : 0 < L.length := by rw [h]; simp
  apply List.ext_getElem
  · simp
  · intro k h1 h2
    simp only [List.length_set, List.length_replicate] at h1
    rw [List.getElem_set]
    simp only [tab, List.getElem_map, List.getElem_range, List.getElem_replicate, det_apply]
    have hS : L[0] = S := by simp [h]
    have e : L.getD k ∅ = L[k] := by simp [h1]
    rw [e, ← hS]
    by_cases hk : 0 = k
    · subst hk; simp
    · rw [if_neg hk, if_neg]
      intro e
      exact hk ((hL.getElem_inj_iff).mp e.symm)

section
variable {noa nva nob nvb : ℕ} (T1a T1b : ℕ → ℕ → K) (T2aa T2ab T2bb : ℕ → ℕ → ℕ → ℕ → K)

/-- commuting the cluster operators into a fixed order -/
theorem swaps (noa nva nob nvb : ℕ) (φ : Finset SO → K) :
    (oT1b nob nvb T1b (oT1a noa nva T1a φ) = oT1a noa nva T1a (oT1b nob nvb T1b φ)) ∧
    (oT2aa noa nva T2aa (oT1a noa nva T1a φ) = oT1a noa nva T1a (oT2aa noa nva T2aa φ)) ∧
    (oT2aa noa nva T2aa (oT1b nob nvb T1b φ) = oT1b nob nvb T1b (oT2aa noa nva T2aa φ)) ∧
    (oT2ab noa nva nob nvb T2ab (oT1a noa nva T1a φ) = oT1a noa nva T1a (oT2ab noa nva nob nvb T2ab φ)) ∧
    (oT2ab noa nva nob nvb T2ab (oT1b nob nvb T1b φ) = oT1b nob nvb T1b (oT2ab noa nva nob nvb T2ab φ)) ∧
    (oT2ab noa nva nob nvb T2ab (oT2aa noa nva T2aa φ) = oT2aa noa nva T2aa (oT2ab noa nva nob nvb T2ab φ)) ∧
    (oT2bb nob nvb T2bb (oT1a noa nva T1a φ) = oT1a noa nva T1a (oT2bb nob nvb T2bb φ)) ∧
    (oT2bb nob nvb T2bb (oT1b nob nvb T1b φ) = oT1b nob nvb T1b (oT2bb nob nvb T2bb φ)) ∧
    (oT2bb nob nvb T2bb (oT2aa noa nva T2aa φ) = oT2aa noa nva T2aa (oT2bb nob nvb T2bb φ)) ∧
    (oT2bb nob nvb T2bb (oT2ab noa nva nob nvb T2ab φ) = oT2ab noa nva nob nvb T2ab (oT2bb nob nvb T2bb φ)) := by
  have e1 := exc_oT1a (noa := noa) (nva := nva) (nob := nob) (nvb := nvb) T1a
  have e2 := exc_oT1b (noa := noa) (nva := nva) (nob := nob) (nvb := nvb) T1b
  have e3 := exc_oT2aa (noa := noa) (nva := nva) (nob := nob) (nvb := nvb) T2aa
  have e4 := exc_oT2ab (noa := noa) (nva := nva) (nob := nob) (nvb := nvb) T2ab
  have e5 := exc_oT2bb (noa := noa) (nva := nva) (nob := nob) (nvb := nvb) T2bb
  exact ⟨e2.comm_apply e1 φ, e3.comm_apply e1 φ, e3.comm_apply e2 φ, e4.comm_apply e1 φ, e4.comm_apply e2 φ, e4.comm_apply e3 φ,
    e5.comm_apply e1 φ, e5.comm_apply e2 φ, e5.comm_apply e3 φ, e5.comm_apply e4 φ⟩

/-- What `makeCfromT` computes, given a complete basis. -/
theorem makeC_spec {order : ℕ} {B : List Pair} {f : List K → R (List K)} {v w : Finset SO → K}
    (he : EnumeratesU B (ofSet (noa + nva) (Finset.range noa)) (ofSet (nob + nvb) (Finset.range nob)) fun k l => k + l ≤ order)
    {t : List Pair} (hh : B = (some (ofSet (noa + nva) (Finset.range noa)), some (ofSet (nob + nvb) (Finset.range nob))) :: t)
    (hf : ∀ D, PBasis (noa + nva) (nob + nvb) B D → Full (D.map psupp) noa (noa + nva) nob (nob + nvb) order →
      Adds (D.map psupp) f v)
    (hw : ∀ S, (S ∩ uvir noa nva nob nvb).card ≤ order → w S = det (uref noa nob) S + v S) :
    ∃ D, PBasis (noa + nva) (nob + nvb) B D ∧
      f ((List.replicate B.length (0 : K)).set 0 1) = .ok (D.map fun d => w (psupp d)) := by
  obtain ⟨D, hD⟩ := he.basis
  refine ⟨D, hD, ?_⟩
  obtain ⟨hF, hcard⟩ := he.full hD
  have hL : ∃ t', D.map psupp = uref noa nob :: t' := by
    have h1 := hD.1
    rw [hh] at h1
    cases D with
    | nil => simp at h1
    | cons d D' =>
      simp only [List.map_cons, List.cons.injEq, Prod.mk.injEq, Option.some.injEq] at h1
      refine ⟨D'.map psupp, ?_⟩
      rw [List.map_cons, psupp, ← h1.1.1, ← h1.1.2, supp_ofSet (range_sub _ _), supp_ofSet (range_sub _ _)]
      rfl
  obtain ⟨t', ht'⟩ := hL
  have hlen : B.length = (D.map psupp).length := by rw [hD.1]; simp
  rw [init_tab hD.nodup ht' hlen, hf D hD hF]
  congr 1
  rw [tab]
  apply List.ext_getElem
  · simp
  · intro k h1 h2
    simp only [List.length_map, List.length_range] at h1
    rw [List.getElem_map, List.getElem_map, List.getElem_range]
    have e : (D.map psupp).getD k ∅ = psupp D[k] := by simp [h1]
    rw [e, hw]
    exact hcard _ (List.mem_map.mpr ⟨_, List.getElem_mem h1, rfl⟩)

variable {T2aa T2ab T2bb}

/-- the part of `makeCfromT` after the initialisation of `C` -/
def stagesU (basis : List Pair) (refa refb : Dstring) (noa nva nob nvb : ℕ) (T1a T1b : ℕ → ℕ → K)
    (T2aa T2ab T2bb : ℕ → ℕ → ℕ → ℕ → K) (order : ℕ) (C : List K) : R (List K) := do
  let C ← u_T1a basis refa refb noa nva nob nvb T1a T1b T2aa T2ab T2bb C
  let C ← u_T1b basis refa refb noa nva nob nvb T1a T1b T2aa T2ab T2bb C
  let C ← (if order ≥ 2 then (do
    let C ← u_T2aa basis refa refb noa nva nob nvb T1a T1b T2aa T2ab T2bb C
    let C ← u_T2bb basis refa refb noa nva nob nvb T1a T1b T2aa T2ab T2bb C
    let C ← u_T2ab basis refa refb noa nva nob nvb T1a T1b T2aa T2ab T2bb C
    let C ← u_T1a_T1a basis refa refb noa nva nob nvb T1a T1b T2aa T2ab T2bb C
    let C ← u_T1b_T1b basis refa refb noa nva nob nvb T1a T1b T2aa T2ab T2bb C
    let C ← u_T1a_T1b basis refa refb noa nva nob nvb T1a T1b T2aa T2ab T2bb C
    return C) else return C : R (List K))
  let C ← (if order ≥ 3 then (do
    let C ← u_T1a_T2aa basis refa refb noa nva nob nvb T1a T1b T2aa T2ab T2bb C
    let C ← u_T1a_T2ab basis refa refb noa nva nob nvb T1a T1b T2aa T2ab T2bb C
    let C ← u_T1b_T2aa basis refa refb noa nva nob nvb T1a T1b T2aa T2ab T2bb C
    let C ← u_T1a_T2bb basis refa refb noa nva nob nvb T1a T1b T2aa T2ab T2bb C
    let C ← u_T1b_T2ab basis refa refb noa nva nob nvb T1a T1b T2aa T2ab T2bb C
    let C ← u_T1b_T2bb basis refa refb noa nva nob nvb T1a T1b T2aa T2ab T2bb C
    let C ← u_T1a_T1a_T1a basis refa refb noa nva nob nvb T1a T1b T2aa T2ab T2bb C
    let C ← u_T1a_T1a_T1b basis refa refb noa nva nob nvb T1a T1b T2aa T2ab T2bb C
    let C ← u_T1a_T1b_T1b basis refa refb noa nva nob nvb T1a T1b T2aa T2ab T2bb C
    let C ← u_T1b_T1b_T1b basis refa refb noa nva nob nvb T1a T1b T2aa T2ab T2bb C
    return C) else return C : R (List K))
  let C ← (if order ≥ 4 then (do
    let C ← u_T2aa_T2aa basis refa refb noa nva nob nvb T1a T1b T2aa T2ab T2bb C
    let C ← u_T2aa_T2ab basis refa refb noa nva nob nvb T1a T1b T2aa T2ab T2bb C
    let C ← u_T2aa_T2bb basis refa refb noa nva nob nvb T1a T1b T2aa T2ab T2bb C
    let C ← u_T2ab_T2ab basis refa refb noa nva nob nvb T1a T1b T2aa T2ab T2bb C
    let C ← u_T2ab_T2bb basis refa refb noa nva nob nvb T1a T1b T2aa T2ab T2bb C
    let C ← u_T2bb_T2bb basis refa refb noa nva nob nvb T1a T1b T2aa T2ab T2bb C
    let C ← u_T1a_T1a_T2aa basis refa refb noa nva nob nvb T1a T1b T2aa T2ab T2bb C
    let C ← u_T1a_T1a_T2ab basis refa refb noa nva nob nvb T1a T1b T2aa T2ab T2bb C
    let C ← u_T1a_T1b_T2aa basis refa refb noa nva nob nvb T1a T1b T2aa T2ab T2bb C
    let C ← u_T1a_T1a_T2bb basis refa refb noa nva nob nvb T1a T1b T2aa T2ab T2bb C
    let C ← u_T1a_T1b_T2ab basis refa refb noa nva nob nvb T1a T1b T2aa T2ab T2bb C
    let C ← u_T1a_T1b_T2bb basis refa refb noa nva nob nvb T1a T1b T2aa T2ab T2bb C
    let C ← u_T1b_T1b_T2ab basis refa refb noa nva nob nvb T1a T1b T2aa T2ab T2bb C
    let C ← u_T1b_T1b_T2bb basis refa refb noa nva nob nvb T1a T1b T2aa T2ab T2bb C
    let C ← u_T1a_T1a_T1a_T1a basis refa refb noa nva nob nvb T1a T1b T2aa T2ab T2bb C
    let C ← u_T1a_T1a_T1a_T1b basis refa refb noa nva nob nvb T1a T1b T2aa T2ab T2bb C
    let C ← u_T1a_T1a_T1b_T1b basis refa refb noa nva nob nvb T1a T1b T2aa T2ab T2bb C
    let C ← u_T1a_T1b_T1b_T1b basis refa refb noa nva nob nvb T1a T1b T2aa T2ab T2bb C
    let C ← u_T1b_T1b_T1b_T1b basis refa refb noa nva nob nvb T1a T1b T2aa T2ab T2bb C
    return C) else return C : R (List K))
  return C

/-- the part of `gmakeCfromT` after the initialisation of `C` -/
def stagesG (basis : List (Option Dstring)) (ref : Dstring) (iocc ivir : List ℕ) (T1 : ℕ → ℕ → K)
    (T2 : ℕ → ℕ → ℕ → ℕ → K) (order : ℕ) (C : List K) : R (List K) := do
  let C ← g_T1 basis ref iocc ivir T1 T2 C
  let C ← (if order ≥ 2 then (do
    let C ← g_T2 basis ref iocc ivir T1 T2 C
    let C ← g_T1_T1 basis ref iocc ivir T1 T2 C
    return C) else return C : R (List K))
  let C ← (if order ≥ 3 then (do
    let C ← g_T1_T2 basis ref iocc ivir T1 T2 C
    let C ← g_T1_T1_T1 basis ref iocc ivir T1 T2 C
    return C) else return C : R (List K))
  let C ← (if order ≥ 4 then (do
    let C ← g_T2_T2 basis ref iocc ivir T1 T2 C
    let C ← g_T1_T1_T2 basis ref iocc ivir T1 T2 C
    let C ← g_T1_T1_T1_T1 basis ref iocc ivir T1 T2 C
    return C) else return C : R (List K))
  return C

theorem ok_bind' {α β : Type} (a : α) (f : α → R β) : ((Except.ok a : R α) >>= f) = f a := rfl

theorem makeC_stages {order : ℕ} (hn : noa + nva = nob + nvb) (ho : 1 ≤ order) {B : List Pair}
    (hB : (if order = 1 then ucis_basis (noa + nva) noa nob
      else if order = 2 then ucisd_basis (noa + nva) noa nob
      else if order = 3 then ucisdt_basis (noa + nva) noa nob
      else if order = 4 then ucisdtq_basis (noa + nva) noa nob
      else throw .exception : R (List Pair)) = .ok B) (hpos : 0 < B.length) :
    makeCfromT noa nva nob nvb T1a T1b T2aa T2ab T2bb order =
      stagesU B (ofSet (noa + nva) (Finset.range noa)) (ofSet (nob + nvb) (Finset.range nob)) noa nva nob nvb T1a T1b T2aa T2ab T2bb
        order ((List.replicate B.length (0 : K)).set 0 1) := by
  have h1 : ¬ (noa + nva ≠ nob + nvb) := fun h => h hn
  have h2 : ¬ (order < 1) := by omega
  unfold makeCfromT
  simp only [if_neg h1, if_neg h2, pure_bind, hB, ok_bind', new_aufbau, aufbau_ofSet, List.length_replicate, if_pos hpos]
  rfl

/-- C37: `makeCfromT` with `order = 1` returns the coefficients of `exp(T1 + T2)` applied to the reference determinant on the
basis of `ucis_basis`. -/
theorem C37_makeCfromT_1 (hn : noa + nva = nob + nvb) (haa : Anti noa nva T2aa) (hbb : Anti nob nvb T2bb) :
    ∃ B D, ucis_basis (noa + nva) noa nob = .ok B ∧ PBasis (noa + nva) (nob + nvb) B D ∧
      makeCfromT noa nva nob nvb T1a T1b T2aa T2ab T2bb 1 = .ok (D.map fun d =>
        IsNilpotent.exp (clusterU noa nva nob nvb T1a T1b T2aa T2ab T2bb) (det (uref noa nob)) (psupp d)) := by
  obtain ⟨B, hB, he⟩ := C33_ucis (noa + nva) noa nob true
  obtain ⟨t, ht⟩ := ucis_head hB
  have hr : (⟨noa + nva, aufbau (noa + nva) nob⟩ : Dstring) = ofSet (nob + nvb) (Finset.range nob) := by rw [hn, aufbau_ofSet]
  rw [aufbau_ofSet, hr] at he ht
  have he := he.congr (Q := fun k l => k + l ≤ 1) fun k l => by simp
  have hpos : 0 < B.length := by rw [ht]; simp
  rw [clusterU_eq _ _ _ _ _ _ haa hbb]
  rw [makeC_stages T1a T1b hn (by omega) (B := B) (by rw [if_pos rfl]; exact hB) hpos]
  have := makeC_spec (K := K) (v := 
        (oT1a noa nva T1a) (det (uref noa nob)) +
        ((oT1b nob nvb T1b) (det (uref noa nob)) + 0)) he ht (f := stagesU B (ofSet (noa + nva) (Finset.range noa)) (ofSet (nob + nvb) (Finset.range nob)) noa
      nva nob nvb T1a T1b T2aa T2ab T2bb 1) (w := IsNilpotent.exp ((oT1a noa nva T1a + oT1b nob nvb T1b)
        + (oT2aa noa nva T2aa + oT2ab noa nva nob nvb T2ab + oT2bb nob nvb T2bb)) (det (uref noa nob)))
    (fun D hD hF => by
      unfold stagesU
      simp only [show ¬ (1 ≥ 2) by omega, show ¬ (1 ≥ 3) by omega, show ¬ (1 ≥ 4) by omega, if_true, if_false, bind_assoc, pure_bind]
      refine Adds.seq (add_u_T1a hD.locates hF _ _ _ _ _ (by omega)) ?_
      refine Adds.seq (add_u_T1b hD.locates hF _ _ _ _ _ (by omega)) ?_
      exact Adds.ok)
    (fun S hS => by
      rw [exp_one ((raises_oT1a _).add (raises_oT1b _)) (((raises_oT2aa _).add (raises_oT2ab _)).add (raises_oT2bb _)) _ hS]
      simp only [LinearMap.add_apply, Module.End.one_apply, Pi.add_apply, Pi.zero_apply, Pi.smul_apply, smul_eq_mul]
      ring)
  obtain ⟨D, h1, h2⟩ := this
  exact ⟨B, D, hB, h1, h2⟩

/-- C37: `makeCfromT` with `order = 2` returns the coefficients of `exp(T1 + T2)` applied to the reference determinant on the
basis of `ucisd_basis`. -/
theorem C37_makeCfromT_2 (hn : noa + nva = nob + nvb) (haa : Anti noa nva T2aa) (hbb : Anti nob nvb T2bb) :
    ∃ B D, ucisd_basis (noa + nva) noa nob = .ok B ∧ PBasis (noa + nva) (nob + nvb) B D ∧
      makeCfromT noa nva nob nvb T1a T1b T2aa T2ab T2bb 2 = .ok (D.map fun d =>
        IsNilpotent.exp (clusterU noa nva nob nvb T1a T1b T2aa T2ab T2bb) (det (uref noa nob)) (psupp d)) := by
  obtain ⟨B, hB, he⟩ := C33_ucisd (noa + nva) noa nob
  obtain ⟨t, ht⟩ := ucisd_head hB
  have hr : (⟨noa + nva, aufbau (noa + nva) nob⟩ : Dstring) = ofSet (nob + nvb) (Finset.range nob) := by rw [hn, aufbau_ofSet]
  rw [aufbau_ofSet, hr] at he ht
  have hpos : 0 < B.length := by rw [ht]; simp
  rw [clusterU_eq _ _ _ _ _ _ haa hbb]
  rw [makeC_stages T1a T1b hn (by omega) (B := B) (by rw [if_neg (by omega), if_pos rfl]; exact hB) hpos]
  have := makeC_spec (K := K) (v := 
        (oT1a noa nva T1a) (det (uref noa nob)) +
        ((oT1b nob nvb T1b) (det (uref noa nob)) +
        ((oT2aa noa nva T2aa) (det (uref noa nob)) +
        ((oT2bb nob nvb T2bb) (det (uref noa nob)) +
        ((oT2ab noa nva nob nvb T2ab) (det (uref noa nob)) +
        ((1 / 2 : K) • (oT1a noa nva T1a) ((oT1a noa nva T1a) (det (uref noa nob))) +
        ((1 / 2 : K) • (oT1b nob nvb T1b) ((oT1b nob nvb T1b) (det (uref noa nob))) +
        ((oT1b nob nvb T1b) ((oT1a noa nva T1a) (det (uref noa nob))) + 0)))))))) he ht (f := stagesU B (ofSet (noa + nva) (Finset.range noa)) (ofSet (nob + nvb) (Finset.range nob)) noa
      nva nob nvb T1a T1b T2aa T2ab T2bb 2) (w := IsNilpotent.exp ((oT1a noa nva T1a + oT1b nob nvb T1b)
        + (oT2aa noa nva T2aa + oT2ab noa nva nob nvb T2ab + oT2bb nob nvb T2bb)) (det (uref noa nob)))
    (fun D hD hF => by
      unfold stagesU
      simp only [show 2 ≥ 2 by omega, show ¬ (2 ≥ 3) by omega, show ¬ (2 ≥ 4) by omega, if_true, if_false, bind_assoc, pure_bind]
      refine Adds.seq (add_u_T1a hD.locates hF _ _ _ _ _ (by omega)) ?_
      refine Adds.seq (add_u_T1b hD.locates hF _ _ _ _ _ (by omega)) ?_
      refine Adds.seq (add_u_T2aa hD.locates hF _ _ _ _ _ (by omega)) ?_
      refine Adds.seq (add_u_T2bb hD.locates hF _ _ _ _ _ (by omega)) ?_
      refine Adds.seq (add_u_T2ab hD.locates hF _ _ _ _ _ (by omega)) ?_
      refine Adds.seq (add_u_T1a_T1a hD.locates hF _ _ _ _ _ (by omega)) ?_
      refine Adds.seq (add_u_T1b_T1b hD.locates hF _ _ _ _ _ (by omega)) ?_
      refine Adds.seq (add_u_T1a_T1b hD.locates hF _ _ _ _ _ (by omega)) ?_
      exact Adds.ok)
    (fun S hS => by
      rw [exp_two ((raises_oT1a _).add (raises_oT1b _)) (((raises_oT2aa _).add (raises_oT2ab _)).add (raises_oT2bb _)) (((exc_oT1a _).add (exc_oT1b _)).comm (((exc_oT2aa _).add (exc_oT2ab _)).add (exc_oT2bb _))) _ hS]
      have sw := swaps T1a T1b T2aa T2ab T2bb noa nva nob nvb
      simp only [forall_and] at sw
      obtain ⟨s1, s2, s3, s4, s5, s6, s7, s8, s9, s10⟩ := sw
      simp only [LinearMap.add_apply, LinearMap.smul_apply, Module.End.mul_apply, map_add, map_smul, s1, s2, s3, s4, s5, s6, s7, s8, s9, s10]
      simp only [LinearMap.add_apply, Module.End.one_apply, Pi.add_apply, Pi.zero_apply, Pi.smul_apply, smul_eq_mul]
      ring)
  obtain ⟨D, h1, h2⟩ := this
  exact ⟨B, D, hB, h1, h2⟩

/-- C37: `makeCfromT` with `order = 3` returns the coefficients of `exp(T1 + T2)` applied to the reference determinant on the
basis of `ucisdt_basis`. -/
theorem C37_makeCfromT_3 (hn : noa + nva = nob + nvb) (haa : Anti noa nva T2aa) (hbb : Anti nob nvb T2bb) :
    ∃ B D, ucisdt_basis (noa + nva) noa nob = .ok B ∧ PBasis (noa + nva) (nob + nvb) B D ∧
      makeCfromT noa nva nob nvb T1a T1b T2aa T2ab T2bb 3 = .ok (D.map fun d =>
        IsNilpotent.exp (clusterU noa nva nob nvb T1a T1b T2aa T2ab T2bb) (det (uref noa nob)) (psupp d)) := by
  obtain ⟨B, hB, he⟩ := C33_ucisdt (noa + nva) noa nob
  obtain ⟨t, ht⟩ := ucisdt_head hB
  have hr : (⟨noa + nva, aufbau (noa + nva) nob⟩ : Dstring) = ofSet (nob + nvb) (Finset.range nob) := by rw [hn, aufbau_ofSet]
  rw [aufbau_ofSet, hr] at he ht
  have hpos : 0 < B.length := by rw [ht]; simp
  rw [clusterU_eq _ _ _ _ _ _ haa hbb]
  rw [makeC_stages T1a T1b hn (by omega) (B := B) (by rw [if_neg (by omega), if_neg (by omega), if_pos rfl]; exact hB) hpos]
  have := makeC_spec (K := K) (v := 
        (oT1a noa nva T1a) (det (uref noa nob)) +
        ((oT1b nob nvb T1b) (det (uref noa nob)) +
        ((oT2aa noa nva T2aa) (det (uref noa nob)) +
        ((oT2bb nob nvb T2bb) (det (uref noa nob)) +
        ((oT2ab noa nva nob nvb T2ab) (det (uref noa nob)) +
        ((1 / 2 : K) • (oT1a noa nva T1a) ((oT1a noa nva T1a) (det (uref noa nob))) +
        ((1 / 2 : K) • (oT1b nob nvb T1b) ((oT1b nob nvb T1b) (det (uref noa nob))) +
        ((oT1b nob nvb T1b) ((oT1a noa nva T1a) (det (uref noa nob))) +
        ((oT2aa noa nva T2aa) ((oT1a noa nva T1a) (det (uref noa nob))) +
        ((oT2ab noa nva nob nvb T2ab) ((oT1a noa nva T1a) (det (uref noa nob))) +
        ((oT2aa noa nva T2aa) ((oT1b nob nvb T1b) (det (uref noa nob))) +
        ((oT2bb nob nvb T2bb) ((oT1a noa nva T1a) (det (uref noa nob))) +
        ((oT2ab noa nva nob nvb T2ab) ((oT1b nob nvb T1b) (det (uref noa nob))) +
        ((oT2bb nob nvb T2bb) ((oT1b nob nvb T1b) (det (uref noa nob))) +
        ((1 / 6 : K) • (oT1a noa nva T1a) ((oT1a noa nva T1a) ((oT1a noa nva T1a) (det (uref noa nob)))) +
        ((1 / 2 : K) • (oT1b nob nvb T1b) ((oT1a noa nva T1a) ((oT1a noa nva T1a) (det (uref noa nob)))) +
        ((1 / 2 : K) • (oT1b nob nvb T1b) ((oT1b nob nvb T1b) ((oT1a noa nva T1a) (det (uref noa nob)))) +
        ((1 / 6 : K) • (oT1b nob nvb T1b) ((oT1b nob nvb T1b) ((oT1b nob nvb T1b) (det (uref noa nob)))) + 0)))))))))))))))))) he ht (f := stagesU B (ofSet (noa + nva) (Finset.range noa)) (ofSet (nob + nvb) (Finset.range nob)) noa
      nva nob nvb T1a T1b T2aa T2ab T2bb 3) (w := IsNilpotent.exp ((oT1a noa nva T1a + oT1b nob nvb T1b)
        + (oT2aa noa nva T2aa + oT2ab noa nva nob nvb T2ab + oT2bb nob nvb T2bb)) (det (uref noa nob)))
    (fun D hD hF => by
      unfold stagesU
      simp only [show 3 ≥ 2 by omega, show 3 ≥ 3 by omega, show ¬ (3 ≥ 4) by omega, if_true, if_false, bind_assoc, pure_bind]
      refine Adds.seq (add_u_T1a hD.locates hF _ _ _ _ _ (by omega)) ?_
      refine Adds.seq (add_u_T1b hD.locates hF _ _ _ _ _ (by omega)) ?_
      refine Adds.seq (add_u_T2aa hD.locates hF _ _ _ _ _ (by omega)) ?_
      refine Adds.seq (add_u_T2bb hD.locates hF _ _ _ _ _ (by omega)) ?_
      refine Adds.seq (add_u_T2ab hD.locates hF _ _ _ _ _ (by omega)) ?_
      refine Adds.seq (add_u_T1a_T1a hD.locates hF _ _ _ _ _ (by omega)) ?_
      refine Adds.seq (add_u_T1b_T1b hD.locates hF _ _ _ _ _ (by omega)) ?_
      refine Adds.seq (add_u_T1a_T1b hD.locates hF _ _ _ _ _ (by omega)) ?_
      refine Adds.seq (add_u_T1a_T2aa hD.locates hF _ _ _ _ _ (by omega)) ?_
      refine Adds.seq (add_u_T1a_T2ab hD.locates hF _ _ _ _ _ (by omega)) ?_
      refine Adds.seq (add_u_T1b_T2aa hD.locates hF _ _ _ _ _ (by omega)) ?_
      refine Adds.seq (add_u_T1a_T2bb hD.locates hF _ _ _ _ _ (by omega)) ?_
      refine Adds.seq (add_u_T1b_T2ab hD.locates hF _ _ _ _ _ (by omega)) ?_
      refine Adds.seq (add_u_T1b_T2bb hD.locates hF _ _ _ _ _ (by omega)) ?_
      refine Adds.seq (add_u_T1a_T1a_T1a hD.locates hF _ _ _ _ _ (by omega)) ?_
      refine Adds.seq (add_u_T1a_T1a_T1b hD.locates hF _ _ _ _ _ (by omega)) ?_
      refine Adds.seq (add_u_T1a_T1b_T1b hD.locates hF _ _ _ _ _ (by omega)) ?_
      refine Adds.seq (add_u_T1b_T1b_T1b hD.locates hF _ _ _ _ _ (by omega)) ?_
      exact Adds.ok)
    (fun S hS => by
      rw [exp_three ((raises_oT1a _).add (raises_oT1b _)) (((raises_oT2aa _).add (raises_oT2ab _)).add (raises_oT2bb _)) (((exc_oT1a _).add (exc_oT1b _)).comm (((exc_oT2aa _).add (exc_oT2ab _)).add (exc_oT2bb _))) _ hS]
      have sw := swaps T1a T1b T2aa T2ab T2bb noa nva nob nvb
      simp only [forall_and] at sw
      obtain ⟨s1, s2, s3, s4, s5, s6, s7, s8, s9, s10⟩ := sw
      simp only [LinearMap.add_apply, LinearMap.smul_apply, Module.End.mul_apply, map_add, map_smul, s1, s2, s3, s4, s5, s6, s7, s8, s9, s10]
      simp only [LinearMap.add_apply, Module.End.one_apply, Pi.add_apply, Pi.zero_apply, Pi.smul_apply, smul_eq_mul]
      ring)
  obtain ⟨D, h1, h2⟩ := this
  exact ⟨B, D, hB, h1, h2⟩

/-- What the loops of `makeCfromT` add with `order = 4`: the coefficients of `exp(T1 + T2)` without the term `T1b² T2aa / 2`. -/
theorem adds_order4 (noa nva nob nvb : ℕ) (T1a T1b : ℕ → ℕ → K) (T2aa T2ab T2bb : ℕ → ℕ → ℕ → ℕ → K) :
    ∃ v : Finset SO → K, (∀ B L, PLocates (noa + nva) (nob + nvb) B L → Full L noa (noa + nva) nob (nob + nvb) 4 →
      Adds L (stagesU B (ofSet (noa + nva) (Finset.range noa)) (ofSet (nob + nvb) (Finset.range nob)) noa
      nva nob nvb T1a T1b T2aa T2ab T2bb 4) v) ∧
    ∀ S, (S ∩ uvir noa nva nob nvb).card ≤ 4 → (IsNilpotent.exp ((oT1a noa nva T1a + oT1b nob nvb T1b)
        + (oT2aa noa nva T2aa + oT2ab noa nva nob nvb T2ab + oT2bb nob nvb T2bb)) (det (uref noa nob))
        - (1 / 2 : K) • oT1b nob nvb T1b (oT1b nob nvb T1b (oT2aa noa nva T2aa (det (uref noa nob))))) S
        = det (uref noa nob) S + v S := by
  refine ⟨
        (oT1a noa nva T1a) (det (uref noa nob)) +
        ((oT1b nob nvb T1b) (det (uref noa nob)) +
        ((oT2aa noa nva T2aa) (det (uref noa nob)) +
        ((oT2bb nob nvb T2bb) (det (uref noa nob)) +
        ((oT2ab noa nva nob nvb T2ab) (det (uref noa nob)) +
        ((1 / 2 : K) • (oT1a noa nva T1a) ((oT1a noa nva T1a) (det (uref noa nob))) +
        ((1 / 2 : K) • (oT1b nob nvb T1b) ((oT1b nob nvb T1b) (det (uref noa nob))) +
        ((oT1b nob nvb T1b) ((oT1a noa nva T1a) (det (uref noa nob))) +
        ((oT2aa noa nva T2aa) ((oT1a noa nva T1a) (det (uref noa nob))) +
        ((oT2ab noa nva nob nvb T2ab) ((oT1a noa nva T1a) (det (uref noa nob))) +
        ((oT2aa noa nva T2aa) ((oT1b nob nvb T1b) (det (uref noa nob))) +
        ((oT2bb nob nvb T2bb) ((oT1a noa nva T1a) (det (uref noa nob))) +
        ((oT2ab noa nva nob nvb T2ab) ((oT1b nob nvb T1b) (det (uref noa nob))) +
        ((oT2bb nob nvb T2bb) ((oT1b nob nvb T1b) (det (uref noa nob))) +
        ((1 / 6 : K) • (oT1a noa nva T1a) ((oT1a noa nva T1a) ((oT1a noa nva T1a) (det (uref noa nob)))) +
        ((1 / 2 : K) • (oT1b nob nvb T1b) ((oT1a noa nva T1a) ((oT1a noa nva T1a) (det (uref noa nob)))) +
        ((1 / 2 : K) • (oT1b nob nvb T1b) ((oT1b nob nvb T1b) ((oT1a noa nva T1a) (det (uref noa nob)))) +
        ((1 / 6 : K) • (oT1b nob nvb T1b) ((oT1b nob nvb T1b) ((oT1b nob nvb T1b) (det (uref noa nob)))) +
        ((1 / 2 : K) • (oT2aa noa nva T2aa) ((oT2aa noa nva T2aa) (det (uref noa nob))) +
        ((oT2ab noa nva nob nvb T2ab) ((oT2aa noa nva T2aa) (det (uref noa nob))) +
        ((oT2bb nob nvb T2bb) ((oT2aa noa nva T2aa) (det (uref noa nob))) +
        ((1 / 2 : K) • (oT2ab noa nva nob nvb T2ab) ((oT2ab noa nva nob nvb T2ab) (det (uref noa nob))) +
        ((oT2bb nob nvb T2bb) ((oT2ab noa nva nob nvb T2ab) (det (uref noa nob))) +
        ((1 / 2 : K) • (oT2bb nob nvb T2bb) ((oT2bb nob nvb T2bb) (det (uref noa nob))) +
        ((1 / 2 : K) • (oT2aa noa nva T2aa) ((oT1a noa nva T1a) ((oT1a noa nva T1a) (det (uref noa nob)))) +
        ((1 / 2 : K) • (oT2ab noa nva nob nvb T2ab) ((oT1a noa nva T1a) ((oT1a noa nva T1a) (det (uref noa nob)))) +
        ((oT2aa noa nva T2aa) ((oT1b nob nvb T1b) ((oT1a noa nva T1a) (det (uref noa nob)))) +
        ((1 / 2 : K) • (oT2bb nob nvb T2bb) ((oT1a noa nva T1a) ((oT1a noa nva T1a) (det (uref noa nob)))) +
        ((oT2ab noa nva nob nvb T2ab) ((oT1b nob nvb T1b) ((oT1a noa nva T1a) (det (uref noa nob)))) +
        ((oT2bb nob nvb T2bb) ((oT1b nob nvb T1b) ((oT1a noa nva T1a) (det (uref noa nob)))) +
        ((1 / 2 : K) • (oT2ab noa nva nob nvb T2ab) ((oT1b nob nvb T1b) ((oT1b nob nvb T1b) (det (uref noa nob)))) +
        ((1 / 2 : K) • (oT2bb nob nvb T2bb) ((oT1b nob nvb T1b) ((oT1b nob nvb T1b) (det (uref noa nob)))) +
        ((1 / 24 : K) • (oT1a noa nva T1a) ((oT1a noa nva T1a) ((oT1a noa nva T1a) ((oT1a noa nva T1a) (det (uref noa nob))))) +
        ((1 / 6 : K) • (oT1b nob nvb T1b) ((oT1a noa nva T1a) ((oT1a noa nva T1a) ((oT1a noa nva T1a) (det (uref noa nob))))) +
        ((1 / 4 : K) • (oT1b nob nvb T1b) ((oT1b nob nvb T1b) ((oT1a noa nva T1a) ((oT1a noa nva T1a) (det (uref noa nob))))) +
        ((1 / 6 : K) • (oT1b nob nvb T1b) ((oT1b nob nvb T1b) ((oT1b nob nvb T1b) ((oT1a noa nva T1a) (det (uref noa nob))))) +
        ((1 / 24 : K) • (oT1b nob nvb T1b) ((oT1b nob nvb T1b) ((oT1b nob nvb T1b) ((oT1b nob nvb T1b) (det (uref noa nob))))) + 0)))))))))))))))))))))))))))))))))))), fun B L hL hF => ?_, fun S hS => ?_⟩
  · unfold stagesU
    simp only [show 4 ≥ 2 by omega, show 4 ≥ 3 by omega, show 4 ≥ 4 by omega, if_true, if_false, bind_assoc, pure_bind]
    refine Adds.seq (add_u_T1a hL hF _ _ _ _ _ (by omega)) ?_
    refine Adds.seq (add_u_T1b hL hF _ _ _ _ _ (by omega)) ?_
    refine Adds.seq (add_u_T2aa hL hF _ _ _ _ _ (by omega)) ?_
    refine Adds.seq (add_u_T2bb hL hF _ _ _ _ _ (by omega)) ?_
    refine Adds.seq (add_u_T2ab hL hF _ _ _ _ _ (by omega)) ?_
    refine Adds.seq (add_u_T1a_T1a hL hF _ _ _ _ _ (by omega)) ?_
    refine Adds.seq (add_u_T1b_T1b hL hF _ _ _ _ _ (by omega)) ?_
    refine Adds.seq (add_u_T1a_T1b hL hF _ _ _ _ _ (by omega)) ?_
    refine Adds.seq (add_u_T1a_T2aa hL hF _ _ _ _ _ (by omega)) ?_
    refine Adds.seq (add_u_T1a_T2ab hL hF _ _ _ _ _ (by omega)) ?_
    refine Adds.seq (add_u_T1b_T2aa hL hF _ _ _ _ _ (by omega)) ?_
    refine Adds.seq (add_u_T1a_T2bb hL hF _ _ _ _ _ (by omega)) ?_
    refine Adds.seq (add_u_T1b_T2ab hL hF _ _ _ _ _ (by omega)) ?_
    refine Adds.seq (add_u_T1b_T2bb hL hF _ _ _ _ _ (by omega)) ?_
    refine Adds.seq (add_u_T1a_T1a_T1a hL hF _ _ _ _ _ (by omega)) ?_
    refine Adds.seq (add_u_T1a_T1a_T1b hL hF _ _ _ _ _ (by omega)) ?_
    refine Adds.seq (add_u_T1a_T1b_T1b hL hF _ _ _ _ _ (by omega)) ?_
    refine Adds.seq (add_u_T1b_T1b_T1b hL hF _ _ _ _ _ (by omega)) ?_
    refine Adds.seq (add_u_T2aa_T2aa hL hF _ _ _ _ _ (by omega)) ?_
    refine Adds.seq (add_u_T2aa_T2ab hL hF _ _ _ _ _ (by omega)) ?_
    refine Adds.seq (add_u_T2aa_T2bb hL hF _ _ _ _ _ (by omega)) ?_
    refine Adds.seq (add_u_T2ab_T2ab hL hF _ _ _ _ _ (by omega)) ?_
    refine Adds.seq (add_u_T2ab_T2bb hL hF _ _ _ _ _ (by omega)) ?_
    refine Adds.seq (add_u_T2bb_T2bb hL hF _ _ _ _ _ (by omega)) ?_
    refine Adds.seq (add_u_T1a_T1a_T2aa hL hF _ _ _ _ _ (by omega)) ?_
    refine Adds.seq (add_u_T1a_T1a_T2ab hL hF _ _ _ _ _ (by omega)) ?_
    refine Adds.seq (add_u_T1a_T1b_T2aa hL hF _ _ _ _ _ (by omega)) ?_
    refine Adds.seq (add_u_T1a_T1a_T2bb hL hF _ _ _ _ _ (by omega)) ?_
    refine Adds.seq (add_u_T1a_T1b_T2ab hL hF _ _ _ _ _ (by omega)) ?_
    refine Adds.seq (add_u_T1a_T1b_T2bb hL hF _ _ _ _ _ (by omega)) ?_
    refine Adds.seq (add_u_T1b_T1b_T2ab hL hF _ _ _ _ _ (by omega)) ?_
    refine Adds.seq (add_u_T1b_T1b_T2bb hL hF _ _ _ _ _ (by omega)) ?_
    refine Adds.seq (add_u_T1a_T1a_T1a_T1a hL hF _ _ _ _ _ (by omega)) ?_
    refine Adds.seq (add_u_T1a_T1a_T1a_T1b hL hF _ _ _ _ _ (by omega)) ?_
    refine Adds.seq (add_u_T1a_T1a_T1b_T1b hL hF _ _ _ _ _ (by omega)) ?_
    refine Adds.seq (add_u_T1a_T1b_T1b_T1b hL hF _ _ _ _ _ (by omega)) ?_
    exact (add_u_T1b_T1b_T1b_T1b hL hF _ _ _ _ _ (by omega)).congr (add_zero _)
  · rw [Pi.sub_apply]
    rw [exp_four ((raises_oT1a _).add (raises_oT1b _)) (((raises_oT2aa _).add (raises_oT2ab _)).add (raises_oT2bb _)) (((exc_oT1a _).add (exc_oT1b _)).comm (((exc_oT2aa _).add (exc_oT2ab _)).add (exc_oT2bb _))) _ hS]
    have sw := swaps T1a T1b T2aa T2ab T2bb noa nva nob nvb
    simp only [forall_and] at sw
    obtain ⟨s1, s2, s3, s4, s5, s6, s7, s8, s9, s10⟩ := sw
    simp only [LinearMap.add_apply, LinearMap.smul_apply, Module.End.mul_apply, map_add, map_smul, s1, s2, s3, s4, s5, s6, s7, s8, s9, s10]
    simp only [LinearMap.add_apply, Module.End.one_apply, Pi.add_apply, Pi.zero_apply, Pi.smul_apply, smul_eq_mul]
    ring

/-- C46 in part: what `makeCfromT` computes with `order = 4` when no spin allows quadruple excitations: the coefficients of `exp(T1 + T2)` without the
term `T1b² T2aa / 2`. -/
theorem C46_order4_partial (hn : noa + nva = nob + nvb) (haa : Anti noa nva T2aa) (hbb : Anti nob nvb T2bb) (ha : noa < 4 ∨ nva < 4) (hb : nob < 4 ∨ nvb < 4) :
    ∃ B D, ucisdtq_basis (noa + nva) noa nob = .ok B ∧ PBasis (noa + nva) (nob + nvb) B D ∧
      makeCfromT noa nva nob nvb T1a T1b T2aa T2ab T2bb 4 = .ok (D.map fun d =>
        IsNilpotent.exp (clusterU noa nva nob nvb T1a T1b T2aa T2ab T2bb) (det (uref noa nob)) (psupp d)
        - ((1 / 2 : K) • oT1b nob nvb T1b (oT1b nob nvb T1b (oT2aa noa nva T2aa (det (uref noa nob))))) (psupp d)) := by
  obtain ⟨B, hB, he⟩ := C33_ucisdtq (n := noa + nva) (na := noa) (nb := nob) (by omega) (by omega)
  obtain ⟨t, ht⟩ := ucisdtq_head hB
  have hr : (⟨noa + nva, aufbau (noa + nva) nob⟩ : Dstring) = ofSet (nob + nvb) (Finset.range nob) := by rw [hn, aufbau_ofSet]
  rw [aufbau_ofSet, hr] at he ht
  have hpos : 0 < B.length := by rw [ht]; simp
  rw [clusterU_eq _ _ _ _ _ _ haa hbb]
  rw [makeC_stages T1a T1b hn (by omega) (B := B) (by rw [if_neg (by omega), if_neg (by omega), if_neg (by omega), if_pos rfl]; exact hB) hpos]
  obtain ⟨v, hv, hw⟩ := adds_order4 noa nva nob nvb T1a T1b T2aa T2ab T2bb
  have := makeC_spec (K := K) (v := v) he ht (f := stagesU B (ofSet (noa + nva) (Finset.range noa)) (ofSet (nob + nvb) (Finset.range nob)) noa
      nva nob nvb T1a T1b T2aa T2ab T2bb 4)
      (w := (IsNilpotent.exp ((oT1a noa nva T1a + oT1b nob nvb T1b)
        + (oT2aa noa nva T2aa + oT2ab noa nva nob nvb T2ab + oT2bb nob nvb T2bb)) (det (uref noa nob))
        - (1 / 2 : K) • oT1b nob nvb T1b (oT1b nob nvb T1b (oT2aa noa nva T2aa (det (uref noa nob))))))
    (fun D hD hF => hv B _ hD.locates hF) hw
  obtain ⟨D, h1, h2⟩ := this
  exact ⟨B, D, hB, h1, h2⟩

end
end CI
