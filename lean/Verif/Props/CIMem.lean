import Verif.Props.CIMemRun
import Mathlib.Data.Rat.Defs
import Mathlib.Algebra.Field.Rat
/-!
# C92: memory of the CI routines

What the routines of `ci_utils` do to arrays: nothing that existed before a call is changed (also when the call raises an exception), results agree with
the model without memory (so that C32-C38 and their consequences hold for the objects), and which strings share arrays.
-/
namespace CI
namespace Memo

variable {K : Type}

/-! ### strings -/

/-- C92: `Dstring(n, occ)` with a list makes an array of its own. -/
theorem C92_new_list (μ : Mem K) (n : ℕ) (l : List ℤ) :
    Runs ∅ μ (newD n (.list l)) (Dstring.new n l) fun μ' d D => HasD μ' d D ∧ μ.ints.length ≤ d.occ := newD_list

/-- C92: `Dstring(n, occ)` with a numpy array of integers keeps that array: nothing is copied, and an element assigned later
by the caller is an element of the string. -/
theorem C92_new_array (μ : Mem K) {n p : ℕ} {l : List ℤ} (h : μ.ints[p]? = some l) (hn : n = l.length) (i : ℕ) (v : ℤ) :
    newD n (.array p) μ = (.ok ⟨n, p⟩, μ) ∧ HasD μ ⟨n, p⟩ ⟨n, l⟩ ∧ HasD (write p i v μ).2 ⟨n, p⟩ ⟨n, l.set i v⟩ := by
  refine ⟨?_, ⟨h, rfl⟩, ?_, rfl⟩
  · unfold newD
    rw [run_ok (show asarray (.array p) μ = (.ok p, μ) from rfl), run_ok (read_eq h), if_pos hn]
    rfl
  · simp [write, List.getElem?_modify_eq, h]

/-- C92: `excite` changes no array; the string it returns has an array of its own, made by the call. -/
theorem C92_excite (μ : Mem K) {d : DRef} {D : Dstring} (h : HasD μ d D) (i a : ℕ) : Runs ∅ μ (d.excite i a) (D.excite i a) (NewD μ) := excite_runs h i a

/-- C92: `raize` changes no array; the result has an array of its own. -/
theorem C92_raize (μ : Mem K) {d : PRef} {D : Pstring} (h : HasP μ d D) (p : ℕ) :
    Runs ∅ μ (d.raize p) (D.raize p) fun μ' d' D' => HasP μ' d' D' ∧ μ.ints.length ≤ d'.occ := raize_runs h p

/-- C92: `lower` changes no array; the result has an array of its own. -/
theorem C92_lower (μ : Mem K) {d : PRef} {D : Pstring} (h : HasP μ d D) (p : ℕ) :
    Runs ∅ μ (d.lower p) (D.lower p) fun μ' d' D' => match d', D' with
      | some d', some D' => HasP μ' d' D' ∧ μ.ints.length ≤ d'.occ
      | none, none => True
      | _, _ => False := lower_runs h p

/-- C92: `level` and `diff` change nothing. -/
theorem C92_level (μ : Mem K) {d e : DRef} {D E : Dstring} (hd : HasD μ d D) (he : HasD μ e E) : levelM d e μ = (.ok (level D E), μ) := by
  unfold levelM
  rw [run_ok (read_eq hd.1), run_ok (read_eq he.1)]
  rfl

/-! ### lists of strings -/

/-- C92: the lists of strings, with or without an occupation, which may be a list or an array: no array is changed, all strings have arrays
of their own, made by the call. -/
theorem C92_strings (μ : Mem K) (n nocc : ℕ) {o : Option Occ} {l : Option (List ℤ)} (h : HasOcc μ o l) :
    Runs ∅ μ (s_stringsM n nocc o) (s_strings n nocc l) (Own KD μ) ∧ Runs ∅ μ (d_stringsM n nocc o) (d_strings n nocc l) (Own KD μ) ∧
    Runs ∅ μ (t_stringsM n nocc o) (t_strings n nocc l) (Own KD μ) ∧ Runs ∅ μ (q_stringsM n nocc o) (q_strings n nocc l) (Own KD μ) :=
  ⟨s_strings_runs h, d_strings_runs h, t_strings_runs h, q_strings_runs h⟩

/-- C92: the same for the general bases. -/
theorem C92_general_bases (μ : Mem K) (nmo n : ℕ) (gs : Bool) :
    Runs ∅ μ (gcis_basisM nmo n gs) (gcis_basis nmo n gs) (Own KD μ) ∧ Runs ∅ μ (gcisd_basisM nmo n) (gcisd_basis nmo n) (Own KD μ) ∧
    Runs ∅ μ (gcisdt_basisM nmo n) (gcisdt_basis nmo n) (Own KD μ) ∧ Runs ∅ μ (gcisdtq_basisM nmo n) (gcisdtq_basis nmo n) (Own KD μ) :=
  ⟨gcis_runs nmo n gs, gcisd_runs nmo n, gcisdt_runs nmo n, gcisdtq_runs nmo n⟩

/-- C92: the same for vibrational strings and bases. -/
theorem C92_vibrational (μ : Mem K) (nmode : ℕ) :
    Runs ∅ μ (s_pstringsM nmode) (s_pstrings nmode) (Own KP μ) ∧ Runs ∅ μ (d_pstringsM nmode) (d_pstrings nmode) (Own KP μ) ∧
    Runs ∅ μ (vcis_basisM nmode) (vcis_basis nmode) (Own KP μ) ∧ Runs ∅ μ (vcisd_basisM nmode) (vcisd_basis nmode) (Own KP μ) :=
  ⟨s_pstrings_runs nmode, d_pstrings_runs nmode, vcis_runs nmode, vcisd_runs nmode⟩

theorem HasO.write {μ : Mem K} {x : Option DRef} {X : Option Dstring} (h : HasO μ x X) {p : ℕ} (hp : ∀ d ∈ x, d.occ ≠ p) (i : ℕ) (v : ℤ) :
    HasO (write p i v μ).2 x X := by
  cases x <;> cases X
  · exact h
  · exact h
  · exact h
  · refine ⟨?_, h.2⟩
    change (μ.ints.modify p _)[_]? = _
    rw [List.getElem?_modify]
    simpa [Ne.symm (hp _ rfl)] using h.1

theorem nodup_get {α : Type} {f : α → Option ℕ} : ∀ {l : List α}, (l.filterMap f).Nodup → ∀ {i j : ℕ} {x y : α} {p : ℕ}, l[i]? = some x → l[j]? = some y →
    f x = some p → f y = some p → i = j
  | [], _, i, j, x, y, p, hx, _, _, _ => by simp at hx
  | z :: l, h, i, j, x, y, p, hx, hy, hfx, hfy => by
    have hl : (l.filterMap f).Nodup := by
      rw [List.filterMap_cons] at h
      cases hz : f z with
      | none => rwa [hz] at h
      | some q => rw [hz] at h; exact (List.nodup_cons.mp h).2
    have hmem : ∀ {k : ℕ} {w : α}, l[k]? = some w → f w = some p → p ∈ l.filterMap f := fun hk hw =>
      List.mem_filterMap.mpr ⟨_, List.mem_of_getElem? hk, hw⟩
    have hz : f z = some p → p ∉ l.filterMap f := fun hz => by
      rw [List.filterMap_cons, hz] at h
      exact (List.nodup_cons.mp h).1
    rcases i with _ | i <;> rcases j with _ | j
    · rfl
    · simp only [List.getElem?_cons_zero, Option.some.injEq, List.getElem?_cons_succ] at hx hy
      subst hx
      exact absurd (hmem hy hfy) (hz hfx)
    · simp only [List.getElem?_cons_zero, Option.some.injEq, List.getElem?_cons_succ] at hx hy
      subst hy
      exact absurd (hmem hx hfx) (hz hfy)
    · simp only [List.getElem?_cons_succ] at hx hy
      rw [nodup_get hl hx hy hfx hfy]

/-- C92: an assignment to an element of one string of such a list or general basis changes no other entry of it. -/
theorem C92_independent {μ μ' : Mem K} {l : List (Option DRef)} {L : List (Option Dstring)} (h : Own KD μ μ' l L) {i j : ℕ} {d : DRef} {x : Option DRef} {X : Option Dstring}
    (hi : l[i]? = some (some d)) (hj : l[j]? = some x) (hX : L[j]? = some X) (hij : i ≠ j) (q : ℕ) (v : ℤ) : HasO (write d.occ q v μ').2 x X := by
  obtain ⟨hlen, hget⟩ := List.forall₂_iff_get.mp h.1
  obtain ⟨hj1, rfl⟩ := List.getElem?_eq_some_iff.mp hj
  obtain ⟨hj2, rfl⟩ := List.getElem?_eq_some_iff.mp hX
  refine HasO.write (hget j hj1 hj2) (fun e he hde => hij ?_) q v
  exact nodup_get h.2.1 (p := d.occ) hi hj rfl (by
    change Option.map DRef.occ _ = _
    rw [show l[j] = some e from he, ← hde]; rfl)

/-! ### unrestricted bases -/

/-- all arrays are new -/
def AllNew (μ : Mem K) (B : List PairM) : Prop := ∀ x ∈ B, (∀ d ∈ x.1, μ.ints.length ≤ d.occ) ∧ ∀ d ∈ x.2, μ.ints.length ≤ d.occ
/-- no array is used for both spins -/
def Apart (B : List PairM) : Prop := ∀ x ∈ B, ∀ y ∈ B, ∀ d ∈ x.1, ∀ e ∈ y.2, d.occ ≠ e.occ
/-- equal strings of the same spin are the same object -/
def SharedBy (B : List PairM) (V : List Pair) : Prop := ∀ (i j : ℕ) (x y : PairM) (X Y : Pair), B[i]? = some x → B[j]? = some y → V[i]? = some X → V[j]? = some Y →
  (X.1 = Y.1 → x.1 = y.1) ∧ (X.2 = Y.2 → x.2 = y.2)

theorem HasO.functional {μ : Mem K} {x : Option DRef} {X Y : Option Dstring} (h : HasO μ x X) (h' : HasO μ x Y) : X = Y := by
  rcases x with _ | d <;> rcases X with _ | ⟨n, o⟩ <;> rcases Y with _ | ⟨n', o'⟩
  all_goals first | rfl | exact h.elim | exact h'.elim | skip
  obtain ⟨h1, h2⟩ := h
  obtain ⟨h1', h2'⟩ := h'
  rw [h1] at h1'
  simp only [Option.some.injEq] at h1' h2 h2'
  rw [h1', ← h2, ← h2']

theorem forall₂_inj {μ : Mem K} {l : List (Option DRef)} {L : List (Option Dstring)} (h : List.Forall₂ (HasO μ) l L) (hL : L.Nodup) {x y : Option DRef} {X : Option Dstring}
    (hx : x ∈ l) (hy : y ∈ l) (hX : HasO μ x X) (hY : HasO μ y X) : x = y := by
  have mem : ∀ {l : List (Option DRef)} {L : List (Option Dstring)}, List.Forall₂ (HasO μ) l L → ∀ {z}, z ∈ l → HasO μ z X → X ∈ L := by
    intro l L h z hz hX
    induction h with
    | nil => cases hz
    | cons h₁ _ ih =>
      rcases List.mem_cons.mp hz with rfl | hz
      · rw [hX.functional h₁]; exact List.mem_cons_self
      · exact List.mem_cons_of_mem _ (ih hz)
  induction h with
  | nil => cases hx
  | cons h₁ h₂ ih =>
    obtain ⟨n1, n2⟩ := List.nodup_cons.mp hL
    rcases List.mem_cons.mp hx with hx' | hx' <;> rcases List.mem_cons.mp hy with hy' | hy'
    · rw [hx', hy']
    · subst hx'
      exact absurd (h₁.functional hX ▸ mem h₂ hy' hY) n1
    · subst hy'
      exact absurd (h₁.functional hY ▸ mem h₂ hx' hX) n1
    · exact ih n2 hx' hy'

theorem Pools.basic {LA LB : List (Option Dstring)} {μ μ' : Mem K} {B : List PairM} {V : List Pair} (h : Pools LA LB μ μ' B V) :
    List.Forall₂ (HasPair μ') B V ∧ AllNew μ B ∧ Apart B := by
  obtain ⟨pa, pb, ⟨ha, hb, hab⟩, hv, hm⟩ := h
  have key : ∀ {l : List (Option DRef)} {x d}, x ∈ l → d ∈ x → d.occ ∈ l.filterMap (Option.map DRef.occ) := fun {l x d} hx hd =>
    List.mem_filterMap.mpr ⟨x, hx, by rw [show x = some d from hd]; rfl⟩
  refine ⟨hv, fun x hx => ⟨fun d hd => ha.2.2 _ (key (hm x hx).1 hd), fun d hd => hb.2.2 _ (key (hm x hx).2 hd)⟩, fun x hx y hy d hd e he hde => ?_⟩
  exact hab _ (key (hm x hx).1 hd) (hde ▸ key (hm y hy).2 he)

theorem Pools.shared {LA LB : List (Option Dstring)} {μ μ' : Mem K} {B : List PairM} {V : List Pair} (h : Pools LA LB μ μ' B V) (hA : LA.Nodup) (hB : LB.Nodup) :
    SharedBy B V := by
  obtain ⟨pa, pb, ⟨ha, hb, hab⟩, hv, hm⟩ := h
  intro i j x y X Y hx hy hX hY
  obtain ⟨hlen, hget⟩ := List.forall₂_iff_get.mp hv
  have val : ∀ {k : ℕ} {z Z}, B[k]? = some z → V[k]? = some Z → HasPair μ' z Z ∧ z ∈ B := by
    intro k z Z hz hZ
    have hmem := List.mem_of_getElem? hz
    obtain ⟨h1, rfl⟩ := List.getElem?_eq_some_iff.mp hz
    obtain ⟨h2, rfl⟩ := List.getElem?_eq_some_iff.mp hZ
    exact ⟨hget k h1 h2, hmem⟩
  obtain ⟨v1, m1⟩ := val hx hX
  obtain ⟨v2, m2⟩ := val hy hY
  exact ⟨fun e => forall₂_inj ha.1 hA (hm x m1).1 (hm y m2).1 v1.1 (e ▸ v2.1), fun e => forall₂_inj hb.1 hB (hm x m1).2 (hm y m2).2 v1.2 (e ▸ v2.2)⟩

theorem nodup_pool1 {n nocc : ℕ} {s : List (Option Dstring)} (hs : s_strings n nocc = .ok s) : (s ++ [some (⟨n, aufbau n nocc⟩ : Dstring)]).Nodup := by
  obtain ⟨⟨s', e1, h1⟩, -, -⟩ := C32_default n nocc
  cases hs.symm.trans e1
  exact (h1.toG.append (enumerates_ref (isDet_aufbau n nocc)) (by simp)).1

theorem nodup_pool2 {n nocc : ℕ} {s d : List (Option Dstring)} (hs : s_strings n nocc = .ok s) (hd : d_strings n nocc = .ok d) :
    (s ++ d ++ [some (⟨n, aufbau n nocc⟩ : Dstring)]).Nodup := by
  obtain ⟨⟨s', e1, h1⟩, ⟨d', e2, h2⟩, -⟩ := C32_default n nocc
  cases hs.symm.trans e1
  cases hd.symm.trans e2
  exact ((h1.toG.append h2 (by simp)).append (enumerates_ref (isDet_aufbau n nocc)) (by simp)).1

theorem nodup_pool3 {n nocc : ℕ} {s d t : List (Option Dstring)} (hs : s_strings n nocc = .ok s) (hd : d_strings n nocc = .ok d) (ht : t_strings n nocc = .ok t) :
    (s ++ d ++ t ++ [some (⟨n, aufbau n nocc⟩ : Dstring)]).Nodup := by
  obtain ⟨⟨s', e1, h1⟩, ⟨d', e2, h2⟩, ⟨t', e3, h3⟩⟩ := C32_default n nocc
  cases hs.symm.trans e1
  cases hd.symm.trans e2
  cases ht.symm.trans e3
  exact (((h1.toG.append h2 (by simp)).append h3 (by simp)).append (enumerates_ref (isDet_aufbau n nocc)) (by simp)).1

/-- C92: `ucis_basis` changes no array; its pairs have the values of C33; all arrays are new, those of the two spins are different, and two pairs with
the same alpha (beta) occupation hold the *same* alpha (beta) object. -/
theorem C92_ucis (μ : Mem K) (n na nb : ℕ) (gs : Bool) : Runs ∅ μ (ucis_basisM n na nb gs) (ucis_basis n na nb gs) fun μ' B V =>
    List.Forall₂ (HasPair μ') B V ∧ AllNew μ B ∧ Apart B ∧ SharedBy B V := by
  refine (ucis_runs n na nb gs).imp ?_
  rintro _ _ _ - ⟨_, _, ea, eb, hp⟩
  exact ⟨hp.basic.1, hp.basic.2.1, hp.basic.2.2, hp.shared (nodup_pool1 ea) (nodup_pool1 eb)⟩

/-- C92 for `ucisd_basis`. -/
theorem C92_ucisd (μ : Mem K) (n na nb : ℕ) : Runs ∅ μ (ucisd_basisM n na nb) (ucisd_basis n na nb) fun μ' B V =>
    List.Forall₂ (HasPair μ') B V ∧ AllNew μ B ∧ Apart B ∧ SharedBy B V := by
  refine (ucisd_runs n na nb).imp ?_
  rintro _ _ _ - ⟨_, _, _, _, ea, eb, fa, fb, hp⟩
  exact ⟨hp.basic.1, hp.basic.2.1, hp.basic.2.2, hp.shared (nodup_pool2 ea fa) (nodup_pool2 eb fb)⟩

/-- C92 for `ucisdt_basis`. -/
theorem C92_ucisdt (μ : Mem K) (n na nb : ℕ) : Runs ∅ μ (ucisdt_basisM n na nb) (ucisdt_basis n na nb) fun μ' B V =>
    List.Forall₂ (HasPair μ') B V ∧ AllNew μ B ∧ Apart B ∧ SharedBy B V := by
  refine (ucisdt_runs n na nb).imp ?_
  rintro _ _ _ - ⟨_, _, _, _, _, _, ea, eb, fa, fb, ga, gb, hp⟩
  exact ⟨hp.basic.1, hp.basic.2.1, hp.basic.2.2, hp.shared (nodup_pool3 ea fa ga) (nodup_pool3 eb fb gb)⟩

/-- C92 for `ucisdtq_basis` (whose quadruples may occur several times, C34: equal strings need not be the same object). -/
theorem C92_ucisdtq (μ : Mem K) (n na nb : ℕ) : Runs ∅ μ (ucisdtq_basisM n na nb) (ucisdtq_basis n na nb) fun μ' B V =>
    List.Forall₂ (HasPair μ') B V ∧ AllNew μ B ∧ Apart B := by
  refine (ucisdtq_runs n na nb).imp ?_
  rintro _ _ _ - ⟨_, _, _, _, _, _, _, _, _, _, _, _, _, _, _, _, hp⟩
  exact hp.basic

/-- C92: so an assignment to an element of the alpha string of one pair of an unrestricted basis is seen in *every* pair with the same alpha occupation. -/
theorem C92_shared {μ' : Mem K} {B : List PairM} {V : List Pair} (hv : List.Forall₂ (HasPair μ') B V) (hs : SharedBy B V) {i j : ℕ} {d : DRef} {x y : PairM} {D : Dstring} {X Y : Pair}
    (hi : B[i]? = some x) (hj : B[j]? = some y) (hX : V[i]? = some X) (hY : V[j]? = some Y) (hx : x.1 = some d) (hD : X.1 = some D) (e : X.1 = Y.1) (q : ℕ) (v : ℤ) :
    HasO (write d.occ q v μ').2 y.1 (some ⟨D.n, D.occ.set q v⟩) := by
  obtain ⟨hlen, hget⟩ := List.forall₂_iff_get.mp hv
  have hxy := (hs i j x y X Y hi hj hX hY).1 e
  obtain ⟨h1, rfl⟩ := List.getElem?_eq_some_iff.mp hi
  obtain ⟨h2, rfl⟩ := List.getElem?_eq_some_iff.mp hX
  have hval := (hget i h1 h2).1
  change HasO μ' B[i].1 V[i].1 at hval
  rw [hx, hD] at hval
  rw [← hxy, hx]
  refine ⟨?_, hval.2⟩
  change (μ'.ints.modify d.occ _)[d.occ]? = _
  rw [List.getElem?_modify_eq, hval.1]
  rfl

/-! ### operators on vectors -/

theorem Runs.pureBind {α β γ δ : Type} {S : Set ℕ} {μ : Mem K} {m : M K α} {r : R β} {post : Mem K → α → β → Prop} {f : α → M K γ} {g : β → R δ} {post' : Mem K → γ → δ → Prop}
    (h : Runs ∅ μ m r post) (h' : ∀ μ' x y, Keeps ∅ μ μ' → post μ' x y → Runs S μ' (f x) (g y) post') : Runs S μ (m >>= f) (r >>= g) post' := by
  have h₁ : Runs S μ m r fun μ' x y => Keeps ∅ μ μ' ∧ post μ' x y :=
    ⟨⟨h.1.1, h.1.2.1, fun p hp _ => h.1.2.2 p hp (by simp)⟩, h.2.imp fun _ _ hp => ⟨h.1, hp⟩⟩
  exact Runs.bind h₁ fun μ' x y _ hp => h' μ' x y hp.1 hp.2

theorem strings_runs {S : Set ℕ} {μ : Mem K} {x : PairM} {X : Pair} (h : HasPair μ x X) : Runs S μ (stringsM x) (strings X) fun μ' p q => μ' = μ ∧ p = q := by
  obtain ⟨h1, h2⟩ := h
  rcases x with ⟨_ | x1, _ | x2⟩ <;> rcases X with ⟨_ | X1, _ | X2⟩
  all_goals first | exact h1.elim | exact h2.elim | exact Runs.raise | skip
  exact Runs.of_eq ((run_ok (value_eq h1) _).trans (run_ok (value_eq h2) _)) (Keeps.refl ..) (Runs.pure ⟨rfl, rfl⟩)

theorem Keeps.pushV (S : Set ℕ) (μ : Mem K) (l : List K) : Keeps S μ { μ with vecs := μ.vecs ++ [l] } :=
  ⟨List.prefix_rfl, by simp, fun p hp _ => by simp [List.getElem?_append_left hp]⟩

theorem HasPair.mono {S : Set ℕ} {μ μ' : Mem K} {x : PairM} {X : Pair} (h : HasPair μ x X) (hk : Keeps S μ μ') : HasPair μ' x X := ⟨h.1.mono hk, h.2.mono hk⟩

section
variable [Field K]

/-- the result of an operator: an array made by the call -/
def OutV (μ μ' : Mem K) (out : ℕ) (w : List K) : Prop := μ'.vecs[out]? = some w ∧ μ.vecs.length ≤ out

variable {μ : Mem K} {vec : ℕ} {v : List K} (hv : μ.vecs[vec]? = some v)
include hv

/-- C92: `s_on_vec` leaves the vector and the strings as they are and returns a new array. -/
theorem C92_s_on_vec {b : List (Option DRef)} {B : List (Option Dstring)} (hb : List.Forall₂ (HasO μ) b B) (i a : ℕ) :
    Runs ∅ μ (s_on_vecM b vec i a) (s_on_vec B v i a) (OutV μ) := by
  refine overVec_runs hv fun o ix x μ₁ c hk hc => ?_
  have hb₁ := forall₂_mono KD hb hk
  refine Runs.pureBind (forall₂_get hb₁ ix) ?_
  rintro μ₂ dd DD - ⟨rfl, hd⟩
  refine Runs.pureBind (exciteO_runs hd i a) fun μ₃ r R k₃ hr => ?_
  rcases r with _ | ⟨s, d⟩ <;> rcases R with _ | ⟨s', D⟩
  · exact Runs.pure (k₃.vec (by simp) hc)
  · exact hr.elim
  · exact hr.elim
  · obtain ⟨rfl, hd', -⟩ := hr
    exact tryAdd_runs (Set.mem_singleton o) (k₃.vec (by simp) hc) (index_eq (forall₂_mono KD hb₁ k₃) hd') _


/-- C92 for `sa_on_vec`. -/
theorem C92_sa_on_vec {b : List PairM} {B : List Pair} (hb : List.Forall₂ (HasPair μ) b B) (i a : ℕ) :
    Runs ∅ μ (sa_on_vecM b vec i a) (sa_on_vec B v i a) (OutV μ) := by
  refine overVec_runs hv fun o ix x μ₁ c hk hc => ?_
  have hb₁ := hb.imp fun _ _ h => h.mono hk
  refine Runs.pureBind (forall₂_get hb₁ ix) ?_
  rintro μ₂ ⟨d1, d2⟩ ⟨D1, D2⟩ - ⟨rfl, hd⟩
  refine Runs.pureBind (exciteO_runs hd.1 i a) fun μ₃ r R k₃ hr => ?_
  rcases r with _ | ⟨s, d⟩ <;> rcases R with _ | ⟨s', D⟩
  · exact Runs.pure (k₃.vec (by simp) hc)
  · exact hr.elim
  · exact hr.elim
  · obtain ⟨rfl, hd', -⟩ := hr
    have hbb := hd.2
    cases d2 <;> cases D2
    · exact Runs.raise
    · exact hbb.elim
    · exact hbb.elim
    · exact tryAdd_runs (Set.mem_singleton o) (k₃.vec (by simp) hc) (index2_eq (hb₁.imp fun _ _ h => h.mono k₃) hd' (hbb.mono k₃)) _

/-- C92 for `sb_on_vec`. -/
theorem C92_sb_on_vec {b : List PairM} {B : List Pair} (hb : List.Forall₂ (HasPair μ) b B) (i a : ℕ) :
    Runs ∅ μ (sb_on_vecM b vec i a) (sb_on_vec B v i a) (OutV μ) := by
  refine overVec_runs hv fun o ix x μ₁ c hk hc => ?_
  have hb₁ := hb.imp fun _ _ h => h.mono hk
  refine Runs.pureBind (forall₂_get hb₁ ix) ?_
  rintro μ₂ ⟨d1, d2⟩ ⟨D1, D2⟩ - ⟨rfl, hd⟩
  refine Runs.pureBind (exciteO_runs hd.2 i a) fun μ₃ r R k₃ hr => ?_
  rcases r with _ | ⟨s, d⟩ <;> rcases R with _ | ⟨s', D⟩
  · exact Runs.pure (k₃.vec (by simp) hc)
  · exact hr.elim
  · exact hr.elim
  · obtain ⟨rfl, hd', -⟩ := hr
    have hbb := hd.1
    cases d1 <;> cases D1
    · exact Runs.raise
    · exact hbb.elim
    · exact hbb.elim
    · exact tryAdd_runs (Set.mem_singleton o) (k₃.vec (by simp) hc) (index2_eq (hb₁.imp fun _ _ h => h.mono k₃) (hbb.mono k₃) hd') _

/-- C92 for `da_on_vec`. -/
theorem C92_da_on_vec {b : List PairM} {B : List Pair} (hb : List.Forall₂ (HasPair μ) b B) (i j a b' : ℕ) :
    Runs ∅ μ (da_on_vecM b vec i j a b') (da_on_vec B v i j a b') (OutV μ) := by
  refine overVec_runs hv fun o ix x μ₁ c hk hc => ?_
  have hb₁ := hb.imp fun _ _ h => h.mono hk
  refine Runs.pureBind (forall₂_get hb₁ ix) ?_
  rintro μ₂ ⟨d1, d2⟩ ⟨D1, D2⟩ - ⟨rfl, hd⟩
  refine Runs.pureBind (exciteO_runs hd.1 i a) fun μ₃ r R k₃ hr => ?_
  rcases r with _ | ⟨s, d⟩ <;> rcases R with _ | ⟨s', D⟩
  · exact Runs.pure (k₃.vec (by simp) hc)
  · exact hr.elim
  · exact hr.elim
  · obtain ⟨rfl, hd', -⟩ := hr
    refine Runs.pureBind (excite_runs hd' j b') fun μ₄ r R k₄ hr => ?_
    have k := k₃.trans k₄
    rcases r with _ | ⟨s1, d⟩ <;> rcases R with _ | ⟨s1', D⟩
    · exact Runs.pure (k.vec (by simp) hc)
    · exact hr.elim
    · exact hr.elim
    · obtain ⟨rfl, hd'', -⟩ := hr
      have hbb := hd.2
      cases d2 <;> cases D2
      · exact Runs.raise
      · exact hbb.elim
      · exact hbb.elim
      · exact tryAdd_runs (Set.mem_singleton o) (k.vec (by simp) hc) (index2_eq (hb₁.imp fun _ _ h => h.mono k) hd'' (hbb.mono k)) _

/-- C92 for `db_on_vec`. -/
theorem C92_db_on_vec {b : List PairM} {B : List Pair} (hb : List.Forall₂ (HasPair μ) b B) (i j a b' : ℕ) :
    Runs ∅ μ (db_on_vecM b vec i j a b') (db_on_vec B v i j a b') (OutV μ) := by
  refine overVec_runs hv fun o ix x μ₁ c hk hc => ?_
  have hb₁ := hb.imp fun _ _ h => h.mono hk
  refine Runs.pureBind (forall₂_get hb₁ ix) ?_
  rintro μ₂ ⟨d1, d2⟩ ⟨D1, D2⟩ - ⟨rfl, hd⟩
  refine Runs.pureBind (exciteO_runs hd.2 i a) fun μ₃ r R k₃ hr => ?_
  rcases r with _ | ⟨s, d⟩ <;> rcases R with _ | ⟨s', D⟩
  · exact Runs.pure (k₃.vec (by simp) hc)
  · exact hr.elim
  · exact hr.elim
  · obtain ⟨rfl, hd', -⟩ := hr
    refine Runs.pureBind (excite_runs hd' j b') fun μ₄ r R k₄ hr => ?_
    have k := k₃.trans k₄
    rcases r with _ | ⟨s1, d⟩ <;> rcases R with _ | ⟨s1', D⟩
    · exact Runs.pure (k.vec (by simp) hc)
    · exact hr.elim
    · exact hr.elim
    · obtain ⟨rfl, hd'', -⟩ := hr
      have hbb := hd.1
      cases d1 <;> cases D1
      · exact Runs.raise
      · exact hbb.elim
      · exact hbb.elim
      · exact tryAdd_runs (Set.mem_singleton o) (k.vec (by simp) hc) (index2_eq (hb₁.imp fun _ _ h => h.mono k) (hbb.mono k) hd'') _

/-- C92 for `d_on_vec`. -/
theorem C92_d_on_vec {b : List (Option DRef)} {B : List (Option Dstring)} (hb : List.Forall₂ (HasO μ) b B) (i j a b' : ℕ) :
    Runs ∅ μ (d_on_vecM b vec i j a b') (d_on_vec B v i j a b') (OutV μ) := by
  refine overVec_runs hv fun o ix x μ₁ c hk hc => ?_
  have hb₁ := forall₂_mono KD hb hk
  refine Runs.pureBind (forall₂_get hb₁ ix) ?_
  rintro μ₂ dd DD - ⟨rfl, hd⟩
  refine Runs.pureBind (exciteO_runs hd i a) fun μ₃ r R k₃ hr => ?_
  rcases r with _ | ⟨s, d⟩ <;> rcases R with _ | ⟨s', D⟩
  · exact Runs.pure (k₃.vec (by simp) hc)
  · exact hr.elim
  · exact hr.elim
  · obtain ⟨rfl, hd', -⟩ := hr
    refine Runs.pureBind (excite_runs hd' j b') fun μ₄ r R k₄ hr => ?_
    have k := k₃.trans k₄
    rcases r with _ | ⟨s1, d⟩ <;> rcases R with _ | ⟨s1', D⟩
    · exact Runs.pure (k.vec (by simp) hc)
    · exact hr.elim
    · exact hr.elim
    · obtain ⟨rfl, hd'', -⟩ := hr
      exact tryAdd_runs (Set.mem_singleton o) (k.vec (by simp) hc) (index_eq (forall₂_mono KD hb₁ k) hd'') _

/-- C92 for `sasb_on_vec`. -/
theorem C92_sasb_on_vec {b : List PairM} {B : List Pair} (hb : List.Forall₂ (HasPair μ) b B) (i j a b' : ℕ) :
    Runs ∅ μ (sasb_on_vecM b vec i j a b') (sasb_on_vec B v i j a b') (OutV μ) := by
  refine overVec_runs hv fun o ix x μ₁ c hk hc => ?_
  have hb₁ := hb.imp fun _ _ h => h.mono hk
  refine Runs.pureBind (forall₂_get hb₁ ix) ?_
  rintro μ₂ ⟨d1, d2⟩ ⟨D1, D2⟩ - ⟨rfl, hd⟩
  refine Runs.pureBind (exciteO_runs hd.1 i a) fun μ₃ r R k₃ hr => ?_
  rcases r with _ | ⟨s, d⟩ <;> rcases R with _ | ⟨s', D⟩
  · exact Runs.pure (k₃.vec (by simp) hc)
  · exact hr.elim
  · exact hr.elim
  · obtain ⟨rfl, hd', -⟩ := hr
    refine Runs.pureBind (exciteO_runs (hd.2.mono k₃) j b') fun μ₄ r R k₄ hr => ?_
    have k := k₃.trans k₄
    rcases r with _ | ⟨s1, e⟩ <;> rcases R with _ | ⟨s1', E⟩
    · exact Runs.pure (k.vec (by simp) hc)
    · exact hr.elim
    · exact hr.elim
    · obtain ⟨rfl, hd'', -⟩ := hr
      exact tryAdd_runs (Set.mem_singleton o) (k.vec (by simp) hc) (index2_eq (hb₁.imp fun _ _ h => h.mono k) (hd'.mono k₄) hd'') _

/-- C92 for `H_on_vec`. -/
theorem C92_H_on_vec {b : List PairM} {B : List Pair} (hb : List.Forall₂ (HasPair μ) b B) (ha hb' : ℕ → ℕ → K) (Ia Ib Iab : ℕ → ℕ → ℕ → ℕ → K) :
    Runs ∅ μ (H_on_vecM b vec ha hb' Ia Ib Iab) (H_on_vec B v ha hb' Ia Ib Iab) (OutV μ) := by
  have hlt := (List.getElem?_eq_some_iff.mp hv).1
  unfold H_on_vecM
  refine Runs.step (readV_eq hv) (Keeps.refl ..) (out_runs ?_)
  rintro μ₁ rfl
  refine loop_runs (forall₂_enum' hb) (by simp [zeros]) ?_
  rintro ⟨i, x⟩ ⟨_, X⟩ ⟨rfl, hx⟩ μ₂ c₂ k₂ h₂
  refine loop_runs (forall₂_enum' hb) h₂ ?_
  rintro ⟨j, y⟩ ⟨_, Y⟩ ⟨rfl, hy⟩ μ₃ c₃ k₃ h₃
  have k := k₂.trans k₃
  have hvk : μ₃.vecs[vec]? = some v := k.vec (by simp; omega) (by simpa [List.getElem?_append_left hlt] using hv)
  refine Runs.step (readV_eq hvk) (Keeps.refl ..) ?_
  refine Runs.bind Runs.lift ?_
  rintro μ₄ w _ - ⟨rfl, rfl, -⟩
  have k' := (Keeps.pushV {μ.vecs.length} μ _).trans k
  refine Runs.bind (strings_runs (hx.mono k')) ?_
  rintro μ₅ ⟨x0, x1⟩ _ - ⟨rfl, rfl⟩
  refine Runs.bind (strings_runs (hy.mono k')) ?_
  rintro μ₆ ⟨y0, y1⟩ _ - ⟨rfl, rfl⟩
  refine Runs.bind Runs.lift ?_
  rintro μ₇ m _ - ⟨rfl, rfl, -⟩
  exact addV_runs (Set.mem_singleton _) h₃ _ _

/-- C92 for `gH_on_vec`. -/
theorem C92_gH_on_vec {b : List (Option DRef)} {B : List (Option Dstring)} (hb : List.Forall₂ (HasO μ) b B) (h : ℕ → ℕ → K) (I : ℕ → ℕ → ℕ → ℕ → K) :
    Runs ∅ μ (gH_on_vecM b vec h I) (gH_on_vec B v h I) (OutV μ) := by
  have hlt := (List.getElem?_eq_some_iff.mp hv).1
  unfold gH_on_vecM
  refine Runs.step (readV_eq hv) (Keeps.refl ..) (out_runs ?_)
  rintro μ₁ rfl
  refine loop_runs (forall₂_enum' hb) (by simp [zeros]) ?_
  rintro ⟨i, x⟩ ⟨_, X⟩ ⟨rfl, hx⟩ μ₂ c₂ k₂ h₂
  refine loop_runs (forall₂_enum' hb) h₂ ?_
  rintro ⟨j, y⟩ ⟨_, Y⟩ ⟨rfl, hy⟩ μ₃ c₃ k₃ h₃
  have k := k₂.trans k₃
  have hvk : μ₃.vecs[vec]? = some v := k.vec (by simp; omega) (by simpa [List.getElem?_append_left hlt] using hv)
  refine Runs.step (readV_eq hvk) (Keeps.refl ..) ?_
  refine Runs.bind Runs.lift ?_
  rintro μ₄ w _ - ⟨rfl, rfl, -⟩
  have k' := (Keeps.pushV {μ.vecs.length} μ _).trans k
  have hx' := hx.mono k'
  have hy' := hy.mono k'
  rcases x with _ | x <;> rcases X with _ | X
  · rcases y with _ | y <;> rcases Y with _ | Y <;> exact Runs.raise
  · exact hx'.elim
  · exact hx'.elim
  rcases y with _ | y <;> rcases Y with _ | Y
  · exact Runs.raise
  · exact hy'.elim
  · exact hy'.elim
  refine Runs.step (value_eq hx') (Keeps.refl ..) (Runs.step (value_eq hy') (Keeps.refl ..) ?_)
  refine Runs.bind Runs.lift ?_
  rintro μ₇ m _ - ⟨rfl, rfl, -⟩
  exact addV_runs (Set.mem_singleton _) h₃ _ _

end

/-! ### what it means for the user -/

/-- C92: a run that keeps memory leaves the values of all strings and vectors that existed before as they were. -/
theorem C92_kept {μ μ' : Mem K} (h : Keeps ∅ μ μ') : (∀ {d : DRef} {D : Dstring}, HasD μ d D → HasD μ' d D) ∧ (∀ {d : PRef} {D : Pstring}, HasP μ d D → HasP μ' d D) ∧
    ∀ {p : ℕ} {v : List K}, μ.vecs[p]? = some v → μ'.vecs[p]? = some v :=
  ⟨fun hd => hd.mono h, fun hd => hd.mono h, fun hv => h.vec (by simp) hv⟩

/-! ### concrete cases -/

/-- an occupation array of the caller -/
def μx : Mem ℚ := ⟨[[1, 1, 0, 0]], []⟩

/-- `s_strings(4, 2, occ=array)`: four new arrays (at 1, 2, 3, 4), the array of the caller at 0 is not among them. -/
example : s_stringsM 4 2 (some (.array 0)) μx
    = (.ok [some ⟨4, 1⟩, some ⟨4, 2⟩, some ⟨4, 3⟩, some ⟨4, 4⟩], ⟨[[1, 1, 0, 0], [0, 1, 1, 0], [0, 1, 0, 1], [1, 0, 1, 0], [1, 0, 0, 1]], []⟩) := by rfl

/-- `Dstring(4, array)` refers to the array of the caller. -/
example : newD 4 (.array 0) μx = (.ok ⟨4, 0⟩, μx) ∧ HasD (write 0 3 1 μx).2 ⟨4, 0⟩ ⟨4, [1, 1, 0, 1]⟩ :=
  ⟨rfl, (C92_new_array μx (n := 4) (p := 0) (l := [1, 1, 0, 0]) rfl rfl 3 1).2.2⟩

/-- `ucis_basis(2, 1, 1)`: three pairs and four arrays, besides the two arrays of the references of the two calls of `s_strings`. -/
example : ucis_basisM 2 1 1 true (⟨[], []⟩ : Mem ℚ)
    = (.ok [(some ⟨2, 4⟩, some ⟨2, 5⟩), (some ⟨2, 1⟩, some ⟨2, 5⟩), (some ⟨2, 4⟩, some ⟨2, 3⟩)],
      ⟨[[1, 0], [0, 1], [1, 0], [0, 1], [1, 0], [1, 0]], []⟩) := by rfl

/-- `s_on_vec` reads array 0 and writes array 1. -/
example : s_on_vecM [some ⟨2, 0⟩, some ⟨2, 1⟩] 0 0 1 (⟨[[1, 0], [0, 1]], [[3, 5]]⟩ : Mem ℚ) = (.ok 1, ⟨[[1, 0], [0, 1], [0, 1]], [[3, 5], [0, 0 + ((1 : ℤ) : ℚ) * 3]]⟩) := by rfl

end Memo
end CI
