import Verif.Props.CIMatrix
import Mathlib.Data.List.GetD
/-!
# C38: operators on vectors
-/
set_option linter.unusedSectionVars false
namespace CI
open Fock
variable {K : Type} [Field K]

/-- the list `[f(0), ..., f(m-1)]` -/
def tab (m : ℕ) (f : ℕ → K) : List K := (List.range m).map f

@[simp] theorem length_tab (m : ℕ) (f : ℕ → K) : (tab m f).length = m := by simp [tab]

theorem tab_congr {m : ℕ} {f g : ℕ → K} (h : ∀ k < m, f k = g k) : tab m f = tab m g :=
  List.map_congr_left fun k hk => h k (List.mem_range.mp hk)

/-- The product of the square matrix `M` with a vector. -/
def matvec (M : ℕ → ℕ → K) (vec : List K) : List K :=
  (List.range vec.length).map fun k => ∑ j ∈ Finset.range vec.length, M k j * vec.getD j 0

theorem loop_append {α σ : Type} (l l' : List α) (f : α → σ → R σ) (c : σ) :
    loop (l ++ l') f c = (loop l f c >>= fun c' => loop l' f c') := by
  induction l generalizing c with
  | nil => rfl
  | cons x l ih =>
    simp only [List.cons_append, loop, bind, Except.bind]
    cases f x c with
    | error e => rfl
    | ok c' => simp only [ih]; rfl

theorem enum_append {α : Type} (l : List α) (x : α) : enum (l ++ [x]) = enum l ++ [(l.length, x)] := by
  simp [enum, List.zipIdx_append]

theorem loop_enum {α : Type} (m : ℕ) (vec : List α) (step : ℕ × α → List K → R (List K)) (d : α) (g : ℕ → ℕ → α → K)
    (h : ∀ j x f, vec[j]? = some x → step (j, x) (tab m f) = .ok (tab m fun k => f k + g k j x)) (f : ℕ → K) :
    loop (enum vec) step (tab m f) = .ok (tab m fun k => f k + ∑ j ∈ Finset.range vec.length, g k j (vec.getD j d)) := by
  induction vec using List.reverseRecOn with
  | nil => simp [enum, loop]
  | append_singleton l x ih =>
    rw [enum_append, loop_append, ih]
    · have := h l.length x (fun k => f k + ∑ j ∈ Finset.range l.length, g k j (l.getD j d)) (by simp)
      simp only [bind, Except.bind, loop]
      rw [this]
      simp only
      congr 1
      refine tab_congr fun k _ => ?_
      rw [List.length_append, List.length_singleton, Finset.sum_range_succ, add_assoc]
      congr 2
      · refine Finset.sum_congr rfl fun j hj => ?_
        rw [List.getD_append _ _ _ _ (Finset.mem_range.mp hj)]
      · simp
    · intro j x' f' hj
      refine h j x' f' ?_
      have : j < l.length := by
        by_contra hc
        rw [List.getElem?_eq_none (by omega)] at hj; simp at hj
      rw [List.getElem?_append_left this, hj]

theorem addAt_tab {m k : ℕ} (hk : k < m) (f : ℕ → K) (x : K) :
    addAt (tab m f) k x = .ok (tab m fun i => f i + if i = k then x else 0) := by
  unfold addAt
  rw [length_tab, if_pos hk]
  congr 1
  apply List.ext_getElem
  · simp
  · intro i h1 h2
    simp only [tab, List.getElem_modify, List.getElem_map, List.getElem_range]
    by_cases h : k = i
    · subst h; simp
    · simp [h, Ne.symm h]

/-- position of a determinant in a list of determinants -/
def pos {ι : Type} [DecidableEq ι] (L : List (Finset ι)) (T : Finset ι) : R ℕ :=
  if T ∈ L then .ok (L.idxOf T) else .error .value

theorem tryAdd_pos {ι : Type} [DecidableEq ι] {L : List (Finset ι)} (hL : L.Nodup) (T : Finset ι) (f : ℕ → K) (x : K) :
    tryAdd (pos L T) (tab L.length f) x = .ok (tab L.length fun k => f k + if L.getD k ∅ = T then x else 0) := by
  unfold tryAdd pos
  by_cases h : T ∈ L
  · rw [if_pos h]
    change addAt _ _ _ = _
    have hk := List.idxOf_lt_length_of_mem h
    rw [addAt_tab hk]
    congr 1
    refine tab_congr fun k hk' => ?_
    congr 1
    have e : L.getD k ∅ = L[k] := by simp [hk']
    rw [e]
    refine if_congr ⟨?_, ?_⟩ rfl rfl
    · rintro rfl; exact List.getElem_idxOf hk
    · rintro rfl; exact (hL.idxOf_getElem k hk').symm
  · rw [if_neg h]
    change Except.ok _ = _
    congr 1
    refine tab_congr fun k hk' => ?_
    rw [if_neg, add_zero]
    rintro rfl
    exact h (by simp [hk'])

theorem zeros_tab (vec : List K) : zeros vec = tab vec.length 0 := by
  unfold zeros
  apply List.ext_getElem
  · simp
  · intro i h1 h2; simp [tab]

/-- The common form of the `*_on_vec` functions: each component of the vector, at a determinant of the basis, contributes a
multiple of another determinant, provided that one belongs to the basis. -/
theorem on_vec {ι : Type} [LinearOrder ι] {L : List (Finset ι)} (X : Module.End K (Finset ι → K))
    (act : Finset ι → Option (K × Finset ι))
    (hact : ∀ S ∈ L, X (det S) = match act S with | none => 0 | some (s, T) => s • det T)
    (hL : L.Nodup) {vec : List K} (hv : vec.length = L.length) (step : ℕ × K → List K → R (List K))
    (hstep : ∀ j x out, j < L.length → step (j, x) out =
      match act (L.getD j ∅) with | none => .ok out | some (s, T) => tryAdd (pos L T) out (s * x)) :
    loop (enum vec) step (zeros vec) = .ok (matvec (fun k j => elt X (L.getD k ∅) (L.getD j ∅)) vec) := by
  rw [zeros_tab, hv, loop_enum L.length vec step 0 (fun k j x => elt X (L.getD k ∅) (L.getD j ∅) * x)]
  · unfold matvec
    rw [hv]
    congr 1
    exact tab_congr fun k _ => by simp
  · intro j x f hj
    have hj' : j < L.length := by
      rw [← hv]; by_contra hc; rw [List.getElem?_eq_none (by omega)] at hj; simp at hj
    rw [hstep j x _ hj']
    have hm : L.getD j ∅ ∈ L := by simp [hj']
    have := hact _ hm
    unfold elt
    rw [this]
    cases hA : act (L.getD j ∅) with
    | none => simp
    | some p =>
      obtain ⟨s, T⟩ := p
      simp only
      rw [tryAdd_pos hL]
      congr 1
      refine tab_congr fun k _ => ?_
      rw [Pi.smul_apply, det_apply, smul_eq_mul]
      split_ifs <;> ring

/-! ### bases of one string -/

/-- A basis of determinants of `n` orbitals, each listed once. -/
def Basis (n : ℕ) (B : List (Option Dstring)) (D : List Dstring) : Prop :=
  B = D.map some ∧ D.Nodup ∧ ∀ d ∈ D, IsDet d ∧ d.n = n

theorem index_map (D : List Dstring) (y : Dstring) :
    index (D.map some) y = if y ∈ D then .ok (D.idxOf y) else .error .value := by
  induction D with
  | nil => rfl
  | cons x l ih =>
    rw [List.map_cons, index, ih]
    by_cases h : x = y
    · subst h; simp [eqO, bind, Except.bind, pure, Except.pure]
    · have h' : (x == y) = false := by simpa using h
      simp only [eqO, bind, Except.bind, h', Bool.false_eq_true, if_false, List.mem_cons, Ne.symm h, false_or]
      by_cases h2 : y ∈ l
      · simp only [h2, if_true, pure, Except.pure]
        rw [List.idxOf_cons_ne _ h]
      · simp only [h2, if_false]

theorem Basis.index {n : ℕ} {B : List (Option Dstring)} {D : List Dstring} (h : Basis n B D) {T : Finset ℕ}
    (hT : T ⊆ Finset.range n) : CI.index B (ofSet n T) = pos (D.map supp) T := by
  obtain ⟨rfl, h2, h3⟩ := h
  rw [index_map]
  unfold pos
  have e : ∀ D : List Dstring, (∀ d ∈ D, IsDet d ∧ d.n = n) → (ofSet n T ∈ D ↔ T ∈ D.map supp) ∧
      D.idxOf (ofSet n T) = (D.map supp).idxOf T := by
    intro D
    induction D with
    | nil => simp
    | cons x l ih =>
      intro hD
      have hx := hD x (by simp)
      obtain ⟨i1, i2⟩ := ih fun d hd => hD d (by simp [hd])
      have hx' : x = ofSet n (supp x) := by have := ofSet_supp hx.1; rw [hx.2] at this; exact this.symm
      have hh : x = ofSet n T ↔ supp x = T := by
        constructor
        · intro h; rw [h, supp_ofSet hT]
        · intro h; rw [hx', h]
      constructor
      · rw [List.map_cons, List.mem_cons, List.mem_cons, i1, eq_comm, hh, eq_comm]
      · by_cases h : x = ofSet n T
        · rw [List.map_cons, h, List.idxOf_cons_self, supp_ofSet hT, List.idxOf_cons_self]
        · rw [List.map_cons, List.idxOf_cons_ne _ h, List.idxOf_cons_ne _ (fun h' => h (hh.mpr h')), i2]
  obtain ⟨e1, e2⟩ := e D h3
  simp only [e1, e2]

theorem Basis.get {n : ℕ} {B : List (Option Dstring)} {D : List Dstring} (h : Basis n B D) {j : ℕ} (hj : j < (D.map supp).length) :
    (D.map supp).getD j ∅ ⊆ Finset.range n ∧ CI.get B j = .ok (some (ofSet n ((D.map supp).getD j ∅))) := by
  obtain ⟨rfl, h2, h3⟩ := h
  rw [List.length_map] at hj
  have hd := h3 D[j] (List.getElem_mem hj)
  have e : (D.map supp).getD j ∅ = supp D[j] := by simp [hj]
  rw [e]
  refine ⟨by have := supp_subset D[j]; rwa [hd.2] at this, ?_⟩
  have := ofSet_supp hd.1
  rw [hd.2] at this
  rw [this]
  simp [CI.get, hj]

theorem Basis.nodup {n : ℕ} {B : List (Option Dstring)} {D : List Dstring} (h : Basis n B D) : (D.map supp).Nodup := by
  obtain ⟨-, h2, h3⟩ := h
  refine List.Nodup.map_on ?_ h2
  intro x hx y hy e
  have h1 := ofSet_supp (h3 x hx).1
  have h2 := ofSet_supp (h3 y hy).1
  rw [(h3 x hx).2] at h1
  rw [(h3 y hy).2] at h2
  rw [← h1, ← h2, e]

/-- one excitation of a set, as a signed set -/
def exc {ι : Type} [LinearOrder ι] (K : Type) [Field K] (i a : ι) (S : Finset ι) : Option (K × Finset ι) :=
  if i ∈ S ∧ a ∉ S then some ((-1) ^ btw S i a, insert a (S.erase i)) else none

/-- two excitations in a row -/
def exc2 {ι : Type} [LinearOrder ι] (K : Type) [Field K] (i a j b : ι) (S : Finset ι) : Option (K × Finset ι) :=
  match exc K i a S with
  | none => none
  | some (s, T) => match exc K j b T with
    | none => none
    | some (s', U) => some (s * s', U)

theorem exc_det {ι : Type} [LinearOrder ι] (S : Finset ι) {i a : ι} (hia : i ≠ a) :
    (cre a * ann i : Module.End K (Finset ι → K)) (det S) = match exc K i a S with | none => 0 | some (s, T) => s • det T := by
  rw [excop_det S hia, exc]
  split_ifs <;> rfl

theorem exc2_det {ι : Type} [LinearOrder ι] (S : Finset ι) {i a j b : ι} (hia : i ≠ a) (hjb : j ≠ b) :
    (cre b * ann j * (cre a * ann i) : Module.End K (Finset ι → K)) (det S)
      = match exc2 K i a j b S with | none => 0 | some (s, T) => s • det T := by
  rw [Module.End.mul_apply, exc_det S hia]
  unfold exc2
  cases exc K i a S with
  | none => simp
  | some p =>
    obtain ⟨s, T⟩ := p
    simp only [map_smul]
    rw [exc_det T hjb]
    cases exc K j b T with
    | none => simp
    | some q => simp [mul_smul]

theorem exc_subset {n i a : ℕ} {S : Finset ℕ} (hS : S ⊆ Finset.range n) (ha : a < n) : insert a (S.erase i) ⊆ Finset.range n :=
  Finset.insert_subset (Finset.mem_range.mpr ha) ((Finset.erase_subset _ _).trans hS)

/-- C38: `s_on_vec` multiplies the vector with the matrix of `a†_a a_i` over the basis. -/
theorem C38_s {n : ℕ} {B : List (Option Dstring)} {D : List Dstring} (hB : Basis n B D) {vec : List K}
    (hv : vec.length = B.length) {i a : ℕ} (hi : i < n) (ha : a < n) (hia : i ≠ a) :
    s_on_vec B vec i a
      = .ok (matvec (fun k j => elt (cre a * ann i) ((D.map supp).getD k ∅) ((D.map supp).getD j ∅)) vec) := by
  unfold s_on_vec
  refine on_vec _ (exc K i a) (fun S _ => exc_det S hia) hB.nodup (by rw [hv, hB.1]; simp) _ fun j x out hj => ?_
  obtain ⟨hS, hg⟩ := hB.get hj
  simp only [hg, bind, Except.bind, exciteO, excite_ofSet _ hi ha, exc]
  split_ifs with h
  · simp only [hB.index (exc_subset hS ha)]; push_cast; rfl
  · rfl

/-- C38: `d_on_vec` multiplies the vector with the matrix of `a†_b a_j a†_a a_i` over the basis. -/
theorem C38_d {n : ℕ} {B : List (Option Dstring)} {D : List Dstring} (hB : Basis n B D) {vec : List K}
    (hv : vec.length = B.length) {i j a b : ℕ} (hi : i < n) (hj : j < n) (ha : a < n) (hb : b < n) (hia : i ≠ a) (hjb : j ≠ b) :
    d_on_vec B vec i j a b = .ok (matvec (fun k l =>
      elt (cre b * ann j * (cre a * ann i)) ((D.map supp).getD k ∅) ((D.map supp).getD l ∅)) vec) := by
  unfold d_on_vec
  refine on_vec _ (exc2 K i a j b) (fun S _ => exc2_det S hia hjb) hB.nodup (by rw [hv, hB.1]; simp) _ fun l x out hl => ?_
  obtain ⟨hS, hg⟩ := hB.get hl
  simp only [hg, bind, Except.bind, exciteO, excite_ofSet _ hi ha, exc2, exc]
  split_ifs with h
  · simp only [excite_ofSet _ hj hb]
    split_ifs with h'
    · simp only [hB.index (exc_subset (exc_subset hS ha) hb)]; push_cast; rfl
    · rfl
  · rfl

/-- C38: with equal indices `s_on_vec` returns zeros; it is not the number operator. -/
theorem C38_s_equal {n : ℕ} {B : List (Option Dstring)} {D : List Dstring} (hB : Basis n B D) {vec : List K}
    (hv : vec.length = B.length) {i : ℕ} (hi : i < n) : s_on_vec B vec i i = .ok (vec.map fun _ => 0) := by
  unfold s_on_vec
  have : loop (enum vec) _ (zeros vec) = .ok (matvec (fun k j => elt 0 ((D.map supp).getD k ∅) ((D.map supp).getD j ∅)) vec) :=
    on_vec 0 (exc K i i) (fun S _ => by rw [exc, if_neg (fun h => h.2 h.1)]; rfl) hB.nodup
      (by rw [hv, hB.1]; simp) (fun p out => do
        let dd ← get B p.1
        match ← exciteO dd i i with
        | none => return out
        | some (s, new) => tryAdd (index B new) out ((s : K) * p.2)) fun j x out hj => ?_
  · refine this.trans ?_
    congr 1
    apply List.ext_getElem
    · simp [matvec]
    · intro k h1 h2; simp [matvec, elt]
  obtain ⟨hS, hg⟩ := hB.get hj
  simp only [hg, bind, Except.bind, exciteO, excite_ofSet _ hi hi, exc]
  rw [if_neg (fun h => h.2 h.1), if_neg (fun h => h.2 h.1)]; rfl

/-! ### bases of two strings -/

/-- the spin orbitals occupied by a pair of strings -/
def psupp (d : Dstring × Dstring) : Finset SO := emb (supp d.1) (supp d.2)

/-- A basis of pairs of determinants of `na` and `nb` orbitals, each pair listed once. -/
def PBasis (na nb : ℕ) (B : List Pair) (D : List (Dstring × Dstring)) : Prop :=
  B = D.map (fun d => (some d.1, some d.2)) ∧ D.Nodup ∧ ∀ d ∈ D, (IsDet d.1 ∧ d.1.n = na) ∧ (IsDet d.2 ∧ d.2.n = nb)

theorem index2_map (D : List (Dstring × Dstring)) (y : Dstring × Dstring) :
    index2 (D.map fun d => (some d.1, some d.2)) y.1 y.2 = if y ∈ D then .ok (D.idxOf y) else .error .value := by
  induction D with
  | nil => rfl
  | cons x l ih =>
    rw [List.map_cons, index2, ih]
    by_cases h : x = y
    · subst h; simp [eqO, bind, Except.bind, pure, Except.pure]
    · have hidx : l.idxOf y + 1 = (x :: l).idxOf y := (List.idxOf_cons_ne _ h).symm
      by_cases h1 : x.1 = y.1
      · have h2 : x.2 ≠ y.2 := fun h2 => h (Prod.ext h1 h2)
        have h1' : (x.1 == y.1) = true := by simpa using h1
        have h2' : (x.2 == y.2) = false := by simpa using h2
        simp only [eqO, bind, Except.bind, h1', h2', Bool.false_eq_true, if_false, if_true, List.mem_cons, Ne.symm h, false_or]
        by_cases h2 : y ∈ l
        · simp only [h2, if_true, pure, Except.pure, hidx]
        · simp only [h2, if_false]
      · have h1' : (x.1 == y.1) = false := by simpa using h1
        simp only [eqO, bind, Except.bind, h1', Bool.false_eq_true, if_false, List.mem_cons, Ne.symm h, false_or, pure,
          Except.pure]
        by_cases h2 : y ∈ l
        · simp only [h2, if_true, hidx]
        · simp only [h2, if_false]

theorem ofSet_of {n : ℕ} {d : Dstring} (h : IsDet d ∧ d.n = n) : ofSet n (supp d) = d := by
  have := ofSet_supp h.1; rwa [h.2] at this

theorem PBasis.index {na nb : ℕ} {B : List Pair} {D : List (Dstring × Dstring)} (h : PBasis na nb B D) {S T : Finset ℕ}
    (hS : S ⊆ Finset.range na) (hT : T ⊆ Finset.range nb) :
    index2 B (ofSet na S) (ofSet nb T) = pos (D.map psupp) (emb S T) := by
  obtain ⟨rfl, h2, h3⟩ := h
  have := index2_map D (ofSet na S, ofSet nb T)
  rw [this]
  unfold pos
  have e : ∀ D : List (Dstring × Dstring), (∀ d ∈ D, (IsDet d.1 ∧ d.1.n = na) ∧ (IsDet d.2 ∧ d.2.n = nb)) →
      ((ofSet na S, ofSet nb T) ∈ D ↔ emb S T ∈ D.map psupp) ∧
      D.idxOf (ofSet na S, ofSet nb T) = (D.map psupp).idxOf (emb S T) := by
    intro D
    induction D with
    | nil => simp
    | cons x l ih =>
      intro hD
      have hx := hD x (by simp)
      obtain ⟨i1, i2⟩ := ih fun d hd => hD d (by simp [hd])
      have hh : x = (ofSet na S, ofSet nb T) ↔ psupp x = emb S T := by
        constructor
        · intro h; rw [h, psupp, supp_ofSet hS, supp_ofSet hT]
        · intro h
          obtain ⟨h1, h2⟩ := emb_inj.mp h
          rw [← h1, ← h2, ofSet_of hx.1, ofSet_of hx.2]
      constructor
      · rw [List.map_cons, List.mem_cons, List.mem_cons, i1, eq_comm, hh, eq_comm]
      · by_cases h : x = (ofSet na S, ofSet nb T)
        · rw [List.map_cons, hh.mp h, h, List.idxOf_cons_self, List.idxOf_cons_self]
        · rw [List.map_cons, List.idxOf_cons_ne _ h, List.idxOf_cons_ne _ (fun h' => h (hh.mpr h')), i2]
  obtain ⟨e1, e2⟩ := e D h3
  simp only [e1, e2]

theorem PBasis.get {na nb : ℕ} {B : List Pair} {D : List (Dstring × Dstring)} (h : PBasis na nb B D) {j : ℕ}
    (hj : j < (D.map psupp).length) :
    ∃ S T, S ⊆ Finset.range na ∧ T ⊆ Finset.range nb ∧ (D.map psupp).getD j ∅ = emb S T ∧
      CI.get B j = .ok (some (ofSet na S), some (ofSet nb T)) := by
  obtain ⟨rfl, h2, h3⟩ := h
  rw [List.length_map] at hj
  have hd := h3 D[j] (List.getElem_mem hj)
  have e : (D.map psupp).getD j ∅ = psupp D[j] := by simp [hj]
  rw [e]
  refine ⟨supp D[j].1, supp D[j].2, by have := supp_subset D[j].1; rwa [hd.1.2] at this,
    by have := supp_subset D[j].2; rwa [hd.2.2] at this, rfl, ?_⟩
  rw [ofSet_of hd.1, ofSet_of hd.2]
  simp [CI.get, hj]

theorem PBasis.nodup {na nb : ℕ} {B : List Pair} {D : List (Dstring × Dstring)} (h : PBasis na nb B D) :
    (D.map psupp).Nodup := by
  obtain ⟨-, h2, h3⟩ := h
  refine List.Nodup.map_on ?_ h2
  intro x hx y hy e
  obtain ⟨e1, e2⟩ := emb_inj.mp e
  have hx := h3 x hx
  have hy := h3 y hy
  refine Prod.ext ?_ ?_
  · rw [← ofSet_of hx.1, ← ofSet_of hy.1, e1]
  · rw [← ofSet_of hx.2, ← ofSet_of hy.2, e2]

theorem exc_up (A B : Finset ℕ) (i a : ℕ) :
    exc K (up i) (up a) (emb A B) = if i ∈ A ∧ a ∉ A then some ((-1) ^ btw A i a, emb (insert a (A.erase i)) B) else none := by
  unfold exc
  refine if_congr (by rw [up_mem, up_mem]) ?_ rfl
  rw [btw_up]
  congr 2
  refine emb_ext (fun j => ?_) (fun j => ?_)
  · rw [Finset.mem_insert, Finset.mem_erase, up_mem, Ne, up_inj, up_inj, Finset.mem_insert, Finset.mem_erase]
  · rw [Finset.mem_insert, Finset.mem_erase, dn_mem]; simp [up, dn]

theorem exc_dn (A B : Finset ℕ) (i a : ℕ) :
    exc K (dn i) (dn a) (emb A B) = if i ∈ B ∧ a ∉ B then some ((-1) ^ btw B i a, emb A (insert a (B.erase i))) else none := by
  unfold exc
  refine if_congr (by rw [dn_mem, dn_mem]) ?_ rfl
  rw [btw_dn]
  congr 2
  refine emb_ext (fun j => ?_) (fun j => ?_)
  · rw [Finset.mem_insert, Finset.mem_erase, up_mem]; simp [up, dn]
  · rw [Finset.mem_insert, Finset.mem_erase, dn_mem, Ne, dn_inj, dn_inj, Finset.mem_insert, Finset.mem_erase]

section
variable {na nb : ℕ} {B : List Pair} {D : List (Dstring × Dstring)} (hB : PBasis na nb B D) {vec : List K}
  (hv : vec.length = B.length)
include hB hv

/-- C38: `sa_on_vec` multiplies with the matrix of the alpha excitation `a†_a a_i`. -/
theorem C38_sa {i a : ℕ} (hi : i < na) (ha : a < na) (hia : i ≠ a) :
    sa_on_vec B vec i a = .ok (matvec (fun k l =>
      elt (cre (up a) * ann (up i)) ((D.map psupp).getD k ∅) ((D.map psupp).getD l ∅)) vec) := by
  unfold sa_on_vec
  refine on_vec _ (exc K (up i) (up a)) (fun S _ => exc_det S (by simpa [up_inj] using hia)) hB.nodup
    (by rw [hv, hB.1]; simp) _ fun j x out hj => ?_
  obtain ⟨S, T, hS, hT, he, hg⟩ := hB.get hj
  simp only [hg, bind, Except.bind, exciteO, excite_ofSet _ hi ha, he, exc_up]
  split_ifs with h
  · simp only [hB.index (exc_subset hS ha) hT]; push_cast; rfl
  · rfl

/-- C38: `sb_on_vec` multiplies with the matrix of the beta excitation `a†_a a_i`. -/
theorem C38_sb {i a : ℕ} (hi : i < nb) (ha : a < nb) (hia : i ≠ a) :
    sb_on_vec B vec i a = .ok (matvec (fun k l =>
      elt (cre (dn a) * ann (dn i)) ((D.map psupp).getD k ∅) ((D.map psupp).getD l ∅)) vec) := by
  unfold sb_on_vec
  refine on_vec _ (exc K (dn i) (dn a)) (fun S _ => exc_det S (by simpa [dn_inj] using hia)) hB.nodup
    (by rw [hv, hB.1]; simp) _ fun j x out hj => ?_
  obtain ⟨S, T, hS, hT, he, hg⟩ := hB.get hj
  simp only [hg, bind, Except.bind, exciteO, excite_ofSet _ hi ha, he, exc_dn]
  split_ifs with h
  · simp only [hB.index hS (exc_subset hT ha)]; push_cast; rfl
  · rfl

/-- C38: `da_on_vec` multiplies with the matrix of two alpha excitations. -/
theorem C38_da {i j a b : ℕ} (hi : i < na) (hj : j < na) (ha : a < na) (hb : b < na) (hia : i ≠ a) (hjb : j ≠ b) :
    da_on_vec B vec i j a b = .ok (matvec (fun k l =>
      elt (cre (up b) * ann (up j) * (cre (up a) * ann (up i))) ((D.map psupp).getD k ∅) ((D.map psupp).getD l ∅)) vec) := by
  unfold da_on_vec
  refine on_vec _ (exc2 K (up i) (up a) (up j) (up b))
    (fun S _ => exc2_det S (by simpa [up_inj] using hia) (by simpa [up_inj] using hjb)) hB.nodup
    (by rw [hv, hB.1]; simp) _ fun l x out hl => ?_
  obtain ⟨S, T, hS, hT, he, hg⟩ := hB.get hl
  simp only [hg, bind, Except.bind, exciteO, excite_ofSet _ hi ha, he, exc2, exc_up]
  split_ifs with h
  · simp only [excite_ofSet _ hj hb, exc_up]
    split_ifs with h'
    · simp only [hB.index (exc_subset (exc_subset hS ha) hb) hT]; push_cast; rfl
    · rfl
  · rfl

/-- C38: `db_on_vec` multiplies with the matrix of two beta excitations. -/
theorem C38_db {i j a b : ℕ} (hi : i < nb) (hj : j < nb) (ha : a < nb) (hb : b < nb) (hia : i ≠ a) (hjb : j ≠ b) :
    db_on_vec B vec i j a b = .ok (matvec (fun k l =>
      elt (cre (dn b) * ann (dn j) * (cre (dn a) * ann (dn i))) ((D.map psupp).getD k ∅) ((D.map psupp).getD l ∅)) vec) := by
  unfold db_on_vec
  refine on_vec _ (exc2 K (dn i) (dn a) (dn j) (dn b))
    (fun S _ => exc2_det S (by simpa [dn_inj] using hia) (by simpa [dn_inj] using hjb)) hB.nodup
    (by rw [hv, hB.1]; simp) _ fun l x out hl => ?_
  obtain ⟨S, T, hS, hT, he, hg⟩ := hB.get hl
  simp only [hg, bind, Except.bind, exciteO, excite_ofSet _ hi ha, he, exc2, exc_dn]
  split_ifs with h
  · simp only [excite_ofSet _ hj hb, exc_dn]
    split_ifs with h'
    · simp only [hB.index hS (exc_subset (exc_subset hT ha) hb)]; push_cast; rfl
    · rfl
  · rfl

/-- C38: `sasb_on_vec` multiplies with the matrix of an alpha and a beta excitation. -/
theorem C38_sasb {i j a b : ℕ} (hi : i < na) (hj : j < nb) (ha : a < na) (hb : b < nb) (hia : i ≠ a) (hjb : j ≠ b) :
    sasb_on_vec B vec i j a b = .ok (matvec (fun k l =>
      elt (cre (dn b) * ann (dn j) * (cre (up a) * ann (up i))) ((D.map psupp).getD k ∅) ((D.map psupp).getD l ∅)) vec) := by
  unfold sasb_on_vec
  refine on_vec _ (exc2 K (up i) (up a) (dn j) (dn b))
    (fun S _ => exc2_det S (by simpa [up_inj] using hia) (by simpa [dn_inj] using hjb)) hB.nodup
    (by rw [hv, hB.1]; simp) _ fun l x out hl => ?_
  obtain ⟨S, T, hS, hT, he, hg⟩ := hB.get hl
  simp only [hg, bind, Except.bind, exciteO, excite_ofSet _ hi ha, he, exc2, exc_up]
  split_ifs with h
  · simp only [excite_ofSet _ hj hb, exc_dn]
    split_ifs with h'
    · simp only [hB.index (exc_subset hS ha) (exc_subset hT hb)]; push_cast; rfl
    · rfl
  · rfl

end

/-! ### Hamiltonians -/

theorem loop_congr {α σ : Type} (l : List α) (f g : α → σ → R σ) (c : σ) (h : ∀ x ∈ l, ∀ c, f x c = g x c) :
    loop l f c = loop l g c := by
  induction l generalizing c with
  | nil => rfl
  | cons x l ih =>
    simp only [loop, h x (by simp), bind, Except.bind]
    cases g x c with
    | error e => rfl
    | ok c' => exact ih _ fun y hy c => h y (by simp [hy]) c

theorem double_loop {α : Type} (basis : List α) (d : α) {vec : List K} (hv : vec.length = basis.length) (M : ℕ → ℕ → K)
    (step : ℕ × α → ℕ × α → List K → R (List K))
    (h : ∀ i b j k f, basis[i]? = some b → basis[j]? = some k → step (i, b) (j, k) (tab vec.length f)
      = addAt (tab vec.length f) i (vec.getD j 0 * M i j)) :
    loop (enum basis) (fun p out => loop (enum basis) (step p) out) (zeros vec) = .ok (matvec M vec) := by
  have lt : ∀ {i : ℕ} {b : α}, basis[i]? = some b → i < vec.length := fun {i b} hi => by
    rw [hv]; by_contra hc; rw [List.getElem?_eq_none (by omega)] at hi; simp at hi
  rw [zeros_tab, loop_enum vec.length basis _ d
    (fun k i _ => if k = i then ∑ j ∈ Finset.range basis.length, vec.getD j 0 * M i j else 0)]
  · unfold matvec
    congr 1
    refine tab_congr fun k hk => ?_
    rw [Finset.sum_ite_eq, if_pos (by rw [← hv]; exact Finset.mem_range.mpr hk), hv]
    simp only [Pi.zero_apply, zero_add]
    exact Finset.sum_congr rfl fun j _ => mul_comm _ _
  · intro i b f hi
    rw [loop_enum vec.length basis _ d (fun k j _ => if k = i then vec.getD j 0 * M i j else 0)]
    · congr 1
      refine tab_congr fun k _ => ?_
      congr 1
      split_ifs
      · rfl
      · simp
    · intro j k f hj
      rw [h i b j k f hi hj, addAt_tab (lt hi)]

/-- C38: `H_on_vec` multiplies the vector with the matrix whose elements `ci_matrixel` returns. -/
theorem C38_H_matrix {B : List Pair} {D : List (Dstring × Dstring)} (hB : B = D.map fun d => (some d.1, some d.2)) {vec : List K}
    (hv : vec.length = B.length) (ha hb : ℕ → ℕ → K) (Ia Ib Iabab : ℕ → ℕ → ℕ → ℕ → K) (M : ℕ → ℕ → K)
    (hM : ∀ i j b k, D[i]? = some b → D[j]? = some k → ci_matrixel b.1 b.2 k.1 k.2 ha hb Ia Ib Iabab 0 = .ok (M i j)) :
    H_on_vec B vec ha hb Ia Ib Iabab = .ok (matvec M vec) := by
  unfold H_on_vec
  refine double_loop B (none, none) hv M _ fun i b j k f hi hj => ?_
  rw [hB, List.getElem?_map] at hi hj
  have hjl : j < vec.length := by
    rw [hv, hB, List.length_map]; by_contra hc; rw [List.getElem?_eq_none (by omega)] at hj; simp at hj
  obtain ⟨b', hb', rfl⟩ := Option.map_eq_some_iff.mp hi
  obtain ⟨k', hk', rfl⟩ := Option.map_eq_some_iff.mp hj
  have hg : CI.get vec j = .ok (vec.getD j 0) := by simp [CI.get, hjl]
  simp only [hg, bind, Except.bind, strings, hM i j b' k' hb' hk']

/-- C38: `gH_on_vec` multiplies the vector with the matrix whose elements `gci_matrixel` returns. -/
theorem C38_gH_matrix {B : List (Option Dstring)} {D : List Dstring} (hB : B = D.map some) {vec : List K}
    (hv : vec.length = B.length) (h : ℕ → ℕ → K) (I : ℕ → ℕ → ℕ → ℕ → K) (M : ℕ → ℕ → K)
    (hM : ∀ i j b k, D[i]? = some b → D[j]? = some k → gci_matrixel b k h I 0 = .ok (M i j)) :
    gH_on_vec B vec h I = .ok (matvec M vec) := by
  unfold gH_on_vec
  refine double_loop B none hv M _ fun i b j k f hi hj => ?_
  rw [hB, List.getElem?_map] at hi hj
  have hjl : j < vec.length := by
    rw [hv, hB, List.length_map]; by_contra hc; rw [List.getElem?_eq_none (by omega)] at hj; simp at hj
  obtain ⟨b', hb', rfl⟩ := Option.map_eq_some_iff.mp hi
  obtain ⟨k', hk', rfl⟩ := Option.map_eq_some_iff.mp hj
  have hg : CI.get vec j = .ok (vec.getD j 0) := by simp [CI.get, hjl]
  simp only [hg, bind, Except.bind, hM i j b' k' hb' hk']

/-- C38: over a basis of determinants with the same numbers of electrons `H_on_vec` applies the second-quantised Hamiltonian. -/
theorem C38_H [CharZero K] {na nb : ℕ} {B : List Pair} {D : List (Dstring × Dstring)} (hB : PBasis na nb B D) {vec : List K}
    (hv : vec.length = B.length) (ha hb : ℕ → ℕ → K) (Ia Ib Iabab : ℕ → ℕ → ℕ → ℕ → K)
    (hN : ∀ d ∈ D, ∀ e ∈ D, (supp d.1).card = (supp e.1).card ∧ (supp d.2).card = (supp e.2).card)
    (va : ∀ p q r s, Ia p q r s = Ia q p s r) (vb : ∀ p q r s, Ib p q r s = Ib q p s r) :
    H_on_vec B vec ha hb Ia Ib Iabab = .ok (matvec (fun k l =>
      elt (spinHam na nb ha hb Ia Ib Iabab) ((D.map psupp).getD k ∅) ((D.map psupp).getD l ∅)) vec) := by
  refine C38_H_matrix hB.1 hv ha hb Ia Ib Iabab _ fun i j b k hi hj => ?_
  have mb : b ∈ D := List.mem_of_getElem? hi
  have mk : k ∈ D := List.mem_of_getElem? hj
  have hbd := hB.2.2 b mb
  have hkd := hB.2.2 k mk
  rw [C35_ci_matrixel ha hb Ia Ib Iabab 0 hbd.1.1 hbd.2.1 hkd.1.1 hkd.2.1 hbd.1.2 hbd.2.2 hkd.1.2 hkd.2.2 (hN b mb k mk).1
    (hN b mb k mk).2 va vb, ite_self, add_zero]
  congr 2
  · simp [hi, psupp]
  · simp [hj, psupp]

theorem length_matvec (M : ℕ → ℕ → K) (vec : List K) : (matvec M vec).length = vec.length := by simp [matvec]

/-- C38: the functions are linear in the vector: so is every matrix-vector product. -/
theorem C38_linear (M : ℕ → ℕ → K) {x y : List K} (hxy : x.length = y.length) (c : K) :
    matvec M (List.zipWith (fun a b => c * a + b) x y)
      = List.zipWith (fun a b => c * a + b) (matvec M x) (matvec M y) := by
  have hz : (List.zipWith (fun a b => c * a + b) x y).length = x.length := by simp [hxy]
  apply List.ext_getElem
  · simp [matvec, hxy]
  · intro k h1 h2
    simp only [matvec, List.getElem_map, List.getElem_range, List.getElem_zipWith, hz]
    rw [← hxy, Finset.mul_sum, ← Finset.sum_add_distrib]
    refine Finset.sum_congr rfl fun j hj => ?_
    rw [Finset.mem_range] at hj
    have e : (List.zipWith (fun a b => c * a + b) x y).getD j 0 = c * x.getD j 0 + y.getD j 0 := by
      have hj' : j < y.length := hxy ▸ hj
      simp [hj, hj']
    rw [e]; ring

/-- two electrons in three orbitals, full basis: the excitation `0 → 2` -/
example : s_on_vec (K := ℚ) [some ⟨3, [1, 1, 0]⟩, some ⟨3, [1, 0, 1]⟩, some ⟨3, [0, 1, 1]⟩] [7, 5, 3] 0 2 = .ok [0, 0, -7] := by
  decide +kernel
example : Basis 3 [some ⟨3, [1, 1, 0]⟩, some ⟨3, [1, 0, 1]⟩, some ⟨3, [0, 1, 1]⟩]
    [⟨3, [1, 1, 0]⟩, ⟨3, [1, 0, 1]⟩, ⟨3, [0, 1, 1]⟩] := by
  refine ⟨rfl, by decide, ?_⟩
  simp [IsDet]
/-- a basis of the code is a basis in the sense of the theorems -/
example : ∃ B D, ucis_basis 3 1 1 = .ok B ∧ PBasis 3 3 B D ∧ B.length = 5 :=
  ⟨_, [(⟨3, [1, 0, 0]⟩, ⟨3, [1, 0, 0]⟩), (⟨3, [0, 1, 0]⟩, ⟨3, [1, 0, 0]⟩), (⟨3, [0, 0, 1]⟩, ⟨3, [1, 0, 0]⟩),
    (⟨3, [1, 0, 0]⟩, ⟨3, [0, 1, 0]⟩), (⟨3, [1, 0, 0]⟩, ⟨3, [0, 0, 1]⟩)], rfl, ⟨by decide, by decide, by simp [IsDet]⟩, by decide⟩

end CI
