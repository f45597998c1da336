import Verif.Model.Integrals
import Verif.Spec.Sym
import Mathlib.Tactic.Ring
import Mathlib.Tactic.Abel
import Mathlib.Data.List.GetD
import Mathlib.Algebra.Field.Rat
/-!
# C39, C40: integrals in chemist's and physicist's order, and their blocks
-/
set_option linter.unusedSectionVars false
set_option linter.unusedSimpArgs false
namespace Eri
variable {K V : Type} [Field K] [Inhabited V]

/-! ### specification -/

/-- The array `A` is the table of `f` over four lists of orbitals. -/
def Tabulates {α : Type} (A : Arr K) (L1 L2 L3 L4 : List α) (f : α → α → α → α → K) : Prop :=
  (A.n1 = L1.length ∧ A.n2 = L2.length ∧ A.n3 = L3.length ∧ A.n4 = L4.length) ∧
  ∀ (p q r s : ℕ) (hp : p < L1.length) (hq : q < L2.length) (hr : r < L3.length) (hs : s < L4.length),
    A.val p q r s = f L1[p] L2[q] L3[r] L4[s]

/-- A spin orbital: a spin and a spatial orbital. -/
abbrev SOrb (V : Type) := Bool × V

/-- alpha orbitals followed by beta orbitals -/
def sorb (oa ob : List V) : List (SOrb V) := oa.map (fun x => (true, x)) ++ ob.map (fun x => (false, x))

/-- `(pq|rs)` of spin orbitals -/
def chem (g : Form V K) (p q r s : SOrb V) : K := if p.1 = q.1 ∧ r.1 = s.1 then g p.2 q.2 r.2 s.2 else 0
/-- `(pq|rs) - (ps|rq)` -/
def chemA (g : Form V K) (p q r s : SOrb V) : K := chem g p q r s - chem g p s r q
/-- `⟨pq|rs⟩ = (pr|qs)` -/
def phys (g : Form V K) (p q r s : SOrb V) : K := chem g p r q s
/-- `⟨pq||rs⟩ = ⟨pq|rs⟩ - ⟨pq|sr⟩` -/
def physA (g : Form V K) (p q r s : SOrb V) : K := phys g p q r s - phys g p q s r

/-- Integrals are unchanged when the two electrons are exchanged: `(pq|rs) = (rs|pq)`. -/
def Sym (g : Form V K) : Prop := ∀ p q r s, g p q r s = g r s p q

theorem sym_chem {g : Form V K} (h : Sym g) (p q r s : SOrb V) : chem g p q r s = chem g r s p q := by
  unfold chem
  by_cases h1 : p.1 = q.1 ∧ r.1 = s.1
  · rw [if_pos h1, if_pos h1.symm, h]
  · rw [if_neg h1, if_neg fun h => h1 h.symm]

theorem Tabulates.t0213 {α : Type} {A : Arr K} {L1 L2 L3 L4 : List α} {f : α → α → α → α → K} (h : Tabulates A L1 L3 L2 L4 f) :
    Tabulates A.t0213 L1 L2 L3 L4 fun p q r s => f p r q s :=
  ⟨⟨h.1.1, h.1.2.2.1, h.1.2.1, h.1.2.2.2⟩, fun p q r s hp hq hr hs => h.2 p r q s hp hr hq hs⟩

theorem Tabulates.congr {α : Type} {A : Arr K} {L1 L2 L3 L4 : List α} {f g : α → α → α → α → K} (h : Tabulates A L1 L2 L3 L4 f)
    (e : ∀ p q r s, f p q r s = g p q r s) : Tabulates A L1 L2 L3 L4 g :=
  ⟨h.1, fun p q r s hp hq hr hs => by rw [h.2 p q r s hp hq hr hs, e]⟩

/-! ### one set of orbitals -/

/-- C39: `get_chem` is the table of `(pq|rs)`, or with `anti` of `(pq|rs) - (ps|rq)`. -/
theorem C39_get_chem (g : Form V K) (o1 o2 o3 o4 : List V) (anti : Bool) :
    ∃ A, get_chem g o1 o2 o3 o4 anti = .ok A ∧
      Tabulates A o1 o2 o3 o4 fun p q r s => if anti then g p q r s - g p s r q else g p q r s := by
  cases anti
  · refine ⟨_, rfl, ⟨rfl, rfl, rfl, rfl⟩, fun p q r s hp hq hr hs => ?_⟩
    simp [ao2mo, hp, hq, hr, hs]
  · simp only [get_chem, if_true, Arr.sub, ao2mo, Arr.t0321, and_self]
    refine ⟨_, rfl, ⟨rfl, rfl, rfl, rfl⟩, fun p q r s hp hq hr hs => ?_⟩
    simp [hp, hq, hr, hs]

/-- C39: `get_phys` is the table of `⟨pq|rs⟩ = (pr|qs)`, or with `anti` of `⟨pq|rs⟩ - ⟨pq|sr⟩`. -/
theorem C39_get_phys (g : Form V K) (o1 o2 o3 o4 : List V) (anti : Bool) :
    ∃ A, get_phys g o1 o2 o3 o4 anti = .ok A ∧
      Tabulates A o1 o2 o3 o4 fun p q r s => if anti then g p r q s - g p s q r else g p r q s := by
  obtain ⟨A, h1, h2⟩ := C39_get_chem g o1 o3 o2 o4 anti
  refine ⟨A.t0213, by rw [get_phys, h1]; rfl, h2.t0213.congr fun p q r s => rfl⟩

/-- C39: the antisymmetrised physicist's integrals over one set of orbitals are antisymmetric in either pair of indices. -/
theorem C39_get_phys_anti {g : Form V K} (h : Sym g) (o o' : List V) :
    ∃ A, get_phys_anti g o o o' o' = .ok A ∧ ∀ p q r s, p < o.length → q < o.length → r < o'.length → s < o'.length →
      A.val q p r s = -A.val p q r s ∧ A.val p q s r = -A.val p q r s := by
  obtain ⟨A, h1, h2⟩ := C39_get_phys g o o o' o' true
  refine ⟨A, h1, fun p q r s hp hq hr hs => ?_⟩
  rw [h2.2 q p r s hq hp hr hs, h2.2 p q r s hp hq hr hs, h2.2 p q s r hp hq hs hr]
  simp only [if_true]
  rw [h o[q] o'[r] o[p] o'[s], h o[q] o'[s] o[p] o'[r]]
  constructor <;> ring

/-- C39 fails for `get_chem_anti`: it uses the first set of orbitals in place of the second.  Already the shape is wrong if the two sets
have different sizes. -/
theorem C39_get_chem_anti_refuted (g : Form V K) (o1 o2 o3 o4 : List V) (h : o1.length ≠ o2.length) :
    ¬ ∃ A, get_chem_anti g o1 o2 o3 o4 = .ok A ∧ Tabulates A o1 o2 o3 o4 fun p q r s => g p q r s - g p s r q := by
  rintro ⟨A, h1, h2⟩
  obtain ⟨A', h3, h4⟩ := C39_get_chem g o1 o1 o3 o4 true
  rw [get_chem_anti, h3] at h1
  have := Except.ok.inj h1
  subst this
  exact h (h4.1.2.1.symm.trans h2.1.2.1)

/-- C39: `get_chem_anti` is right when the first two sets of orbitals are the same. -/
theorem C39_get_chem_anti (g : Form V K) (o1 o3 o4 : List V) :
    ∃ A, get_chem_anti g o1 o1 o3 o4 = .ok A ∧ Tabulates A o1 o1 o3 o4 fun p q r s => g p q r s - g p s r q := by
  obtain ⟨A, h1, h2⟩ := C39_get_chem g o1 o1 o3 o4 true
  exact ⟨A, h1, h2.congr fun p q r s => by simp⟩

/-! ### spin orbitals -/

theorem length_sorb (oa ob : List V) : (sorb oa ob).length = oa.length + ob.length := by simp [sorb]

theorem sorb_lt {oa ob : List V} {p : ℕ} (h : p < oa.length) (h' : p < (sorb oa ob).length) :
    (sorb oa ob)[p] = (true, oa.getD p default) := by
  simp [sorb, List.getElem_append, h]

theorem sorb_ge {oa ob : List V} {p : ℕ} (h : ¬ p < oa.length) (h' : p < (sorb oa ob).length) :
    (sorb oa ob)[p] = (false, ob.getD (p - oa.length) default) := by
  have : p - oa.length < ob.length := by rw [length_sorb] at h'; omega
  simp [sorb, List.getElem_append, h, this]

theorem lo_upto (a n : ℕ) : (Sl.upto a).lo n = 0 := rfl
theorem hi_upto (a b : ℕ) : (Sl.upto a).hi (a + b) = a := by simp [Sl.hi]
theorem lo_fro (a b : ℕ) : (Sl.fro a).lo (a + b) = a := by simp [Sl.lo]
theorem hi_fro (a n : ℕ) : (Sl.fro a).hi n = n := rfl

/-- C39: `get_chemu` is the table of `(pq|rs)`, or with `anti` of `(pq|rs) - (ps|rq)`, over spin orbitals, alpha before beta: every spin
block is in its place and the other entries are zero. -/
theorem C39_get_chemu (g : Form V K) (o1 o2 o3 o4 p1 p2 p3 p4 : List V) (anti : Bool) :
    ∃ A, get_chemu g o1 o2 o3 o4 p1 p2 p3 p4 anti = .ok A ∧
      Tabulates A (sorb o1 p1) (sorb o2 p2) (sorb o3 p3) (sorb o4 p4) (if anti then chemA g else chem g) := by
  cases anti
  · simp only [get_chemu, get_chem, Bool.false_eq_true, if_false, Arr.put, ao2mo, Arr.zeros, lo_upto, hi_upto, lo_fro, hi_fro, bind,
      Except.bind, pure, Except.pure, Nat.sub_zero, Nat.add_sub_cancel_left, and_self, if_true]
    refine ⟨_, rfl, ⟨?_, ?_, ?_, ?_⟩, fun p q r s hp hq hr hs => ?_⟩
    · rw [length_sorb]
    · rw [length_sorb]
    · rw [length_sorb]
    · rw [length_sorb]
    have hp' := hp
    have hq' := hq
    have hr' := hr
    have hs' := hs
    rw [length_sorb] at hp' hq' hr' hs'
    by_cases h1 : p < o1.length <;> by_cases h2 : q < o2.length <;> by_cases h3 : r < o3.length <;> by_cases h4 : s < o4.length <;>
    · first | rw [sorb_lt h1 hp] | rw [sorb_ge h1 hp]
      first | rw [sorb_lt h2 hq] | rw [sorb_ge h2 hq]
      first | rw [sorb_lt h3 hr] | rw [sorb_ge h3 hr]
      first | rw [sorb_lt h4 hs] | rw [sorb_ge h4 hs]
      simp [-List.getD_eq_getElem?_getD, h1, h2, h3, h4, hp', hq', hr', hs', chem, not_le.mpr, le_of_not_gt, Nat.le_of_not_lt]
  · simp only [get_chemu, get_chem, Bool.false_eq_true, if_false, Arr.put, ao2mo, Arr.zeros, lo_upto, hi_upto, lo_fro, hi_fro, bind,
      Except.bind, pure, Except.pure, Nat.sub_zero, Nat.add_sub_cancel_left, and_self, if_true, Arr.sub, Arr.t0321, Arr.neg]
    refine ⟨_, rfl, ⟨?_, ?_, ?_, ?_⟩, fun p q r s hp hq hr hs => ?_⟩
    · rw [length_sorb]
    · rw [length_sorb]
    · rw [length_sorb]
    · rw [length_sorb]
    have hp' := hp
    have hq' := hq
    have hr' := hr
    have hs' := hs
    rw [length_sorb] at hp' hq' hr' hs'
    by_cases h1 : p < o1.length <;> by_cases h2 : q < o2.length <;> by_cases h3 : r < o3.length <;> by_cases h4 : s < o4.length <;>
    · first | rw [sorb_lt h1 hp] | rw [sorb_ge h1 hp]
      first | rw [sorb_lt h2 hq] | rw [sorb_ge h2 hq]
      first | rw [sorb_lt h3 hr] | rw [sorb_ge h3 hr]
      first | rw [sorb_lt h4 hs] | rw [sorb_ge h4 hs]
      simp [-List.getD_eq_getElem?_getD, h1, h2, h3, h4, hp', hq', hr', hs', chemA, chem, not_le.mpr, le_of_not_gt, Nat.le_of_not_lt]

/-- C39: `get_phys_antiu` is the table of `⟨pq||rs⟩` over spin orbitals. -/
theorem C39_get_phys_antiu (g : Form V K) (o1 o2 o3 o4 p1 p2 p3 p4 : List V) :
    ∃ A, get_phys_antiu g o1 o2 o3 o4 p1 p2 p3 p4 = .ok A ∧
      Tabulates A (sorb o1 p1) (sorb o2 p2) (sorb o3 p3) (sorb o4 p4) (physA g) := by
  obtain ⟨A, h1, h2⟩ := C39_get_chemu g o1 o3 o2 o4 p1 p3 p2 p4 true
  refine ⟨A.t0213, by rw [get_phys_antiu, get_chem_antiu, h1]; rfl, h2.t0213.congr fun p q r s => rfl⟩

/-- C39: `get_chemu_all` is the table of `(pq|rs)`, or with `anti` of `(pq|rs) - (ps|rq)`, over all spin orbitals, for integrals
unchanged when the electrons are exchanged. -/
theorem C39_get_chemu_all {g : Form V K} (h : Sym g) (oa ob : List V) (anti : Bool) :
    ∃ A, get_chemu_all g oa ob anti = .ok A ∧
      Tabulates A (sorb oa ob) (sorb oa ob) (sorb oa ob) (sorb oa ob) (if anti then chemA g else chem g) := by
  have key : ∃ A, get_chemu_all g oa ob false = .ok A ∧ (get_chemu_all g oa ob true = A.sub A.t0321) ∧
      Tabulates A (sorb oa ob) (sorb oa ob) (sorb oa ob) (sorb oa ob) (chem g) := by
    simp only [get_chemu_all, Bool.false_eq_true, if_false, Arr.put, ao2mo, Arr.zeros, lo_upto, hi_upto, lo_fro, hi_fro, bind,
      Except.bind, pure, Except.pure, Nat.sub_zero, Nat.add_sub_cancel_left, and_self, if_true, Arr.t2301]
    refine ⟨_, rfl, rfl, ⟨?_, ?_, ?_, ?_⟩, fun p q r s hp hq hr hs => ?_⟩
    · rw [length_sorb]
    · rw [length_sorb]
    · rw [length_sorb]
    · rw [length_sorb]
    have hp' := hp
    have hq' := hq
    have hr' := hr
    have hs' := hs
    rw [length_sorb] at hp' hq' hr' hs'
    by_cases h1 : p < oa.length <;> by_cases h2 : q < oa.length <;> by_cases h3 : r < oa.length <;> by_cases h4 : s < oa.length <;>
    · first | rw [sorb_lt h1 hp] | rw [sorb_ge h1 hp]
      first | rw [sorb_lt h2 hq] | rw [sorb_ge h2 hq]
      first | rw [sorb_lt h3 hr] | rw [sorb_ge h3 hr]
      first | rw [sorb_lt h4 hs] | rw [sorb_ge h4 hs]
      simp [-List.getD_eq_getElem?_getD, h1, h2, h3, h4, hp', hq', hr', hs', chem, not_le.mpr, le_of_not_gt, Nat.le_of_not_lt]
      try exact h _ _ _ _
  obtain ⟨A, h1, h2, h3⟩ := key
  cases anti
  · exact ⟨A, h1, h3⟩
  · rw [h2]
    obtain ⟨⟨e1, e2, e3, e4⟩, h4⟩ := h3
    rw [Arr.sub, if_pos ⟨rfl, e2.trans e4.symm, rfl, e4.trans e2.symm⟩]
    refine ⟨_, rfl, ⟨e1, e2, e3, e4⟩, fun p q r s hp hq hr hs => ?_⟩
    simp only [if_true, Arr.t0321]
    rw [h4 p q r s hp hq hr hs, h4 p s r q hp hs hr hq]
    rfl

/-- C39: `get_physu_all` is the table of `⟨pq|rs⟩`, or with `anti` of `⟨pq||rs⟩`. -/
theorem C39_get_physu_all {g : Form V K} (h : Sym g) (oa ob : List V) (anti : Bool) :
    ∃ A, get_physu_all g oa ob anti = .ok A ∧
      Tabulates A (sorb oa ob) (sorb oa ob) (sorb oa ob) (sorb oa ob) (if anti then physA g else phys g) := by
  obtain ⟨A, h1, h2⟩ := C39_get_chemu_all h oa ob anti
  refine ⟨A.t0213, by rw [get_physu_all, h1]; rfl, h2.t0213.congr fun p q r s => ?_⟩
  cases anti <;> rfl

/-- C39: the antisymmetrised integrals are antisymmetric in either pair of indices and unchanged when both pairs are exchanged. -/
theorem C39_anti {g : Form V K} (h : Sym g) (p q r s : SOrb V) :
    physA g q p r s = -physA g p q r s ∧ physA g p q s r = -physA g p q r s ∧ physA g q p s r = physA g p q r s := by
  unfold physA phys
  rw [sym_chem h q r p s, sym_chem h q s p r]
  refine ⟨by ring, by ring, by ring⟩

/-- C39: the dispatching functions use the integrals of the system (`mf.form`) and its orbitals, one set for both spins or one for each. -/
theorem C39_get_physu_all_gen (mf : MF V K) (h : Sym mf.form) (anti : Bool) :
    (∀ occ mo, mf.orbs = .restricted occ mo → ∃ A, get_physu_all_gen mf anti = .ok (some A) ∧
      Tabulates A (sorb mo mo) (sorb mo mo) (sorb mo mo) (sorb mo mo) (if anti then physA mf.form else phys mf.form)) ∧
    (∀ occa occb moa mob, mf.orbs = .unrestricted occa occb moa mob → ∃ A, get_physu_all_gen mf anti = .ok (some A) ∧
      Tabulates A (sorb moa mob) (sorb moa mob) (sorb moa mob) (sorb moa mob) (if anti then physA mf.form else phys mf.form)) := by
  obtain ⟨orbs, pbc, mol, sol⟩ := mf
  constructor
  · rintro occ mo rfl
    obtain ⟨A, h1, h2⟩ := C39_get_physu_all h mo mo anti
    refine ⟨A, ?_, h2⟩
    cases pbc <;> simp only [MF.form, if_true, if_false, Bool.false_eq_true] at h1 <;> simp [get_physu_all_gen, h1]
  · rintro occa occb moa mob rfl
    obtain ⟨A, h1, h2⟩ := C39_get_physu_all h moa mob anti
    refine ⟨A, ?_, h2⟩
    cases pbc <;> simp only [MF.form, if_true, if_false, Bool.false_eq_true] at h1 <;> simp [get_physu_all_gen, h1]

theorem C39_get_phys_gen (mf : MF V K) (mo1 mo2 mo3 mo4 : List V) (anti : Bool) :
    ∃ A, get_phys_gen mf mo1 mo2 mo3 mo4 anti = .ok A ∧
      Tabulates A mo1 mo2 mo3 mo4 fun p q r s => if anti then mf.form p r q s - mf.form p s q r else mf.form p r q s := by
  obtain ⟨orbs, pbc, mol, sol⟩ := mf
  cases pbc
  · exact C39_get_phys mol mo1 mo2 mo3 mo4 anti
  · exact C39_get_phys sol mo1 mo2 mo3 mo4 anti

/-! ### a form given by a table of basis function integrals -/

/-- The form of a table of `nao` basis functions; an orbital is its vector of coefficients (real: no conjugation). -/
def aoForm (nao : ℕ) (eri : ℕ → ℕ → ℕ → ℕ → K) : Form (ℕ → K) K := fun c1 c2 c3 c4 =>
  ∑ μ ∈ Finset.range nao, ∑ ν ∈ Finset.range nao, ∑ l ∈ Finset.range nao, ∑ σ ∈ Finset.range nao,
    c1 μ * c2 ν * c3 l * c4 σ * eri μ ν l σ

/-- The symmetry of the table gives that of the form. -/
theorem aoForm_sym {nao : ℕ} {eri : ℕ → ℕ → ℕ → ℕ → K} (h : ∀ μ ν l σ, eri μ ν l σ = eri l σ μ ν) : Sym (aoForm nao eri) := by
  intro p q r s
  unfold aoForm
  rw [Finset.sum_congr rfl fun μ _ => Finset.sum_comm (γ := ℕ) (f := fun ν l => ∑ σ ∈ Finset.range nao, p μ * q ν * r l * s σ * eri μ ν l σ),
    Finset.sum_comm]
  refine Finset.sum_congr rfl fun l _ => ?_
  rw [Finset.sum_congr rfl fun μ _ => Finset.sum_comm (γ := ℕ) (f := fun ν σ => p μ * q ν * r l * s σ * eri μ ν l σ), Finset.sum_comm]
  refine Finset.sum_congr rfl fun σ _ => Finset.sum_congr rfl fun μ _ => Finset.sum_congr rfl fun ν _ => ?_
  rw [h μ ν l σ]; ring

/-! ### blocks -/

section
variable [LinearOrder K]

/-- the orbitals whose occupation satisfies `P`, in order -/
def cols (coeff : List V) (occ : List K) (P : K → Prop) [DecidablePred P] : List V :=
  ((List.range coeff.length).filter fun i => P (occ.getD i 0)).map fun i => coeff.getD i default

omit [LinearOrder K] in
theorem maskCols_eq (coeff : List V) (occ : List K) (P : K → Prop) [DecidablePred P] (h : occ.length = coeff.length) :
    maskCols coeff (occ.map fun x => decide (P x)) = .ok (cols coeff occ P) := by
  unfold maskCols
  rw [if_pos (by simpa using h)]
  congr 1
  unfold cols
  induction coeff generalizing occ with
  | nil => simp
  | cons c coeff ih =>
    cases occ with
    | nil => simp at h
    | cons x occ =>
      have ih := ih occ (by simpa using h)
      rw [List.length_cons, List.range_succ_eq_map]
      simp only [List.map_cons, List.zip_cons_cons, List.filter_cons, List.getD_cons_zero, List.filter_map, List.map_map]
      simp only [List.getD_eq_getElem?_getD] at ih
      by_cases hx : P x
      · simp [hx, ih, Function.comp_def]
      · simp [hx, ih, Function.comp_def]

/-- A block is present exactly if asked for, and is then the table of `⟨pq||rs⟩` over the given orbitals. -/
def IsBlock (g : Form V K) (b : Option (Arr K)) (has : Prop) (L1 L2 L3 L4 : List (SOrb V)) : Prop :=
  (has → ∃ A, b = some A ∧ Tabulates A L1 L2 L3 L4 (physA g)) ∧ (¬ has → b = none)

theorem ifHas_ok {g : Form V K} {b : Bool} {x : R (Arr K)} {L1 L2 L3 L4 : List (SOrb V)} (h : ∃ A, x = .ok A ∧ Tabulates A L1 L2 L3 L4 (physA g)) :
    ∃ B, ifHas b x = .ok B ∧ IsBlock g B (b = true) L1 L2 L3 L4 := by
  obtain ⟨A, rfl, h⟩ := h
  cases b
  · exact ⟨none, rfl, fun h => by simp at h, fun _ => rfl⟩
  · exact ⟨some A, rfl, fun _ => ⟨A, rfl, h⟩, fun h => absurd rfl h⟩

/-- The nine blocks over occupied and virtual spin orbitals. -/
def AreBlocks (g : Form V K) (B : EriBlocks K) (has : ℕ → Prop) (o v : List (SOrb V)) : Prop :=
  IsBlock g B.vvvv (has 1) v v v v ∧ IsBlock g B.vvvo (has 2) v v v o ∧ IsBlock g B.vovv (has 3) v o v v ∧
  IsBlock g B.vvoo (has 4) v v o o ∧ IsBlock g B.vovo (has 5) v o v o ∧ IsBlock g B.oovv (has 6) o o v v ∧
  IsBlock g B.vooo (has 7) v o o o ∧ IsBlock g B.ooov (has 8) o o o v ∧ IsBlock g B.oooo (has 9) o o o o

theorem build_ok (has : ℕ → Bool) (g : Form V K) (oa ob va vb : List V) :
    ∃ B, build_integrals has g oa ob va vb = .ok B ∧ AreBlocks g B (fun k => has k = true) (sorb oa ob) (sorb va vb) := by
  obtain ⟨B1, e1, h1⟩ := ifHas_ok (b := has 1) (C39_get_phys_antiu g va va va va vb vb vb vb)
  obtain ⟨B2, e2, h2⟩ := ifHas_ok (b := has 2) (C39_get_phys_antiu g va va va oa vb vb vb ob)
  obtain ⟨B3, e3, h3⟩ := ifHas_ok (b := has 3) (C39_get_phys_antiu g va oa va va vb ob vb vb)
  obtain ⟨B4, e4, h4⟩ := ifHas_ok (b := has 4) (C39_get_phys_antiu g va va oa oa vb vb ob ob)
  obtain ⟨B5, e5, h5⟩ := ifHas_ok (b := has 5) (C39_get_phys_antiu g va oa va oa vb ob vb ob)
  obtain ⟨B6, e6, h6⟩ := ifHas_ok (b := has 6) (C39_get_phys_antiu g oa oa va va ob ob vb vb)
  obtain ⟨B7, e7, h7⟩ := ifHas_ok (b := has 7) (C39_get_phys_antiu g va oa oa oa vb ob ob ob)
  obtain ⟨B8, e8, h8⟩ := ifHas_ok (b := has 8) (C39_get_phys_antiu g oa oa oa va ob ob ob vb)
  obtain ⟨B9, e9, h9⟩ := ifHas_ok (b := has 9) (C39_get_phys_antiu g oa oa oa oa ob ob ob ob)
  refine ⟨⟨B1, B2, B3, B4, B5, B6, B7, B8, B9⟩, ?_, h1, h2, h3, h4, h5, h6, h7, h8, h9⟩
  simp only [build_integrals, e1, e2, e3, e4, e5, e6, e7, e8, e9]
  rfl

/-- C40: every block of an `eri_blocks` object is the table of `⟨pq||rs⟩` over the spaces named by its label: occupied orbitals are those
of positive occupation, virtual orbitals those of zero occupation, alpha before beta.  Code 0 gives all blocks, codes 1 to 9 the one block,
any other code none. -/
theorem C40_eri_blocks (mf : MF V K) (code : ℕ) :
    (∀ occ mo, mf.orbs = .restricted occ mo → occ.length = mo.length → ∃ B, eri_blocks mf code = .ok B ∧
      AreBlocks mf.form B (fun k => code = k ∨ code = 0) (sorb (cols mo occ (· > 0)) (cols mo occ (· > 0)))
        (sorb (cols mo occ (· = 0)) (cols mo occ (· = 0)))) ∧
    (∀ occa occb moa mob, mf.orbs = .unrestricted occa occb moa mob → occa.length = moa.length → occb.length = mob.length →
      ∃ B, eri_blocks mf code = .ok B ∧
      AreBlocks mf.form B (fun k => code = k ∨ code = 0) (sorb (cols moa occa (· > 0)) (cols mob occb (· > 0)))
        (sorb (cols moa occa (· = 0)) (cols mob occb (· = 0)))) := by
  obtain ⟨orbs, pbc, mol, sol⟩ := mf
  constructor
  · rintro occ mo rfl hl
    obtain ⟨B, h1, h2⟩ := build_ok (fun k => decide (code = k ∨ code = 0)) (MF.form ⟨.restricted occ mo, pbc, mol, sol⟩)
      (cols mo occ (· > 0)) (cols mo occ (· > 0)) (cols mo occ (· = 0)) (cols mo occ (· = 0))
    simp only [decide_eq_true_eq] at h2
    refine ⟨B, ?_, h2⟩
    simp only [eri_blocks, maskCols_eq mo occ (· > 0) hl, maskCols_eq mo occ (· = 0) hl]
    cases pbc
    · exact h1
    · exact h1
  · rintro occa occb moa mob rfl ha hb
    obtain ⟨B, h1, h2⟩ := build_ok (fun k => decide (code = k ∨ code = 0)) (MF.form ⟨.unrestricted occa occb moa mob, pbc, mol, sol⟩)
      (cols moa occa (· > 0)) (cols mob occb (· > 0)) (cols moa occa (· = 0)) (cols mob occb (· = 0))
    simp only [decide_eq_true_eq] at h2
    refine ⟨B, ?_, h2⟩
    simp only [eri_blocks, maskCols_eq moa occa (· > 0) ha, maskCols_eq moa occa (· = 0) ha, maskCols_eq mob occb (· > 0) hb,
      maskCols_eq mob occb (· = 0) hb]
    cases pbc
    · exact h1
    · exact h1

omit [Inhabited V] in
/-- C40: if all occupations are non-negative every orbital is occupied or virtual. -/
theorem C40_partition [IsStrictOrderedRing K] [Inhabited V] (coeff : List V) (occ : List K) (h : ∀ x ∈ occ, 0 ≤ x) :
    (cols coeff occ (· > 0)).length + (cols coeff occ (· = 0)).length = coeff.length := by
  have e : ∀ i : ℕ, (decide (occ.getD i 0 = 0)) = !(decide (occ.getD i 0 > 0)) := by
    intro i
    have : 0 ≤ occ.getD i 0 := by
      by_cases hi : i < occ.length
      · have := h (occ[i]) (List.getElem_mem hi)
        simpa [hi] using this
      · simp [hi]
    rcases this.lt_or_eq with h1 | h1
    · simp [-List.getD_eq_getElem?_getD, h1, h1.ne']
    · simp [-List.getD_eq_getElem?_getD, ← h1]
  simp only [cols, List.length_map, e]
  rw [← List.length_append]
  have := (List.filter_append_perm (fun i => decide (occ.getD i 0 > 0)) (List.range coeff.length)).length_eq
  rw [this, List.length_range]

/-- C40: the block asked for alone is the same array as the one built with all the others. -/
theorem C40_code (mf : MF V K) (B0 : EriBlocks K) (h : eri_blocks mf 0 = .ok B0) (code : ℕ) :
    ∃ B, eri_blocks mf code = .ok B ∧ (code = 1 → B.vvvv = B0.vvvv) ∧ (code = 2 → B.vvvo = B0.vvvo) ∧ (code = 3 → B.vovv = B0.vovv) ∧
      (code = 4 → B.vvoo = B0.vvoo) ∧ (code = 5 → B.vovo = B0.vovo) ∧ (code = 6 → B.oovv = B0.oovv) ∧ (code = 7 → B.vooo = B0.vooo) ∧
      (code = 8 → B.ooov = B0.ooov) ∧ (code = 9 → B.oooo = B0.oooo) := by
  have key : ∀ (g : Form V K) (oa ob va vb : List V), build_integrals (fun k => decide (0 = k ∨ 0 = 0)) g oa ob va vb = .ok B0 →
      ∃ B, build_integrals (fun k => decide (code = k ∨ code = 0)) g oa ob va vb = .ok B ∧ (code = 1 → B.vvvv = B0.vvvv) ∧
      (code = 2 → B.vvvo = B0.vvvo) ∧ (code = 3 → B.vovv = B0.vovv) ∧
      (code = 4 → B.vvoo = B0.vvoo) ∧ (code = 5 → B.vovo = B0.vovo) ∧ (code = 6 → B.oovv = B0.oovv) ∧ (code = 7 → B.vooo = B0.vooo) ∧
      (code = 8 → B.ooov = B0.ooov) ∧ (code = 9 → B.oooo = B0.oooo) := by
    intro g oa ob va vb h
    obtain ⟨A1, e1, -⟩ := C39_get_phys_antiu g va va va va vb vb vb vb
    obtain ⟨A2, e2, -⟩ := C39_get_phys_antiu g va va va oa vb vb vb ob
    obtain ⟨A3, e3, -⟩ := C39_get_phys_antiu g va oa va va vb ob vb vb
    obtain ⟨A4, e4, -⟩ := C39_get_phys_antiu g va va oa oa vb vb ob ob
    obtain ⟨A5, e5, -⟩ := C39_get_phys_antiu g va oa va oa vb ob vb ob
    obtain ⟨A6, e6, -⟩ := C39_get_phys_antiu g oa oa va va ob ob vb vb
    obtain ⟨A7, e7, -⟩ := C39_get_phys_antiu g va oa oa oa vb ob ob ob
    obtain ⟨A8, e8, -⟩ := C39_get_phys_antiu g oa oa oa va ob ob ob vb
    obtain ⟨A9, e9, -⟩ := C39_get_phys_antiu g oa oa oa oa ob ob ob ob
    have hi : ∀ (b : Bool) (A : Arr K), ifHas b (.ok A) = .ok (if b then some A else none) := by
      intro b A; cases b <;> rfl
    simp only [build_integrals, e1, e2, e3, e4, e5, e6, e7, e8, e9, hi, bind, Except.bind, pure, Except.pure, Except.ok.injEq] at h ⊢
    subst h
    exact ⟨_, rfl, fun h => by simp [h], fun h => by simp [h], fun h => by simp [h], fun h => by simp [h], fun h => by simp [h],
      fun h => by simp [h], fun h => by simp [h], fun h => by simp [h], fun h => by simp [h]⟩
  obtain ⟨orbs, pbc, mol, sol⟩ := mf
  cases orbs with
  | other =>
    have := Except.ok.inj h
    subst this
    exact ⟨_, rfl, by simp⟩
  | restricted occ mo =>
    simp only [eri_blocks] at h ⊢
    cases ho : maskCols mo (occ.map fun x => decide (x > 0)) with
    | error e => rw [ho] at h; simp [bind, Except.bind] at h
    | ok o =>
      cases hv : maskCols mo (occ.map fun x => decide (x = 0)) with
      | error e => rw [ho, hv] at h; simp [bind, Except.bind] at h
      | ok v =>
        rw [ho, hv] at h
        cases pbc
        · exact key _ _ _ _ _ h
        · exact key _ _ _ _ _ h
  | unrestricted occa occb moa mob =>
    simp only [eri_blocks] at h ⊢
    cases ho : maskCols moa (occa.map fun x => decide (x > 0)) with
    | error e => rw [ho] at h; simp [bind, Except.bind] at h
    | ok o =>
      cases hv : maskCols moa (occa.map fun x => decide (x = 0)) with
      | error e => rw [ho, hv] at h; simp [bind, Except.bind] at h
      | ok v =>
        cases ho' : maskCols mob (occb.map fun x => decide (x > 0)) with
        | error e => rw [ho, hv, ho'] at h; simp [bind, Except.bind] at h
        | ok o' =>
          cases hv' : maskCols mob (occb.map fun x => decide (x = 0)) with
          | error e => rw [ho, hv, ho', hv'] at h; simp [bind, Except.bind] at h
          | ok v' =>
            rw [ho, hv, ho', hv'] at h
            cases pbc
            · exact key _ _ _ _ _ h
            · exact key _ _ _ _ _ h
end

/-- The nine arrays read as blocks over the occupied and the virtual spin orbitals, the form in which the coupled-cluster equations are
modelled. -/
def EriBlocks.toTwoE (B : EriBlocks K) (no nv : ℕ) : CC.TwoE (Fin no) (Fin nv) K where
  vvvv a b c d := (B.vvvv.map fun A => A.val a b c d).getD 0
  vvvo a b c d := (B.vvvo.map fun A => A.val a b c d).getD 0
  vovv a b c d := (B.vovv.map fun A => A.val a b c d).getD 0
  vvoo a b c d := (B.vvoo.map fun A => A.val a b c d).getD 0
  vovo a b c d := (B.vovo.map fun A => A.val a b c d).getD 0
  oovv a b c d := (B.oovv.map fun A => A.val a b c d).getD 0
  vooo a b c d := (B.vooo.map fun A => A.val a b c d).getD 0
  ooov a b c d := (B.ooov.map fun A => A.val a b c d).getD 0
  oooo a b c d := (B.oooo.map fun A => A.val a b c d).getD 0

/-- C40: the blocks of an `eri_blocks` object with all codes have the antisymmetries that the coupled-cluster theorems assume. -/
theorem C40_antisymmetric {g : Form V K} (h : Sym g) {B : EriBlocks K} {o v : List (SOrb V)} (hB : AreBlocks g B (fun _ => True) o v) :
    CC.AntiI (B.toTwoE o.length v.length) := by
  obtain ⟨⟨h1, -⟩, ⟨h2, -⟩, ⟨h3, -⟩, ⟨h4, -⟩, ⟨h5, -⟩, ⟨h6, -⟩, ⟨h7, -⟩, ⟨h8, -⟩, ⟨h9, -⟩⟩ := hB
  obtain ⟨A1, e1, t1⟩ := h1 trivial
  obtain ⟨A2, e2, t2⟩ := h2 trivial
  obtain ⟨A3, e3, t3⟩ := h3 trivial
  obtain ⟨A4, e4, t4⟩ := h4 trivial
  obtain ⟨A5, e5, t5⟩ := h5 trivial
  obtain ⟨A6, e6, t6⟩ := h6 trivial
  obtain ⟨A7, e7, t7⟩ := h7 trivial
  obtain ⟨A8, e8, t8⟩ := h8 trivial
  obtain ⟨A9, e9, t9⟩ := h9 trivial
  constructor <;> intro a b c d <;>
    simp only [EriBlocks.toTwoE, e1, e2, e3, e4, e5, e6, e7, e8, e9, Option.map_some, Option.getD_some] <;>
    (first
      | rw [t1.2 _ _ _ _ (Fin.is_lt _) (Fin.is_lt _) (Fin.is_lt _) (Fin.is_lt _), t1.2 _ _ _ _ (Fin.is_lt _) (Fin.is_lt _) (Fin.is_lt _) (Fin.is_lt _)]
      | rw [t2.2 _ _ _ _ (Fin.is_lt _) (Fin.is_lt _) (Fin.is_lt _) (Fin.is_lt _), t2.2 _ _ _ _ (Fin.is_lt _) (Fin.is_lt _) (Fin.is_lt _) (Fin.is_lt _)]
      | rw [t3.2 _ _ _ _ (Fin.is_lt _) (Fin.is_lt _) (Fin.is_lt _) (Fin.is_lt _), t3.2 _ _ _ _ (Fin.is_lt _) (Fin.is_lt _) (Fin.is_lt _) (Fin.is_lt _)]
      | rw [t4.2 _ _ _ _ (Fin.is_lt _) (Fin.is_lt _) (Fin.is_lt _) (Fin.is_lt _), t4.2 _ _ _ _ (Fin.is_lt _) (Fin.is_lt _) (Fin.is_lt _) (Fin.is_lt _)]
      | rw [t6.2 _ _ _ _ (Fin.is_lt _) (Fin.is_lt _) (Fin.is_lt _) (Fin.is_lt _), t6.2 _ _ _ _ (Fin.is_lt _) (Fin.is_lt _) (Fin.is_lt _) (Fin.is_lt _)]
      | rw [t7.2 _ _ _ _ (Fin.is_lt _) (Fin.is_lt _) (Fin.is_lt _) (Fin.is_lt _), t7.2 _ _ _ _ (Fin.is_lt _) (Fin.is_lt _) (Fin.is_lt _) (Fin.is_lt _)]
      | rw [t8.2 _ _ _ _ (Fin.is_lt _) (Fin.is_lt _) (Fin.is_lt _) (Fin.is_lt _), t8.2 _ _ _ _ (Fin.is_lt _) (Fin.is_lt _) (Fin.is_lt _) (Fin.is_lt _)]
      | rw [t9.2 _ _ _ _ (Fin.is_lt _) (Fin.is_lt _) (Fin.is_lt _) (Fin.is_lt _), t9.2 _ _ _ _ (Fin.is_lt _) (Fin.is_lt _) (Fin.is_lt _) (Fin.is_lt _)]) <;>
    first
      | exact (C39_anti h _ _ _ _).1
      | exact (C39_anti h _ _ _ _).2.1

/-! ### concrete cases -/

/-- integrals over two basis functions, unchanged when the electrons are exchanged -/
def eri0 (μ ν l σ : ℕ) : ℚ := (μ + 2 * ν + 1) * (l + 2 * σ + 1)
def orb0 (x y : ℚ) (μ : ℕ) : ℚ := if μ = 0 then x else y

example : Sym (aoForm 2 eri0) := aoForm_sym fun μ ν l σ => by unfold eri0; ring

/-- one occupied and one virtual orbital of each spin -/
example : ∃ B, eri_blocks ⟨.unrestricted [1, 0] [0, 1] [orb0 1 0, orb0 0 1] [orb0 1 1, orb0 1 (-1)], false, aoForm 2 eri0, aoForm 2 eri0⟩ 0 = .ok B ∧
    (B.oovv.map fun A => (A.n1, A.n3, A.val 0 1 0 1, A.val 0 1 1 0)) = some (2, 2, -6, 6) := by
  refine ⟨_, rfl, ?_⟩
  decide +kernel

end Eri
