import Verif.Props.Integrals
import Mathlib.Algebra.Star.BigOperators
import Mathlib.Algebra.Star.Basic
import Mathlib.Algebra.Star.Rat
import Mathlib.Data.ZMod.Basic
/-!
# Integrals of periodic systems: crystal momentum (C41)

The momentum of k-point `k` is `κ k` in an abelian group (reciprocal space modulo the reciprocal lattice).  `KptsHelper` provides a table
`kconserv` with `κ k1 - κ k2 + κ k3 = κ (kconserv k1 k2 k3)`; that this is what the table contains is an assumption on PySCF (`Conserves`).
-/
set_option linter.unusedSectionVars false
set_option linter.unusedSimpArgs false

namespace Eri
variable {K V : Type} [Field K] [Inhabited V] {G : Type} [AddCommGroup G]

/-- The table of a mesh of `nk` distinct k-points closed under `k1 - k2 + k3`. -/
structure Conserves (kmf : KMF V K) (κ : ℕ → G) : Prop where
  inj : ∀ k < kmf.nk, ∀ l < kmf.nk, κ k = κ l → k = l
  range : ∀ k1 < kmf.nk, ∀ k2 < kmf.nk, ∀ k3 < kmf.nk, kmf.kconserv k1 k2 k3 < kmf.nk
  sum : ∀ k1 < kmf.nk, ∀ k2 < kmf.nk, ∀ k3 < kmf.nk, κ (kmf.kconserv k1 k2 k3) = κ k1 - κ k2 + κ k3

theorem Conserves.iff {kmf : KMF V K} {κ : ℕ → G} (h : Conserves kmf κ) {k1 k2 k3 k4 : ℕ} (h1 : k1 < kmf.nk) (h2 : k2 < kmf.nk)
    (h3 : k3 < kmf.nk) (h4 : k4 < kmf.nk) : k4 = kmf.kconserv k1 k2 k3 ↔ κ k1 + κ k3 = κ k2 + κ k4 := by
  constructor
  · intro e
    rw [e, h.sum k1 h1 k2 h2 k3 h3]; abel
  · intro e
    refine h.inj _ h4 _ (h.range _ h1 _ h2 _ h3) ?_
    rw [h.sum k1 h1 k2 h2 k3 h3]
    have : κ k4 = κ k1 + κ k3 - κ k2 := by rw [e]; abel
    rw [this]; abel

open Classical in
/-- C41: `get_chem_solk` never fails and returns the table of `(k1 p, k2 q | k3 r, k4 s)`, antisymmetrised if asked for, which is zero unless
momentum is conserved. -/
theorem C41_get_chem_solk {kmf : KMF V K} {κ : ℕ → G} (h : Conserves kmf κ) {k1 k2 k3 k4 : ℕ} (h1 : k1 < kmf.nk) (h2 : k2 < kmf.nk)
    (h3 : k3 < kmf.nk) (h4 : k4 < kmf.nk) (o1 o2 o3 o4 : List V) (anti : Bool) :
    ∃ A, get_chem_solk kmf k1 k2 k3 k4 o1 o2 o3 o4 anti = .ok A ∧ Tabulates A o1 o2 o3 o4 fun p q r s =>
      if κ k1 + κ k3 = κ k2 + κ k4 then
        (if anti then kmf.form k1 k2 k3 k4 p q r s - kmf.form k1 k4 k3 k2 p s r q else kmf.form k1 k2 k3 k4 p q r s)
      else 0 := by
  have e := h.iff h1 h2 h3 h4
  unfold get_chem_solk
  by_cases hk : k4 = kmf.kconserv k1 k2 k3
  · have hk' := e.1 hk
    cases anti
    · refine ⟨_, by simp only [ne_eq, not_not.2 hk, if_false, if_true, hk.symm, not_true_eq_false, Bool.false_eq_true]; rfl, ?_⟩
      refine ⟨⟨rfl, rfl, rfl, rfl⟩, ?_⟩
      intro p q r s hp hq hr hs
      simp [hk', ao2mo, hp, hq, hr, hs]
    · refine ⟨_, by simp only [ne_eq, not_not.2 hk, if_false, if_true, hk.symm, not_true_eq_false]; simp only [Arr.sub, Arr.t0321, ao2mo, and_self, if_true, hk]; rfl, ?_⟩
      refine ⟨⟨rfl, rfl, rfl, rfl⟩, ?_⟩
      intro p q r s hp hq hr hs
      simp only [hk', if_true]
      simp [hp, hq, hr, hs, ← hk]
  · have hk' : ¬ (κ k1 + κ k3 = κ k2 + κ k4) := fun h => hk (e.2 h)
    refine ⟨_, by simp only [ne_eq, hk, not_false_eq_true, if_true]; rfl, ⟨rfl, rfl, rfl, rfl⟩, ?_⟩
    intro p q r s hp hq hr hs
    simp [hk', Arr.zeros]

open Classical in
/-- C41: `get_phys_solk` returns the table of `⟨k1 p, k2 q | k3 r, k4 s⟩`, which is zero unless `k1 + k2 = k3 + k4`. -/
theorem C41_get_phys_solk {kmf : KMF V K} {κ : ℕ → G} (h : Conserves kmf κ) {k1 k2 k3 k4 : ℕ} (h1 : k1 < kmf.nk) (h2 : k2 < kmf.nk)
    (h3 : k3 < kmf.nk) (h4 : k4 < kmf.nk) (o1 o2 o3 o4 : List V) (anti : Bool) :
    ∃ A, get_phys_solk kmf k1 k2 k3 k4 o1 o2 o3 o4 anti = .ok A ∧ Tabulates A o1 o2 o3 o4 fun p q r s =>
      if κ k1 + κ k2 = κ k3 + κ k4 then
        (if anti then kmf.form k1 k3 k2 k4 p r q s - kmf.form k1 k4 k2 k3 p s q r else kmf.form k1 k3 k2 k4 p r q s)
      else 0 := by
  obtain ⟨A, e, hA⟩ := C41_get_chem_solk h h1 h3 h2 h4 o1 o3 o2 o4 anti
  refine ⟨A.t0213, by simp only [get_phys_solk, e]; rfl, hA.t0213⟩

/-- C41: the physicist's array is the chemist's array with the two middle orbitals (and their k-points) exchanged; for any table
`kconserv`. -/
theorem C41_phys_chem (kmf : KMF V K) (k1 k2 k3 k4 : ℕ) (o1 o2 o3 o4 : List V) (anti : Bool) :
    ∃ A B, get_phys_solk kmf k1 k2 k3 k4 o1 o2 o3 o4 anti = .ok A ∧ get_chem_solk kmf k1 k3 k2 k4 o1 o3 o2 o4 anti = .ok B ∧
      ∀ p q r s, A.val p q r s = B.val p r q s := by
  have : ∃ B, get_chem_solk kmf k1 k3 k2 k4 o1 o3 o2 o4 anti = .ok B := by
    unfold get_chem_solk
    by_cases hk : k4 = kmf.kconserv k1 k3 k2
    · cases anti
      · exact ⟨_, by simp only [ne_eq, hk, if_false, not_true_eq_false, Bool.false_eq_true]; rfl⟩
      · exact ⟨_, by simp only [ne_eq, not_not.2 hk, if_false, if_true, hk.symm, not_true_eq_false]; simp only [Arr.sub, Arr.t0321, ao2mo, and_self, if_true]; rfl⟩
    · exact ⟨_, by simp only [ne_eq, hk, not_false_eq_true, if_true]; rfl⟩
  obtain ⟨B, e⟩ := this
  exact ⟨B.t0213, B, by simp only [get_phys_solk, e]; rfl, e, fun _ _ _ _ => rfl⟩

/-- Exchange of the electrons leaves the integrals unchanged. -/
def KSym (kmf : KMF V K) : Prop := ∀ k1 k2 k3 k4 p q r s, kmf.form k1 k2 k3 k4 p q r s = kmf.form k3 k4 k1 k2 r s p q

/-- C41: with `anti=True` the physicist's integrals change sign when the two kets, or the two bras, are exchanged together with their
k-points. -/
theorem C41_anti {kmf : KMF V K} {κ : ℕ → G} (h : Conserves kmf κ) (hs : KSym kmf) {k1 k2 k3 k4 : ℕ} (h1 : k1 < kmf.nk) (h2 : k2 < kmf.nk)
    (h3 : k3 < kmf.nk) (h4 : k4 < kmf.nk) (o1 o2 o3 o4 : List V) :
    ∃ A B C, get_phys_solk kmf k1 k2 k3 k4 o1 o2 o3 o4 true = .ok A ∧ get_phys_solk kmf k1 k2 k4 k3 o1 o2 o4 o3 true = .ok B ∧
      get_phys_solk kmf k2 k1 k3 k4 o2 o1 o3 o4 true = .ok C ∧
      ∀ p < o1.length, ∀ q < o2.length, ∀ r < o3.length, ∀ s < o4.length,
        A.val p q r s = - B.val p q s r ∧ A.val p q r s = - C.val q p r s := by
  obtain ⟨A, eA, hA⟩ := C41_get_phys_solk h h1 h2 h3 h4 o1 o2 o3 o4 true
  obtain ⟨B, eB, hB⟩ := C41_get_phys_solk h h1 h2 h4 h3 o1 o2 o4 o3 true
  obtain ⟨C, eC, hC⟩ := C41_get_phys_solk h h2 h1 h3 h4 o2 o1 o3 o4 true
  refine ⟨A, B, C, eA, eB, eC, fun p hp q hq r hr s hs' => ?_⟩
  rw [hA.2 p q r s hp hq hr hs', hB.2 p q s r hp hq hs' hr, hC.2 q p r s hq hp hr hs']
  simp only [if_true]
  rw [add_comm (κ k4) (κ k3), add_comm (κ k2) (κ k1)]
  constructor
  · split_ifs <;> ring
  · rw [hs k2 k3 k1 k4, hs k2 k4 k1 k3]
    split_ifs <;> ring

/-! ### the assembled table -/

/-- what the loop of `get_solk_integrals` stores for one triple -/
def entry (kmf : KMF V K) (chem : Bool) (kp kq kr : ℕ) : R (Arr K) :=
  if chem then get_chem_solk kmf kp kq kr (kmf.kconserv kp kq kr) (kmf.mo_coeff kp) (kmf.mo_coeff kq) (kmf.mo_coeff kr)
    (kmf.mo_coeff (kmf.kconserv kp kq kr))
  else get_phys_solk kmf kp kq kr (kmf.kconserv kp kr kq) (kmf.mo_coeff kp) (kmf.mo_coeff kq) (kmf.mo_coeff kr)
    (kmf.mo_coeff (kmf.kconserv kp kr kq))

/-- the loop body -/
def step (kmf : KMF V K) (chem : Bool) (h2 : ℕ → ℕ → ℕ → Arr K) (t : ℕ × ℕ × ℕ) : R (ℕ → ℕ → ℕ → Arr K) := do
    let (kp, kq, kr) := t
    let ks := if chem then kmf.kconserv kp kq kr else kmf.kconserv kp kr kq
    let mop := kmf.mo_coeff kp
    let moq := kmf.mo_coeff kq
    let mor := kmf.mo_coeff kr
    let mos := kmf.mo_coeff ks
    let X ← (if chem then get_chem_solk kmf kp kq kr ks mop moq mor mos else get_phys_solk kmf kp kq kr ks mop moq mor mos : R (Arr K))
    if X.n1 = kmf.nmo ∧ X.n2 = kmf.nmo ∧ X.n3 = kmf.nmo ∧ X.n4 = kmf.nmo then
      return fun a b c => if a = kp ∧ b = kq ∧ c = kr then X else h2 a b c
    else throw .value

theorem step_eq (kmf : KMF V K) (chem : Bool) (h2 : ℕ → ℕ → ℕ → Arr K) (kp kq kr : ℕ) {X : Arr K} (e : entry kmf chem kp kq kr = .ok X)
    (hX : X.n1 = kmf.nmo ∧ X.n2 = kmf.nmo ∧ X.n3 = kmf.nmo ∧ X.n4 = kmf.nmo) :
    step kmf chem h2 (kp, kq, kr) = .ok fun a b c => if a = kp ∧ b = kq ∧ c = kr then X else h2 a b c := by
  cases chem
  · simp only [entry, if_false, Bool.false_eq_true] at e
    simp only [step, if_false, Bool.false_eq_true, e, bind, Except.bind, if_pos hX]; rfl
  · simp only [entry, if_true] at e
    simp only [step, if_true, e, bind, Except.bind, if_pos hX]; rfl

theorem fold_ok (kmf : KMF V K) (chem : Bool) (l : List (ℕ × ℕ × ℕ)) (X : ℕ → ℕ → ℕ → Arr K)
    (e : ∀ t ∈ l, entry kmf chem t.1 t.2.1 t.2.2 = .ok (X t.1 t.2.1 t.2.2) ∧ (X t.1 t.2.1 t.2.2).n1 = kmf.nmo ∧
      (X t.1 t.2.1 t.2.2).n2 = kmf.nmo ∧ (X t.1 t.2.1 t.2.2).n3 = kmf.nmo ∧ (X t.1 t.2.1 t.2.2).n4 = kmf.nmo) (h2 : ℕ → ℕ → ℕ → Arr K) :
    ∃ H, l.foldlM (step kmf chem) h2 = .ok H ∧ ∀ a b c, ((a, b, c) ∈ l → H a b c = X a b c) ∧ ((a, b, c) ∉ l → H a b c = h2 a b c) := by
  induction l generalizing h2 with
  | nil => exact ⟨h2, rfl, fun a b c => ⟨fun h => by simp at h, fun _ => rfl⟩⟩
  | cons t l ih =>
    obtain ⟨kp, kq, kr⟩ := t
    obtain ⟨e1, e2⟩ := e (kp, kq, kr) (by simp)
    obtain ⟨H, hH, h⟩ := ih (fun t ht => e t (by simp [ht])) fun a b c => if a = kp ∧ b = kq ∧ c = kr then X kp kq kr else h2 a b c
    refine ⟨H, ?_, fun a b c => ?_⟩
    · rw [List.foldlM_cons, step_eq kmf chem h2 kp kq kr e1 e2]
      exact hH
    · by_cases hm : (a, b, c) ∈ l
      · exact ⟨fun _ => (h a b c).1 hm, fun hn => absurd (List.mem_cons_of_mem _ hm) hn⟩
      · have := (h a b c).2 hm
        constructor
        · intro hc
          rcases List.mem_cons.1 hc with hc | hc
          · obtain ⟨rfl, rfl, rfl⟩ : a = kp ∧ b = kq ∧ c = kr := by simpa using hc
            simpa using this
          · exact absurd hc hm
        · intro hn
          rw [this, if_neg]
          rintro ⟨rfl, rfl, rfl⟩
          exact hn (by simp)

open Classical in
/-- C41: `get_solk_integrals` gives, for every three k-points, the table of the integrals whose fourth k-point is fixed by conservation of
momentum: that of `get_chem_solk` for `(kp, kq | kr, ks)`, or of `get_phys_solk` for `⟨kp, kq | kr, ks⟩`. -/
theorem C41_get_solk_integrals {kmf : KMF V K} {κ : ℕ → G} (h : Conserves kmf κ) (hm : ∀ k < kmf.nk, (kmf.mo_coeff k).length = kmf.nmo)
    (chem : Bool) : ∃ H, solk_h2 kmf chem = .ok H ∧ ∀ kp < kmf.nk, ∀ kq < kmf.nk, ∀ kr < kmf.nk, ∀ ks < kmf.nk,
      (if chem then κ kp + κ kr = κ kq + κ ks else κ kp + κ kq = κ kr + κ ks) →
      Tabulates (H kp kq kr) (kmf.mo_coeff kp) (kmf.mo_coeff kq) (kmf.mo_coeff kr) (kmf.mo_coeff ks) fun p q r s =>
        if chem then kmf.form kp kq kr ks p q r s else kmf.form kp kr kq ks p r q s := by
  have key : ∀ kp < kmf.nk, ∀ kq < kmf.nk, ∀ kr < kmf.nk, ∃ X, entry kmf chem kp kq kr = .ok X ∧ ∀ ks < kmf.nk,
      (if chem then κ kp + κ kr = κ kq + κ ks else κ kp + κ kq = κ kr + κ ks) →
      Tabulates X (kmf.mo_coeff kp) (kmf.mo_coeff kq) (kmf.mo_coeff kr) (kmf.mo_coeff ks) fun p q r s =>
        if chem then kmf.form kp kq kr ks p q r s else kmf.form kp kr kq ks p r q s := by
    intro kp hp kq hq kr hr
    cases chem
    · have hs := h.range kp hp kr hr kq hq
      obtain ⟨A, e, hA⟩ := C41_get_phys_solk h hp hq hr hs (kmf.mo_coeff kp) (kmf.mo_coeff kq) (kmf.mo_coeff kr)
        (kmf.mo_coeff (kmf.kconserv kp kr kq)) false
      refine ⟨A, by simp only [entry, if_false, Bool.false_eq_true]; exact e, fun ks hks hc => ?_⟩
      simp only [if_false, Bool.false_eq_true] at hc
      obtain rfl := (h.iff hp hr hq hks).2 hc
      simpa only [if_pos hc, if_false, Bool.false_eq_true] using hA
    · have hs := h.range kp hp kq hq kr hr
      obtain ⟨A, e, hA⟩ := C41_get_chem_solk h hp hq hr hs (kmf.mo_coeff kp) (kmf.mo_coeff kq) (kmf.mo_coeff kr)
        (kmf.mo_coeff (kmf.kconserv kp kq kr)) false
      refine ⟨A, by simp only [entry, if_true]; exact e, fun ks hks hc => ?_⟩
      simp only [if_true] at hc
      obtain rfl := (h.iff hp hq hr hks).2 hc
      simpa only [if_pos hc, if_true, if_false, Bool.false_eq_true] using hA
  have ex : ∃ X : ℕ → ℕ → ℕ → Arr K, ∀ kp < kmf.nk, ∀ kq < kmf.nk, ∀ kr < kmf.nk, entry kmf chem kp kq kr = .ok (X kp kq kr) ∧ ∀ ks < kmf.nk,
      (if chem then κ kp + κ kr = κ kq + κ ks else κ kp + κ kq = κ kr + κ ks) →
      Tabulates (X kp kq kr) (kmf.mo_coeff kp) (kmf.mo_coeff kq) (kmf.mo_coeff kr) (kmf.mo_coeff ks) fun p q r s =>
        if chem then kmf.form kp kq kr ks p q r s else kmf.form kp kr kq ks p r q s := by
    refine ⟨fun kp kq kr => if hh : kp < kmf.nk ∧ kq < kmf.nk ∧ kr < kmf.nk then (key kp hh.1 kq hh.2.1 kr hh.2.2).choose
      else Arr.zeros 0 0 0 0, fun kp hp kq hq kr hr => ?_⟩
    simp only [hp, hq, hr, and_self, dite_true]
    exact (key kp hp kq hq kr hr).choose_spec
  obtain ⟨X, hX⟩ := ex
  set l := (List.range kmf.nk).flatMap fun kp => (List.range kmf.nk).flatMap fun kq => (List.range kmf.nk).map fun kr => (kp, kq, kr) with hl
  have ml : ∀ a b c, (a, b, c) ∈ l ↔ a < kmf.nk ∧ b < kmf.nk ∧ c < kmf.nk := by
    intro a b c
    simp [hl, List.mem_flatMap]
  obtain ⟨H, hH, hh⟩ := fold_ok kmf chem l X (by
    rintro ⟨kp, kq, kr⟩ ht
    obtain ⟨hp, hq, hr⟩ := (ml _ _ _).1 ht
    obtain ⟨e1, e2⟩ := hX kp hp kq hq kr hr
    refine ⟨e1, ?_⟩
    cases chem
    · have hs := h.range kp hp kr hr kq hq
      obtain ⟨⟨n1, n2, n3, n4⟩, -⟩ := e2 _ hs (by simp only [if_false, Bool.false_eq_true]; exact (h.iff hp hr hq hs).1 rfl)
      rw [hm _ hp] at n1; rw [hm _ hq] at n2; rw [hm _ hr] at n3; rw [hm _ hs] at n4
      exact ⟨n1, n2, n3, n4⟩
    · have hs := h.range kp hp kq hq kr hr
      obtain ⟨⟨n1, n2, n3, n4⟩, -⟩ := e2 _ hs (by simp only [if_true]; exact (h.iff hp hq hr hs).1 rfl)
      rw [hm _ hp] at n1; rw [hm _ hq] at n2; rw [hm _ hr] at n3; rw [hm _ hs] at n4
      exact ⟨n1, n2, n3, n4⟩) fun _ _ _ => Arr.zeros kmf.nmo kmf.nmo kmf.nmo kmf.nmo
  refine ⟨H, ?_, fun kp hp kq hq kr hr ks hs hc => ?_⟩
  · unfold solk_h2
    rw [if_neg (not_not.2 hm)]
    exact hH
  · rw [(hh kp kq kr).1 ((ml _ _ _).2 ⟨hp, hq, hr⟩)]
    exact (hX kp hp kq hq kr hr).2 ks hs hc

/-- C41: a wrong number of orbitals at some k-point is an assertion error. -/
theorem C41_assert (kmf : KMF V K) (chem : Bool) {k : ℕ} (hk : k < kmf.nk) (h : (kmf.mo_coeff k).length ≠ kmf.nmo) :
    solk_h2 kmf chem = .error .assertion := by
  unfold solk_h2
  rw [if_pos (fun hh => h (hh k hk))]
  rfl

/-- C41: the two orders of `get_solk_integrals` hold the same integrals. -/
theorem C41_orders {kmf : KMF V K} {κ : ℕ → G} (h : Conserves kmf κ) (hm : ∀ k < kmf.nk, (kmf.mo_coeff k).length = kmf.nmo) :
    ∃ P C, solk_h2 kmf false = .ok P ∧ solk_h2 kmf true = .ok C ∧ ∀ kp < kmf.nk, ∀ kq < kmf.nk, ∀ kr < kmf.nk,
      ∀ p < kmf.nmo, ∀ q < kmf.nmo, ∀ r < kmf.nmo, ∀ s < kmf.nmo, (P kp kq kr).val p q r s = (C kp kr kq).val p r q s := by
  obtain ⟨P, eP, hP⟩ := C41_get_solk_integrals h hm false
  obtain ⟨C, eC, hC⟩ := C41_get_solk_integrals h hm true
  refine ⟨P, C, eP, eC, fun kp hp kq hq kr hr p hp' q hq' r hr' s hs' => ?_⟩
  have hs := h.range kp hp kr hr kq hq
  have c := (h.iff hp hr hq hs).1 rfl
  have a := hP kp hp kq hq kr hr _ hs (by simpa using c)
  have b := hC kp hp kr hr kq hq _ hs (by simpa using c)
  rw [a.2 p q r s (by rw [hm _ hp]; exact hp') (by rw [hm _ hq]; exact hq') (by rw [hm _ hr]; exact hr') (by rw [hm _ hs]; exact hs'),
    b.2 p r q s (by rw [hm _ hp]; exact hp') (by rw [hm _ hr]; exact hr') (by rw [hm _ hq]; exact hq') (by rw [hm _ hs]; exact hs')]
  simp

/-- C41: the one-electron part is Hermitian at every k-point if the core Hamiltonian is. -/
theorem C41_h1_hermitian [StarRing K] (nao : ℕ) (hcore : ℕ → ℕ → ℕ → K) (mo : ℕ → List (ℕ → K)) (k : ℕ)
    (h : ∀ μ < nao, ∀ ν < nao, hcore k μ ν = star (hcore k ν μ)) (p q : ℕ) :
    solk_h1 nao hcore mo k p q = star (solk_h1 nao hcore mo k q p) := by
  unfold solk_h1
  rw [star_sum]
  simp only [star_mul', star_sum, star_star, Finset.sum_mul]
  rw [Finset.sum_comm]
  refine Finset.sum_congr rfl fun μ hμ => Finset.sum_congr rfl fun ν hν => ?_
  rw [h μ (Finset.mem_range.1 hμ) ν (Finset.mem_range.1 hν)]
  ring

/-! ### a concrete case: three k-points of the cyclic group -/

def kmf0 : KMF (ℕ → ℚ) ℚ where
  nk := 3
  kconserv k1 k2 k3 := (k1 + 2 * k2 + k3) % 3
  form k1 k2 k3 k4 := aoForm 2 fun μ ν l σ => eri0 μ ν l σ * ((k1 + 2 * k2 + 1) * (k3 + 2 * k4 + 1))
  mo_coeff k := [orb0 1 k, orb0 k 1]
  nmo := 2

example : Conserves kmf0 (fun k : ℕ => (k : ZMod 3)) where
  inj := by decide +kernel
  range k1 _ k2 _ k3 _ := Nat.mod_lt _ (by decide)
  sum k1 _ k2 _ k3 _ := by
    simp only [kmf0, ZMod.natCast_mod, Nat.cast_add, Nat.cast_mul]
    rw [show ((2 : ℕ) : ZMod 3) = -1 from by decide]; ring

example : KSym kmf0 := by
  intro k1 k2 k3 k4 p q r s
  have : ∀ x : ℚ, ∀ y, aoForm 2 (fun μ ν l σ => eri0 μ ν l σ * (x * y)) = aoForm 2 (fun μ ν l σ => eri0 μ ν l σ * (y * x)) := by
    intro x y; simp only [mul_comm x y]
  have hs := aoForm_sym (nao := 2) (eri := fun μ ν l σ => eri0 μ ν l σ * (((k1 : ℚ) + 2 * k2 + 1) * (k3 + 2 * k4 + 1)))
    (fun μ ν l σ => by simp only [eri0]; ring) p q r s
  rw [this ((k1 : ℚ) + 2 * k2 + 1) (k3 + 2 * k4 + 1)] at hs
  simp only [kmf0]
  rw [← hs, this]

example : ∀ k < kmf0.nk, (kmf0.mo_coeff k).length = kmf0.nmo := fun _ _ => rfl

/-- a non-zero entry, and one that is zero because momentum is not conserved -/
example : ((get_chem_solk kmf0 0 1 2 1 (kmf0.mo_coeff 0) (kmf0.mo_coeff 1) (kmf0.mo_coeff 2) (kmf0.mo_coeff 1)).toOption.map
    fun A => A.val 0 1 1 0) = some 840 ∧
    ((get_chem_solk kmf0 0 1 2 0 (kmf0.mo_coeff 0) (kmf0.mo_coeff 1) (kmf0.mo_coeff 2) (kmf0.mo_coeff 0)).toOption.map
    fun A => A.val 0 1 1 0) = some 0 := by
  decide +kernel

example : ∃ hcore : ℕ → ℕ → ℕ → ℚ, (∀ μ < 2, ∀ ν < 2, hcore 1 μ ν = star (hcore 1 ν μ)) ∧ solk_h1 2 hcore (fun _ => [orb0 1 2, orb0 2 1]) 1 0 1 ≠ 0 :=
  ⟨fun _ μ ν => μ + ν + 1, fun μ _ ν _ => by rw [star_trivial]; ring, by decide +kernel⟩

end Eri
