import Verif.Model.IntRound
import Verif.Props.Integrals
import Verif.Props.IterUni
/-!
# C100: the integrals in rounded arithmetic: accuracy, antisymmetry, and coupled-cluster iterations that use them
-/
set_option linter.unusedSectionVars false
set_option linter.unusedSimpArgs false
namespace Eri

section general
variable {K V : Type} [Field K] [Inhabited V]

/-- C100: with exact integrals and exact subtraction the functions are those of C39 and C40. -/
theorem C100_exact (g : Form V K) (o1 o2 o3 o4 p1 p2 p3 p4 : List V) (anti : Bool) (has : ℕ → Bool) :
    fl_get_chem (· - ·) (ao2mo g) o1 o2 o3 o4 anti = get_chem g o1 o2 o3 o4 anti ∧
    fl_get_phys (· - ·) (ao2mo g) o1 o2 o3 o4 anti = get_phys g o1 o2 o3 o4 anti ∧
    fl_get_chemu (· - ·) (ao2mo g) o1 o2 o3 o4 p1 p2 p3 p4 anti = get_chemu g o1 o2 o3 o4 p1 p2 p3 p4 anti ∧
    fl_get_phys_antiu (· - ·) (ao2mo g) o1 o2 o3 o4 p1 p2 p3 p4 = get_phys_antiu g o1 o2 o3 o4 p1 p2 p3 p4 ∧
    fl_get_chemu_all (· - ·) (ao2mo g) o1 p1 anti = get_chemu_all g o1 p1 anti ∧
    fl_get_physu_all (· - ·) (ao2mo g) o1 p1 anti = get_physu_all g o1 p1 anti ∧
    fl_build_integrals (· - ·) (ao2mo g) has o1 p1 o2 p2 = build_integrals has g o1 p1 o2 p2 :=
  ⟨rfl, rfl, rfl, rfl, rfl, rfl, rfl⟩

/-- The arrays returned have the shapes given by the numbers of orbitals. -/
def Shaped (k : Kernel V K) : Prop :=
  ∀ o1 o2 o3 o4, (k o1 o2 o3 o4).n1 = o1.length ∧ (k o1 o2 o3 o4).n2 = o2.length ∧ (k o1 o2 o3 o4).n3 = o3.length ∧ (k o1 o2 o3 o4).n4 = o4.length

variable {sub : K → K → K} {k : Kernel V K}

theorem fl_chem (hk : Shaped k) (o1 o2 o3 o4 : List V) : fl_get_chem sub k o1 o2 o3 o4 true =
    .ok ⟨o1.length, o2.length, o3.length, o4.length, fun p q r s => sub ((k o1 o2 o3 o4).val p q r s) ((k o1 o4 o3 o2).val p s r q)⟩ := by
  obtain ⟨a1, a2, a3, a4⟩ := hk o1 o2 o3 o4
  obtain ⟨b1, b2, b3, b4⟩ := hk o1 o4 o3 o2
  simp only [fl_get_chem, if_true, Arr.subBy, Arr.t0321, a1, a2, a3, a4, b1, b2, b3, b4, and_self]

/-- The elements of `get_chemu`. -/
def chemuVal (sub : K → K → K) (k : Kernel V K) (o1 o2 o3 o4 p1 p2 p3 p4 : List V) (p q r s : ℕ) : K :=
  if p < o1.length then
    if q < o2.length then
      if r < o3.length then
        if s < o4.length then sub ((k o1 o2 o3 o4).val p q r s) ((k o1 o4 o3 o2).val p s r q) else 0
      else if s < o4.length then 0 else (k o1 o2 p3 p4).val p q (r - o3.length) (s - o4.length)
    else
      if r < o3.length then 0 else if s < o4.length then -(k o1 o4 p3 p2).val p s (r - o3.length) (q - o2.length) else 0
  else
    if q < o2.length then
      if r < o3.length then if s < o4.length then 0 else -(k p1 p4 o3 o2).val (p - o1.length) (s - o4.length) r q else 0
    else
      if r < o3.length then if s < o4.length then (k p1 p2 o3 o4).val (p - o1.length) (q - o2.length) r s else 0
      else if s < o4.length then 0 else
        sub ((k p1 p2 p3 p4).val (p - o1.length) (q - o2.length) (r - o3.length) (s - o4.length))
          ((k p1 p4 p3 p2).val (p - o1.length) (s - o4.length) (r - o3.length) (q - o2.length))

theorem fl_chemu (hk : Shaped k) (o1 o2 o3 o4 p1 p2 p3 p4 : List V) : ∃ A, fl_get_chemu sub k o1 o2 o3 o4 p1 p2 p3 p4 true = .ok A ∧
    A.n1 = o1.length + p1.length ∧ A.n2 = o2.length + p2.length ∧ A.n3 = o3.length + p3.length ∧ A.n4 = o4.length + p4.length ∧
    ∀ p q r s, p < o1.length + p1.length → q < o2.length + p2.length → r < o3.length + p3.length → s < o4.length + p4.length →
      A.val p q r s = chemuVal sub k o1 o2 o3 o4 p1 p2 p3 p4 p q r s := by
  have c : ∀ a b c d, fl_get_chem sub k a b c d = .ok (k a b c d) := fun _ _ _ _ => rfl
  obtain ⟨x1, x2, x3, x4⟩ := hk o1 o2 p3 p4
  obtain ⟨y1, y2, y3, y4⟩ := hk p1 p2 o3 o4
  obtain ⟨z1, z2, z3, z4⟩ := hk o1 o4 p3 p2
  obtain ⟨w1, w2, w3, w4⟩ := hk p1 p4 o3 o2
  simp only [fl_get_chemu, fl_chem hk, c, if_true, Arr.put, Arr.zeros, lo_upto, hi_upto, lo_fro, hi_fro, bind,
    Except.bind, pure, Except.pure, Nat.sub_zero, Nat.add_sub_cancel_left, and_self, if_true, Arr.t0321, Arr.neg, x1, x2, x3, x4, y1, y2, y3, y4, z1, z2, z3, z4, w1, w2, w3, w4]
  refine ⟨_, rfl, rfl, rfl, rfl, rfl, fun p q r s hp hq hr hs => ?_⟩
  unfold chemuVal
  by_cases h1 : p < o1.length <;> by_cases h2 : q < o2.length <;> by_cases h3 : r < o3.length <;> by_cases h4 : s < o4.length <;>
    simp [h1, h2, h3, h4, hp, hq, hr, hs, not_le.mpr, le_of_not_gt, Nat.le_of_not_lt]

/-- C100: the antisymmetrised physicist's integrals of one spin are exactly antisymmetric in the last two indices: for any array that pyscf returns, if subtracting
in the other order changes the sign. -/
theorem C100_get_phys_last (hk : Shaped k) (hs : ∀ x y, sub y x = -sub x y) (o1 o2 o3 : List V) :
    ∃ A, fl_get_phys sub k o1 o2 o3 o3 true = .ok A ∧ ∀ p q r s, A.val p q s r = -A.val p q r s := by
  refine ⟨_, by rw [fl_get_phys, fl_chem hk]; rfl, fun p q r s => ?_⟩
  exact hs _ _

/-- C100: so are those of spin orbitals, in every block of an `eri_blocks` object whose last two labels agree. -/
theorem C100_get_phys_antiu_last (hk : Shaped k) (hs : ∀ x y, sub y x = -sub x y) (o1 o2 o3 p1 p2 p3 : List V) :
    ∃ A, fl_get_phys_antiu sub k o1 o2 o3 o3 p1 p2 p3 p3 = .ok A ∧ A.n3 = o3.length + p3.length ∧ A.n4 = o3.length + p3.length ∧
      ∀ p q r s, p < A.n1 → q < A.n2 → r < A.n3 → s < A.n4 → A.val p q s r = -A.val p q r s := by
  obtain ⟨A, h1, e1, e2, e3, e4, h2⟩ := fl_chemu (sub := sub) hk o1 o3 o2 o3 p1 p3 p2 p3
  refine ⟨A.t0213, by rw [fl_get_phys_antiu, h1]; rfl, e2, e4, fun p q r s hp hq hr hss => ?_⟩
  change p < A.n1 at hp
  change q < A.n3 at hq
  change r < A.n2 at hr
  change s < A.n4 at hss
  rw [e1] at hp
  rw [e2] at hr
  rw [e3] at hq
  rw [e4] at hss
  change A.val p s q r = -A.val p r q s
  rw [h2 p s q r hp hss hq hr, h2 p r q s hp hr hq hss]
  unfold chemuVal
  by_cases a1 : p < o1.length <;> by_cases a2 : q < o2.length <;> by_cases a3 : r < o3.length <;> by_cases a4 : s < o3.length <;>
    simp only [a1, a2, a3, a4, if_true, if_false, neg_zero, neg_neg] <;> exact hs _ _

/-- The elements of `get_chemu_all` without `anti`. -/
def allVal (k : Kernel V K) (oa ob : List V) (p q r s : ℕ) : K :=
  if p < oa.length then
    if q < oa.length then
      if r < oa.length then if s < oa.length then (k oa oa oa oa).val p q r s else 0
      else if s < oa.length then 0 else (k oa oa ob ob).val p q (r - oa.length) (s - oa.length)
    else 0
  else
    if q < oa.length then 0
    else
      if r < oa.length then if s < oa.length then (k oa oa ob ob).val r s (p - oa.length) (q - oa.length) else 0
      else if s < oa.length then 0 else (k ob ob ob ob).val (p - oa.length) (q - oa.length) (r - oa.length) (s - oa.length)

theorem fl_all (hk : Shaped k) (oa ob : List V) : ∃ A, (fl_get_chemu_all sub k oa ob true = A.subBy sub A.t0321) ∧ fl_get_chemu_all sub k oa ob false = .ok A ∧
    A.n1 = oa.length + ob.length ∧ A.n2 = oa.length + ob.length ∧ A.n3 = oa.length + ob.length ∧ A.n4 = oa.length + ob.length ∧
    ∀ p q r s, p < oa.length + ob.length → q < oa.length + ob.length → r < oa.length + ob.length → s < oa.length + ob.length →
      A.val p q r s = allVal k oa ob p q r s := by
  obtain ⟨x1, x2, x3, x4⟩ := hk oa oa oa oa
  obtain ⟨y1, y2, y3, y4⟩ := hk ob ob ob ob
  obtain ⟨z1, z2, z3, z4⟩ := hk oa oa ob ob
  simp only [fl_get_chemu_all, Bool.false_eq_true, if_false, Arr.put, Arr.zeros, lo_upto, hi_upto, lo_fro, hi_fro, bind,
    Except.bind, pure, Except.pure, Nat.sub_zero, Nat.add_sub_cancel_left, and_self, if_true, Arr.t2301, x1, x2, x3, x4, y1, y2, y3, y4, z1, z2, z3, z4]
  refine ⟨_, rfl, rfl, rfl, rfl, rfl, rfl, fun p q r s hp hq hr hs => ?_⟩
  unfold allVal
  by_cases h1 : p < oa.length <;> by_cases h2 : q < oa.length <;> by_cases h3 : r < oa.length <;> by_cases h4 : s < oa.length <;>
    simp [h1, h2, h3, h4, hp, hq, hr, hs, not_le.mpr, le_of_not_gt, Nat.le_of_not_lt]

theorem fl_physu_all (hk : Shaped k) (oa ob : List V) : ∃ A, fl_get_physu_all sub k oa ob true = .ok A ∧
    A.n1 = oa.length + ob.length ∧ A.n2 = oa.length + ob.length ∧ A.n3 = oa.length + ob.length ∧ A.n4 = oa.length + ob.length ∧
    ∀ p q r s, p < oa.length + ob.length → q < oa.length + ob.length → r < oa.length + ob.length → s < oa.length + ob.length →
      A.val p q r s = sub (allVal k oa ob p r q s) (allVal k oa ob p s q r) := by
  obtain ⟨A, h1, -, e1, e2, e3, e4, h2⟩ := fl_all (sub := sub) hk oa ob
  rw [Arr.subBy, if_pos ⟨rfl, e2.trans e4.symm, rfl, e4.trans e2.symm⟩] at h1
  refine ⟨Arr.t0213 ⟨A.n1, A.n2, A.n3, A.n4, fun p q r s => sub (A.val p q r s) (A.t0321.val p q r s)⟩, by rw [fl_get_physu_all, h1]; rfl, e1, e3, e2, e4,
    fun p q r s hp hq hr hs => ?_⟩
  change sub (A.val p r q s) (A.val p s q r) = _
  rw [h2 p r q s hp hr hq hs, h2 p s q r hp hs hq hr]

/-- C100: the integrals of `get_physu_all` are exactly antisymmetric in the last two indices. -/
theorem C100_get_physu_all_last (hk : Shaped k) (hs : ∀ x y, sub y x = -sub x y) (oa ob : List V) :
    ∃ A, fl_get_physu_all sub k oa ob true = .ok A ∧ A.n3 = A.n4 ∧ ∀ p q r s, p < A.n1 → q < A.n2 → r < A.n3 → s < A.n4 → A.val p q s r = -A.val p q r s := by
  obtain ⟨A, h1, e1, e2, e3, e4, h2⟩ := fl_physu_all (sub := sub) hk oa ob
  refine ⟨A, h1, e3.trans e4.symm, fun p q r s hp hq hr hss => ?_⟩
  rw [e1] at hp
  rw [e2] at hq
  rw [e3] at hr
  rw [e4] at hss
  rw [h2 p q s r hp hq hss hr, h2 p q r s hp hq hr hss]
  exact hs _ _

/-- C100: and in the first two, if the two arrays of equal spins that pyscf returns are unchanged when the electrons are exchanged (those of different spins need not be:
one of them is copied into both places). -/
theorem C100_get_physu_all_first (hk : Shaped k) (hs : ∀ x y, sub y x = -sub x y) (oa ob : List V)
    (ha : ∀ p q r s, (k oa oa oa oa).val p q r s = (k oa oa oa oa).val r s p q) (hb : ∀ p q r s, (k ob ob ob ob).val p q r s = (k ob ob ob ob).val r s p q) :
    ∃ A, fl_get_physu_all sub k oa ob true = .ok A ∧ A.n1 = A.n2 ∧ ∀ p q r s, p < A.n1 → q < A.n2 → r < A.n3 → s < A.n4 → A.val q p r s = -A.val p q r s := by
  have sy : ∀ p q r s, allVal k oa ob p q r s = allVal k oa ob r s p q := by
    intro p q r s
    unfold allVal
    by_cases h1 : p < oa.length <;> by_cases h2 : q < oa.length <;> by_cases h3 : r < oa.length <;> by_cases h4 : s < oa.length <;>
      simp only [h1, h2, h3, h4, if_true, if_false]
    · exact ha _ _ _ _
    · exact hb _ _ _ _
  obtain ⟨A, h1, e1, e2, e3, e4, h2⟩ := fl_physu_all (sub := sub) hk oa ob
  refine ⟨A, h1, e1.trans e2.symm, fun p q r s hp hq hr hss => ?_⟩
  rw [e1] at hp
  rw [e2] at hq
  rw [e3] at hr
  rw [e4] at hss
  rw [h2 q p r s hq hp hr hss, h2 p q r s hp hq hr hss, sy q r p s, sy q s p r]
  exact hs _ _
end general

/-! ### accuracy -/

section near
variable {K V : Type} [RCLike K] [Inhabited V]

/-- The array has the shape of the table of `f` over four lists of orbitals, and its elements are wrong by at most `ε`. -/
def NearTab {α : Type} (ε : ℝ) (A : Arr K) (L1 L2 L3 L4 : List α) (f : α → α → α → α → K) : Prop :=
  (A.n1 = L1.length ∧ A.n2 = L2.length ∧ A.n3 = L3.length ∧ A.n4 = L4.length) ∧
  ∀ (p q r s : ℕ) (hp : p < L1.length) (hq : q < L2.length) (hr : r < L3.length) (hs : s < L4.length), ‖A.val p q r s - f L1[p] L2[q] L3[r] L4[s]‖ ≤ ε

/-- For orbitals in the set `S` the integrals that pyscf returns are those of the form `g`, with errors of at most `ε`. -/
def KNear (S : V → Prop) (ε : ℝ) (g : Form V K) (k : Kernel V K) : Prop :=
  ∀ o1 o2 o3 o4 : List V, (∀ x ∈ o1, S x) → (∀ x ∈ o2, S x) → (∀ x ∈ o3, S x) → (∀ x ∈ o4, S x) → NearTab ε (k o1 o2 o3 o4) o1 o2 o3 o4 g

/-- The subtraction has the relative error `u`, apart from underflow. -/
def SubErr (sub : K → K → K) (u η : ℝ) : Prop := ∀ x y, ‖sub x y - (x - y)‖ ≤ u * (‖x - y‖ + η)

/-- The error of a difference of two integrals. -/
def errOf (ε M u η : ℝ) : ℝ := 2 * ε + u * (2 * M + 2 * ε + η)

theorem sub_near {sub : K → K → K} {ε M u η : ℝ} (hs : SubErr sub u η) (u0 : 0 ≤ u) {x y x' y' : K} (hx : ‖x - x'‖ ≤ ε) (hy : ‖y - y'‖ ≤ ε) (mx : ‖x'‖ ≤ M) (my : ‖y'‖ ≤ M) :
    ‖sub x y - (x' - y')‖ ≤ errOf ε M u η := by
  have h1 := hs x y
  have h2 : ‖x - y - (x' - y')‖ ≤ 2 * ε := by
    have : x - y - (x' - y') = (x - x') - (y - y') := by ring
    rw [this]
    linarith [norm_sub_le (x - x') (y - y')]
  have h3 : ‖x - y‖ ≤ 2 * M + 2 * ε := by
    have : x - y = (x - y - (x' - y')) + (x' - y') := by ring
    rw [this]
    linarith [norm_add_le (x - y - (x' - y')) (x' - y'), norm_sub_le x' y']
  have h4 : sub x y - (x' - y') = (sub x y - (x - y)) + (x - y - (x' - y')) := by ring
  rw [h4]
  have h5 : u * (‖x - y‖ + η) ≤ u * (2 * M + 2 * ε + η) := mul_le_mul_of_nonneg_left (by linarith) u0
  unfold errOf
  linarith [norm_add_le (sub x y - (x - y)) (x - y - (x' - y'))]

theorem NearTab.getD {ε : ℝ} {A : Arr K} {o1 o2 o3 o4 : List V} {f : V → V → V → V → K} (h : NearTab ε A o1 o2 o3 o4 f) {p q r s : ℕ}
    (hp : p < o1.length) (hq : q < o2.length) (hr : r < o3.length) (hs : s < o4.length) :
    ‖A.val p q r s - f (o1.getD p default) (o2.getD q default) (o3.getD r default) (o4.getD s default)‖ ≤ ε := by
  have := h.2 p q r s hp hq hr hs
  simpa [hp, hq, hr, hs] using this

theorem getD_mem {S : V → Prop} {o : List V} (h : ∀ x ∈ o, S x) {p : ℕ} (hp : p < o.length) : S (o.getD p default) := by
  have := h o[p] (List.getElem_mem hp)
  simpa [hp] using this

variable {S : V → Prop} {ε M u η : ℝ} {g : Form V K} {k : Kernel V K} {sub : K → K → K}

/-- C100: the antisymmetrised integrals of spin orbitals are wrong by at most `2ε + u(2M + 2ε + η)` if pyscf's are wrong by at most `ε` and bounded by `M`. -/
theorem C100_get_phys_antiu (hk : Shaped k) (hg : KNear S ε g k) (hM : ∀ a b c d, S a → S b → S c → S d → ‖g a b c d‖ ≤ M) (hs : SubErr sub u η) (ε0 : 0 ≤ ε) (u0 : 0 ≤ u)
    (hη : 0 ≤ η) (M0 : 0 ≤ M) {o1 o2 o3 o4 p1 p2 p3 p4 : List V} (i1 : ∀ x ∈ o1, S x) (i2 : ∀ x ∈ o2, S x) (i3 : ∀ x ∈ o3, S x) (i4 : ∀ x ∈ o4, S x)
    (j1 : ∀ x ∈ p1, S x) (j2 : ∀ x ∈ p2, S x) (j3 : ∀ x ∈ p3, S x) (j4 : ∀ x ∈ p4, S x) :
    ∃ A, fl_get_phys_antiu sub k o1 o2 o3 o4 p1 p2 p3 p4 = .ok A ∧ NearTab (errOf ε M u η) A (sorb o1 p1) (sorb o2 p2) (sorb o3 p3) (sorb o4 p4) (physA g) := by
  obtain ⟨A, h1, e1, e2, e3, e4, h2⟩ := fl_chemu (sub := sub) hk o1 o3 o2 o4 p1 p3 p2 p4
  have big : ε ≤ errOf ε M u η := by
    unfold errOf
    have : 0 ≤ u * (2 * M + 2 * ε + η) := by positivity
    linarith
  have zero : 0 ≤ errOf ε M u η := ε0.trans big
  refine ⟨A.t0213, by rw [fl_get_phys_antiu, h1]; rfl, ⟨?_, ?_, ?_, ?_⟩, fun p q r s hp hq hr hss => ?_⟩
  · rw [length_sorb]; exact e1
  · rw [length_sorb]; exact e3
  · rw [length_sorb]; exact e2
  · rw [length_sorb]; exact e4
  change ‖A.val p r q s - _‖ ≤ _
  have hp' := hp
  have hq' := hq
  have hr' := hr
  have hs' := hss
  rw [length_sorb] at hp' hq' hr' hs'
  rw [h2 p r q s hp' hr' hq' hs']
  unfold chemuVal
  by_cases h1 : p < o1.length <;> by_cases h2 : q < o2.length <;> by_cases h3 : r < o3.length <;> by_cases h4 : s < o4.length <;>
  · first | rw [sorb_lt h1 hp] | rw [sorb_ge h1 hp]; have h1' : p - o1.length < p1.length := by omega
    first | rw [sorb_lt h2 hq] | rw [sorb_ge h2 hq]; have h2' : q - o2.length < p2.length := by omega
    first | rw [sorb_lt h3 hr] | rw [sorb_ge h3 hr]; have h3' : r - o3.length < p3.length := by omega
    first | rw [sorb_lt h4 hss] | rw [sorb_ge h4 hss]; have h4' : s - o4.length < p4.length := by omega
    simp only [h1, h2, h3, h4, if_true, if_false, physA, phys, chem, and_self, and_true, true_and, and_false, false_and, Bool.false_eq_true, Bool.true_eq_false, reduceCtorEq, sub_zero, zero_sub, norm_zero, sub_self]
    first
      | exact zero
      | exact sub_near hs u0 ((hg _ _ _ _ ‹_› ‹_› ‹_› ‹_›).getD ‹_› ‹_› ‹_› ‹_›) ((hg _ _ _ _ ‹_› ‹_› ‹_› ‹_›).getD ‹_› ‹_› ‹_› ‹_›)
          (hM _ _ _ _ (getD_mem ‹_› ‹_›) (getD_mem ‹_› ‹_›) (getD_mem ‹_› ‹_›) (getD_mem ‹_› ‹_›)) (hM _ _ _ _ (getD_mem ‹_› ‹_›) (getD_mem ‹_› ‹_›) (getD_mem ‹_› ‹_›) (getD_mem ‹_› ‹_›))
      | exact ((hg _ _ _ _ ‹_› ‹_› ‹_› ‹_›).getD ‹_› ‹_› ‹_› ‹_›).trans big
      | (rw [← neg_sub', norm_neg]; exact ((hg _ _ _ _ ‹_› ‹_› ‹_› ‹_›).getD ‹_› ‹_› ‹_› ‹_›).trans big)

/-- C100: so are those of `get_physu_all`, for integrals unchanged when the electrons are exchanged. -/
theorem C100_get_physu_all (hk : Shaped k) (hg : KNear S ε g k) (hy : Sym g) (hM : ∀ a b c d, S a → S b → S c → S d → ‖g a b c d‖ ≤ M) (hs : SubErr sub u η) (ε0 : 0 ≤ ε)
    (u0 : 0 ≤ u) (M0 : 0 ≤ M) {oa ob : List V} (ia : ∀ x ∈ oa, S x) (ib : ∀ x ∈ ob, S x) :
    ∃ A, fl_get_physu_all sub k oa ob true = .ok A ∧ NearTab (errOf ε M u η) A (sorb oa ob) (sorb oa ob) (sorb oa ob) (sorb oa ob) (physA g) := by
  obtain ⟨A, h1, e1, e2, e3, e4, h2⟩ := fl_physu_all (sub := sub) hk oa ob
  have val : ∀ (p q r s : ℕ) (hp : p < (sorb oa ob).length) (hq : q < (sorb oa ob).length) (hr : r < (sorb oa ob).length) (hs : s < (sorb oa ob).length),
      ‖allVal k oa ob p q r s - chem g (sorb oa ob)[p] (sorb oa ob)[q] (sorb oa ob)[r] (sorb oa ob)[s]‖ ≤ ε ∧ ‖chem g (sorb oa ob)[p] (sorb oa ob)[q] (sorb oa ob)[r] (sorb oa ob)[s]‖ ≤ M := by
    intro p q r s hp hq hr hss
    have hp' := hp
    have hq' := hq
    have hr' := hr
    have hs' := hss
    rw [length_sorb] at hp' hq' hr' hs'
    unfold allVal
    by_cases h1 : p < oa.length <;> by_cases h2 : q < oa.length <;> by_cases h3 : r < oa.length <;> by_cases h4 : s < oa.length <;>
    · first | rw [sorb_lt h1 hp] | rw [sorb_ge h1 hp]; have h1' : p - oa.length < ob.length := by omega
      first | rw [sorb_lt h2 hq] | rw [sorb_ge h2 hq]; have h2' : q - oa.length < ob.length := by omega
      first | rw [sorb_lt h3 hr] | rw [sorb_ge h3 hr]; have h3' : r - oa.length < ob.length := by omega
      first | rw [sorb_lt h4 hss] | rw [sorb_ge h4 hss]; have h4' : s - oa.length < ob.length := by omega
      simp only [h1, h2, h3, h4, if_true, if_false, chem, and_self, and_true, true_and, and_false, false_and, Bool.false_eq_true, Bool.true_eq_false, reduceCtorEq, sub_zero, zero_sub, norm_zero, sub_self]
      first
        | exact ⟨ε0, M0⟩
        | exact ⟨(hg _ _ _ _ ‹_› ‹_› ‹_› ‹_›).getD ‹_› ‹_› ‹_› ‹_›, hM _ _ _ _ (getD_mem ‹_› ‹_›) (getD_mem ‹_› ‹_›) (getD_mem ‹_› ‹_›) (getD_mem ‹_› ‹_›)⟩
        | (rw [hy (ob.getD (p - oa.length) default)]
           exact ⟨(hg _ _ _ _ ‹_› ‹_› ‹_› ‹_›).getD ‹_› ‹_› ‹_› ‹_›, hM _ _ _ _ (getD_mem ‹_› ‹_›) (getD_mem ‹_› ‹_›) (getD_mem ‹_› ‹_›) (getD_mem ‹_› ‹_›)⟩)
  refine ⟨A, h1, ⟨?_, ?_, ?_, ?_⟩, fun p q r s hp hq hr hss => ?_⟩
  · rw [length_sorb]; exact e1
  · rw [length_sorb]; exact e2
  · rw [length_sorb]; exact e3
  · rw [length_sorb]; exact e4
  rw [h2 p q r s (by rwa [length_sorb] at hp) (by rwa [length_sorb] at hq) (by rwa [length_sorb] at hr) (by rwa [length_sorb] at hss)]
  exact sub_near hs u0 (val p r q s hp hr hq hss).1 (val p s q r hp hss hq hr).1 (val p r q s hp hr hq hss).2 (val p s q r hp hss hq hr).2

/-- C100: exchanging the first two indices changes the sign up to twice the error. -/
theorem C100_first {g : Form V K} (hy : Sym g) {E : ℝ} {A : Arr K} {o v w : List (SOrb V)} (h : NearTab E A o o v w (physA g)) {p q r s : ℕ}
    (hp : p < o.length) (hq : q < o.length) (hr : r < v.length) (hs : s < w.length) : ‖A.val q p r s + A.val p q r s‖ ≤ 2 * E := by
  have h1 := h.2 q p r s hq hp hr hs
  have h2 := h.2 p q r s hp hq hr hs
  have h3 := (C39_anti hy o[p] o[q] v[r] w[s]).1
  have : A.val q p r s + A.val p q r s = (A.val q p r s - physA g o[q] o[p] v[r] w[s]) + (A.val p q r s - physA g o[p] o[q] v[r] w[s]) := by rw [h3]; ring
  rw [this]
  linarith [norm_add_le (A.val q p r s - physA g o[q] o[p] v[r] w[s]) (A.val p q r s - physA g o[p] o[q] v[r] w[s])]

/-- C100: it does not change the sign exactly.  For every `ε > 0` there are an array of pyscf within `ε` of integrals with all symmetries, and exact subtraction, for which the
sum of the two elements is `ε`. -/
theorem C100_first_refuted (ε : ℝ) (h : 0 < ε) : ∃ (k : Kernel Unit K) (A : Arr K), Shaped k ∧ KNear (fun _ => True) ε (fun _ _ _ _ => 0) k ∧ Sym (fun _ _ _ _ => (0 : K) : Form Unit K) ∧
    fl_get_phys_antiu (· - ·) k [(), ()] [(), ()] [(), ()] [(), ()] [] [] [] [] = .ok A ∧ (A.n1 = 2 ∧ A.n2 = 2 ∧ A.n3 = 2 ∧ A.n4 = 2) ∧ A.val 1 0 0 1 + A.val 0 1 0 1 = (ε : K) := by
  let k : Kernel Unit K := fun o1 o2 o3 o4 => ⟨o1.length, o2.length, o3.length, o4.length, fun p q _ _ => if p = 0 ∧ q = 0 then (ε : K) else 0⟩
  have hk : Shaped k := fun _ _ _ _ => ⟨rfl, rfl, rfl, rfl⟩
  obtain ⟨A, h1, e1, e2, e3, e4, h2⟩ := fl_chemu (sub := fun x y : K => x - y) hk [(), ()] [(), ()] [(), ()] [(), ()] [] [] [] []
  refine ⟨k, A.t0213, hk, fun o1 o2 o3 o4 _ _ _ _ => ⟨⟨rfl, rfl, rfl, rfl⟩, fun p q r s _ _ _ _ => ?_⟩, fun _ _ _ _ => rfl, by rw [fl_get_phys_antiu, h1]; rfl, ⟨e1, e3, e2, e4⟩, ?_⟩
  · simp only [sub_zero, k]
    split
    · rw [RCLike.norm_ofReal, abs_of_pos h]
    · rw [norm_zero]; exact h.le
  · change A.val 1 0 0 1 + A.val 0 0 1 1 = _
    rw [h2 1 0 0 1 (by simp) (by simp) (by simp) (by simp), h2 0 0 1 1 (by simp) (by simp) (by simp) (by simp)]
    simp [chemuVal, k]

/-! ### the blocks, and the iterations that read them -/

/-- The four axes of an array as a numpy array of element type `t`. -/
def Arr.toNumpy (t : Bool) (A : Arr K) : Heap.Arr K :=
  ⟨t, [A.n1, A.n2, A.n3, A.n4], fun idx => match idx with | [p, q, r, s] => A.val p q r s | _ => 0⟩

/-- The exact integrals of occupied and virtual spin orbitals. -/
def exactI (g : Form V K) (o v : List (SOrb V)) : CC.TwoE (Fin o.length) (Fin v.length) K where
  vvvv a b c d := physA g v[a] v[b] v[c] v[d]
  vvvo a b c d := physA g v[a] v[b] v[c] o[d]
  vovv a b c d := physA g v[a] o[b] v[c] v[d]
  vvoo a b c d := physA g v[a] v[b] o[c] o[d]
  vovo a b c d := physA g v[a] o[b] v[c] o[d]
  oovv a b c d := physA g o[a] o[b] v[c] v[d]
  vooo a b c d := physA g v[a] o[b] o[c] o[d]
  ooov a b c d := physA g o[a] o[b] o[c] v[d]
  oooo a b c d := physA g o[a] o[b] o[c] o[d]

theorem exactI_anti {g : Form V K} (hy : Sym g) (o v : List (SOrb V)) : CC.AntiI (exactI g o v) := by
  constructor <;> intro a b c d <;> first | exact (C39_anti hy _ _ _ _).1 | exact (C39_anti hy _ _ _ _).2.1

/-- Numbers of occupied and of virtual orbitals. -/
def sizes (no nv : ℕ) : ℕ → ℕ
  | 0 => no
  | _ => nv

theorem NearTab.nearIs {E : ℝ} {A : Arr K} {α : Type} {L1 L2 L3 L4 : List α} {f : α → α → α → α → K} (h : NearTab E A L1 L2 L3 L4 f) (t : Bool) {n : ℕ → ℕ} {a b c d : ℕ}
    (e1 : n a = L1.length) (e2 : n b = L2.length) (e3 : n c = L3.length) (e4 : n d = L4.length) (X : Fin (n a) → Fin (n b) → Fin (n c) → Fin (n d) → K)
    (hX : ∀ p q r s, X p q r s = f (L1[p.1]'(e1 ▸ p.2)) (L2[q.1]'(e2 ▸ q.2)) (L3[r.1]'(e3 ▸ r.2)) (L4[s.1]'(e4 ▸ s.2))) : Heap.NearIs E (Heap.Desc.four t a b c d X) (A.toNumpy t) := by
  refine Heap.nearIs_four.2 ⟨rfl, ?_, fun p q r s => ?_⟩
  · change [A.n1, A.n2, A.n3, A.n4] = _
    rw [h.1.1, h.1.2.1, h.1.2.2.1, h.1.2.2.2, e1, e2, e3, e4]
  · rw [hX]
    exact h.2 p.1 q.1 r.1 s.1 (e1 ▸ p.2) (e2 ▸ q.2) (e3 ▸ r.2) (e4 ▸ s.2)

/-- C100: all blocks of an `eri_blocks` object, in the order in which `ccsd_simple` and `ccsd_stanton` read them. -/
theorem C100_blocks (hk : Shaped k) (hg : KNear S ε g k) (hM : ∀ a b c d, S a → S b → S c → S d → ‖g a b c d‖ ≤ M) (hs : SubErr sub u η) (ε0 : 0 ≤ ε) (u0 : 0 ≤ u)
    (hη : 0 ≤ η) (M0 : 0 ≤ M) {oa ob va vb : List V} (i1 : ∀ x ∈ oa, S x) (i2 : ∀ x ∈ ob, S x) (i3 : ∀ x ∈ va, S x) (i4 : ∀ x ∈ vb, S x) (t : Bool) :
    ∃ vvvv vvvo vovv vvoo vovo oovv vooo ooov oooo, fl_build_integrals sub k (fun _ => true) oa ob va vb =
        .ok ⟨some vvvv, some vvvo, some vovv, some vvoo, some vovo, some oovv, some vooo, some ooov, some oooo⟩ ∧
      let o := sorb oa ob
      let v := sorb va vb
      ∀ (F : CC.OneE (Fin o.length) (Fin v.length) K) (fs : List (Heap.Arr K)),
        List.Forall₂ (Heap.NearIs (n := sizes o.length v.length) (errOf ε M u η)) [.two t 0 0 F.oo, .two t 0 1 F.ov, .two t 1 0 F.vo, .two t 1 1 F.vv] fs →
        List.Forall₂ (Heap.NearIs (errOf ε M u η)) (Heap.ham (n := sizes o.length v.length) t F (exactI g o v))
          (fs ++ [oooo, ooov, oovv, vooo, vovo, vovv, vvoo, vvvo, vvvv].map (Arr.toNumpy t)) := by
  obtain ⟨A1, e1, t1⟩ := C100_get_phys_antiu hk hg hM hs ε0 u0 hη M0 i3 i3 i3 i3 i4 i4 i4 i4
  obtain ⟨A2, e2, t2⟩ := C100_get_phys_antiu hk hg hM hs ε0 u0 hη M0 i3 i3 i3 i1 i4 i4 i4 i2
  obtain ⟨A3, e3, t3⟩ := C100_get_phys_antiu hk hg hM hs ε0 u0 hη M0 i3 i1 i3 i3 i4 i2 i4 i4
  obtain ⟨A4, e4, t4⟩ := C100_get_phys_antiu hk hg hM hs ε0 u0 hη M0 i3 i3 i1 i1 i4 i4 i2 i2
  obtain ⟨A5, e5, t5⟩ := C100_get_phys_antiu hk hg hM hs ε0 u0 hη M0 i3 i1 i3 i1 i4 i2 i4 i2
  obtain ⟨A6, e6, t6⟩ := C100_get_phys_antiu hk hg hM hs ε0 u0 hη M0 i1 i1 i3 i3 i2 i2 i4 i4
  obtain ⟨A7, e7, t7⟩ := C100_get_phys_antiu hk hg hM hs ε0 u0 hη M0 i3 i1 i1 i1 i4 i2 i2 i2
  obtain ⟨A8, e8, t8⟩ := C100_get_phys_antiu hk hg hM hs ε0 u0 hη M0 i1 i1 i1 i3 i2 i2 i2 i4
  obtain ⟨A9, e9, t9⟩ := C100_get_phys_antiu hk hg hM hs ε0 u0 hη M0 i1 i1 i1 i1 i2 i2 i2 i2
  refine ⟨A1, A2, A3, A4, A5, A6, A7, A8, A9, ?_, fun F fs hf => ?_⟩
  · simp only [fl_build_integrals, e1, e2, e3, e4, e5, e6, e7, e8, e9, ifHas]
    rfl
  · refine List.rel_append hf (.cons ?_ (.cons ?_ (.cons ?_ (.cons ?_ (.cons ?_ (.cons ?_ (.cons ?_ (.cons ?_ (.cons ?_ .nil)))))))))
    · exact t9.nearIs t rfl rfl rfl rfl _ fun _ _ _ _ => rfl
    · exact t8.nearIs t rfl rfl rfl rfl _ fun _ _ _ _ => rfl
    · exact t6.nearIs t rfl rfl rfl rfl _ fun _ _ _ _ => rfl
    · exact t7.nearIs t rfl rfl rfl rfl _ fun _ _ _ _ => rfl
    · exact t5.nearIs t rfl rfl rfl rfl _ fun _ _ _ _ => rfl
    · exact t3.nearIs t rfl rfl rfl rfl _ fun _ _ _ _ => rfl
    · exact t4.nearIs t rfl rfl rfl rfl _ fun _ _ _ _ => rfl
    · exact t2.nearIs t rfl rfl rfl rfl _ fun _ _ _ _ => rfl
    · exact t1.nearIs t rfl rfl rfl rfl _ fun _ _ _ _ => rfl

/-- The integrals of finitely many orbitals are bounded. -/
theorem form_bound (g : Form V K) (l : List V) : ∃ M : ℝ, 0 ≤ M ∧ ∀ a b c d, a ∈ l → b ∈ l → c ∈ l → d ∈ l → ‖g a b c d‖ ≤ M := by
  obtain ⟨M, hM⟩ := (Set.finite_range fun i : Fin l.length × Fin l.length × Fin l.length × Fin l.length => ‖g l[i.1] l[i.2.1] l[i.2.2.1] l[i.2.2.2]‖).bddAbove
  refine ⟨max 0 M, le_max_left _ _, fun a b c d ha hb hc hd => ?_⟩
  obtain ⟨i, hi, rfl⟩ := List.getElem_of_mem ha
  obtain ⟨j, hj, rfl⟩ := List.getElem_of_mem hb
  obtain ⟨p, hp, rfl⟩ := List.getElem_of_mem hc
  obtain ⟨q, hq, rfl⟩ := List.getElem_of_mem hd
  exact (hM ⟨(⟨i, hi⟩, ⟨j, hj⟩, ⟨p, hp⟩, ⟨q, hq⟩), rfl⟩).trans (le_max_right _ _)

/-- The nine blocks as the coupled-cluster routines read them, after the four blocks of the Fock matrix. -/
def EriBlocks.args (B : EriBlocks K) (t : Bool) (fs : List (Heap.Arr K)) : List (Heap.Arr K) :=
  fs ++ ([B.oooo, B.ooov, B.oovv, B.vooo, B.vovo, B.vovv, B.vvoo, B.vvvo, B.vvvv].filterMap id).map (Arr.toNumpy t)

/-- The numbers of occupied and of virtual spin orbitals, as the sizes of the index types. -/
abbrev counts (oa ob va vb : List V) : ℕ → ℕ := sizes (sorb oa ob).length (sorb va vb).length

/-- The exact integrals, over these index types. -/
abbrev countsI (g : Form V K) (oa ob va vb : List V) : CC.TwoE (Fin (counts oa ob va vb 0)) (Fin (counts oa ob va vb 1)) K := exactI g (sorb oa ob) (sorb va vb)

/-- C100: an `eri_blocks` object computed in rounded arithmetic of unit roundoff `u`, from integrals of pyscf and a Fock matrix that are wrong by at most `c * u`, meets the assumption of C94
to C97 on the arguments of the coupled-cluster routines, with another constant. -/
theorem C100_arguments {g : Form V K} (oa ob va vb : List V) {η c M : ℝ} (hη : 0 ≤ η) (hc : 0 ≤ c) (M0 : 0 ≤ M)
    (hM : ∀ a b c d, a ∈ oa ++ ob ++ va ++ vb → b ∈ oa ++ ob ++ va ++ vb → c ∈ oa ++ ob ++ va ++ vb → d ∈ oa ++ ob ++ va ++ vb → ‖g a b c d‖ ≤ M)
    {u : ℝ} {G : List (List ℝ) → ℝ} (u0 : 0 ≤ u) (u1 : u ≤ 1) (A : Heap.Rounding K u η G) {k : Kernel V K} (hk : Shaped k) (hg : KNear (· ∈ oa ++ ob ++ va ++ vb) (c * u) g k) :
    ∃ B, fl_build_integrals (A.op .sub) k (fun _ => true) oa ob va vb = .ok B ∧
      ∀ (t : Bool) (F : CC.OneE (Fin (counts oa ob va vb 0)) (Fin (counts oa ob va vb 1)) K) (fs : List (Heap.Arr K)),
        List.Forall₂ (Heap.NearIs (c * u)) [.two t 0 0 F.oo, .two t 0 1 F.ov, .two t 1 0 F.vo, .two t 1 1 F.vv] fs →
        List.Forall₂ (Heap.NearIs ((4 * c + 2 * M + η) * u)) (Heap.ham t F (countsI g oa ob va vb)) (B.args t fs) := by
  have cu : 0 ≤ c * u := mul_nonneg hc u0
  have cc : c * u ≤ c := mul_le_of_le_one_right hc u1
  have e1 : c * u ≤ errOf (c * u) M u η := by
    unfold errOf
    have : 0 ≤ u * (2 * M + 2 * (c * u) + η) := by positivity
    linarith
  have e2 : errOf (c * u) M u η ≤ (4 * c + 2 * M + η) * u := by
    unfold errOf
    nlinarith [mul_le_mul_of_nonneg_left cc u0]
  have mono : ∀ {ε ε' : ℝ}, ε ≤ ε' → ∀ {ds : List (Heap.Desc (counts oa ob va vb) K)} {bs : List (Heap.Arr K)},
      List.Forall₂ (Heap.NearIs ε) ds bs → List.Forall₂ (Heap.NearIs ε') ds bs := fun h _ _ hb => hb.imp fun _ _ x => ⟨x.1, x.2.1, fun idx hi => (x.2.2 idx hi).trans h⟩
  obtain ⟨A1, A2, A3, A4, A5, A6, A7, A8, A9, hB, -⟩ := C100_blocks hk hg hM (fun x y => A.op_err .sub x y) cu u0 hη M0 (oa := oa) (ob := ob) (va := va) (vb := vb)
    (fun x hx => by simp [hx]) (fun x hx => by simp [hx]) (fun x hx => by simp [hx]) (fun x hx => by simp [hx]) false
  refine ⟨_, hB, fun t F fs hf => ?_⟩
  obtain ⟨B1, B2, B3, B4, B5, B6, B7, B8, B9, hB', h⟩ := C100_blocks hk hg hM (fun x y => A.op_err .sub x y) cu u0 hη M0 (oa := oa) (ob := ob) (va := va) (vb := vb)
    (fun x hx => by simp [hx]) (fun x hx => by simp [hx]) (fun x hx => by simp [hx]) (fun x hx => by simp [hx]) t
  rw [hB] at hB'
  simp only [Except.ok.injEq, EriBlocks.mk.injEq, Option.some.injEq] at hB'
  obtain ⟨rfl, rfl, rfl, rfl, rfl, rfl, rfl, rfl, rfl⟩ := hB'
  exact mono e2 (h F fs (mono e1 hf))

/-- C100: the CCSD iteration with the integrals computed by `eri_blocks`, all in rounded arithmetic: for weak coupling the amplitudes approach the solution for the exact integrals up to a
constant times the unit roundoff, although the computed integrals need not be antisymmetric in their first two indices. -/
theorem C100_ccsd (re : K → K) (hre : ∀ x y, ‖re x - re y‖ ≤ ‖x - y‖) {η : ℝ} (hη : 0 ≤ η) {G : List (List ℝ) → ℝ} (hG : Heap.GMono G) {c : ℝ} (hc : 0 ≤ c) (t : Bool)
    {g : Form V K} (hy : Sym g) (oa ob va vb : List V) (f : CC.OneE (Fin (counts oa ob va vb 0)) (Fin (counts oa ob va vb 1)) K)
    (eo : Fin (counts oa ob va vb 0) → K) (ev : Fin (counts oa ob va vb 1) → K) (g1 : ∀ a i, ev a - eo i ≠ 0) (g2 : ∀ a b i j, ev a + ev b - eo i - eo j ≠ 0) (r : ℝ) (hr : 0 < r)
    {routine : Heap.Fun} (hrt : Heap.Residuals routine) :
    ∃ z₀ : ℝ, 0 < z₀ ∧ ∀ z : K, ‖z‖ ≤ z₀ → ∃ T : CC.Amp K (Fin (counts oa ob va vb 0)) (Fin (counts oa ob va vb 1)), CC.Anti T.2 ∧ ‖T‖ ≤ r ∧
      CC.ccsd_simple ((CC.diagF eo ev).addMul z f) (countsI (fun a b c d => z * g a b c d) oa ob va vb) T.1 T.2 = (fun _ _ => 0, fun _ _ _ _ => 0) ∧
      ∃ C u₀ : ℝ, 0 ≤ C ∧ 0 < u₀ ∧ ∀ u, 0 ≤ u → u ≤ u₀ → ∀ (A : Heap.Rounding K u η G), Heap.SignSym A → ∀ (k : Kernel V K), Shaped k →
        KNear (· ∈ oa ++ ob ++ va ++ vb) (c * u) (fun a b c d => z * g a b c d) k →
        ∃ B, fl_build_integrals (A.op .sub) k (fun _ => true) oa ob va vb = .ok B ∧ ∀ (fs : List (Heap.Arr K)) (d1 d2 : Heap.Arr K) (x : ℕ → Heap.Arr K × Heap.Arr K),
          List.Forall₂ (Heap.NearIs (n := counts oa ob va vb) (c * u)) [.two t 0 0 ((CC.diagF eo ev).addMul z f).oo, .two t 0 1 ((CC.diagF eo ev).addMul z f).ov,
            .two t 1 0 ((CC.diagF eo ev).addMul z f).vo, .two t 1 1 ((CC.diagF eo ev).addMul z f).vv] fs → Heap.NearDen (n := counts oa ob va vb) (c * u) eo ev d1 d2 →
          Heap.Typed (counts oa ob va vb) t (x 0) → CC.Anti (Heap.ampOf (n := counts oa ob va vb) (x 0)).2 → ‖Heap.ampOf (n := counts oa ob va vb) (x 0)‖ ≤ r →
          ∀ j, (∀ i < j, Heap.AStep A re routine (B.args t fs) d1 d2 (x i) (x (i + 1))) →
            ‖Heap.ampOf (n := counts oa ob va vb) (x j) - T‖ ≤ (1 / 2) ^ j * ‖Heap.ampOf (n := counts oa ob va vb) (x 0) - T‖ + C * u ∧
              ∃ y, Heap.AStep A re routine (B.args t fs) d1 d2 (x j) y := by
  have lin : ∀ z : K, countsI (fun a b c d => z * g a b c d) oa ob va vb = (countsI g oa ob va vb).mul z := by
    intro z
    have : ∀ p q r s : SOrb V, physA (fun a b c d => z * g a b c d) p q r s = z * physA g p q r s := by
      intro p q r s
      have c : ∀ p q r s : SOrb V, chem (fun a b c d => z * g a b c d) p q r s = z * chem g p q r s := fun p q r s => by unfold chem; split <;> simp
      unfold physA phys
      rw [c, c]; ring
    simp only [countsI, exactI, CC.TwoE.mul, this]
    rfl
  obtain ⟨M, M0, hM⟩ := form_bound g (oa ++ ob ++ va ++ vb)
  have hc' : 0 ≤ 4 * c + 2 * M + η := by positivity
  obtain ⟨z₀, hz, h⟩ := Heap.C96_weak (n := counts oa ob va vb) re hre hη hG hc' t f (countsI g oa ob va vb) (exactI_anti hy _ _) eo ev g1 g2 r hr hrt
  refine ⟨min z₀ 1, lt_min hz one_pos, fun z hzz => ?_⟩
  obtain ⟨T, hA, hn, hsol, C, u₀, hC, hu, h'⟩ := h z (hzz.trans (min_le_left _ _))
  have z1 : ‖z‖ ≤ 1 := hzz.trans (min_le_right _ _)
  refine ⟨T, hA, hn, by rw [lin]; exact hsol, C, min u₀ 1, hC, lt_min hu one_pos, fun u u0 uu A hSA k hk hg => ?_⟩
  obtain ⟨B, hB, hin⟩ := C100_arguments oa ob va vb hη hc M0 (fun a b c d ha hb hc hd => by
    rw [norm_mul]; exact (mul_le_of_le_one_left (norm_nonneg _) z1).trans (hM a b c d ha hb hc hd)) u0 (uu.trans (min_le_right _ _)) A hk hg
  refine ⟨B, hB, fun fs d1 d2 x hf hd t0 a0 n0 j hj => ?_⟩
  have hin' := hin t _ fs hf
  rw [lin] at hin'
  have le : c * u ≤ (4 * c + 2 * M + η) * u := mul_le_mul_of_nonneg_right (by linarith) u0
  exact h' u u0 (uu.trans (min_le_left _ _)) A hSA (B.args t fs) d1 d2 x hin' ⟨fun a i => (hd.1 a i).trans le, fun a b i j => (hd.2 a b i j).trans le⟩ t0 a0 n0 j hj
end near

/-! ### assembling the integrals of spin orbitals -/

section spin
variable {K : Type} [RCLike K] {Oa Va Ob Vb O₁ V₁ O₂ V₂ O V : Type}

/-- All blocks are wrong by at most `ε` and the exact ones are bounded by `M`. -/
structure FullNear (ε M : ℝ) (I J : CC.TwoEFull O₁ V₁ O₂ V₂ K) : Prop where
  vvvv : ∀ x y z w, ‖I.vvvv x y z w - J.vvvv x y z w‖ ≤ ε ∧ ‖J.vvvv x y z w‖ ≤ M
  vvvo : ∀ x y z w, ‖I.vvvo x y z w - J.vvvo x y z w‖ ≤ ε ∧ ‖J.vvvo x y z w‖ ≤ M
  vvov : ∀ x y z w, ‖I.vvov x y z w - J.vvov x y z w‖ ≤ ε ∧ ‖J.vvov x y z w‖ ≤ M
  vovv : ∀ x y z w, ‖I.vovv x y z w - J.vovv x y z w‖ ≤ ε ∧ ‖J.vovv x y z w‖ ≤ M
  ovvv : ∀ x y z w, ‖I.ovvv x y z w - J.ovvv x y z w‖ ≤ ε ∧ ‖J.ovvv x y z w‖ ≤ M
  vvoo : ∀ x y z w, ‖I.vvoo x y z w - J.vvoo x y z w‖ ≤ ε ∧ ‖J.vvoo x y z w‖ ≤ M
  vovo : ∀ x y z w, ‖I.vovo x y z w - J.vovo x y z w‖ ≤ ε ∧ ‖J.vovo x y z w‖ ≤ M
  voov : ∀ x y z w, ‖I.voov x y z w - J.voov x y z w‖ ≤ ε ∧ ‖J.voov x y z w‖ ≤ M
  ovvo : ∀ x y z w, ‖I.ovvo x y z w - J.ovvo x y z w‖ ≤ ε ∧ ‖J.ovvo x y z w‖ ≤ M
  ovov : ∀ x y z w, ‖I.ovov x y z w - J.ovov x y z w‖ ≤ ε ∧ ‖J.ovov x y z w‖ ≤ M
  oovv : ∀ x y z w, ‖I.oovv x y z w - J.oovv x y z w‖ ≤ ε ∧ ‖J.oovv x y z w‖ ≤ M
  vooo : ∀ x y z w, ‖I.vooo x y z w - J.vooo x y z w‖ ≤ ε ∧ ‖J.vooo x y z w‖ ≤ M
  ovoo : ∀ x y z w, ‖I.ovoo x y z w - J.ovoo x y z w‖ ≤ ε ∧ ‖J.ovoo x y z w‖ ≤ M
  oovo : ∀ x y z w, ‖I.oovo x y z w - J.oovo x y z w‖ ≤ ε ∧ ‖J.oovo x y z w‖ ≤ M
  ooov : ∀ x y z w, ‖I.ooov x y z w - J.ooov x y z w‖ ≤ ε ∧ ‖J.ooov x y z w‖ ≤ M
  oooo : ∀ x y z w, ‖I.oooo x y z w - J.oooo x y z w‖ ≤ ε ∧ ‖J.oooo x y z w‖ ≤ M

/-- The nine blocks are wrong by at most `ε`. -/
structure TwoENear (ε : ℝ) (I J : CC.TwoE O V K) : Prop where
  vvvv : ∀ x y z w, ‖I.vvvv x y z w - J.vvvv x y z w‖ ≤ ε
  vvvo : ∀ x y z w, ‖I.vvvo x y z w - J.vvvo x y z w‖ ≤ ε
  vovv : ∀ x y z w, ‖I.vovv x y z w - J.vovv x y z w‖ ≤ ε
  vvoo : ∀ x y z w, ‖I.vvoo x y z w - J.vvoo x y z w‖ ≤ ε
  vovo : ∀ x y z w, ‖I.vovo x y z w - J.vovo x y z w‖ ≤ ε
  oovv : ∀ x y z w, ‖I.oovv x y z w - J.oovv x y z w‖ ≤ ε
  vooo : ∀ x y z w, ‖I.vooo x y z w - J.vooo x y z w‖ ≤ ε
  ooov : ∀ x y z w, ‖I.ooov x y z w - J.ooov x y z w‖ ≤ ε
  oooo : ∀ x y z w, ‖I.oooo x y z w - J.oooo x y z w‖ ≤ ε

/-- C100: with exact subtraction the function is the one of C18. -/
theorem C100_int_to_spin_exact (Ia : CC.TwoEFull Oa Va Oa Va K) (Ib : CC.TwoEFull Ob Vb Ob Vb K) (I : CC.TwoEFull Oa Va Ob Vb K) :
    CC.fl_int_to_spin (· - ·) Ia Ib I = CC.int_to_spin Ia Ib I := rfl

/-- C100: the integrals of spin orbitals assembled by `int_to_spin` from integrals that are wrong by at most `ε` are wrong by at most `2ε + u(2M + 2ε + η)`. -/
theorem C100_int_to_spin {sub : K → K → K} {ε M u η : ℝ} (hs : SubErr sub u η) (ε0 : 0 ≤ ε) (u0 : 0 ≤ u) (hη : 0 ≤ η) (M0 : 0 ≤ M) {Ia Ja : CC.TwoEFull Oa Va Oa Va K}
    {Ib Jb : CC.TwoEFull Ob Vb Ob Vb K} {I J : CC.TwoEFull Oa Va Ob Vb K} (ha : FullNear ε M Ia Ja) (hb : FullNear ε M Ib Jb) (h : FullNear ε M I J) :
    TwoENear (errOf ε M u η) (CC.fl_int_to_spin sub Ia Ib I) (CC.int_to_spin Ja Jb J) := by
  have big : ε ≤ errOf ε M u η := by
    unfold errOf
    have : 0 ≤ u * (2 * M + 2 * ε + η) := by positivity
    linarith
  have zero : 0 ≤ errOf ε M u η := ε0.trans big
  have neg : ∀ {a b : K}, ‖a - b‖ ≤ ε → ‖-a - -b‖ ≤ errOf ε M u η := fun h => by rw [← neg_sub', norm_neg]; exact h.trans big
  constructor
  · rintro (x | x) (y | y) (z | z) (w | w)
    · exact sub_near hs u0 (ha.vvvv x y z w).1 (ha.vvvv x y w z).1 (ha.vvvv x y z w).2 (ha.vvvv x y w z).2
    · simpa [CC.fl_int_to_spin, CC.int_to_spin, CC.int_to_spin_block] using zero
    · simpa [CC.fl_int_to_spin, CC.int_to_spin, CC.int_to_spin_block] using zero
    · simpa [CC.fl_int_to_spin, CC.int_to_spin, CC.int_to_spin_block] using zero
    · simpa [CC.fl_int_to_spin, CC.int_to_spin, CC.int_to_spin_block] using zero
    · exact (h.vvvv x y z w).1.trans big
    · exact neg (h.vvvv x y w z).1
    · simpa [CC.fl_int_to_spin, CC.int_to_spin, CC.int_to_spin_block] using zero
    · simpa [CC.fl_int_to_spin, CC.int_to_spin, CC.int_to_spin_block] using zero
    · exact neg (h.vvvv y x z w).1
    · exact (h.vvvv y x w z).1.trans big
    · simpa [CC.fl_int_to_spin, CC.int_to_spin, CC.int_to_spin_block] using zero
    · simpa [CC.fl_int_to_spin, CC.int_to_spin, CC.int_to_spin_block] using zero
    · simpa [CC.fl_int_to_spin, CC.int_to_spin, CC.int_to_spin_block] using zero
    · simpa [CC.fl_int_to_spin, CC.int_to_spin, CC.int_to_spin_block] using zero
    · exact sub_near hs u0 (hb.vvvv x y z w).1 (hb.vvvv x y w z).1 (hb.vvvv x y z w).2 (hb.vvvv x y w z).2
  · rintro (x | x) (y | y) (z | z) (w | w)
    · exact sub_near hs u0 (ha.vvvo x y z w).1 (ha.vvov x y w z).1 (ha.vvvo x y z w).2 (ha.vvov x y w z).2
    · simpa [CC.fl_int_to_spin, CC.int_to_spin, CC.int_to_spin_block] using zero
    · simpa [CC.fl_int_to_spin, CC.int_to_spin, CC.int_to_spin_block] using zero
    · simpa [CC.fl_int_to_spin, CC.int_to_spin, CC.int_to_spin_block] using zero
    · simpa [CC.fl_int_to_spin, CC.int_to_spin, CC.int_to_spin_block] using zero
    · exact (h.vvvo x y z w).1.trans big
    · exact neg (h.vvov x y w z).1
    · simpa [CC.fl_int_to_spin, CC.int_to_spin, CC.int_to_spin_block] using zero
    · simpa [CC.fl_int_to_spin, CC.int_to_spin, CC.int_to_spin_block] using zero
    · exact neg (h.vvvo y x z w).1
    · exact (h.vvov y x w z).1.trans big
    · simpa [CC.fl_int_to_spin, CC.int_to_spin, CC.int_to_spin_block] using zero
    · simpa [CC.fl_int_to_spin, CC.int_to_spin, CC.int_to_spin_block] using zero
    · simpa [CC.fl_int_to_spin, CC.int_to_spin, CC.int_to_spin_block] using zero
    · simpa [CC.fl_int_to_spin, CC.int_to_spin, CC.int_to_spin_block] using zero
    · exact sub_near hs u0 (hb.vvvo x y z w).1 (hb.vvov x y w z).1 (hb.vvvo x y z w).2 (hb.vvov x y w z).2
  · rintro (x | x) (y | y) (z | z) (w | w)
    · exact sub_near hs u0 (ha.vovv x y z w).1 (ha.vovv x y w z).1 (ha.vovv x y z w).2 (ha.vovv x y w z).2
    · simpa [CC.fl_int_to_spin, CC.int_to_spin, CC.int_to_spin_block] using zero
    · simpa [CC.fl_int_to_spin, CC.int_to_spin, CC.int_to_spin_block] using zero
    · simpa [CC.fl_int_to_spin, CC.int_to_spin, CC.int_to_spin_block] using zero
    · simpa [CC.fl_int_to_spin, CC.int_to_spin, CC.int_to_spin_block] using zero
    · exact (h.vovv x y z w).1.trans big
    · exact neg (h.vovv x y w z).1
    · simpa [CC.fl_int_to_spin, CC.int_to_spin, CC.int_to_spin_block] using zero
    · simpa [CC.fl_int_to_spin, CC.int_to_spin, CC.int_to_spin_block] using zero
    · exact neg (h.ovvv y x z w).1
    · exact (h.ovvv y x w z).1.trans big
    · simpa [CC.fl_int_to_spin, CC.int_to_spin, CC.int_to_spin_block] using zero
    · simpa [CC.fl_int_to_spin, CC.int_to_spin, CC.int_to_spin_block] using zero
    · simpa [CC.fl_int_to_spin, CC.int_to_spin, CC.int_to_spin_block] using zero
    · simpa [CC.fl_int_to_spin, CC.int_to_spin, CC.int_to_spin_block] using zero
    · exact sub_near hs u0 (hb.vovv x y z w).1 (hb.vovv x y w z).1 (hb.vovv x y z w).2 (hb.vovv x y w z).2
  · rintro (x | x) (y | y) (z | z) (w | w)
    · exact sub_near hs u0 (ha.vvoo x y z w).1 (ha.vvoo x y w z).1 (ha.vvoo x y z w).2 (ha.vvoo x y w z).2
    · simpa [CC.fl_int_to_spin, CC.int_to_spin, CC.int_to_spin_block] using zero
    · simpa [CC.fl_int_to_spin, CC.int_to_spin, CC.int_to_spin_block] using zero
    · simpa [CC.fl_int_to_spin, CC.int_to_spin, CC.int_to_spin_block] using zero
    · simpa [CC.fl_int_to_spin, CC.int_to_spin, CC.int_to_spin_block] using zero
    · exact (h.vvoo x y z w).1.trans big
    · exact neg (h.vvoo x y w z).1
    · simpa [CC.fl_int_to_spin, CC.int_to_spin, CC.int_to_spin_block] using zero
    · simpa [CC.fl_int_to_spin, CC.int_to_spin, CC.int_to_spin_block] using zero
    · exact neg (h.vvoo y x z w).1
    · exact (h.vvoo y x w z).1.trans big
    · simpa [CC.fl_int_to_spin, CC.int_to_spin, CC.int_to_spin_block] using zero
    · simpa [CC.fl_int_to_spin, CC.int_to_spin, CC.int_to_spin_block] using zero
    · simpa [CC.fl_int_to_spin, CC.int_to_spin, CC.int_to_spin_block] using zero
    · simpa [CC.fl_int_to_spin, CC.int_to_spin, CC.int_to_spin_block] using zero
    · exact sub_near hs u0 (hb.vvoo x y z w).1 (hb.vvoo x y w z).1 (hb.vvoo x y z w).2 (hb.vvoo x y w z).2
  · rintro (x | x) (y | y) (z | z) (w | w)
    · exact sub_near hs u0 (ha.vovo x y z w).1 (ha.voov x y w z).1 (ha.vovo x y z w).2 (ha.voov x y w z).2
    · simpa [CC.fl_int_to_spin, CC.int_to_spin, CC.int_to_spin_block] using zero
    · simpa [CC.fl_int_to_spin, CC.int_to_spin, CC.int_to_spin_block] using zero
    · simpa [CC.fl_int_to_spin, CC.int_to_spin, CC.int_to_spin_block] using zero
    · simpa [CC.fl_int_to_spin, CC.int_to_spin, CC.int_to_spin_block] using zero
    · exact (h.vovo x y z w).1.trans big
    · exact neg (h.voov x y w z).1
    · simpa [CC.fl_int_to_spin, CC.int_to_spin, CC.int_to_spin_block] using zero
    · simpa [CC.fl_int_to_spin, CC.int_to_spin, CC.int_to_spin_block] using zero
    · exact neg (h.ovvo y x z w).1
    · exact (h.ovov y x w z).1.trans big
    · simpa [CC.fl_int_to_spin, CC.int_to_spin, CC.int_to_spin_block] using zero
    · simpa [CC.fl_int_to_spin, CC.int_to_spin, CC.int_to_spin_block] using zero
    · simpa [CC.fl_int_to_spin, CC.int_to_spin, CC.int_to_spin_block] using zero
    · simpa [CC.fl_int_to_spin, CC.int_to_spin, CC.int_to_spin_block] using zero
    · exact sub_near hs u0 (hb.vovo x y z w).1 (hb.voov x y w z).1 (hb.vovo x y z w).2 (hb.voov x y w z).2
  · rintro (x | x) (y | y) (z | z) (w | w)
    · exact sub_near hs u0 (ha.oovv x y z w).1 (ha.oovv x y w z).1 (ha.oovv x y z w).2 (ha.oovv x y w z).2
    · simpa [CC.fl_int_to_spin, CC.int_to_spin, CC.int_to_spin_block] using zero
    · simpa [CC.fl_int_to_spin, CC.int_to_spin, CC.int_to_spin_block] using zero
    · simpa [CC.fl_int_to_spin, CC.int_to_spin, CC.int_to_spin_block] using zero
    · simpa [CC.fl_int_to_spin, CC.int_to_spin, CC.int_to_spin_block] using zero
    · exact (h.oovv x y z w).1.trans big
    · exact neg (h.oovv x y w z).1
    · simpa [CC.fl_int_to_spin, CC.int_to_spin, CC.int_to_spin_block] using zero
    · simpa [CC.fl_int_to_spin, CC.int_to_spin, CC.int_to_spin_block] using zero
    · exact neg (h.oovv y x z w).1
    · exact (h.oovv y x w z).1.trans big
    · simpa [CC.fl_int_to_spin, CC.int_to_spin, CC.int_to_spin_block] using zero
    · simpa [CC.fl_int_to_spin, CC.int_to_spin, CC.int_to_spin_block] using zero
    · simpa [CC.fl_int_to_spin, CC.int_to_spin, CC.int_to_spin_block] using zero
    · simpa [CC.fl_int_to_spin, CC.int_to_spin, CC.int_to_spin_block] using zero
    · exact sub_near hs u0 (hb.oovv x y z w).1 (hb.oovv x y w z).1 (hb.oovv x y z w).2 (hb.oovv x y w z).2
  · rintro (x | x) (y | y) (z | z) (w | w)
    · exact sub_near hs u0 (ha.vooo x y z w).1 (ha.vooo x y w z).1 (ha.vooo x y z w).2 (ha.vooo x y w z).2
    · simpa [CC.fl_int_to_spin, CC.int_to_spin, CC.int_to_spin_block] using zero
    · simpa [CC.fl_int_to_spin, CC.int_to_spin, CC.int_to_spin_block] using zero
    · simpa [CC.fl_int_to_spin, CC.int_to_spin, CC.int_to_spin_block] using zero
    · simpa [CC.fl_int_to_spin, CC.int_to_spin, CC.int_to_spin_block] using zero
    · exact (h.vooo x y z w).1.trans big
    · exact neg (h.vooo x y w z).1
    · simpa [CC.fl_int_to_spin, CC.int_to_spin, CC.int_to_spin_block] using zero
    · simpa [CC.fl_int_to_spin, CC.int_to_spin, CC.int_to_spin_block] using zero
    · exact neg (h.ovoo y x z w).1
    · exact (h.ovoo y x w z).1.trans big
    · simpa [CC.fl_int_to_spin, CC.int_to_spin, CC.int_to_spin_block] using zero
    · simpa [CC.fl_int_to_spin, CC.int_to_spin, CC.int_to_spin_block] using zero
    · simpa [CC.fl_int_to_spin, CC.int_to_spin, CC.int_to_spin_block] using zero
    · simpa [CC.fl_int_to_spin, CC.int_to_spin, CC.int_to_spin_block] using zero
    · exact sub_near hs u0 (hb.vooo x y z w).1 (hb.vooo x y w z).1 (hb.vooo x y z w).2 (hb.vooo x y w z).2
  · rintro (x | x) (y | y) (z | z) (w | w)
    · exact sub_near hs u0 (ha.ooov x y z w).1 (ha.oovo x y w z).1 (ha.ooov x y z w).2 (ha.oovo x y w z).2
    · simpa [CC.fl_int_to_spin, CC.int_to_spin, CC.int_to_spin_block] using zero
    · simpa [CC.fl_int_to_spin, CC.int_to_spin, CC.int_to_spin_block] using zero
    · simpa [CC.fl_int_to_spin, CC.int_to_spin, CC.int_to_spin_block] using zero
    · simpa [CC.fl_int_to_spin, CC.int_to_spin, CC.int_to_spin_block] using zero
    · exact (h.ooov x y z w).1.trans big
    · exact neg (h.oovo x y w z).1
    · simpa [CC.fl_int_to_spin, CC.int_to_spin, CC.int_to_spin_block] using zero
    · simpa [CC.fl_int_to_spin, CC.int_to_spin, CC.int_to_spin_block] using zero
    · exact neg (h.ooov y x z w).1
    · exact (h.oovo y x w z).1.trans big
    · simpa [CC.fl_int_to_spin, CC.int_to_spin, CC.int_to_spin_block] using zero
    · simpa [CC.fl_int_to_spin, CC.int_to_spin, CC.int_to_spin_block] using zero
    · simpa [CC.fl_int_to_spin, CC.int_to_spin, CC.int_to_spin_block] using zero
    · simpa [CC.fl_int_to_spin, CC.int_to_spin, CC.int_to_spin_block] using zero
    · exact sub_near hs u0 (hb.ooov x y z w).1 (hb.oovo x y w z).1 (hb.ooov x y z w).2 (hb.oovo x y w z).2
  · rintro (x | x) (y | y) (z | z) (w | w)
    · exact sub_near hs u0 (ha.oooo x y z w).1 (ha.oooo x y w z).1 (ha.oooo x y z w).2 (ha.oooo x y w z).2
    · simpa [CC.fl_int_to_spin, CC.int_to_spin, CC.int_to_spin_block] using zero
    · simpa [CC.fl_int_to_spin, CC.int_to_spin, CC.int_to_spin_block] using zero
    · simpa [CC.fl_int_to_spin, CC.int_to_spin, CC.int_to_spin_block] using zero
    · simpa [CC.fl_int_to_spin, CC.int_to_spin, CC.int_to_spin_block] using zero
    · exact (h.oooo x y z w).1.trans big
    · exact neg (h.oooo x y w z).1
    · simpa [CC.fl_int_to_spin, CC.int_to_spin, CC.int_to_spin_block] using zero
    · simpa [CC.fl_int_to_spin, CC.int_to_spin, CC.int_to_spin_block] using zero
    · exact neg (h.oooo y x z w).1
    · exact (h.oooo y x w z).1.trans big
    · simpa [CC.fl_int_to_spin, CC.int_to_spin, CC.int_to_spin_block] using zero
    · simpa [CC.fl_int_to_spin, CC.int_to_spin, CC.int_to_spin_block] using zero
    · simpa [CC.fl_int_to_spin, CC.int_to_spin, CC.int_to_spin_block] using zero
    · simpa [CC.fl_int_to_spin, CC.int_to_spin, CC.int_to_spin_block] using zero
    · exact sub_near hs u0 (hb.oooo x y z w).1 (hb.oooo x y w z).1 (hb.oooo x y z w).2 (hb.oooo x y w z).2

/-- C100: they are exactly antisymmetric in the last two indices where these have the same label; in the first two, where the labels agree, the elements of different spins are exactly antisymmetric,
and those of equal spins are if the integrals given for equal spins are unchanged when the electrons are exchanged. -/
theorem C100_int_to_spin_anti {sub : K → K → K} (hs : ∀ x y, sub y x = -sub x y) (Ia : CC.TwoEFull Oa Va Oa Va K) (Ib : CC.TwoEFull Ob Vb Ob Vb K) (I : CC.TwoEFull Oa Va Ob Vb K) :
    (∀ x y z w, (CC.fl_int_to_spin sub Ia Ib I).vvvv x y w z = -(CC.fl_int_to_spin sub Ia Ib I).vvvv x y z w) ∧
    (∀ x y z w, (CC.fl_int_to_spin sub Ia Ib I).vovv x y w z = -(CC.fl_int_to_spin sub Ia Ib I).vovv x y z w) ∧
    (∀ x y z w, (CC.fl_int_to_spin sub Ia Ib I).vvoo x y w z = -(CC.fl_int_to_spin sub Ia Ib I).vvoo x y z w) ∧
    (∀ x y z w, (CC.fl_int_to_spin sub Ia Ib I).oovv x y w z = -(CC.fl_int_to_spin sub Ia Ib I).oovv x y z w) ∧
    (∀ x y z w, (CC.fl_int_to_spin sub Ia Ib I).vooo x y w z = -(CC.fl_int_to_spin sub Ia Ib I).vooo x y z w) ∧
    (∀ x y z w, (CC.fl_int_to_spin sub Ia Ib I).oooo x y w z = -(CC.fl_int_to_spin sub Ia Ib I).oooo x y z w) ∧
    ((∀ x y z w, Ia.oovv x y z w = Ia.oovv y x w z) → (∀ x y z w, Ib.oovv x y z w = Ib.oovv y x w z) →
      ∀ x y z w, (CC.fl_int_to_spin sub Ia Ib I).oovv y x z w = -(CC.fl_int_to_spin sub Ia Ib I).oovv x y z w) ∧
    ((∀ x y z w, Ia.vvoo x y z w = Ia.vvoo y x w z) → (∀ x y z w, Ib.vvoo x y z w = Ib.vvoo y x w z) →
      ∀ x y z w, (CC.fl_int_to_spin sub Ia Ib I).vvoo y x z w = -(CC.fl_int_to_spin sub Ia Ib I).vvoo x y z w) := by
  refine ⟨?_, ?_, ?_, ?_, ?_, ?_, fun ha hb => ?_, fun ha hb => ?_⟩ <;> rintro (x | x) (y | y) (z | z) (w | w) <;>
    simp only [CC.fl_int_to_spin, CC.int_to_spin_block, neg_zero, neg_neg] <;> first | exact hs _ _ | (rw [ha y x, ha y x]; exact hs _ _) | (rw [hb y x, hb y x]; exact hs _ _)
end spin

/-! ### concrete cases -/

/-- One orbital of each kind over two basis functions, arithmetic that makes every operation too large by the factor `1 + u`: the integrals are computed, the iteration with `ccsd_stanton` runs for
any number of updates, and the amplitudes come as close as `C * u` to a solution for the exact integrals. -/
example : ∃ z₀ : ℝ, 0 < z₀ ∧ ∀ z : ℝ, |z| ≤ z₀ → ∃ (T : CC.Amp ℝ (Fin (sizes 2 2 0)) (Fin (sizes 2 2 1))) (C u₀ : ℝ), 0 < u₀ ∧
    CC.ccsd_simple ((CC.diagF (fun _ => -1) fun _ => 1).addMul z ⟨fun _ _ => 0, fun _ _ => 1, fun _ _ => 1, fun _ _ => 0⟩)
      (countsI (fun a b c d => z * aoForm 2 (fun m n l s => ((m + 2 * n + 1) * (l + 2 * s + 1) : ℝ)) a b c d) [fun i => i] [fun i => 1 - i] [fun _ => 1] [fun _ => 2]) T.1 T.2 = (fun _ _ => 0, fun _ _ _ _ => 0) ∧
    ∀ (u : ℝ) (h0 : 0 ≤ u) (h1 : u ≤ 1), u ≤ u₀ → ∃ B, fl_build_integrals ((Heap.inflate h0 h1 : Heap.Rounding ℝ u 0 (Heap.szSum 0)).op .sub)
        (ao2mo fun a b c d => z * aoForm 2 (fun m n l s => ((m + 2 * n + 1) * (l + 2 * s + 1) : ℝ)) a b c d) (fun _ => true) [fun i => i] [fun i => 1 - i] [fun _ => 1] [fun _ => 2] = .ok B ∧
      ∀ j, ∃ x : ℕ → Heap.Arr ℝ × Heap.Arr ℝ, (∀ i < j, Heap.AStep (Heap.inflate h0 h1 : Heap.Rounding ℝ u 0 (Heap.szSum 0)) id Heap.Prog.ccsd_stanton
          (B.args false [⟨false, [2, 2], fun idx => if idx = [0, 0] ∨ idx = [1, 1] then -1 else 0⟩, ⟨false, [2, 2], fun _ => z⟩, ⟨false, [2, 2], fun _ => z⟩,
            ⟨false, [2, 2], fun idx => if idx = [0, 0] ∨ idx = [1, 1] then 1 else 0⟩]) ⟨false, [2, 2], fun _ => 2⟩ ⟨false, [2, 2, 2, 2], fun _ => 4⟩ (x i) (x (i + 1))) ∧
        ‖Heap.ampOf (n := sizes 2 2) (x j) - T‖ ≤ (1 / 2) ^ j + C * u := by
  have hy : Sym (aoForm 2 fun m n l s => ((m + 2 * n + 1) * (l + 2 * s + 1) : ℝ)) := aoForm_sym fun _ _ _ _ => by ring
  obtain ⟨z₀, hz, h⟩ := C100_ccsd (K := ℝ) id (fun _ _ => le_rfl) le_rfl (Heap.sz_mono le_rfl) (c := 0) le_rfl false hy [fun i => i] [fun i => 1 - i] [fun _ => 1] [fun _ => 2]
    ⟨fun _ _ => 0, fun _ _ => 1, fun _ _ => 1, fun _ _ => 0⟩ (fun _ => (-1 : ℝ)) (fun _ => 1) (fun _ _ => by norm_num) (fun _ _ _ _ => by norm_num) 1 one_pos
    (.inr rfl : Heap.Residuals Heap.Prog.ccsd_stanton)
  refine ⟨z₀, hz, fun z hzz => ?_⟩
  obtain ⟨T, hA, hn, hsol, C, u₀, hC, hu, h'⟩ := h z hzz
  refine ⟨T, C, u₀, hu, hsol, fun u h0 h1 uu => ?_⟩
  obtain ⟨B, hB, h''⟩ := h' u h0 uu (Heap.inflate h0 h1) (Heap.inflate_sign h0 h1)
    (ao2mo fun a b c d => z * aoForm 2 (fun m n l s => ((m + 2 * n + 1) * (l + 2 * s + 1) : ℝ)) a b c d) (fun _ _ _ _ => ⟨rfl, rfl, rfl, rfl⟩)
    (fun o1 o2 o3 o4 _ _ _ _ => ⟨⟨rfl, rfl, rfl, rfl⟩, fun p q r s hp hq hr hs => by simp [ao2mo, hp, hq, hr, hs]⟩)
  refine ⟨B, hB, fun j => ?_⟩
  have dg1 : ∀ p q : Fin 2, ‖(if [p.1, q.1] = [0, 0] ∨ [p.1, q.1] = [1, 1] then (-1 : ℝ) else 0) -
      ((CC.diagF (O := Fin 2) (V := Fin 2) (fun _ => -1) fun _ => (1 : ℝ)).addMul z ⟨fun _ _ => 0, fun _ _ => 1, fun _ _ => 1, fun _ _ => 0⟩).oo p q‖ ≤ 0 * u := by
    intro p q
    fin_cases p <;> fin_cases q <;> simp [CC.OneE.addMul, CC.diagF]
  have dg2 : ∀ p q : Fin 2, ‖(if [p.1, q.1] = [0, 0] ∨ [p.1, q.1] = [1, 1] then (1 : ℝ) else 0) -
      ((CC.diagF (O := Fin 2) (V := Fin 2) (fun _ => -1) fun _ => (1 : ℝ)).addMul z ⟨fun _ _ => 0, fun _ _ => 1, fun _ _ => 1, fun _ _ => 0⟩).vv p q‖ ≤ 0 * u := by
    intro p q
    fin_cases p <;> fin_cases q <;> simp [CC.OneE.addMul, CC.diagF]
  let x₀ : Heap.Arr ℝ × Heap.Arr ℝ := (⟨false, [2, 2], fun _ => 0⟩, ⟨false, [2, 2, 2, 2], fun _ => 0⟩)
  have z0 : Heap.ampOf (n := sizes 2 2) x₀ = 0 := rfl
  have key := fun (x : ℕ → Heap.Arr ℝ × Heap.Arr ℝ) (hx : x 0 = x₀) => h'' [⟨false, [2, 2], fun idx => if idx = [0, 0] ∨ idx = [1, 1] then -1 else 0⟩, ⟨false, [2, 2], fun _ => z⟩, ⟨false, [2, 2], fun _ => z⟩,
            ⟨false, [2, 2], fun idx => if idx = [0, 0] ∨ idx = [1, 1] then 1 else 0⟩] ⟨false, [2, 2], fun _ => 2⟩ ⟨false, [2, 2, 2, 2], fun _ => 4⟩ x
    (by
      refine .cons (Heap.nearIs_two.2 ⟨rfl, rfl, fun p q => ?_⟩) (.cons (Heap.nearIs_two.2 ⟨rfl, rfl, fun p q => ?_⟩) (.cons (Heap.nearIs_two.2 ⟨rfl, rfl, fun p q => ?_⟩)
        (.cons (Heap.nearIs_two.2 ⟨rfl, rfl, fun p q => ?_⟩) .nil)))
      · exact dg1 p q
      · simp [CC.OneE.addMul, CC.diagF]
      · simp [CC.OneE.addMul, CC.diagF]
      · exact dg2 p q)
    ⟨fun _ _ => by norm_num, fun _ _ _ _ => by norm_num⟩ (by rw [hx]; exact ⟨⟨rfl, rfl⟩, rfl, rfl⟩)
    (by rw [hx]; constructor <;> intro a b i j <;> simp [Heap.ampOf, x₀]) (by rw [hx]; exact (norm_le_zero_iff.2 z0).trans zero_le_one)
  obtain ⟨x, hx0, hx⟩ := Heap.chains (fun k x hx0 hx => (key x hx0 k hx).2) j
  refine ⟨x, hx, (key x hx0 j hx).1.trans ?_⟩
  rw [hx0]
  have e : ‖Heap.ampOf (n := counts [fun i : ℕ => (i : ℝ)] [fun i : ℕ => 1 - (i : ℝ)] [fun _ => 1] [fun _ => 2]) x₀ - T‖ = ‖T‖ := by
    change ‖0 - T‖ = _
    rw [zero_sub, norm_neg]
  rw [e]
  have := mul_le_of_le_one_right (by positivity : (0 : ℝ) ≤ (1 / 2) ^ j) hn
  linarith

/-- Subtraction too large by the factor 1 + u: the bound of `C100_int_to_spin` holds with `ε = 0`, and is attained. -/
example : ∃ Ia : CC.TwoEFull (Fin 2) (Fin 2) (Fin 2) (Fin 2) ℝ, FullNear 0 1 Ia Ia ∧
    TwoENear (errOf 0 1 (1 / 8) 0) (CC.fl_int_to_spin (fun x y => (1 + 1 / 8) * (x - y)) Ia Ia Ia) (CC.int_to_spin Ia Ia Ia) ∧
    ‖(CC.fl_int_to_spin (fun x y => (1 + 1 / 8) * (x - y)) Ia Ia Ia).oovv (.inl 0) (.inl 1) (.inl 0) (.inl 1) - (CC.int_to_spin Ia Ia Ia).oovv (.inl 0) (.inl 1) (.inl 0) (.inl 1)‖ = errOf 0 1 (1 / 8) 0 := by
  let f : Fin 2 → Fin 2 → Fin 2 → Fin 2 → ℝ := fun _ _ z w => if z = 0 ∧ w = 1 then 1 else if z = 1 ∧ w = 0 then -1 else 0
  have hf : ∀ x y z w, ‖f x y z w - f x y z w‖ ≤ 0 ∧ ‖f x y z w‖ ≤ 1 := by
    intro x y z w
    refine ⟨by simp, ?_⟩
    simp only [f]
    split_ifs <;> norm_num
  have hn : FullNear 0 1 (⟨f, f, f, f, f, f, f, f, f, f, f, f, f, f, f, f⟩ : CC.TwoEFull (Fin 2) (Fin 2) (Fin 2) (Fin 2) ℝ) ⟨f, f, f, f, f, f, f, f, f, f, f, f, f, f, f, f⟩ :=
    ⟨hf, hf, hf, hf, hf, hf, hf, hf, hf, hf, hf, hf, hf, hf, hf, hf⟩
  refine ⟨_, hn, C100_int_to_spin (fun x y => ?_) le_rfl (by norm_num) le_rfl zero_le_one hn hn hn, ?_⟩
  · rw [show (1 + 1 / 8) * (x - y) - (x - y) = 1 / 8 * (x - y) by ring, norm_mul]
    norm_num
  · norm_num [CC.fl_int_to_spin, CC.int_to_spin, CC.int_to_spin_block, f, errOf]

/-- Subtraction too large by the factor 9/8, and an array of pyscf with no symmetry: exchanging the last two indices changes the sign, exchanging the first two does not. -/
example : ∃ A, fl_get_phys (fun x y : ℚ => 9 / 8 * (x - y)) (fun o1 o2 o3 o4 => ⟨o1.length, o2.length, o3.length, o4.length, fun p q r s => p + 2 * q + 8 * r * s⟩) [(), ()] [(), ()] [(), ()]
    [(), ()] true = .ok A ∧ A.val 1 0 1 0 = 9 / 4 ∧ A.val 1 0 0 1 = -9 / 4 ∧ A.val 0 1 1 0 = -27 / 4 ∧ A.val 0 1 0 1 = 27 / 4 := by
  refine ⟨_, rfl, ?_, ?_, ?_, ?_⟩ <;> norm_num [Arr.t0213, Arr.t0321]

end Eri
