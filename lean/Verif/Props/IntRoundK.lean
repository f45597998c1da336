import Verif.Model.IntRoundK
import Verif.Props.IntRound
import Verif.Props.IntegralsK
/-!
# C102: the integrals of periodic systems in rounded arithmetic
-/
set_option linter.unusedSectionVars false
set_option linter.unusedSimpArgs false
namespace Eri

section general
variable {K V : Type} [Field K] [Inhabited V] {G : Type} [AddCommGroup G] {sub : K → K → K} {kern : KernelK V K}

/-- C102: with exact integrals, exact subtraction and exact sums the functions are those of C41. -/
theorem C102_exact (kmf : KMF V K) (k1 k2 k3 k4 : ℕ) (o1 o2 o3 o4 : List V) (anti : Bool) :
    fl_get_chem_solk (· - ·) (fun a b c d => ao2mo (kmf.form a b c d)) kmf k1 k2 k3 k4 o1 o2 o3 o4 anti = get_chem_solk kmf k1 k2 k3 k4 o1 o2 o3 o4 anti ∧
    fl_get_phys_solk (· - ·) (fun a b c d => ao2mo (kmf.form a b c d)) kmf k1 k2 k3 k4 o1 o2 o3 o4 anti = get_phys_solk kmf k1 k2 k3 k4 o1 o2 o3 o4 anti ∧
    fl_solk_h2 (· - ·) (fun a b c d => ao2mo (kmf.form a b c d)) kmf anti = solk_h2 kmf anti :=
  ⟨rfl, rfl, rfl⟩

theorem C102_exact_h1 [Star K] (nao : ℕ) (hcore : ℕ → ℕ → ℕ → K) (mo : ℕ → List (ℕ → K)) (k p q : ℕ) :
    fl_solk_h1 (fun L => (L.map List.prod).sum) nao hcore mo k p q = solk_h1 nao hcore mo k p q := by
  have e : ∀ f : ℕ → K, ((List.range nao).map f).sum = ∑ i ∈ Finset.range nao, f i := fun _ => rfl
  simp only [fl_solk_h1, solk_h1, List.map_map, Function.comp_def, List.prod_cons, List.prod_nil, mul_one, e]

/-- The arrays that pyscf returns have the shapes given by the numbers of orbitals. -/
def ShapedK (kern : KernelK V K) : Prop := ∀ k1 k2 k3 k4, Shaped (kern k1 k2 k3 k4)

/-- C102: integrals whose crystal momentum is not conserved are exactly zero. -/
theorem C102_zero {kmf : KMF V K} {κ : ℕ → G} (h : Conserves kmf κ) {k1 k2 k3 k4 : ℕ} (h1 : k1 < kmf.nk) (h2 : k2 < kmf.nk)
    (h3 : k3 < kmf.nk) (h4 : k4 < kmf.nk) (hn : κ k1 + κ k2 ≠ κ k3 + κ k4) (o1 o2 o3 o4 : List V) (anti : Bool) :
    ∃ A, fl_get_phys_solk sub kern kmf k1 k2 k3 k4 o1 o2 o3 o4 anti = .ok A ∧ (A.n1 = o1.length ∧ A.n2 = o2.length ∧ A.n3 = o3.length ∧ A.n4 = o4.length) ∧
      ∀ p q r s, A.val p q r s = 0 := by
  have e : k4 ≠ kmf.kconserv k1 k3 k2 := fun e => hn ((h.iff h1 h3 h2 h4).1 e)
  exact ⟨_, by rw [fl_get_phys_solk, fl_get_chem_solk, if_pos e]; rfl, ⟨rfl, rfl, rfl, rfl⟩, fun _ _ _ _ => rfl⟩

theorem fl_solk (hk : ShapedK kern) (kmf : KMF V K) (k1 k2 k3 k4 : ℕ) (o1 o2 o3 o4 : List V) : fl_get_chem_solk sub kern kmf k1 k2 k3 k4 o1 o2 o3 o4 true =
    .ok ⟨o1.length, o2.length, o3.length, o4.length, fun p q r s => if k4 = kmf.kconserv k1 k2 k3 then
      sub ((kern k1 k2 k3 k4 o1 o2 o3 o4).val p q r s) ((kern k1 k4 k3 k2 o1 o4 o3 o2).val p s r q) else 0⟩ := by
  obtain ⟨a1, a2, a3, a4⟩ := hk k1 k2 k3 k4 o1 o2 o3 o4
  obtain ⟨b1, b2, b3, b4⟩ := hk k1 k4 k3 k2 o1 o4 o3 o2
  unfold fl_get_chem_solk
  by_cases e : k4 = kmf.kconserv k1 k2 k3
  · simp only [ne_eq, ← e, not_true_eq_false, if_false, if_true, Arr.subBy, Arr.t0321, a1, a2, a3, a4, b1, b2, b3, b4, and_self]
  · simp only [ne_eq, e, not_false_eq_true, if_true, if_false, Arr.zeros]

/-- C102: exchanging the two kets together with their k-points changes the sign of the antisymmetrised integrals exactly, for any arrays that pyscf
returns, if subtracting in the other order changes the sign. -/
theorem C102_last (hk : ShapedK kern) (hs : ∀ x y, sub y x = -sub x y) {kmf : KMF V K} {κ : ℕ → G} (h : Conserves kmf κ) {k1 k2 k3 k4 : ℕ} (h1 : k1 < kmf.nk) (h2 : k2 < kmf.nk)
    (h3 : k3 < kmf.nk) (h4 : k4 < kmf.nk) (o1 o2 o3 o4 : List V) :
    ∃ A B, fl_get_phys_solk sub kern kmf k1 k2 k3 k4 o1 o2 o3 o4 true = .ok A ∧ fl_get_phys_solk sub kern kmf k1 k2 k4 k3 o1 o2 o4 o3 true = .ok B ∧
      ∀ p q r s, B.val p q s r = -A.val p q r s := by
  refine ⟨_, _, by rw [fl_get_phys_solk, fl_solk hk]; rfl, by rw [fl_get_phys_solk, fl_solk hk]; rfl, fun p q r s => ?_⟩
  have e : k4 = kmf.kconserv k1 k3 k2 ↔ k3 = kmf.kconserv k1 k4 k2 := by
    rw [h.iff h1 h3 h2 h4, h.iff h1 h4 h2 h3, add_comm (κ k3)]
  simp only [Arr.t0213, e]
  split_ifs
  · exact hs _ _
  · rw [neg_zero]

/-- C102: and exchanging the two bras, if pyscf's arrays are unchanged when the electrons are exchanged. -/
theorem C102_first (hk : ShapedK kern) (hs : ∀ x y, sub y x = -sub x y) (he : ∀ k1 k2 k3 k4 o1 o2 o3 o4 p q r s, (kern k1 k2 k3 k4 o1 o2 o3 o4).val p q r s = (kern k3 k4 k1 k2 o3 o4 o1 o2).val r s p q)
    {kmf : KMF V K} {κ : ℕ → G} (h : Conserves kmf κ) {k1 k2 k3 k4 : ℕ} (h1 : k1 < kmf.nk) (h2 : k2 < kmf.nk)
    (h3 : k3 < kmf.nk) (h4 : k4 < kmf.nk) (o1 o2 o3 o4 : List V) :
    ∃ A B, fl_get_phys_solk sub kern kmf k1 k2 k3 k4 o1 o2 o3 o4 true = .ok A ∧ fl_get_phys_solk sub kern kmf k2 k1 k3 k4 o2 o1 o3 o4 true = .ok B ∧
      ∀ p q r s, B.val q p r s = -A.val p q r s := by
  refine ⟨_, _, by rw [fl_get_phys_solk, fl_solk hk]; rfl, by rw [fl_get_phys_solk, fl_solk hk]; rfl, fun p q r s => ?_⟩
  have e : k4 = kmf.kconserv k1 k3 k2 ↔ k4 = kmf.kconserv k2 k3 k1 := by
    rw [h.iff h1 h3 h2 h4, h.iff h2 h3 h1 h4, add_comm (κ k1)]
  simp only [Arr.t0213, e]
  split_ifs
  · rw [he k2 k3 k1 k4, he k2 k4 k1 k3]
    exact hs _ _
  · rw [neg_zero]

/-! ### the assembled table -/

theorem fold_gen (E : ℕ → ℕ → ℕ → R (Arr K)) (n : ℕ) (l : List (ℕ × ℕ × ℕ)) (X : ℕ → ℕ → ℕ → Arr K)
    (e : ∀ t ∈ l, E t.1 t.2.1 t.2.2 = .ok (X t.1 t.2.1 t.2.2) ∧ (X t.1 t.2.1 t.2.2).n1 = n ∧ (X t.1 t.2.1 t.2.2).n2 = n ∧ (X t.1 t.2.1 t.2.2).n3 = n ∧ (X t.1 t.2.1 t.2.2).n4 = n)
    (h2 : ℕ → ℕ → ℕ → Arr K) :
    ∃ H, l.foldlM (fun (h2 : ℕ → ℕ → ℕ → Arr K) (t : ℕ × ℕ × ℕ) => E t.1 t.2.1 t.2.2 >>= fun X =>
        if X.n1 = n ∧ X.n2 = n ∧ X.n3 = n ∧ X.n4 = n then (pure fun a b c => if a = t.1 ∧ b = t.2.1 ∧ c = t.2.2 then X else h2 a b c : R (ℕ → ℕ → ℕ → Arr K)) else throw .value) h2 = .ok H ∧
      ∀ a b c, ((a, b, c) ∈ l → H a b c = X a b c) ∧ ((a, b, c) ∉ l → H a b c = h2 a b c) := by
  induction l generalizing h2 with
  | nil => exact ⟨h2, rfl, fun a b c => ⟨fun h => by simp at h, fun _ => rfl⟩⟩
  | cons t l ih =>
    obtain ⟨kp, kq, kr⟩ := t
    obtain ⟨e1, e2⟩ := e (kp, kq, kr) (by simp)
    obtain ⟨H, hH, h⟩ := ih (fun t ht => e t (by simp [ht])) fun a b c => if a = kp ∧ b = kq ∧ c = kr then X kp kq kr else h2 a b c
    refine ⟨H, ?_, fun a b c => ?_⟩
    · rw [List.foldlM_cons, e1]
      simp only [bind, Except.bind, if_pos e2]
      exact hH
    · by_cases hm : (a, b, c) ∈ l
      · exact ⟨fun _ => (h a b c).1 hm, fun hn => absurd (List.mem_cons_of_mem _ hm) hn⟩
      · have := (h a b c).2 hm
        constructor
        · intro hc
          rcases List.mem_cons.1 hc with hc | hc
          · obtain ⟨rfl, rfl, rfl⟩ : a = kp ∧ b = kq ∧ c = kr := by simpa using hc
            simpa using this
          · exact absurd hc hm
        · intro hn
          rw [this, if_neg]
          rintro ⟨rfl, rfl, rfl⟩
          exact hn (by simp)

/-- C102: `get_solk_integrals` copies pyscf's arrays: the entry for three k-points is, element by element, the array for those and the fourth k-point that
the table gives, with the middle indices exchanged in the physicist's order. -/
theorem C102_h2 (hk : ShapedK kern) {kmf : KMF V K} (hr : ∀ k1 < kmf.nk, ∀ k2 < kmf.nk, ∀ k3 < kmf.nk, kmf.kconserv k1 k2 k3 < kmf.nk)
    (hm : ∀ k < kmf.nk, (kmf.mo_coeff k).length = kmf.nmo) (chem : Bool) :
    ∃ H, fl_solk_h2 sub kern kmf chem = .ok H ∧ ∀ kp < kmf.nk, ∀ kq < kmf.nk, ∀ kr < kmf.nk,
      (H kp kq kr).n1 = kmf.nmo ∧ (H kp kq kr).n2 = kmf.nmo ∧ (H kp kq kr).n3 = kmf.nmo ∧ (H kp kq kr).n4 = kmf.nmo ∧ ∀ p q r s, (H kp kq kr).val p q r s =
        if chem then (kern kp kq kr (kmf.kconserv kp kq kr) (kmf.mo_coeff kp) (kmf.mo_coeff kq) (kmf.mo_coeff kr) (kmf.mo_coeff (kmf.kconserv kp kq kr))).val p q r s
        else (kern kp kr kq (kmf.kconserv kp kr kq) (kmf.mo_coeff kp) (kmf.mo_coeff kr) (kmf.mo_coeff kq) (kmf.mo_coeff (kmf.kconserv kp kr kq))).val p r q s := by
  set l := (List.range kmf.nk).flatMap fun kp => (List.range kmf.nk).flatMap fun kq => (List.range kmf.nk).map fun kr => (kp, kq, kr) with hl
  have ml : ∀ a b c, (a, b, c) ∈ l ↔ a < kmf.nk ∧ b < kmf.nk ∧ c < kmf.nk := by
    intro a b c
    simp [hl, List.mem_flatMap]
  let X : ℕ → ℕ → ℕ → Arr K := fun kp kq kr => if chem then
    kern kp kq kr (kmf.kconserv kp kq kr) (kmf.mo_coeff kp) (kmf.mo_coeff kq) (kmf.mo_coeff kr) (kmf.mo_coeff (kmf.kconserv kp kq kr))
    else (kern kp kr kq (kmf.kconserv kp kr kq) (kmf.mo_coeff kp) (kmf.mo_coeff kr) (kmf.mo_coeff kq) (kmf.mo_coeff (kmf.kconserv kp kr kq))).t0213
  have sX : ∀ kp < kmf.nk, ∀ kq < kmf.nk, ∀ kr < kmf.nk, (X kp kq kr).n1 = kmf.nmo ∧ (X kp kq kr).n2 = kmf.nmo ∧ (X kp kq kr).n3 = kmf.nmo ∧ (X kp kq kr).n4 = kmf.nmo := by
    intro kp h1 kq h2 kr h3
    cases chem
    · obtain ⟨a1, a2, a3, a4⟩ := hk kp kr kq (kmf.kconserv kp kr kq) (kmf.mo_coeff kp) (kmf.mo_coeff kr) (kmf.mo_coeff kq) (kmf.mo_coeff (kmf.kconserv kp kr kq))
      exact ⟨a1.trans (hm _ h1), a3.trans (hm _ h2), a2.trans (hm _ h3), a4.trans (hm _ (hr _ h1 _ h3 _ h2))⟩
    · obtain ⟨a1, a2, a3, a4⟩ := hk kp kq kr (kmf.kconserv kp kq kr) (kmf.mo_coeff kp) (kmf.mo_coeff kq) (kmf.mo_coeff kr) (kmf.mo_coeff (kmf.kconserv kp kq kr))
      exact ⟨a1.trans (hm _ h1), a2.trans (hm _ h2), a3.trans (hm _ h3), a4.trans (hm _ (hr _ h1 _ h2 _ h3))⟩
  obtain ⟨H, hH, hh⟩ := fold_gen (fun kp kq kr => if chem then
      fl_get_chem_solk sub kern kmf kp kq kr (if chem then kmf.kconserv kp kq kr else kmf.kconserv kp kr kq) (kmf.mo_coeff kp) (kmf.mo_coeff kq) (kmf.mo_coeff kr)
        (kmf.mo_coeff (if chem then kmf.kconserv kp kq kr else kmf.kconserv kp kr kq))
      else fl_get_phys_solk sub kern kmf kp kq kr (if chem then kmf.kconserv kp kq kr else kmf.kconserv kp kr kq) (kmf.mo_coeff kp) (kmf.mo_coeff kq) (kmf.mo_coeff kr)
        (kmf.mo_coeff (if chem then kmf.kconserv kp kq kr else kmf.kconserv kp kr kq))) kmf.nmo l X (by
    rintro ⟨kp, kq, kr⟩ ht
    obtain ⟨h1, h2, h3⟩ := (ml _ _ _).1 ht
    refine ⟨?_, sX kp h1 kq h2 kr h3⟩
    cases chem
    · simp only [Bool.false_eq_true, if_false, fl_get_phys_solk, fl_get_chem_solk, ne_eq, not_true_eq_false, X]; rfl
    · simp only [if_true, fl_get_chem_solk, ne_eq, not_true_eq_false, if_false, Bool.false_eq_true, X]) (fun _ _ _ => Arr.zeros kmf.nmo kmf.nmo kmf.nmo kmf.nmo)
  refine ⟨H, ?_, fun kp h1 kq h2 kr h3 => ?_⟩
  · unfold fl_solk_h2
    rw [if_neg (not_not.2 hm)]
    exact hH
  · rw [(hh kp kq kr).1 ((ml _ _ _).2 ⟨h1, h2, h3⟩)]
    obtain ⟨a, b, c, d⟩ := sX kp h1 kq h2 kr h3
    refine ⟨a, b, c, d, fun p q r s => ?_⟩
    cases chem <;> rfl

/-- C102: the two orders hold the same numbers, bit for bit. -/
theorem C102_orders (hk : ShapedK kern) {kmf : KMF V K} (hr : ∀ k1 < kmf.nk, ∀ k2 < kmf.nk, ∀ k3 < kmf.nk, kmf.kconserv k1 k2 k3 < kmf.nk)
    (hm : ∀ k < kmf.nk, (kmf.mo_coeff k).length = kmf.nmo) :
    ∃ P C, fl_solk_h2 sub kern kmf false = .ok P ∧ fl_solk_h2 sub kern kmf true = .ok C ∧ ∀ kp < kmf.nk, ∀ kq < kmf.nk, ∀ kr < kmf.nk,
      ∀ p q r s, (P kp kq kr).val p q r s = (C kp kr kq).val p r q s := by
  obtain ⟨P, e1, hP⟩ := C102_h2 (sub := sub) hk hr hm false
  obtain ⟨C, e2, hC⟩ := C102_h2 (sub := sub) hk hr hm true
  refine ⟨P, C, e1, e2, fun kp h1 kq h2 kr h3 p q r s => ?_⟩
  rw [(hP kp h1 kq h2 kr h3).2.2.2.2, (hC kp h1 kr h3 kq h2).2.2.2.2]
  rfl

end general

section accuracy
variable {K V : Type} [RCLike K] [Inhabited V] {G : Type} [AddCommGroup G] {sub : K → K → K} {kern : KernelK V K} {ε M u η : ℝ}

/-- For orbitals of the given k-points the arrays that pyscf returns hold the integrals of `kmf.form`, with errors of at most `ε`. -/
def KNearK (S : ℕ → V → Prop) (ε : ℝ) (kmf : KMF V K) (kern : KernelK V K) : Prop :=
  ∀ k1 < kmf.nk, ∀ k2 < kmf.nk, ∀ k3 < kmf.nk, ∀ k4 < kmf.nk, ∀ o1 o2 o3 o4 : List V, (∀ x ∈ o1, S k1 x) → (∀ x ∈ o2, S k2 x) → (∀ x ∈ o3, S k3 x) → (∀ x ∈ o4, S k4 x) →
    NearTab ε (kern k1 k2 k3 k4 o1 o2 o3 o4) o1 o2 o3 o4 (kmf.form k1 k2 k3 k4)

open Classical in
/-- C102: the antisymmetrised integrals differ from the exact ones, which are zero unless momentum is conserved, by at most twice pyscf's error and one
rounding. -/
theorem C102_get_phys_solk {S : ℕ → V → Prop} {kmf : KMF V K} (hk : ShapedK kern) (hg : KNearK S ε kmf kern)
    (hM : ∀ k1 < kmf.nk, ∀ k2 < kmf.nk, ∀ k3 < kmf.nk, ∀ k4 < kmf.nk, ∀ a b c d, S k1 a → S k2 b → S k3 c → S k4 d → ‖kmf.form k1 k2 k3 k4 a b c d‖ ≤ M) (hs : SubErr sub u η)
    (ε0 : 0 ≤ ε) (u0 : 0 ≤ u) (M0 : 0 ≤ M) (hη : 0 ≤ η) {κ : ℕ → G} (h : Conserves kmf κ) {k1 k2 k3 k4 : ℕ} (h1 : k1 < kmf.nk) (h2 : k2 < kmf.nk) (h3 : k3 < kmf.nk) (h4 : k4 < kmf.nk)
    {o1 o2 o3 o4 : List V} (m1 : ∀ x ∈ o1, S k1 x) (m2 : ∀ x ∈ o2, S k2 x) (m3 : ∀ x ∈ o3, S k3 x) (m4 : ∀ x ∈ o4, S k4 x) :
    ∃ A, fl_get_phys_solk sub kern kmf k1 k2 k3 k4 o1 o2 o3 o4 true = .ok A ∧ NearTab (errOf ε M u η) A o1 o2 o3 o4 fun p q r s =>
      if κ k1 + κ k2 = κ k3 + κ k4 then kmf.form k1 k3 k2 k4 p r q s - kmf.form k1 k4 k2 k3 p s q r else 0 := by
  refine ⟨_, by rw [fl_get_phys_solk, fl_solk hk]; rfl, ⟨rfl, rfl, rfl, rfl⟩, fun p q r s hp hq hr hss => ?_⟩
  simp only [Arr.t0213, h.iff h1 h3 h2 h4]
  split_ifs
  · exact sub_near hs u0 ((hg _ h1 _ h3 _ h2 _ h4 o1 o3 o2 o4 m1 m3 m2 m4).2 p r q s hp hr hq hss) ((hg _ h1 _ h4 _ h2 _ h3 o1 o4 o2 o3 m1 m4 m2 m3).2 p s q r hp hss hq hr)
      (hM _ h1 _ h3 _ h2 _ h4 _ _ _ _ (m1 _ (List.getElem_mem hp)) (m3 _ (List.getElem_mem hr)) (m2 _ (List.getElem_mem hq)) (m4 _ (List.getElem_mem hss)))
      (hM _ h1 _ h4 _ h2 _ h3 _ _ _ _ (m1 _ (List.getElem_mem hp)) (m4 _ (List.getElem_mem hss)) (m2 _ (List.getElem_mem hq)) (m3 _ (List.getElem_mem hr)))
  · rw [sub_zero, norm_zero]
    unfold errOf
    positivity

/-- C102: the two-electron part of `get_solk_integrals` has no error but pyscf's. -/
theorem C102_h2_near {kmf : KMF V K} (hk : ShapedK kern) (hg : KNearK (fun k x => x ∈ kmf.mo_coeff k) ε kmf kern) {κ : ℕ → G} (h : Conserves kmf κ)
    (hm : ∀ k < kmf.nk, (kmf.mo_coeff k).length = kmf.nmo) (chem : Bool) :
    ∃ H, fl_solk_h2 sub kern kmf chem = .ok H ∧ ∀ kp < kmf.nk, ∀ kq < kmf.nk, ∀ kr < kmf.nk, ∀ ks < kmf.nk,
      (if chem then κ kp + κ kr = κ kq + κ ks else κ kp + κ kq = κ kr + κ ks) →
      NearTab ε (H kp kq kr) (kmf.mo_coeff kp) (kmf.mo_coeff kq) (kmf.mo_coeff kr) (kmf.mo_coeff ks) fun p q r s =>
        if chem then kmf.form kp kq kr ks p q r s else kmf.form kp kr kq ks p r q s := by
  obtain ⟨H, e, hH⟩ := C102_h2 (sub := sub) hk h.range hm chem
  refine ⟨H, e, fun kp h1 kq h2 kr h3 ks h4 hc => ?_⟩
  obtain ⟨n1, n2, n3, n4, hv⟩ := hH kp h1 kq h2 kr h3
  refine ⟨⟨n1.trans (hm _ h1).symm, n2.trans (hm _ h2).symm, n3.trans (hm _ h3).symm, n4.trans (hm _ h4).symm⟩, fun p q r s hp hq hr hs => ?_⟩
  rw [hv]
  cases chem
  · obtain rfl := (h.iff h1 h3 h2 h4).2 hc
    exact (hg _ h1 _ h3 _ h2 _ h4 _ _ _ _ (fun _ => id) (fun _ => id) (fun _ => id) (fun _ => id)).2 p r q s hp hr hq hs
  · obtain rfl := (h.iff h1 h2 h3 h4).2 hc
    exact (hg _ h1 _ h2 _ h3 _ h4 _ _ _ _ (fun _ => id) (fun _ => id) (fun _ => id) (fun _ => id)).2 p q r s hp hq hr hs

/-! ### the one-electron part -/

theorem list_near {u η : ℝ} {Gs : List (List ℝ) → ℝ} (A : Heap.Rounding K u η Gs) (hG : Heap.GMono Gs) (u0 : 0 ≤ u) {n : ℕ} {x y : ℕ → K} {a b : ℝ} (hx : ∀ i < n, ‖x i‖ ≤ a)
    (hy : ∀ i < n, ‖y i‖ ≤ b) : ‖A.sop ((List.range n).map fun i => [x i, y i]) - ∑ i ∈ Finset.range n, x i * y i‖ ≤ u * Gs ((List.range n).map fun _ => [a, b]) := by
  have e : ∑ i ∈ Finset.range n, x i * y i = (((List.range n).map fun i => [x i, y i]).map List.prod).sum := by
    simp only [List.map_map, Function.comp_def, List.prod_cons, List.prod_nil, mul_one]
    rfl
  rw [e]
  refine (A.sop_err _).trans (mul_le_mul_of_nonneg_left (hG _ _ ?_).2 u0)
  rw [List.map_map, List.forall₂_map_left_iff, List.forall₂_map_right_iff, List.forall₂_same]
  intro i hi
  have hi := List.mem_range.1 hi
  exact .cons ⟨norm_nonneg _, hx i hi⟩ (.cons ⟨norm_nonneg _, hy i hi⟩ .nil)

theorem G_nonneg {Gs : List (List ℝ) → ℝ} (hG : Heap.GMono Gs) (n : ℕ) {a b : ℝ} (ha : 0 ≤ a) (hb : 0 ≤ b) : 0 ≤ Gs ((List.range n).map fun _ => [a, b]) := by
  refine (hG _ ((List.range n).map fun _ => [a, b]) ?_).1
  rw [List.forall₂_map_left_iff, List.forall₂_map_right_iff, List.forall₂_same]
  exact fun _ _ => .cons ⟨ha, le_rfl⟩ (.cons ⟨hb, le_rfl⟩ .nil)

/-- C102: the one-electron part differs from the exact one by at most a constant times the machine precision; the constant depends on the sizes of the
coefficients and of the core Hamiltonian and the number of basis functions only. -/
theorem C102_h1 {Gs : List (List ℝ) → ℝ} (hG : Heap.GMono Gs) (M0 : 0 ≤ M) (nao : ℕ) : ∃ C, 0 ≤ C ∧ ∀ (η u : ℝ), 0 ≤ u → u ≤ 1 → ∀ (A : Heap.Rounding K u η Gs)
    (hcore : ℕ → ℕ → ℕ → K) (mo : ℕ → List (ℕ → K)) (k : ℕ), (∀ μ < nao, ∀ ν < nao, ‖hcore k μ ν‖ ≤ M) → (∀ c ∈ mo k, ∀ μ < nao, ‖c μ‖ ≤ M) →
      ∀ p q, ‖fl_solk_h1 A.sop nao hcore mo k p q - solk_h1 nao hcore mo k p q‖ ≤ C * u := by
  set g1 := Gs ((List.range nao).map fun _ => [M, M]) with hg1
  have g10 : 0 ≤ g1 := G_nonneg hG nao M0 M0
  have B0 : (0 : ℝ) ≤ nao * (M * M) + g1 := by positivity
  set g2 := Gs ((List.range nao).map fun _ => [nao * (M * M) + g1, M]) with hg2
  have g20 : 0 ≤ g2 := G_nonneg hG nao B0 M0
  refine ⟨g2 + nao * (g1 * M), by positivity, fun η u u0 u1 A hcore mo k hh hc p q => ?_⟩
  have hc' : ∀ p, ∀ μ < nao, ‖((mo k).getD p fun _ => 0) μ‖ ≤ M := by
    intro p μ hμ
    rw [List.getD_eq_getElem?_getD]
    rcases lt_or_ge p (mo k).length with h | h
    · rw [List.getElem?_eq_getElem h]
      exact hc _ (List.getElem_mem h) μ hμ
    · rw [List.getElem?_eq_none h]
      simpa using M0
  have hi : ∀ ν < nao, ‖A.sop ((List.range nao).map fun μ => [star (((mo k).getD p fun _ => 0) μ), hcore k μ ν]) -
      ∑ μ ∈ Finset.range nao, star (((mo k).getD p fun _ => 0) μ) * hcore k μ ν‖ ≤ u * g1 := fun ν hν =>
    list_near A hG u0 (fun μ hμ => (norm_star _).trans_le (hc' p μ hμ)) fun μ hμ => hh μ hμ ν hν
  have hX : ∀ ν < nao, ‖∑ μ ∈ Finset.range nao, star (((mo k).getD p fun _ => 0) μ) * hcore k μ ν‖ ≤ nao * (M * M) := by
    intro ν hν
    refine (norm_sum_le_of_le (f := fun μ => star (((mo k).getD p fun _ => 0) μ) * hcore k μ ν) _ (fun μ hμ => ?_ : ∀ μ ∈ Finset.range nao, _ ≤ M * M)).trans (by simp)
    rw [norm_mul, norm_star]
    exact mul_le_mul (hc' p μ (Finset.mem_range.1 hμ)) (hh μ (Finset.mem_range.1 hμ) ν hν) (norm_nonneg _) M0
  have hx : ∀ ν < nao, ‖A.sop ((List.range nao).map fun μ => [star (((mo k).getD p fun _ => 0) μ), hcore k μ ν])‖ ≤ nao * (M * M) + g1 := by
    intro ν hν
    have := norm_sub_norm_le (A.sop ((List.range nao).map fun μ => [star (((mo k).getD p fun _ => 0) μ), hcore k μ ν]))
      (∑ μ ∈ Finset.range nao, star (((mo k).getD p fun _ => 0) μ) * hcore k μ ν)
    have h2 := mul_le_of_le_one_left g10 u1
    linarith [hi ν hν, hX ν hν]
  have ho := list_near A hG u0 hx (fun ν hν => hc' q ν hν)
  have hd : ‖(∑ ν ∈ Finset.range nao, A.sop ((List.range nao).map fun μ => [star (((mo k).getD p fun _ => 0) μ), hcore k μ ν]) * ((mo k).getD q fun _ => 0) ν) -
      solk_h1 nao hcore mo k p q‖ ≤ nao * (u * g1 * M) := by
    rw [solk_h1, ← Finset.sum_sub_distrib]
    refine (norm_sum_le_of_le _ (fun ν hν => ?_ : ∀ ν ∈ Finset.range nao, _ ≤ u * g1 * M)).trans (by simp)
    rw [← sub_mul, norm_mul]
    exact mul_le_mul (hi ν (Finset.mem_range.1 hν)) (hc' q ν (Finset.mem_range.1 hν)) (norm_nonneg _) (mul_nonneg u0 g10)
  have := norm_sub_le_norm_sub_add_norm_sub (fl_solk_h1 A.sop nao hcore mo k p q)
    (∑ ν ∈ Finset.range nao, A.sop ((List.range nao).map fun μ => [star (((mo k).getD p fun _ => 0) μ), hcore k μ ν]) * ((mo k).getD q fun _ => 0) ν) (solk_h1 nao hcore mo k p q)
  refine this.trans ((add_le_add ho hd).trans_eq ?_)
  rw [hg2]
  ring

/-- C102: so it is Hermitian up to the machine precision, if the core Hamiltonian is Hermitian. -/
theorem C102_h1_hermitian {Gs : List (List ℝ) → ℝ} (hG : Heap.GMono Gs) (M0 : 0 ≤ M) (nao : ℕ) : ∃ C, 0 ≤ C ∧ ∀ (η u : ℝ), 0 ≤ u → u ≤ 1 → ∀ (A : Heap.Rounding K u η Gs)
    (hcore : ℕ → ℕ → ℕ → K) (mo : ℕ → List (ℕ → K)) (k : ℕ), (∀ μ < nao, ∀ ν < nao, ‖hcore k μ ν‖ ≤ M) → (∀ c ∈ mo k, ∀ μ < nao, ‖c μ‖ ≤ M) →
      (∀ μ < nao, ∀ ν < nao, hcore k μ ν = star (hcore k ν μ)) →
      ∀ p q, ‖fl_solk_h1 A.sop nao hcore mo k p q - star (fl_solk_h1 A.sop nao hcore mo k q p)‖ ≤ C * u := by
  obtain ⟨C, C0, h⟩ := C102_h1 (K := K) hG M0 nao
  refine ⟨2 * C, by positivity, fun η u u0 u1 A hcore mo k hh hc hs p q => ?_⟩
  have a := h η u u0 u1 A hcore mo k hh hc p q
  have b := h η u u0 u1 A hcore mo k hh hc q p
  have e := C41_h1_hermitian nao hcore mo k hs p q
  rw [← norm_star, star_sub, ← e] at b
  have := norm_sub_le_norm_sub_add_norm_sub (fl_solk_h1 A.sop nao hcore mo k p q) (solk_h1 nao hcore mo k p q) (star (fl_solk_h1 A.sop nao hcore mo k q p))
  rw [norm_sub_rev (solk_h1 nao hcore mo k p q)] at this
  linarith

/-! ### a concrete case: two k-points, two orbitals each -/

/-- The orbitals are `0` and `1` at both k-points. -/
def kmfR : KMF ℕ ℝ where
  nk := 2
  kconserv k1 k2 k3 := (k1 + k2 + k3) % 2
  form k1 k2 k3 k4 p q r s := if p = r then 0 else if q = 0 ∧ s = 1 then 1 else if q = 1 ∧ s = 0 then -1 else 0
  mo_coeff _ := [0, 1]
  nmo := 2

theorem kmfR_conserves : Conserves kmfR (fun k : ℕ => (k : ZMod 2)) where
  inj := by
    change ∀ k : ℕ, k < 2 → ∀ l : ℕ, l < 2 → (k : ZMod 2) = (l : ZMod 2) → k = l
    decide
  range k1 _ k2 _ k3 _ := Nat.mod_lt _ (by decide)
  sum k1 _ k2 _ k3 _ := by
    simp only [kmfR, ZMod.natCast_mod, Nat.cast_add]
    rw [sub_eq_add_neg, ZMod.neg_eq_self_mod_two]

theorem kmfR_one (k1 k2 k3 k4 a b c d : ℕ) : ‖kmfR.form k1 k2 k3 k4 a b c d‖ ≤ 1 := by
  simp only [kmfR]
  split_ifs <;> norm_num

theorem kmfR_shaped : ShapedK fun a b c d => ao2mo (kmfR.form a b c d) := fun _ _ _ _ _ _ _ _ => ⟨rfl, rfl, rfl, rfl⟩

theorem kmfR_near (S : ℕ → ℕ → Prop) : KNearK S 0 kmfR fun a b c d => ao2mo (kmfR.form a b c d) := by
  intro k1 _ k2 _ k3 _ k4 _ o1 o2 o3 o4 _ _ _ _
  refine ⟨⟨rfl, rfl, rfl, rfl⟩, fun p q r s hp hq hr hs => ?_⟩
  simp [ao2mo, hp, hq, hr, hs]

/-- the bound on the error is attained; exchanging the kets changes the sign -/
example : ∃ A B, fl_get_phys_solk (fun x y => (1 + 1 / 8) * (x - y)) (fun a b c d => ao2mo (kmfR.form a b c d)) kmfR 0 1 1 0 [0, 1] [0, 1] [0, 1] [0, 1] true = .ok A ∧
    fl_get_phys_solk (fun x y => (1 + 1 / 8) * (x - y)) (fun a b c d => ao2mo (kmfR.form a b c d)) kmfR 0 1 0 1 [0, 1] [0, 1] [0, 1] [0, 1] true = .ok B ∧
    A.val 0 1 0 1 = 9 / 4 ∧ B.val 0 1 1 0 = -(9 / 4) ∧
    (NearTab (errOf 0 1 (1 / 8) 0) A [0, 1] [0, 1] [0, 1] [0, 1] fun p q r s => kmfR.form 0 1 1 0 p r q s - kmfR.form 0 0 1 1 p s q r) ∧
    ‖A.val 0 1 0 1 - (kmfR.form 0 1 1 0 0 0 1 1 - kmfR.form 0 0 1 1 0 1 1 0)‖ = errOf 0 1 (1 / 8) 0 := by
  have hs : SubErr (fun x y : ℝ => (1 + 1 / 8) * (x - y)) (1 / 8) 0 := by
    intro x y
    rw [show (1 + 1 / 8) * (x - y) - (x - y) = 1 / 8 * (x - y) by ring, norm_mul]
    norm_num
  obtain ⟨A, e, hA⟩ := C102_get_phys_solk (S := fun _ _ => True) kmfR_shaped (kmfR_near _) (M := 1) (fun _ _ _ _ _ _ _ _ _ _ _ _ _ _ _ _ => kmfR_one _ _ _ _ _ _ _ _) hs le_rfl (by norm_num)
    zero_le_one le_rfl kmfR_conserves (k1 := 0) (k2 := 1) (k3 := 1) (k4 := 0) (by decide) (by decide) (by decide) (by decide) (o1 := [0, 1]) (o2 := [0, 1]) (o3 := [0, 1]) (o4 := [0, 1])
    (fun _ _ => trivial) (fun _ _ => trivial) (fun _ _ => trivial) (fun _ _ => trivial)
  obtain ⟨A', B, e', eB, hB⟩ := C102_last (sub := fun x y : ℝ => (1 + 1 / 8) * (x - y)) kmfR_shaped (fun x y => by ring) kmfR_conserves (k1 := 0) (k2 := 1) (k3 := 1) (k4 := 0) (by decide) (by decide)
    (by decide) (by decide) [0, 1] [0, 1] [0, 1] [0, 1]
  obtain rfl : A = A' := by
    rw [e] at e'
    exact Except.ok.inj e'
  have v : A.val 0 1 0 1 = 9 / 4 := by
    have : A = _ := (Except.ok.inj (e.symm.trans (by rw [fl_get_phys_solk, fl_solk kmfR_shaped]; rfl)))
    rw [this]
    norm_num [Arr.t0213, kmfR, ao2mo]
  refine ⟨A, B, e, eB, v, by rw [hB, v], ?_, ?_⟩
  · convert hA using 5
    rw [if_pos (by decide)]
  · rw [v]
    norm_num [kmfR, errOf]

/-- a block that is zero because momentum is not conserved -/
example : ∃ A, fl_get_phys_solk (fun x y : ℝ => (1 + 1 / 8) * (x - y)) (fun a b c d => ao2mo (kmfR.form a b c d)) kmfR 0 1 1 1 [0, 1] [0, 1] [0, 1] [0, 1] true = .ok A ∧
    A.val 0 1 0 1 = 0 := by
  obtain ⟨A, e, -, h⟩ := C102_zero (sub := fun x y : ℝ => (1 + 1 / 8) * (x - y)) (kern := fun a b c d => ao2mo (kmfR.form a b c d)) kmfR_conserves (k1 := 0) (k2 := 1) (k3 := 1) (k4 := 1) (by decide)
    (by decide) (by decide) (by decide) (by decide) [0, 1] [0, 1] [0, 1] [0, 1] true
  exact ⟨A, e, h _ _ _ _⟩

example : ∃ H, fl_solk_h2 (fun x y : ℝ => (1 + 1 / 8) * (x - y)) (fun a b c d => ao2mo (kmfR.form a b c d)) kmfR false = .ok H ∧ (H 0 1 1).val 0 1 0 1 = 1 ∧
    NearTab 0 (H 0 1 1) [0, 1] [0, 1] [0, 1] [0, 1] fun p q r s => kmfR.form 0 1 1 0 p r q s := by
  obtain ⟨H, e, h⟩ := C102_h2_near (sub := fun x y : ℝ => (1 + 1 / 8) * (x - y)) kmfR_shaped (kmfR_near _) kmfR_conserves (fun _ _ => rfl) false
  have h' := h 0 (by decide) 1 (by decide) 1 (by decide) 0 (by decide) (by decide)
  refine ⟨H, e, ?_, h'⟩
  have := h'.2 0 1 0 1 (by decide) (by decide) (by decide) (by decide)
  have h0 := sub_eq_zero.1 (norm_le_zero_iff.1 this)
  rw [h0]
  norm_num [kmfR]

/-- sums of products that come out too large by a factor of `1 + u`: the error is not zero -/
example : ∃ C, 0 ≤ C ∧ ∀ (u : ℝ) (h0 : 0 ≤ u) (h1 : u ≤ 1),
    ‖fl_solk_h1 (Heap.inflate h0 h1 : Heap.Rounding ℝ u 0 (Heap.szSum 0)).sop 2 (fun _ μ ν => (μ + ν : ℝ)) (fun _ => [fun i => 2 * i, fun i => 1 - i]) 1 0 1 - 2‖ ≤ C * u ∧
    fl_solk_h1 (Heap.inflate h0 h1 : Heap.Rounding ℝ u 0 (Heap.szSum 0)).sop 2 (fun _ μ ν => (μ + ν : ℝ)) (fun _ => [fun i => 2 * i, fun i => 1 - i]) 1 0 1 = 2 * (1 + u) ^ 5 := by
  obtain ⟨C, C0, h⟩ := C102_h1 (K := ℝ) (M := 2) (Heap.sz_mono (le_refl (0 : ℝ))) (by norm_num) 2
  refine ⟨C, C0, fun u h0 h1 => ⟨?_, ?_⟩⟩
  · have := h 0 u h0 h1 (Heap.inflate h0 h1) (fun _ μ ν => (μ + ν : ℝ)) (fun _ => [fun i => 2 * i, fun i => 1 - i]) 1 (fun μ hμ ν hν => by interval_cases μ <;> interval_cases ν <;> norm_num)
      (fun c hc μ hμ => by
        simp only [List.mem_cons, List.not_mem_nil, or_false] at hc
        rcases hc with rfl | rfl <;> interval_cases μ <;> norm_num) 0 1
    refine le_trans (le_of_eq ?_) this
    congr 2
    norm_num [solk_h1, Finset.sum_range_succ]
  · simp [fl_solk_h1, Heap.inflate, Heap.ltr, Heap.ltrSum, Heap.ltrProd, Heap.opVal, List.range_succ]
    ring

end accuracy
end Eri
