import Verif.Props.CIExp2
import Mathlib.Analysis.InnerProductSpace.Spectrum
import Mathlib.Analysis.InnerProductSpace.PiL2

/-! # C68: the energies of nested configuration-interaction bases (`/repo/cqcpy/ci_utils.py`)

The lists returned by `ucis_basis`, `ucisd_basis`, `ucisdt_basis` (and the general versions) are nested sets of determinants, and
`H_on_vec` multiplies with a symmetric matrix.  Hence the eigenvalues are real, there is a complete orthonormal set of
eigenvectors, and the `k`-th lowest eigenvalue can only go down from one basis to the next (Hylleraas, Undheim, MacDonald). -/

namespace CI

open Fock
open scoped InnerProductSpace

/-! ### eigenvectors of a symmetric operator and of its compression -/

section
variable {V : Type} [NormedAddCommGroup V] [InnerProductSpace ℝ V] [FiniteDimensional ℝ V]

theorem roots_of_compression {T : V →ₗ[ℝ] V} (hT : T.IsSymmetric) {k : ℕ} {w : Fin k → V} {e : Fin k → ℝ} {E : ℝ}
    (hw : Orthonormal ℝ w) (hTw : ∀ i j, ⟪w i, T (w j)⟫_ℝ = if i = j then e j else 0) (he : ∀ i, e i ≤ E) :
    ∃ (w' : Fin k → V) (e' : Fin k → ℝ), Orthonormal ℝ w' ∧ (∀ i, T (w' i) = e' i • w' i) ∧ ∀ i, e' i ≤ E := by
  classical
  set b := hT.eigenvectorBasis rfl with hb
  set l := hT.eigenvalues rfl with hl
  have hbl : ∀ j, T (b j) = l j • b j := fun j => by
    rw [hb, hl, hT.apply_eigenvectorBasis]; rfl
  let J := {j // l j ≤ E}
  let L : (Fin k → ℝ) →ₗ[ℝ] (J → ℝ) :=
    { toFun := fun c j => ⟪b j.1, ∑ i, c i • w i⟫_ℝ
      map_add' := fun c d => by ext j; simp [add_smul, Finset.sum_add_distrib, inner_add_right]
      map_smul' := fun r c => by ext j; simp [mul_smul, ← Finset.smul_sum, inner_smul_right] }
  have hinj : Function.Injective L := by
    rw [← LinearMap.ker_eq_bot, LinearMap.ker_eq_bot']
    intro c hc
    set x := ∑ i, c i • w i with hx
    have h0 : ∀ j, l j ≤ E → ⟪b j, x⟫_ℝ = 0 := fun j hj => congrFun hc ⟨j, hj⟩
    have n1 : ⟪x, x⟫_ℝ = ∑ i, c i ^ 2 := by
      rw [hx, hw.inner_sum]
      exact Finset.sum_congr rfl fun i _ => by simp [pow_two]
    have n2 : ⟪x, x⟫_ℝ = ∑ j, ⟪b j, x⟫_ℝ ^ 2 := by
      rw [← b.sum_inner_mul_inner x x]
      exact Finset.sum_congr rfl fun j _ => by rw [real_inner_comm x, pow_two]
    have m1 : ⟪x, T x⟫_ℝ = ∑ i, e i * c i ^ 2 := by
      rw [hx]
      simp only [map_sum, map_smul, sum_inner, inner_sum, inner_smul_left, inner_smul_right, hTw]
      refine Finset.sum_congr rfl fun i _ => ?_
      simp; ring
    have m2 : ⟪x, T x⟫_ℝ = ∑ j, l j * ⟪b j, x⟫_ℝ ^ 2 := by
      rw [← b.sum_inner_mul_inner x (T x)]
      refine Finset.sum_congr rfl fun j _ => ?_
      rw [← hT, hbl, inner_smul_left, real_inner_comm x]; simp; ring
    have h1 : ∑ j, (l j - E) * ⟪b j, x⟫_ℝ ^ 2 ≤ 0 := by
      have : ∑ j, (l j - E) * ⟪b j, x⟫_ℝ ^ 2 = ∑ i, (e i - E) * c i ^ 2 := by
        simp only [sub_mul, Finset.sum_sub_distrib, ← Finset.mul_sum]
        rw [← m1, ← m2, ← n1, ← n2]
      rw [this]
      exact Finset.sum_nonpos fun i _ => mul_nonpos_of_nonpos_of_nonneg (by linarith [he i]) (sq_nonneg _)
    have h2 : ∀ j ∈ Finset.univ, 0 ≤ (l j - E) * ⟪b j, x⟫_ℝ ^ 2 := fun j _ => by
      rcases le_or_gt (l j) E with h | h
      · rw [h0 j h]; simp
      · exact mul_nonneg (by linarith) (sq_nonneg _)
    have h3 := (Finset.sum_eq_zero_iff_of_nonneg h2).mp (le_antisymm h1 (Finset.sum_nonneg h2))
    have h4 : ∀ j, ⟪b j, x⟫_ℝ = 0 := fun j => by
      rcases le_or_gt (l j) E with h | h
      · exact h0 j h
      · have := h3 j (Finset.mem_univ j)
        rcases mul_eq_zero.mp this with h' | h'
        · linarith
        · exact pow_eq_zero_iff (two_ne_zero) |>.mp h'
    have h5 : ∑ i, c i ^ 2 = 0 := by rw [← n1, n2]; simp [h4]
    have h6 := (Finset.sum_eq_zero_iff_of_nonneg fun i _ => sq_nonneg (c i)).mp h5
    ext i
    exact pow_eq_zero_iff (two_ne_zero) |>.mp (h6 i (Finset.mem_univ i))
  have hcard : k ≤ Fintype.card J := by
    have := LinearMap.finrank_le_finrank_of_injective hinj
    simpa using this
  obtain ⟨f⟩ : Nonempty (Fin k ↪ J) := Function.Embedding.nonempty_of_card_le (by simpa using hcard)
  refine ⟨fun i => b (f i).1, fun i => l (f i).1, ?_, fun i => hbl _, fun i => (f i).2⟩
  exact b.orthonormal.comp _ fun i j h => f.injective (Subtype.ext h)

end

/-! ### lists of numbers -/

/-- the scalar product of two lists of numbers, `numpy.dot` -/
def dot (v w : List ℝ) : ℝ := (List.zipWith (· * ·) v w).sum

/-- `op` applied to lists of length `N` has the `k` orthonormal eigenvectors `vs` with the eigenvalues `es`. -/
def Roots (N : ℕ) (op : List ℝ → R (List ℝ)) {k : ℕ} (vs : Fin k → List ℝ) (es : Fin k → ℝ) : Prop :=
  (∀ i, (vs i).length = N) ∧ (∀ i j, dot (vs i) (vs j) = if i = j then 1 else 0) ∧
    ∀ i, op (vs i) = .ok ((vs i).map (es i * ·))

/-- the vector of a list -/
noncomputable def toV (N : ℕ) (v : List ℝ) : EuclideanSpace ℝ (Fin N) := WithLp.toLp 2 fun i => v.getD i 0

theorem dot_toV {N : ℕ} {v w : List ℝ} (hv : v.length = N) (hw : w.length = N) : dot v w = ⟪toV N v, toV N w⟫_ℝ := by
  subst hv
  have : List.zipWith (· * ·) v w = List.ofFn fun i : Fin v.length => v.getD i 0 * w.getD i 0 := by
    apply List.ext_getElem
    · simp [hw]
    · intro i h1 h2
      simp [hw]
  rw [dot, this, List.sum_ofFn]
  simp [toV, PiLp.inner_apply, mul_comm]

theorem toV_ofFn {N : ℕ} (x : EuclideanSpace ℝ (Fin N)) : toV N (List.ofFn fun i => x i) = x := by
  ext i; simp [toV]

theorem toV_injective {N : ℕ} {v w : List ℝ} (hv : v.length = N) (hw : w.length = N) (h : toV N v = toV N w) : v = w := by
  apply List.ext_getElem (by omega)
  intro i h1 h2
  have := congrArg (fun x : EuclideanSpace ℝ (Fin N) => x ⟨i, hv ▸ h1⟩) h
  simpa [toV, h1, h2] using this

theorem toV_map {N : ℕ} (c : ℝ) (v : List ℝ) : toV N (v.map (c * ·)) = c • toV N v := by
  ext i
  by_cases h : (i : ℕ) < v.length <;> simp [toV, h]

/-- the operator of a matrix -/
noncomputable def opM (N : ℕ) (M : ℕ → ℕ → ℝ) : EuclideanSpace ℝ (Fin N) →ₗ[ℝ] EuclideanSpace ℝ (Fin N) :=
  { toFun := fun x => WithLp.toLp 2 fun i => ∑ j : Fin N, M i j * x j
    map_add' := fun x y => by ext i; simp [mul_add, Finset.sum_add_distrib]
    map_smul' := fun c x => by ext i; simp [Finset.mul_sum, mul_left_comm] }

theorem toV_matvec {N : ℕ} (M : ℕ → ℕ → ℝ) {v : List ℝ} (hv : v.length = N) : toV N (matvec M v) = opM N M (toV N v) := by
  subst hv
  ext i
  simp [toV, matvec, opM, Finset.sum_range]

theorem opM_symm {N : ℕ} {M : ℕ → ℕ → ℝ} (h : ∀ i j, i < N → j < N → M i j = M j i) : (opM N M).IsSymmetric := by
  intro x y
  simp only [opM, PiLp.inner_apply, LinearMap.coe_mk, AddHom.coe_mk, RCLike.inner_apply, conj_trivial, Finset.mul_sum,
    Finset.sum_mul]
  rw [Finset.sum_comm]
  refine Finset.sum_congr rfl fun i _ => Finset.sum_congr rfl fun j _ => ?_
  rw [h j i j.2 i.2]; ring

theorem roots_iff {N : ℕ} {op : List ℝ → R (List ℝ)} {M : ℕ → ℕ → ℝ} (hop : ∀ v, v.length = N → op v = .ok (matvec M v))
    {k : ℕ} {vs : Fin k → List ℝ} {es : Fin k → ℝ} (hl : ∀ i, (vs i).length = N) :
    Roots N op vs es ↔ Orthonormal ℝ (fun i => toV N (vs i)) ∧ ∀ i, opM N M (toV N (vs i)) = es i • toV N (vs i) := by
  rw [orthonormal_iff_ite]
  refine ⟨fun h => ⟨fun i j => ?_, fun i => ?_⟩, fun h => ⟨hl, fun i j => ?_, fun i => ?_⟩⟩
  · rw [← dot_toV (hl i) (hl j), h.2.1]
  · have := h.2.2 i
    rw [hop _ (hl i), Except.ok.injEq] at this
    rw [← toV_matvec M (hl i), this, toV_map]
  · rw [dot_toV (hl i) (hl j), h.1]
  · rw [hop _ (hl i), Except.ok.injEq]
    apply toV_injective (N := N)
    · rw [length_matvec, hl]
    · rw [List.length_map, hl]
    · rw [toV_matvec M (hl i), h.2, toV_map]

theorem roots_nested {N N' : ℕ} {op op' : List ℝ → R (List ℝ)} {M M' : ℕ → ℕ → ℝ}
    (hop : ∀ v, v.length = N → op v = .ok (matvec M v)) (hop' : ∀ v, v.length = N' → op' v = .ok (matvec M' v))
    (hs : ∀ i j, i < N' → j < N' → M' i j = M' j i) (ι : Fin N → Fin N') (hι : Function.Injective ι)
    (hM : ∀ i j : Fin N, M' (ι i) (ι j) = M i j) {k : ℕ} {vs : Fin k → List ℝ} {es : Fin k → ℝ} {E : ℝ}
    (h : Roots N op vs es) (hE : ∀ i, es i ≤ E) :
    ∃ (vs' : Fin k → List ℝ) (es' : Fin k → ℝ), Roots N' op' vs' es' ∧ ∀ i, es' i ≤ E := by
  classical
  obtain ⟨h1, h2⟩ := (roots_iff hop h.1).mp h
  let em : EuclideanSpace ℝ (Fin N) → EuclideanSpace ℝ (Fin N') := fun x =>
    WithLp.toLp 2 fun a => ∑ i, if ι i = a then x i else 0
  have emι : ∀ x i, em x (ι i) = x i := fun x i => by
    simp [em, hι.eq_iff]
  have ein : ∀ x y, ⟪em x, y⟫_ℝ = ∑ i, x i * y (ι i) := fun x y => by
    simp only [em, PiLp.inner_apply, RCLike.inner_apply, conj_trivial, Finset.mul_sum]
    rw [Finset.sum_comm]
    refine Finset.sum_congr rfl fun i _ => ?_
    simp [mul_comm]
  have eop : ∀ x i, opM N' M' (em x) (ι i) = opM N M x i := fun x i => by
    simp only [opM, LinearMap.coe_mk, AddHom.coe_mk, em, Finset.mul_sum]
    rw [Finset.sum_comm]
    refine Finset.sum_congr rfl fun j _ => ?_
    simp [hM]
  have ein' : ∀ x y, ⟪em x, em y⟫_ℝ = ⟪x, y⟫_ℝ := fun x y => by
    rw [ein]; simp [emι, PiLp.inner_apply, mul_comm]
  have eop' : ∀ x y, ⟪em x, opM N' M' (em y)⟫_ℝ = ⟪x, opM N M y⟫_ℝ := fun x y => by
    rw [ein]; simp only [eop, PiLp.inner_apply, RCLike.inner_apply, conj_trivial]
    exact Finset.sum_congr rfl fun i _ => mul_comm _ _
  have on : Orthonormal ℝ (fun i => em (toV N (vs i))) := by
    rw [orthonormal_iff_ite] at h1 ⊢
    intro i j; rw [ein', h1]
  obtain ⟨w, e, a, b, c⟩ := roots_of_compression (opM_symm hs) (e := es) on (E := E) (fun i j => by
    rw [eop', h2, inner_smul_right, orthonormal_iff_ite.mp h1]; split_ifs <;> simp) hE
  refine ⟨fun i => List.ofFn fun a => w i a, e, ?_, c⟩
  rw [roots_iff hop' (fun i => by simp)]
  simp only [toV_ofFn]
  exact ⟨a, b⟩

theorem roots_complete {N : ℕ} {op : List ℝ → R (List ℝ)} {M : ℕ → ℕ → ℝ}
    (hop : ∀ v, v.length = N → op v = .ok (matvec M v)) (hs : ∀ i j, i < N → j < N → M i j = M j i) :
    ∃ (vs : Fin N → List ℝ) (es : Fin N → ℝ), Roots N op vs es := by
  have hT := opM_symm hs
  have hn : Module.finrank ℝ (EuclideanSpace ℝ (Fin N)) = N := by simp
  refine ⟨fun i => List.ofFn fun a => hT.eigenvectorBasis hn i a, hT.eigenvalues hn, ?_⟩
  rw [roots_iff hop (fun i => by simp)]
  simp only [toV_ofFn]
  exact ⟨(hT.eigenvectorBasis hn).orthonormal, fun i => by rw [hT.apply_eigenvectorBasis]; rfl⟩


theorem roots_low {N : ℕ} {op : List ℝ → R (List ℝ)} {M : ℕ → ℕ → ℝ}
    (hop : ∀ v, v.length = N → op v = .ok (matvec M v)) {vs : Fin N → List ℝ} {es : Fin N → ℝ} (h : Roots N op vs es) {E : ℝ}
    (hE : ∀ i, E ≤ es i) {w : List ℝ} (hw : w.length = N) : ∃ w', op w = .ok w' ∧ E * dot w w ≤ dot w w' := by
  obtain ⟨h1, h2⟩ := (roots_iff hop h.1).mp h
  refine ⟨_, hop w hw, ?_⟩
  rw [dot_toV hw hw, dot_toV hw (by rw [length_matvec, hw]), toV_matvec M hw]
  let b : OrthonormalBasis (Fin N) ℝ (EuclideanSpace ℝ (Fin N)) :=
    OrthonormalBasis.mk h1 (h1.linearIndependent.span_eq_top_of_card_eq_finrank' (by simp)).ge
  have hb : ∀ i, b i = toV N (vs i) := fun i => by simp [b]
  set x := toV N w
  have hx : x = ∑ i, ⟪b i, x⟫_ℝ • b i := (b.sum_repr' x).symm
  have e1 : ⟪x, x⟫_ℝ = ∑ i, ⟪b i, x⟫_ℝ ^ 2 := by
    rw [← b.sum_inner_mul_inner x x]
    exact Finset.sum_congr rfl fun j _ => by rw [real_inner_comm x, pow_two]
  have e2 : ⟪x, opM N M x⟫_ℝ = ∑ i, es i * ⟪b i, x⟫_ℝ ^ 2 := by
    conv_lhs => rw [hx, map_sum, ← hx, inner_sum]
    refine Finset.sum_congr rfl fun i _ => ?_
    rw [map_smul, hb i, h2 i, inner_smul_right, inner_smul_right, real_inner_comm]; ring
  rw [e1, e2, Finset.mul_sum]
  exact Finset.sum_le_sum fun i _ => mul_le_mul_of_nonneg_right (hE i) (sq_nonneg _)

/-- the matrix of a function of two determinants over a list -/
def matOf {α : Type} (D : List α) (m : α → α → ℝ) (i j : ℕ) : ℝ :=
  match D[i]?, D[j]? with
  | some b, some k => m b k
  | _, _ => 0

theorem matOf_some {α : Type} {D : List α} {m : α → α → ℝ} {i j : ℕ} {b k : α} (hi : D[i]? = some b) (hj : D[j]? = some k) :
    matOf D m i j = m b k := by simp [matOf, hi, hj]

theorem matOf_symm {α : Type} {D : List α} {m : α → α → ℝ} (h : ∀ b ∈ D, ∀ k ∈ D, m b k = m k b) (i j : ℕ) (hi : i < D.length)
    (hj : j < D.length) : matOf D m i j = matOf D m j i := by
  rw [matOf_some (List.getElem?_eq_getElem hi) (List.getElem?_eq_getElem hj),
    matOf_some (List.getElem?_eq_getElem hj) (List.getElem?_eq_getElem hi), h _ (List.getElem_mem _) _ (List.getElem_mem _)]

theorem roots_sublist {α : Type} {D D' : List α} (hD : D.Nodup) (hsub : ∀ d ∈ D, d ∈ D') {m : α → α → ℝ}
    (hm : ∀ b ∈ D', ∀ k ∈ D', m b k = m k b) {N N' : ℕ} (hN : D.length = N) (hN' : D'.length = N')
    {op op' : List ℝ → R (List ℝ)} (hop : ∀ v, v.length = N → op v = .ok (matvec (matOf D m) v))
    (hop' : ∀ v, v.length = N' → op' v = .ok (matvec (matOf D' m) v)) {k : ℕ} {vs : Fin k → List ℝ} {es : Fin k → ℝ} {E : ℝ}
    (h : Roots N op vs es) (hE : ∀ i, es i ≤ E) :
    ∃ (vs' : Fin k → List ℝ) (es' : Fin k → ℝ), Roots N' op' vs' es' ∧ ∀ i, es' i ≤ E := by
  classical
  subst hN; subst hN'
  have ex : ∀ i : Fin D.length, ∃ a : Fin D'.length, D'[a] = D[i] := fun i => by
    obtain ⟨a, ha, e⟩ := List.mem_iff_getElem.mp (hsub _ (List.getElem_mem i.2))
    exact ⟨⟨a, ha⟩, e⟩
  choose ι hι using ex
  refine roots_nested hop hop' (matOf_symm hm) ι (fun i j hij => ?_) (fun i j => ?_) h hE
  · have : D[i] = D[j] := by rw [← hι i, ← hι j, hij]
    exact Fin.ext ((List.Nodup.getElem_inj_iff hD).mp this)
  · rw [matOf_some (b := D[i]) (k := D[j]), matOf_some (b := D[i]) (k := D[j])]
    · simp
    · simp
    · rw [List.getElem?_eq_getElem (ι i).2]; exact congrArg some (hι i)
    · rw [List.getElem?_eq_getElem (ι j).2]; exact congrArg some (hι j)

/-! ### bases of two strings -/

section unrestricted
variable {ha hb : ℕ → ℕ → ℝ} {Ia Ib Iabab : ℕ → ℕ → ℕ → ℕ → ℝ}

/-- The integrals are those of a real symmetric Hamiltonian. -/
structure SymU (ha hb : ℕ → ℕ → ℝ) (Ia Ib Iabab : ℕ → ℕ → ℕ → ℕ → ℝ) : Prop where
  sa : ∀ p q, ha p q = ha q p
  sb : ∀ p q, hb p q = hb q p
  va : ∀ p q r s, Ia p q r s = Ia q p s r
  vb : ∀ p q r s, Ib p q r s = Ib q p s r
  wa : ∀ p q r s, Ia p q r s = Ia r s p q
  wb : ∀ p q r s, Ib p q r s = Ib r s p q
  wab : ∀ p q r s, Iabab p q r s = Iabab r s p q

theorem Excitation.card {ref d : Dstring} {k : ℕ} (h : Excitation ref d k) : (supp d).card = (supp ref).card := by
  have h1 := Finset.card_sdiff_add_card_inter (supp ref) (supp d)
  have h2 := Finset.card_sdiff_add_card_inter (supp d) (supp ref)
  rw [Finset.inter_comm] at h2
  have h3 := h.2.2.1
  have h4 := h.2.2.2
  omega

/-- the number `ci_matrixel` returns -/
noncomputable def elU (ha hb : ℕ → ℕ → ℝ) (Ia Ib Iabab : ℕ → ℕ → ℕ → ℕ → ℝ) (b k : Dstring × Dstring) : ℝ :=
  match ci_matrixel b.1 b.2 k.1 k.2 ha hb Ia Ib Iabab 0 with
  | .ok x => x
  | .error _ => 0

theorem enumU_data (hS : SymU ha hb Ia Ib Iabab) {B : List Pair} {refa refb : Dstring} {P : ℕ → ℕ → Prop}
    (he : EnumeratesU B refa refb P) :
    ∃ D : List (Dstring × Dstring), B = D.map (fun d => (some d.1, some d.2)) ∧ D.Nodup ∧
      (∀ d, d ∈ D ↔ ∃ k l, Excitation refa d.1 k ∧ Excitation refb d.2 l ∧ P k l) ∧
      (∀ b ∈ D, ∀ k ∈ D, elU ha hb Ia Ib Iabab b k = elU ha hb Ia Ib Iabab k b) ∧
      ∀ v, v.length = B.length → H_on_vec B v ha hb Ia Ib Iabab = .ok (matvec (matOf D (elU ha hb Ia Ib Iabab)) v) := by
  obtain ⟨D, hB⟩ := he.basis
  have hmem : ∀ d, d ∈ D ↔ ∃ k l, Excitation refa d.1 k ∧ Excitation refb d.2 l ∧ P k l := fun d => by
    have h1 : d ∈ D ↔ (some d.1, some d.2) ∈ B := by
      rw [hB.1, List.mem_map]
      refine ⟨fun h => ⟨d, h, rfl⟩, ?_⟩
      rintro ⟨d', h, e⟩
      simp only [Prod.mk.injEq, Option.some.injEq] at e
      rwa [← Prod.ext e.1 e.2]
    rw [h1, he.2]
    constructor
    · rintro ⟨da, db, k, l, e, h2⟩
      simp only [Prod.mk.injEq, Option.some.injEq] at e
      obtain ⟨rfl, rfl⟩ := e
      exact ⟨k, l, h2⟩
    · rintro ⟨k, l, h2⟩
      exact ⟨d.1, d.2, k, l, rfl, h2⟩
  refine ⟨D, hB.1, hB.2.1, hmem, fun b hbD k hk => ?_, fun v hv => ?_⟩
  · obtain ⟨_, _, a1, a2, -⟩ := (hmem b).mp hbD
    obtain ⟨_, _, c1, c2, -⟩ := (hmem k).mp hk
    rw [elU, C36_ci_symmetric ha hb Ia Ib Iabab 0 a1.1 a2.1 c1.1 c2.1 (c1.2.1.trans a1.2.1.symm) (c2.2.1.trans a2.2.1.symm)
      (a1.card.trans c1.card.symm) (a2.card.trans c2.card.symm) hS.sa hS.sb hS.va hS.vb hS.wa hS.wb hS.wab]
    rfl
  · refine C38_H_matrix hB.1 hv ha hb Ia Ib Iabab _ fun i j b k hi hj => ?_
    rw [matOf_some hi hj, elU]
    obtain ⟨_, _, a1, a2, -⟩ := (hmem b).mp (List.mem_of_getElem? hi)
    obtain ⟨_, _, c1, c2, -⟩ := (hmem k).mp (List.mem_of_getElem? hj)
    rw [C35_ci_matrixel ha hb Ia Ib Iabab 0 a1.1 a2.1 c1.1 c2.1 a1.2.1 a2.2.1 c1.2.1 c2.2.1
      (a1.card.trans c1.card.symm) (a2.card.trans c2.card.symm) hS.va hS.vb]

/-- C68: over a list of excitations, each listed once, `H_on_vec` has a complete set of orthonormal eigenvectors, and no
expectation value lies below the lowest eigenvalue. -/
theorem C68_diagonal (hS : SymU ha hb Ia Ib Iabab) {B : List Pair} {refa refb : Dstring} {P : ℕ → ℕ → Prop}
    (he : EnumeratesU B refa refb P) :
    ∃ (vs : Fin B.length → List ℝ) (es : Fin B.length → ℝ),
      Roots B.length (fun v => H_on_vec B v ha hb Ia Ib Iabab) vs es ∧
      ∀ E, (∀ i, E ≤ es i) → ∀ w : List ℝ, w.length = B.length →
        ∃ w', H_on_vec B w ha hb Ia Ib Iabab = .ok w' ∧ E * dot w w ≤ dot w w' := by
  obtain ⟨D, hB, hD, hm, hs, hop⟩ := enumU_data hS he
  have hl : B.length = D.length := by rw [hB, List.length_map]
  obtain ⟨vs, es, h⟩ := roots_complete hop (fun i j hi hj => matOf_symm hs i j (hl ▸ hi) (hl ▸ hj))
  exact ⟨vs, es, h, fun E hE w hw => roots_low hop h hE hw⟩

/-- C68: enlarging the set of excitations keeps at least as many eigenvalues below any bound: if `H_on_vec` over the smaller
list has `k` orthonormal eigenvectors with eigenvalues at most `E`, so has `H_on_vec` over the larger list. -/
theorem C68_nested (hS : SymU ha hb Ia Ib Iabab) {B B' : List Pair} {refa refb : Dstring} {P P' : ℕ → ℕ → Prop}
    (he : EnumeratesU B refa refb P) (he' : EnumeratesU B' refa refb P') (hP : ∀ k l, P k l → P' k l) {k : ℕ}
    {vs : Fin k → List ℝ} {es : Fin k → ℝ} {E : ℝ} (h : Roots B.length (fun v => H_on_vec B v ha hb Ia Ib Iabab) vs es)
    (hE : ∀ i, es i ≤ E) :
    ∃ (vs' : Fin k → List ℝ) (es' : Fin k → ℝ),
      Roots B'.length (fun v => H_on_vec B' v ha hb Ia Ib Iabab) vs' es' ∧ ∀ i, es' i ≤ E := by
  obtain ⟨D, hB, hD, hm, -, hop⟩ := enumU_data hS he
  obtain ⟨D', hB', -, hm', hs', hop'⟩ := enumU_data hS he'
  refine roots_sublist hD (fun d hd => ?_) hs' (by rw [hB, List.length_map]) (by rw [hB', List.length_map]) hop hop' h hE
  obtain ⟨k, l, h1, h2, h3⟩ := (hm d).mp hd
  exact (hm' d).mpr ⟨k, l, h1, h2, hP _ _ h3⟩

/-- C68: the lowest eigenvalue lies at or below the energy of the reference determinant. -/
theorem C68_reference (hS : SymU ha hb Ia Ib Iabab) {B : List Pair} {refa refb : Dstring} (hra : IsDet refa) (hrb : IsDet refb)
    {P : ℕ → ℕ → Prop} (he : EnumeratesU B refa refb P) (hP : P 0 0) {E : ℝ}
    (hE : ci_matrixel refa refb refa refb ha hb Ia Ib Iabab 0 = .ok E) :
    ∃ v e, v.length = B.length ∧ dot v v = 1 ∧ H_on_vec B v ha hb Ia Ib Iabab = .ok (v.map (e * ·)) ∧ e ≤ E := by
  have h0 := enumerates_prod (enumerates_ref hra) (enumerates_ref hrb)
  obtain ⟨vs, es, h, hle⟩ := C68_nested hS h0 he (by rintro k l ⟨rfl, rfl⟩; exact hP) (k := 1) (vs := fun _ => [1])
    (es := fun _ => E) (E := E) ⟨fun _ => rfl, fun i j => by simp [dot, Subsingleton.elim i j], fun _ => by
      refine (C38_H_matrix (K := ℝ) (B := [(some refa, some refb)]) (D := [(refa, refb)]) (vec := [1]) rfl rfl ha hb Ia Ib Iabab (fun _ _ => E) ?_).trans (by simp [matvec])
      intro i j b k hi hj
      have hb' : b = (refa, refb) := by simpa using List.mem_of_getElem? hi
      have hk' : k = (refa, refb) := by simpa using List.mem_of_getElem? hj
      rw [hb', hk']; exact hE⟩ (fun _ => le_refl _)
  exact ⟨vs 0, es 0, h.1 0, by rw [h.2.1, if_pos rfl], h.2.2 0, hle 0⟩

/-- C68: CIS, CISD, CISDT: every eigenvalue goes down from one basis to the next. -/
theorem C68_ucis_ucisd_ucisdt (hS : SymU ha hb Ia Ib Iabab) (n na nb : ℕ) :
    ∃ B₁ B₂ B₃, ucis_basis n na nb = .ok B₁ ∧ ucisd_basis n na nb = .ok B₂ ∧ ucisdt_basis n na nb = .ok B₃ ∧
      ∀ (k : ℕ) (E : ℝ),
        ((∃ (vs : Fin k → List ℝ) (es : Fin k → ℝ), Roots B₁.length (fun v => H_on_vec B₁ v ha hb Ia Ib Iabab) vs es ∧
          ∀ i, es i ≤ E) →
        ∃ (vs : Fin k → List ℝ) (es : Fin k → ℝ), Roots B₂.length (fun v => H_on_vec B₂ v ha hb Ia Ib Iabab) vs es ∧
          ∀ i, es i ≤ E) ∧
        ((∃ (vs : Fin k → List ℝ) (es : Fin k → ℝ), Roots B₂.length (fun v => H_on_vec B₂ v ha hb Ia Ib Iabab) vs es ∧
          ∀ i, es i ≤ E) →
        ∃ (vs : Fin k → List ℝ) (es : Fin k → ℝ), Roots B₃.length (fun v => H_on_vec B₃ v ha hb Ia Ib Iabab) vs es ∧
          ∀ i, es i ≤ E) := by
  obtain ⟨B₁, h1, e1⟩ := C33_ucis n na nb true
  obtain ⟨B₂, h2, e2⟩ := C33_ucisd n na nb
  obtain ⟨B₃, h3, e3⟩ := C33_ucisdt n na nb
  refine ⟨B₁, B₂, B₃, h1, h2, h3, fun k E => ⟨?_, ?_⟩⟩
  · rintro ⟨vs, es, h, hE⟩
    exact C68_nested hS e1 e2 (by rintro k l ⟨h, -⟩; omega) h hE
  · rintro ⟨vs, es, h, hE⟩
    exact C68_nested hS e2 e3 (by intro k l h; omega) h hE

/-- C68: CISDTQ, when no four electrons can be excited in one spin (then `ucisdtq_basis` lists every determinant once). -/
theorem C68_ucisdtq (hS : SymU ha hb Ia Ib Iabab) {n na nb : ℕ} (ca : na < 4 ∨ n < na + 4) (cb : nb < 4 ∨ n < nb + 4) :
    ∃ B₃ B₄, ucisdt_basis n na nb = .ok B₃ ∧ ucisdtq_basis n na nb = .ok B₄ ∧
      ∀ (k : ℕ) (E : ℝ),
        (∃ (vs : Fin k → List ℝ) (es : Fin k → ℝ), Roots B₃.length (fun v => H_on_vec B₃ v ha hb Ia Ib Iabab) vs es ∧
          ∀ i, es i ≤ E) →
        ∃ (vs : Fin k → List ℝ) (es : Fin k → ℝ), Roots B₄.length (fun v => H_on_vec B₄ v ha hb Ia Ib Iabab) vs es ∧
          ∀ i, es i ≤ E := by
  obtain ⟨B₃, h3, e3⟩ := C33_ucisdt n na nb
  obtain ⟨B₄, h4, e4⟩ := C33_ucisdtq ca cb
  refine ⟨B₃, B₄, h3, h4, fun k E => ?_⟩
  rintro ⟨vs, es, h, hE⟩
  exact C68_nested hS e3 e4 (by intro k l h; omega) h hE

theorem mem_prod {La Lb : List (Option Dstring)} {x : Pair} (h : x ∈ prod La Lb) : x.1 ∈ La ∧ x.2 ∈ Lb := by
  simp only [prod, List.mem_flatMap, List.mem_map] at h
  obtain ⟨a, ha, b, hb, rfl⟩ := h
  exact ⟨ha, hb⟩

/-- what `ucisdtq_basis` returns in all cases: excitations, and with four excitable electrons of spin alpha some of them twice -/
theorem ucisdtq_list (n na nb : ℕ) :
    ∃ B, ucisdtq_basis n na nb = .ok B ∧
      (∀ x ∈ B, ∃ da db k l, x = (some da, some db) ∧ Excitation ⟨n, aufbau n na⟩ da k ∧ Excitation ⟨n, aufbau n nb⟩ db l) ∧
      (4 ≤ na → na + 4 ≤ n → ¬ B.Nodup) := by
  obtain ⟨⟨sa, hsa, esa⟩, ⟨da, hda, eda⟩, ⟨ta, hta, eta⟩⟩ := C32_default n na
  obtain ⟨⟨sb, hsb, esb⟩, ⟨db, hdb, edb⟩, ⟨tb, htb, etb⟩⟩ := C32_default n nb
  obtain ⟨qa, hqa, eqa⟩ := C34_members n na
  obtain ⟨qb, hqb, eqb⟩ := C34_members n nb
  have ea := enumerates_ref (isDet_aufbau n na)
  have eb := enumerates_ref (isDet_aufbau n nb)
  have lift : ∀ {L : List (Option Dstring)} {ref : Dstring} {m : ℕ}, Enumerates L ref m → ∀ x ∈ L, ∃ d k, x = some d ∧ Excitation ref d k :=
    fun h x hx => by obtain ⟨d, h1, h2⟩ := (h.2 x).mp hx; exact ⟨d, _, h1, h2⟩
  have qA : ∀ x ∈ qa, ∃ d k, x = some d ∧ Excitation ⟨n, aufbau n na⟩ d k := fun x hx => by
    obtain ⟨d, h1, h2, -⟩ := (eqa x).mp hx; exact ⟨d, 4, h1, h2⟩
  have qB : ∀ x ∈ qb, ∃ d k, x = some d ∧ Excitation ⟨n, aufbau n nb⟩ d k := fun x hx => by
    obtain ⟨d, h1, h2, -⟩ := (eqb x).mp hx; exact ⟨d, 4, h1, h2⟩
  have pr : ∀ {La Lb : List (Option Dstring)}, (∀ x ∈ La, ∃ d k, x = some d ∧ Excitation ⟨n, aufbau n na⟩ d k) →
      (∀ x ∈ Lb, ∃ d k, x = some d ∧ Excitation ⟨n, aufbau n nb⟩ d k) → ∀ x ∈ prod La Lb,
      ∃ da db k l, x = (some da, some db) ∧ Excitation ⟨n, aufbau n na⟩ da k ∧ Excitation ⟨n, aufbau n nb⟩ db l := by
    intro La Lb h1 h2 x hx
    obtain ⟨m1, m2⟩ := mem_prod hx
    obtain ⟨d, k, e, h⟩ := h1 _ m1
    obtain ⟨d', k', e', h'⟩ := h2 _ m2
    exact ⟨d, d', k, k', Prod.ext e e', h, h'⟩
  unfold ucisdtq_basis
  simp only [hsa, hsb, hda, hdb, hta, htb, hqa, hqb, new_aufbau, bind, Except.bind, pure, Except.pure, withA_eq, withB_eq, ref_eq]
  refine ⟨_, rfl, fun x hx => ?_, fun h4 hn hnd => ?_⟩
  · simp only [List.mem_append, or_assoc] at hx
    rcases hx with h | h | h | h | h | h | h | h | h | h | h | h | h | h | h
    · exact pr (lift ea) (lift eb) x h
    · exact pr (lift esa) (lift eb) x h
    · exact pr (lift ea) (lift esb) x h
    · exact pr (lift eda) (lift eb) x h
    · exact pr (lift ea) (lift edb) x h
    · exact pr (lift esa) (lift esb) x h
    · exact pr (lift eta) (lift eb) x h
    · exact pr (lift ea) (lift etb) x h
    · exact pr (lift eda) (lift esb) x h
    · exact pr (lift esa) (lift edb) x h
    · exact pr qA (lift eb) x h
    · exact pr (lift ea) qB x h
    · exact pr (lift eta) (lift esb) x h
    · exact pr (lift eda) (lift edb) x h
    · exact pr (lift esa) (lift etb) x h
  · obtain ⟨L, hL, hdup⟩ := C34_duplicates h4 hn
    rw [hqa] at hL
    obtain rfl := Except.ok.inj hL
    have h1 := (List.nodup_append.mp (List.nodup_append.mp (List.nodup_append.mp (List.nodup_append.mp hnd).1).1).1).1
    have h2 := (List.nodup_append.mp h1).2.1
    rw [← withB_eq] at h2
    exact hdup (List.Nodup.of_map _ h2)

/-- minus the identity -/
def negOne (p q : ℕ) : ℝ := if p = q then -1 else 0

theorem symU_negOne : SymU negOne negOne 0 0 0 :=
  ⟨fun p q => by simp [negOne, eq_comm], fun p q => by simp [negOne, eq_comm], fun _ _ _ _ => rfl, fun _ _ _ _ => rfl,
    fun _ _ _ _ => rfl, fun _ _ _ _ => rfl, fun _ _ _ _ => rfl⟩

/-- The matrix of minus the number of electrons. -/
theorem elt_number {na nb : ℕ} {A B A' B' : Finset ℕ} (hA : A ⊆ Finset.range na) (hB : B ⊆ Finset.range nb) :
    elt (spinHam (K := ℝ) na nb negOne negOne 0 0 0) (emb A B) (emb A' B')
      = if A = A' ∧ B = B' then -((A.card : ℝ) + B.card) else 0 := by
  have hH : ∀ p q, spinH negOne negOne p q = if p = q then -1 else 0 := fun p q => by
    refine SO.cases (P := fun p => spinH negOne negOne p q = if p = q then -1 else 0) (fun i => ?_) (fun i => ?_) p <;>
    refine SO.cases (P := fun q => spinH negOne negOne _ q = if _ = q then -1 else 0) (fun j => ?_) (fun j => ?_) q
    · simp [spinH, negOne, up]
    · simp [spinH, up, dn]
    · simp [spinH, up, dn]
    · simp [spinH, negOne, dn]
  have hV : ∀ p q r s, spinV (K := ℝ) 0 0 0 p q r s = 0 := fun p q r s => by
    unfold spinV; split <;> rfl
  split_ifs with h
  · obtain ⟨rfl, rfl⟩ := h
    rw [spinHam, slater_diag _ _ _ (emb_subset hA hB)]
    simp only [hH, hV, if_true, sub_zero, Finset.sum_const_zero, mul_zero, add_zero, Finset.sum_const, card_emb, nsmul_eq_mul]
    push_cast; ring
  · rw [spinHam, elt_ham]
    simp only [hV, zero_mul, Finset.sum_const_zero, mul_zero, add_zero]
    refine Finset.sum_eq_zero fun p _ => Finset.sum_eq_zero fun q _ => ?_
    rw [hH]
    by_cases hpq : p = q
    · subst hpq
      rw [if_neg (c := p ∈ _ ∧ _), mul_zero]
      rintro ⟨h1, h2, h3⟩
      apply h
      rw [← emb_inj]
      ext x
      by_cases hx : x = p
      · subst hx; exact ⟨fun _ => h2, fun _ => h1⟩
      · have := Finset.ext_iff.mp h3 x
        simpa [hx] using this
    · rw [if_neg hpq, zero_mul]

theorem negOne_on_vec {n na nb : ℕ} (hna : na ≤ n) (hnb : nb ≤ n) {B : List Pair} {D : List (Dstring × Dstring)}
    (hB : B = D.map fun d => (some d.1, some d.2))
    (hD : ∀ d ∈ D, ∃ k l, Excitation ⟨n, aufbau n na⟩ d.1 k ∧ Excitation ⟨n, aufbau n nb⟩ d.2 l) {v : List ℝ}
    (hv : v.length = B.length) :
    H_on_vec B v negOne negOne 0 0 0 = .ok (matvec (fun i j => if D[i]? = D[j]? then -((na : ℝ) + nb) else 0) v) := by
  refine C38_H_matrix hB hv _ _ _ _ _ _ fun i j b k hi hj => ?_
  obtain ⟨_, _, a1, a2⟩ := hD b (List.mem_of_getElem? hi)
  obtain ⟨_, _, c1, c2⟩ := hD k (List.mem_of_getElem? hj)
  have cA : (supp b.1).card = na := by rw [a1.card, supp_aufbau, Finset.card_range]; omega
  have cB : (supp b.2).card = nb := by rw [a2.card, supp_aufbau, Finset.card_range]; omega
  rw [C35_ci_matrixel _ _ _ _ _ 0 a1.1 a2.1 c1.1 c2.1 a1.2.1 a2.2.1 c1.2.1 c2.2.1 (a1.card.trans c1.card.symm)
    (a2.card.trans c2.card.symm) (fun _ _ _ _ => rfl) (fun _ _ _ _ => rfl), ite_self, add_zero, elt_number, cA, cB, hi, hj]
  · have : (supp b.1 = supp k.1 ∧ supp b.2 = supp k.2) ↔ some b = some k := by
      rw [Option.some.injEq]
      constructor
      · rintro ⟨e1, e2⟩
        refine Prod.ext ?_ ?_
        · rw [← ofSet_supp a1.1, ← ofSet_supp c1.1, e1, a1.2.1, c1.2.1]
        · rw [← ofSet_supp a2.1, ← ofSet_supp c2.1, e2, a2.2.1, c2.2.1]
      · rintro rfl; exact ⟨rfl, rfl⟩
    simp only [this]
  · have := supp_subset b.1; rwa [a1.2.1] at this
  · have := supp_subset b.2; rwa [a2.2.1] at this

theorem dot_tab (N : ℕ) (f g : ℕ → ℝ) : dot (tab N f) (tab N g) = ∑ k ∈ Finset.range N, f k * g k := by
  rw [dot, tab, tab, List.zipWith_map, List.zipWith_self, Finset.sum_range, ← List.sum_ofFn]
  congr 1
  apply List.ext_getElem <;> simp

/-- C68 is false for `ucisdtq_basis` with four alpha electrons and four empty alpha orbitals.  Take minus the number of
electrons for the Hamiltonian: every state has the energy `-(na + nb)`, and over a list without repetitions `H_on_vec` multiplies
with this number.  But `ucisdtq_basis` lists some determinants repeatedly, and over its list there is a vector with twice
this expectation value, far below the true energy. -/
theorem C68_ucisdtq_refuted {n na nb : ℕ} (h4 : 4 ≤ na) (hn : na + 4 ≤ n) (hnb : nb ≤ n) :
    (∀ B P, EnumeratesU B ⟨n, aufbau n na⟩ ⟨n, aufbau n nb⟩ P → ∀ v : List ℝ, v.length = B.length →
      H_on_vec B v negOne negOne 0 0 0 = .ok (v.map (-((na : ℝ) + nb) * ·))) ∧
    ∃ B v w, ucisdtq_basis n na nb = .ok B ∧ v.length = B.length ∧ H_on_vec B v negOne negOne 0 0 0 = .ok w ∧
      dot v v = 2 ∧ dot v w = 2 * (-((na : ℝ) + nb) * dot v v) := by
  constructor
  · intro B P he v hv
    obtain ⟨D, hB, hD, hm, -, -⟩ := enumU_data symU_negOne he
    rw [negOne_on_vec (n := n) (na := na) (by omega) hnb hB (fun d hd => by obtain ⟨k, l, h1, h2, -⟩ := (hm d).mp hd; exact ⟨k, l, h1, h2⟩) hv]
    congr 1
    have hl : v.length = D.length := by rw [hv, hB, List.length_map]
    apply List.ext_getElem
    · simp [matvec]
    · intro i h1 h2
      rw [List.length_map] at h2
      simp only [matvec, List.getElem_map, List.getElem_range]
      rw [Finset.sum_eq_single i]
      · simp [h2]
      · intro j hj hji
        rw [Finset.mem_range] at hj
        rw [if_neg, zero_mul]
        rw [List.getElem?_eq_getElem (hl ▸ h2), List.getElem?_eq_getElem (hl ▸ hj), Option.some.injEq, hD.getElem_inj_iff]
        exact fun h => hji h.symm
      · intro h; exact absurd (Finset.mem_range.mpr h2) h
  · obtain ⟨B, hB, hm, hd⟩ := ucisdtq_list n na nb
    obtain ⟨D, hD⟩ := exists_map (fun d : Dstring × Dstring => (some d.1, some d.2)) B fun x hx => by
      obtain ⟨da, db, -, -, rfl, -⟩ := hm x hx
      exact ⟨(da, db), rfl⟩
    have hl : B.length = D.length := by rw [hD, List.length_map]
    have hDd : ¬ D.Nodup := fun h => hd h4 hn (hD ▸ h.map fun x y e => by
      simp only [Prod.mk.injEq, Option.some.injEq] at e
      exact Prod.ext e.1 e.2)
    rw [List.nodup_iff_getElem?_ne_getElem?] at hDd
    push Not at hDd
    obtain ⟨i, j, hij, hj, e⟩ := hDd
    let f : ℕ → ℝ := fun k => (if k = i then 1 else 0) + if k = j then 1 else 0
    have key : ∀ g : ℕ → ℝ, ∑ k ∈ Finset.range B.length, f k * g k = g i + g j := fun g => by
      simp only [f, add_mul, ite_mul, one_mul, zero_mul, Finset.sum_add_distrib, Finset.sum_ite_eq', Finset.mem_range]
      rw [if_pos (by omega), if_pos (by omega)]
    refine ⟨B, tab B.length f, _, hB, by simp, negOne_on_vec (n := n) (na := na) (by omega) hnb hD (fun d hdD => ?_) (by simp), ?_, ?_⟩
    · obtain ⟨da, db, k, l, e, h1, h2⟩ := hm (some d.1, some d.2) (by rw [hD]; exact List.mem_map.mpr ⟨d, hdD, rfl⟩)
      simp only [Prod.mk.injEq, Option.some.injEq] at e
      rw [e.1, e.2]; exact ⟨k, l, h1, h2⟩
    · rw [dot_tab, key]; simp [f, hij.ne, hij.ne']; norm_num
    · have hg : ∀ l ∈ Finset.range B.length, (tab B.length f).getD l 0 = f l := fun l hl => by
        rw [Finset.mem_range] at hl; simp [tab, hl]
      have hw : matvec (fun i j => if D[i]? = D[j]? then -((na : ℝ) + nb) else 0) (tab B.length f)
          = tab B.length fun k => (if D[k]? = D[i]? then -((na : ℝ) + nb) else 0) + if D[k]? = D[j]? then -((na : ℝ) + nb) else 0 := by
        unfold matvec
        rw [length_tab]
        refine tab_congr fun k _ => ?_
        rw [← key fun l => if D[k]? = D[l]? then -((na : ℝ) + nb) else 0]
        exact Finset.sum_congr rfl fun l hl => by rw [hg l hl, mul_comm]
      rw [hw, dot_tab, dot_tab, key, key]
      simp [f, hij.ne, hij.ne', e]; ring

end unrestricted

/-! ### bases of one string -/

section general
variable {h : ℕ → ℕ → ℝ} {I : ℕ → ℕ → ℕ → ℕ → ℝ}

/-- the number `gci_matrixel` returns -/
noncomputable def elG (h : ℕ → ℕ → ℝ) (I : ℕ → ℕ → ℕ → ℕ → ℝ) (b k : Dstring) : ℝ :=
  match gci_matrixel b k h I 0 with
  | .ok x => x
  | .error _ => 0

theorem enumG_data (sh : ∀ p q, h p q = h q p) (hI : ∀ p q r s, I p q r s = I q p s r) (wI : ∀ p q r s, I p q r s = I r s p q)
    {B : List (Option Dstring)} {ref : Dstring} {P : ℕ → Prop} (he : EnumeratesG B ref P) :
    ∃ D : List Dstring, B = D.map some ∧ D.Nodup ∧ (∀ d, d ∈ D ↔ ∃ k, Excitation ref d k ∧ P k) ∧
      (∀ b ∈ D, ∀ k ∈ D, elG h I b k = elG h I k b) ∧
      ∀ v, v.length = B.length → gH_on_vec B v h I = .ok (matvec (matOf D (elG h I)) v) := by
  obtain ⟨D, hB⟩ := he.basis
  have hmem : ∀ d, d ∈ D ↔ ∃ k, Excitation ref d k ∧ P k := fun d => by
    have h1 : d ∈ D ↔ some d ∈ B := by rw [hB.1]; simp
    rw [h1, he.2]
    constructor
    · rintro ⟨d', k, e, h2⟩
      simp only [Option.some.injEq] at e
      exact ⟨k, e ▸ h2⟩
    · rintro ⟨k, h2⟩
      exact ⟨d, k, rfl, h2⟩
  refine ⟨D, hB.1, hB.2.1, hmem, fun b hbD k hk => ?_, fun v hv => ?_⟩
  · obtain ⟨_, a1, -⟩ := (hmem b).mp hbD
    obtain ⟨_, c1, -⟩ := (hmem k).mp hk
    rw [elG, C36_gci_symmetric 0 h I a1.1 c1.1 (c1.2.1.trans a1.2.1.symm) (a1.card.trans c1.card.symm) sh hI wI]
    rfl
  · classical
    refine C38_gH_matrix hB.1 hv h I _ fun i j b k hi hj => ?_
    rw [matOf_some hi hj, elG]
    obtain ⟨_, a1, -⟩ := (hmem b).mp (List.mem_of_getElem? hi)
    obtain ⟨_, c1, -⟩ := (hmem k).mp (List.mem_of_getElem? hj)
    rw [C35_gci_partial 0 h I a1.1 c1.1 a1.2.1 c1.2.1 (a1.card.trans c1.card.symm) hI]

/-- C68 for `gH_on_vec`: a complete set of orthonormal eigenvectors. -/
theorem C68_gdiagonal (sh : ∀ p q, h p q = h q p) (hI : ∀ p q r s, I p q r s = I q p s r)
    (wI : ∀ p q r s, I p q r s = I r s p q) {B : List (Option Dstring)} {ref : Dstring} {P : ℕ → Prop} (he : EnumeratesG B ref P) :
    ∃ (vs : Fin B.length → List ℝ) (es : Fin B.length → ℝ), Roots B.length (fun v => gH_on_vec B v h I) vs es ∧
      ∀ E, (∀ i, E ≤ es i) → ∀ w : List ℝ, w.length = B.length →
        ∃ w', gH_on_vec B w h I = .ok w' ∧ E * dot w w ≤ dot w w' := by
  obtain ⟨D, hB, hD, hm, hs, hop⟩ := enumG_data sh hI wI he
  have hl : B.length = D.length := by rw [hB, List.length_map]
  obtain ⟨vs, es, hr⟩ := roots_complete hop (fun i j hi hj => matOf_symm hs i j (hl ▸ hi) (hl ▸ hj))
  exact ⟨vs, es, hr, fun E hE w hw => roots_low hop hr hE hw⟩

/-- C68 for `gH_on_vec`: enlarging the set of excitations keeps at least as many eigenvalues below any bound. -/
theorem C68_gnested (sh : ∀ p q, h p q = h q p) (hI : ∀ p q r s, I p q r s = I q p s r)
    (wI : ∀ p q r s, I p q r s = I r s p q) {B B' : List (Option Dstring)} {ref : Dstring} {P P' : ℕ → Prop}
    (he : EnumeratesG B ref P) (he' : EnumeratesG B' ref P') (hP : ∀ k, P k → P' k) {k : ℕ} {vs : Fin k → List ℝ}
    {es : Fin k → ℝ} {E : ℝ} (hr : Roots B.length (fun v => gH_on_vec B v h I) vs es) (hE : ∀ i, es i ≤ E) :
    ∃ (vs' : Fin k → List ℝ) (es' : Fin k → ℝ), Roots B'.length (fun v => gH_on_vec B' v h I) vs' es' ∧ ∀ i, es' i ≤ E := by
  obtain ⟨D, hB, hD, hm, -, hop⟩ := enumG_data sh hI wI he
  obtain ⟨D', hB', -, hm', hs', hop'⟩ := enumG_data sh hI wI he'
  refine roots_sublist hD (fun d hd => ?_) hs' (by rw [hB, List.length_map]) (by rw [hB', List.length_map]) hop hop' hr hE
  obtain ⟨k, h1, h3⟩ := (hm d).mp hd
  exact (hm' d).mpr ⟨k, h1, hP _ h3⟩

/-- C68: `gcis_basis`, `gcisd_basis`, `gcisdt_basis`: every eigenvalue goes down from one basis to the next. -/
theorem C68_gcis_gcisd_gcisdt (sh : ∀ p q, h p q = h q p) (hI : ∀ p q r s, I p q r s = I q p s r)
    (wI : ∀ p q r s, I p q r s = I r s p q) {nmo : ℕ} (n : ℕ) (hn : nmo % 2 = 0) :
    ∃ B₁ B₂ B₃, gcis_basis nmo n = .ok B₁ ∧ gcisd_basis nmo n = .ok B₂ ∧ gcisdt_basis nmo n = .ok B₃ ∧
      ∀ (k : ℕ) (E : ℝ),
        ((∃ (vs : Fin k → List ℝ) (es : Fin k → ℝ), Roots B₁.length (fun v => gH_on_vec B₁ v h I) vs es ∧ ∀ i, es i ≤ E) →
        ∃ (vs : Fin k → List ℝ) (es : Fin k → ℝ), Roots B₂.length (fun v => gH_on_vec B₂ v h I) vs es ∧ ∀ i, es i ≤ E) ∧
        ((∃ (vs : Fin k → List ℝ) (es : Fin k → ℝ), Roots B₂.length (fun v => gH_on_vec B₂ v h I) vs es ∧ ∀ i, es i ≤ E) →
        ∃ (vs : Fin k → List ℝ) (es : Fin k → ℝ), Roots B₃.length (fun v => gH_on_vec B₃ v h I) vs es ∧ ∀ i, es i ≤ E) := by
  obtain ⟨B₁, h1, e1⟩ := C33_gcis n true hn
  obtain ⟨B₂, h2, e2⟩ := C33_gcisd n hn
  obtain ⟨B₃, h3, e3⟩ := C33_gcisdt n hn
  refine ⟨B₁, B₂, B₃, h1, h2, h3, fun k E => ⟨?_, ?_⟩⟩
  · rintro ⟨vs, es, hr, hE⟩
    exact C68_gnested sh hI wI e1 e2 (by rintro k ⟨h, -⟩; omega) hr hE
  · rintro ⟨vs, es, hr, hE⟩
    exact C68_gnested sh hI wI e2 e3 (by intro k h; omega) hr hE

end general

/-- four alpha and four beta electrons in eight orbitals: an expectation value of `-16` although the energy is `-8` -/
example : ∃ B v w, ucisdtq_basis 8 4 4 = .ok B ∧ v.length = B.length ∧ H_on_vec B v negOne negOne 0 0 0 = .ok w ∧
    dot v v = 2 ∧ dot v w = -32 := by
  obtain ⟨-, B, v, w, h1, h2, h3, h4, h5⟩ := C68_ucisdtq_refuted (n := 8) (na := 4) (nb := 4) (by omega) (by omega) (by omega)
  exact ⟨B, v, w, h1, h2, h3, h4, by rw [h5, h4]; norm_num⟩

/-- integrals with couplings between all determinants -/
def hw (p q : ℕ) : ℝ := p + q - 2 * p * q
/-- see `hw` -/
def Iw (p q r s : ℕ) : ℝ := 1 + p * r + q * s

theorem symU_w : SymU hw hw Iw Iw Iw := by
  constructor <;> intros <;> simp only [hw, Iw] <;> ring

/-- two electrons in two orbitals: the two lowest CIS energies bound the two lowest CISD energies from above -/
example {E : ℝ} {vs : Fin 2 → List ℝ} {es : Fin 2 → ℝ} {B : List Pair} (hB : ucis_basis 2 1 1 = .ok B)
    (h : Roots B.length (fun v => H_on_vec B v hw hw Iw Iw Iw) vs es) (hE : ∀ i, es i ≤ E) :
    ∃ B' vs' es', ucisd_basis 2 1 1 = .ok B' ∧ Roots (k := 2) B'.length (fun v => H_on_vec B' v hw hw Iw Iw Iw) vs' es' ∧
      ∀ i, es' i ≤ E := by
  obtain ⟨B₁, B₂, B₃, h1, h2, -, hk⟩ := C68_ucis_ucisd_ucisdt symU_w 2 1 1
  rw [hB] at h1
  obtain rfl := Except.ok.inj h1
  obtain ⟨vs', es', h3, h4⟩ := (hk 2 E).1 ⟨vs, es, h, hE⟩
  exact ⟨B₂, vs', es', h2, h3, h4⟩

/-- the hypotheses of the example hold: the three determinants have a complete set of eigenvectors, none of them zero -/
example : ∃ B, ucis_basis 2 1 1 = .ok B ∧ B.length = 3 ∧ ∃ (vs : Fin B.length → List ℝ) (es : Fin B.length → ℝ),
    Roots B.length (fun v => H_on_vec B v hw hw Iw Iw Iw) vs es := by
  obtain ⟨B, hB, he⟩ := C33_ucis 2 1 1 true
  obtain ⟨vs, es, h, -⟩ := C68_diagonal symU_w he
  refine ⟨B, hB, ?_, vs, es, h⟩
  have e : ucis_basis 2 1 1 = .ok [(some ⟨2, [1, 0]⟩, some ⟨2, [1, 0]⟩), (some ⟨2, [0, 1]⟩, some ⟨2, [1, 0]⟩),
    (some ⟨2, [1, 0]⟩, some ⟨2, [0, 1]⟩)] := by decide +kernel
  rw [e] at hB
  rw [← Except.ok.inj hB]; rfl

end CI
