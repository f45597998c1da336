import Verif.Props.CIExpRound
import Verif.Props.CIExp
import Verif.Props.IterUniU
/-!
# C101: `makeCfromT` after a rounded unrestricted coupled-cluster iteration
-/
set_option linter.unusedSectionVars false
namespace CI.FlExp
open CI Fock

/-- Indexing an array of singles, with zeros beyond its end. -/
def utab1 (v o : ℕ) (x : Heap.Arr ℝ) : ℕ → ℕ → ℝ := fun a i => if a < v ∧ i < o then x.val [a, i] else 0
/-- Indexing an array of doubles, with zeros beyond its end. -/
def utab2 (v w o p : ℕ) (x : Heap.Arr ℝ) : ℕ → ℕ → ℕ → ℕ → ℝ := fun a b i j => if a < v ∧ b < w ∧ i < o ∧ j < p then x.val [a, b, i, j] else 0
/-- Exact singles, with zeros beyond their end. -/
def uext1 {v o : ℕ} (T : Fin v → Fin o → ℝ) : ℕ → ℕ → ℝ := fun a i => if h : a < v ∧ i < o then T ⟨a, h.1⟩ ⟨i, h.2⟩ else 0
/-- Exact doubles, with zeros beyond their end. -/
def uext2 {v w o p : ℕ} (T : Fin v → Fin w → Fin o → Fin p → ℝ) : ℕ → ℕ → ℕ → ℕ → ℝ := fun a b i j =>
  if h : a < v ∧ b < w ∧ i < o ∧ j < p then T ⟨a, h.1⟩ ⟨b, h.2.1⟩ ⟨i, h.2.2.1⟩ ⟨j, h.2.2.2⟩ else 0

theorem uext2_anti {v o : ℕ} {T : Fin v → Fin v → Fin o → Fin o → ℝ} (hT : CC.Anti T) : Anti o v (uext2 T) := by
  intro a b i j ha hb hi hj
  simp only [uext2, ha, hb, hi, hj, and_self, dif_pos]
  exact ⟨hT.1 _ _ _ _, hT.2 _ _ _ _⟩

theorem uclose1 {v o : ℕ} {T : Fin v → Fin o → ℝ} {x : Heap.Arr ℝ} {ε : ℝ} (e0 : 0 ≤ ε) (h : ∀ (a : Fin v) (i : Fin o), |x.val [a.1, i.1] - T a i| ≤ ε) (a i : ℕ) : |utab1 v o x a i - uext1 T a i| ≤ ε := by
  by_cases hh : a < v ∧ i < o
  · simp only [utab1, uext1, hh, and_self, if_true, dif_pos]
    exact h ⟨a, hh.1⟩ ⟨i, hh.2⟩
  · simpa only [utab1, uext1, if_neg hh, dif_neg hh, sub_zero, abs_zero] using e0

theorem uclose2 {v w o p : ℕ} {T : Fin v → Fin w → Fin o → Fin p → ℝ} {x : Heap.Arr ℝ} {ε : ℝ} (e0 : 0 ≤ ε)
    (h : ∀ (a : Fin v) (b : Fin w) (i : Fin o) (j : Fin p), |x.val [a.1, b.1, i.1, j.1] - T a b i j| ≤ ε) (a b i j : ℕ) : |utab2 v w o p x a b i j - uext2 T a b i j| ≤ ε := by
  by_cases hh : a < v ∧ b < w ∧ i < o ∧ j < p
  · simp only [utab2, uext2, hh, and_self, if_true, dif_pos]
    exact h ⟨a, hh.1⟩ ⟨b, hh.2.1⟩ ⟨i, hh.2.2.1⟩ ⟨j, hh.2.2.2⟩
  · simpa only [utab2, uext2, if_neg hh, dif_neg hh, sub_zero, abs_zero] using e0

variable {n : ℕ → ℕ}

/-- `makeCfromT` in rounded arithmetic for five arrays of amplitudes. -/
noncomputable def makeCOf (rd : ℝ → ℝ) (n : ℕ → ℕ) (x : Fin 5 → Heap.Arr ℝ) (order : ℕ) : R (List ℝ) :=
  makeCfromT rd (n 0) (n 1) (n 2) (n 3) (utab1 (n 1) (n 0) (x 0)) (utab1 (n 3) (n 2) (x 1)) (utab2 (n 1) (n 1) (n 0) (n 0) (x 2)) (utab2 (n 1) (n 3) (n 0) (n 2) (x 3))
    (utab2 (n 3) (n 3) (n 2) (n 2) (x 4)) order

/-- The coefficients of `exp(T)` applied to the reference. -/
noncomputable def expOf (T : CC.UAmp ℝ (Fin (n 0)) (Fin (n 1)) (Fin (n 2)) (Fin (n 3))) :=
  IsNilpotent.exp (clusterU (n 0) (n 1) (n 2) (n 3) (uext1 T.1.1) (uext1 T.1.2) (uext2 T.2.1) (uext2 T.2.2.1) (uext2 T.2.2.2)) (det (uref (n 0) (n 2)))

/-- C101: for unrestricted amplitudes: let `T` be antisymmetric amplitudes, and `x` five arrays within `b * u` of them.  Then `makeCfromT`, in rounded arithmetic and with `order` one, two
or three, returns the coefficients of `exp(T)` applied to the reference determinant, each up to `c * u`. -/
theorem C101_ucluster (hn : n 0 + n 1 = n 2 + n 3) (t : Bool) (T : CC.UAmp ℝ (Fin (n 0)) (Fin (n 1)) (Fin (n 2)) (Fin (n 3))) (hT : CC.UAnti T) (η : ℝ) {b : ℝ} (hb : 0 ≤ b) :
    ∃ c, 0 ≤ c ∧ ∀ order, 1 ≤ order → order ≤ 3 → ∃ B D,
      (if order = 1 then ucis_basis (n 0 + n 1) (n 0) (n 2) else if order = 2 then ucisd_basis (n 0 + n 1) (n 0) (n 2) else ucisdt_basis (n 0 + n 1) (n 0) (n 2)) = .ok B ∧
      PBasis (n 0 + n 1) (n 2 + n 3) B D ∧ ∀ u, 0 ≤ u → u ≤ 1 → ∀ rd : ℝ → ℝ, (∀ x, |rd x - x| ≤ u * (|x| + η)) → ∀ x : Fin 5 → Heap.Arr ℝ, ‖(Heap.uV n ℝ t).rd x - T‖ ≤ b * u →
        ∃ C, makeCOf rd n x order = .ok C ∧ C.length = D.length ∧ ∀ k (hk : k < D.length), |C.getD k 0 - expOf T (psupp D[k])| ≤ c * u := by
  choose c c0 h using fun order => C101_makeCfromT (n 0) (n 1) (n 2) (n 3) order (uext1 T.1.1) (uext1 T.1.2) (uext2 T.2.1) (uext2 T.2.2.1) (uext2 T.2.2.2) η hb
  have key : ∀ (order : ℕ) (D : List (Dstring × Dstring)) (L : Dstring × Dstring → ℝ),
      CI.makeCfromT (n 0) (n 1) (n 2) (n 3) (uext1 T.1.1) (uext1 T.1.2) (uext2 T.2.1) (uext2 T.2.2.1) (uext2 T.2.2.2) order = .ok (D.map L) → c order ≤ c 1 + c 2 + c 3 →
      ∀ u, 0 ≤ u → u ≤ 1 → ∀ rd : ℝ → ℝ, (∀ x, |rd x - x| ≤ u * (|x| + η)) → ∀ x : Fin 5 → Heap.Arr ℝ, ‖(Heap.uV n ℝ t).rd x - T‖ ≤ b * u →
        ∃ C, makeCOf rd n x order = .ok C ∧ C.length = D.length ∧ ∀ k (hk : k < D.length), |C.getD k 0 - L D[k]| ≤ (c 1 + c 2 + c 3) * u := by
    intro order D L e hc u u0 u1 rd hr x hx
    obtain ⟨a0, a1, a2, a3, a4⟩ := Heap.le_u ((Heap.uV n ℝ t).rd x - T)
    have e0 : 0 ≤ b * u := mul_nonneg hb u0
    obtain ⟨C, hC, hl, hk⟩ := (h order u u0 u1 rd hr _ _ _ _ _ (uclose1 e0 fun a i => (a0 a i).trans hx) (uclose1 e0 fun a i => (a1 a i).trans hx)
      (uclose2 e0 fun a b i j => (a2 a b i j).trans hx) (uclose2 e0 fun a b i j => (a3 a b i j).trans hx) (uclose2 e0 fun a b i j => (a4 a b i j).trans hx)).2 _ e
    refine ⟨C, hC, by simpa using hl, fun k hk' => ?_⟩
    have := (hk k).trans (mul_le_mul_of_nonneg_right hc u0)
    rwa [List.getD_eq_getElem (D.map L) _ (by simpa using hk'), List.getElem_map] at this
  have p1 := c0 1
  have p2 := c0 2
  have p3 := c0 3
  refine ⟨c 1 + c 2 + c 3, by positivity, fun order h1 h3 => ?_⟩
  obtain rfl | rfl | rfl : order = 1 ∨ order = 2 ∨ order = 3 := by omega
  · obtain ⟨B, D, hB, hD, e⟩ := C37_makeCfromT_1 (uext1 T.1.1) (uext1 T.1.2) (T2ab := uext2 T.2.2.1) hn (uext2_anti hT.1) (uext2_anti hT.2)
    exact ⟨B, D, hB, hD, key 1 D _ e (by linarith)⟩
  · obtain ⟨B, D, hB, hD, e⟩ := C37_makeCfromT_2 (uext1 T.1.1) (uext1 T.1.2) (T2ab := uext2 T.2.2.1) hn (uext2_anti hT.1) (uext2_anti hT.2)
    exact ⟨B, D, hB, hD, key 2 D _ e (by linarith)⟩
  · obtain ⟨B, D, hB, hD, e⟩ := C37_makeCfromT_3 (uext1 T.1.1) (uext1 T.1.2) (T2ab := uext2 T.2.2.1) hn (uext2_anti hT.1) (uext2_anti hT.2)
    exact ⟨B, D, hB, hD, key 3 D _ e (by linarith)⟩

/-- C101: the whole unrestricted computation for a weak interaction: the rounded iteration with `uccsd_stanton`, for so many updates that exact ones would have reduced the error to `u`, and then
`makeCfromT` in rounded arithmetic.  Its coefficients are those of `exp(T)` for the exact solution `T`, up to a constant times `u`. -/
theorem C101_uccsd (hn : n 0 + n 1 = n 2 + n 3) (re : ℝ → ℝ) (hre : ∀ x y, ‖re x - re y‖ ≤ ‖x - y‖) {η : ℝ} (hη : 0 ≤ η) {G : List (List ℝ) → ℝ} (hG : Heap.GMono G) {c : ℝ} (hc : 0 ≤ c)
    (t : Bool) (fa : CC.OneE (Fin (n 0)) (Fin (n 1)) ℝ) (fb : CC.OneE (Fin (n 2)) (Fin (n 3)) ℝ) (Ia : CC.TwoE (Fin (n 0)) (Fin (n 1)) ℝ) (Ib : CC.TwoE (Fin (n 2)) (Fin (n 3)) ℝ)
    (J : CC.TwoEFull (Fin (n 0)) (Fin (n 1)) (Fin (n 2)) (Fin (n 3)) ℝ) (hIa : CC.AntiI Ia) (hIb : CC.AntiI Ib)
    (eoa : Fin (n 0) → ℝ) (eva : Fin (n 1) → ℝ) (eob : Fin (n 2) → ℝ) (evb : Fin (n 3) → ℝ) (g : CC.UGap eoa eva eob evb) (r : ℝ) (hr : 0 < r) :
    ∃ z₀ : ℝ, 0 < z₀ ∧ ∀ z : ℝ, ‖z‖ ≤ z₀ → ∃ T : CC.UAmp ℝ (Fin (n 0)) (Fin (n 1)) (Fin (n 2)) (Fin (n 3)), CC.UAnti T ∧
      CC.uccsd_stanton ((CC.diagF eoa eva).addMul z fa) ((CC.diagF eob evb).addMul z fb) (Ia.mul z) (Ib.mul z) (J.mul z) T.1 T.2 = 0 ∧
      ∃ C u₀ : ℝ, 0 ≤ C ∧ 0 < u₀ ∧ ∀ order, 1 ≤ order → order ≤ 3 → ∃ B D,
        (if order = 1 then ucis_basis (n 0 + n 1) (n 0) (n 2) else if order = 2 then ucisd_basis (n 0 + n 1) (n 0) (n 2) else ucisdt_basis (n 0 + n 1) (n 0) (n 2)) = .ok B ∧
        PBasis (n 0 + n 1) (n 2 + n 3) B D ∧
        ∀ u, 0 ≤ u → u ≤ u₀ → ∀ (A : Heap.Rounding ℝ u η G), Heap.SignSym A → ∀ rd : ℝ → ℝ, (∀ x, |rd x - x| ≤ u * (|x| + η)) → ∀ (ins : List (Heap.Arr ℝ)) (d : Fin 5 → Heap.Arr ℝ)
          (x : ℕ → Fin 5 → Heap.Arr ℝ), List.Forall₂ (Heap.NearIs (c * u)) (Heap.uham t ((CC.diagF eoa eva).addMul z fa) ((CC.diagF eob evb).addMul z fb) (Ia.mul z) (Ib.mul z) (J.mul z)) ins →
          (Heap.uV n ℝ t).NearDen (c * u) (Heap.uden eoa eva eob evb) d → (Heap.uV n ℝ t).Ty (x 0) → CC.UAnti ((Heap.uV n ℝ t).rd (x 0)) → ‖(Heap.uV n ℝ t).rd (x 0)‖ ≤ r →
          ∀ k, (∀ j < k, Heap.UStep A re ins d (x j) (x (j + 1))) → (∃ y, Heap.UStep A re ins d (x k) y) ∧ ((1 / 2) ^ k * ‖(Heap.uV n ℝ t).rd (x 0) - T‖ ≤ u →
            ∃ V, makeCOf rd n (x k) order = .ok V ∧ V.length = D.length ∧ ∀ m (hm : m < D.length), |V.getD m 0 - expOf T (psupp D[m])| ≤ C * u) := by
  obtain ⟨z₁, hz1, h1⟩ := CC.C73_uccsd_converges eoa eva eob evb g fa fb Ia Ib J hIa hIb r hr
  obtain ⟨z₃, hz3, h3⟩ := CC.C73_uccsd_converges eoa eva eob evb g fa fb Ia Ib J hIa hIb (3 * r) (by positivity)
  refine ⟨min z₁ z₃, lt_min hz1 hz3, fun z hz => ?_⟩
  obtain ⟨T, hA, hA', hnT, hsol, -, -⟩ := h1 z (hz.trans (min_le_left _ _))
  obtain ⟨T', -, -, -, -, huniq, hcv⟩ := h3 z (hz.trans (min_le_right _ _))
  obtain rfl := huniq T hA hA' (by linarith) hsol
  obtain ⟨C, u₀, hC, hu, hu1, h'⟩ := Heap.C99_attains re hre hη hG hc t ((CC.diagF eoa eva).addMul z fa) ((CC.diagF eob evb).addMul z fb) (Ia.mul z) (Ib.mul z) (J.mul z) eoa eva eob evb g T
    (2 * r) (1 / 2) (by norm_num) ⟨hA, hA'⟩ (by positivity) (by norm_num)
    (fun X hX hd => by
      have := hcv X hX.1 hX.2 (by have := norm_sub_norm_le X T; linarith) 1
      simpa using this)
  obtain ⟨c', c0', hcl⟩ := C101_ucluster hn t T ⟨hA, hA'⟩ η (b := 1 + C) (by positivity)
  refine ⟨T, ⟨hA, hA'⟩, hsol, c', u₀, c0', hu, fun order o1 o3 => ?_⟩
  obtain ⟨B, D, hB, hD, hV⟩ := hcl order o1 o3
  refine ⟨B, D, hB, hD, fun u u0 uu A hAA rd hrd ins d x hi hd t0 a0 n0 k hk => ?_⟩
  obtain ⟨-, -, -, m1, m2⟩ := h' u u0 uu A hAA ins d x hi hd t0 a0 (by have := norm_sub_le ((Heap.uV n ℝ t).rd (x 0)) T; linarith) k hk
  exact ⟨m2, fun hs => hV u u0 (uu.trans hu1) rd hrd (x k) (by linarith)⟩

/-- Two electrons of spin alpha and one of spin beta in four orbitals, occupied orbitals of energy -1 and virtual ones of energy 1, any integrals that are weak enough, an arithmetic whose
results are too large by the factor `1 + u`, and zero as the first guess: there is a run, and the coefficients of singles and doubles come out right. -/
example (fa : CC.OneE (Fin 2) (Fin 2) ℝ) (fb : CC.OneE (Fin 1) (Fin 3) ℝ) (Ia : CC.TwoE (Fin 2) (Fin 2) ℝ) (Ib : CC.TwoE (Fin 1) (Fin 3) ℝ) (J : CC.TwoEFull (Fin 2) (Fin 2) (Fin 1) (Fin 3) ℝ)
    (hIa : CC.AntiI Ia) (hIb : CC.AntiI Ib) : ∃ z₀ : ℝ, 0 < z₀ ∧ ∀ z : ℝ, |z| ≤ z₀ → ∃ (T : CC.UAmp ℝ (Fin 2) (Fin 2) (Fin 1) (Fin 3)) (C u₀ : ℝ) (B : List Pair) (D : List (Dstring × Dstring)), 0 < u₀ ∧
      CC.uccsd_stanton ((CC.diagF (fun _ => -1) fun _ => 1).addMul z fa) ((CC.diagF (fun _ => -1) fun _ => 1).addMul z fb) (Ia.mul z) (Ib.mul z) (J.mul z) T.1 T.2 = 0 ∧
      ucisd_basis 4 2 1 = .ok B ∧ PBasis 4 4 B D ∧ ∀ u : ℝ, 0 < u → u ≤ u₀ → ∃ x V,
        makeCOf (fun x => (1 + u) * x) (fun | 0 => 2 | 1 => 2 | 2 => 1 | _ => 3) x 2 = .ok V ∧ V.length = D.length ∧
          ∀ m (hm : m < D.length), |V.getD m 0 - expOf (n := fun | 0 => 2 | 1 => 2 | 2 => 1 | _ => 3) T (psupp D[m])| ≤ C * u := by
  let n : ℕ → ℕ := fun | 0 => 2 | 1 => 2 | 2 => 1 | _ => 3
  obtain ⟨z₀, hz, h⟩ := C101_uccsd (n := n) rfl id (fun _ _ => le_rfl) le_rfl (Heap.sz_mono le_rfl) (c := 0) le_rfl false fa fb Ia Ib J hIa hIb (fun _ => (-1 : ℝ)) (fun _ => 1)
    (fun _ => (-1 : ℝ)) (fun _ => 1)
    ⟨fun _ _ => by norm_num, fun _ _ => by norm_num, fun _ _ _ _ => by norm_num, fun _ _ _ _ => by norm_num, fun _ _ _ _ => by norm_num⟩ 1 one_pos
  refine ⟨z₀, hz, fun z hzz => ?_⟩
  obtain ⟨T, hA, hsol, C, u₀, hC, hu, h'⟩ := h z hzz
  obtain ⟨B, D, hB, hD, h''⟩ := h' 2 (by norm_num) (by norm_num)
  refine ⟨T, C, min u₀ 1, B, D, lt_min hu one_pos, hsol, hB, hD, fun u h0 uu => ?_⟩
  have h1 : u ≤ 1 := uu.trans (min_le_right _ _)
  have near : ∀ d : Heap.Desc n ℝ, Heap.NearIs (0 * u) d d.arr := fun d => ⟨rfl, rfl, fun idx _ => by rw [zero_mul, Heap.Desc.arr, sub_self, norm_zero]⟩
  have hi : ∀ ds : List (Heap.Desc n ℝ), List.Forall₂ (Heap.NearIs (0 * u)) ds (ds.map Heap.Desc.arr) := fun ds => by
    rw [List.forall₂_map_right_iff]
    exact List.forall₂_same.2 fun d _ => near d
  obtain ⟨ins, hins⟩ : ∃ ins, List.Forall₂ (Heap.NearIs (0 * u)) (Heap.uham (n := n) false ((CC.diagF (fun _ => -1) fun _ => 1).addMul z fa) ((CC.diagF (fun _ => -1) fun _ => 1).addMul z fb)
    (Ia.mul z) (Ib.mul z) (J.mul z)) ins := ⟨_, hi _⟩
  let x₀ : Fin 5 → Heap.Arr ℝ := fun i => ⟨false, Heap.uSh n 1 0 3 2 i, fun _ => 0⟩
  have rx : (Heap.uV n ℝ false).rd x₀ = 0 := rfl
  let dn : Fin 5 → Heap.Arr ℝ := fun i => ⟨false, [], ((Heap.uV n ℝ false).de i (Heap.uden (fun _ => (-1 : ℝ)) (fun _ => 1) (fun _ => (-1 : ℝ)) fun _ => 1)).at⟩
  have main := fun (x : ℕ → Fin 5 → Heap.Arr ℝ) (hx0 : x 0 = x₀) => h'' u h0.le (uu.trans (min_le_left _ _)) (Heap.inflate h0.le h1) (Heap.inflate_sign h0.le h1) (fun x => (1 + u) * x)
    (fun x => by rw [show (1 + u) * x - x = u * x by ring, abs_mul, abs_of_nonneg h0.le, add_zero]) ins dn x hins (fun i idx _ => by simp [dn])
    (by rw [hx0]; exact fun i => ⟨rfl, rfl⟩) (by rw [hx0, rx]; exact CC.uzero_anti) (by rw [hx0, rx, norm_zero]; exact zero_le_one)
  have run : ∀ k, ∃ x : ℕ → Fin 5 → Heap.Arr ℝ, x 0 = x₀ ∧ ∀ j < k, Heap.UStep (Heap.inflate h0.le h1 : Heap.Rounding ℝ u 0 (Heap.szSum 0)) id ins dn (x j) (x (j + 1)) := by
    intro k
    induction k with
    | zero => exact ⟨fun _ => x₀, rfl, fun j hj => absurd hj (Nat.not_lt_zero j)⟩
    | succ k ih =>
      obtain ⟨x, hx0, hx⟩ := ih
      obtain ⟨y, hy⟩ := (main x hx0 k hx).1
      refine ⟨fun j => if j ≤ k then x j else y, by simp [hx0], fun j hj => ?_⟩
      rcases Nat.lt_or_ge j k with h | h
      · simpa [h.le, Nat.succ_le_of_lt h] using hx j h
      · obtain rfl : j = k := by omega
        simpa using hy
  obtain ⟨k, hk⟩ : ∃ k : ℕ, (1 / 2 : ℝ) ^ k * ‖(0 : CC.UAmp ℝ (Fin (n 0)) (Fin (n 1)) (Fin (n 2)) (Fin (n 3))) - T‖ ≤ u := by
    have ht : Filter.Tendsto (fun k : ℕ => (1 / 2 : ℝ) ^ k * ‖(0 : CC.UAmp ℝ (Fin (n 0)) (Fin (n 1)) (Fin (n 2)) (Fin (n 3))) - T‖) Filter.atTop (nhds 0) := by
      simpa using (tendsto_pow_atTop_nhds_zero_of_lt_one (by norm_num : (0 : ℝ) ≤ 1 / 2) (by norm_num)).mul_const _
    exact ((ht.eventually_lt_const h0).exists).imp fun _ h => h.le
  obtain ⟨x, hx0, hx⟩ := run k
  obtain ⟨V, h1, h2, h3⟩ := (main x hx0 k hx).2 (by rw [hx0, rx]; exact hk)
  exact ⟨x k, V, h1, h2, h3⟩

end CI.FlExp
