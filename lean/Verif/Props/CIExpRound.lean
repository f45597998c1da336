import Verif.Props.CIExpRoundRun
import Verif.Props.CIExp2
import Verif.Props.IterUni
/-!
# C101: coefficients of configurations from amplitudes, and excitations of vectors, in rounded arithmetic

The coefficients returned by `gmakeCfromT` and `makeCfromT` in rounded arithmetic differ from the exact ones by at most a constant times the roundoff; the constant
depends on the exact amplitudes, the numbers of orbitals and the order only.  With C37 and C96, the coefficients computed from the amplitudes of a rounded
coupled-cluster iteration are those of `exp(T)` for the exact solution, up to a constant times the roundoff.
-/
set_option linter.unusedVariables false
set_option linter.unusedSectionVars false
noncomputable section
namespace CI.FlExp
open Fock

/-! ### from families to single runs -/

/-- A rounding with its roundoff, and what else the run depends on. -/
abbrev Runs (η : ℝ) (X : Type) (P : ℝ → X → Prop) := {e : ℝ × (ℝ → ℝ) × X // 0 ≤ e.1 ∧ e.1 ≤ 1 ∧ (∀ x, |e.2.1 x - x| ≤ e.1 * (|x| + η)) ∧ P e.1 e.2.2}

theorem runs (η : ℝ) (X : Type) (P : ℝ → X → Prop) : Roundings (fun e : Runs η X P => e.1.1) η fun e => e.1.2.1 :=
  ⟨fun e => e.2.1, fun e => e.2.2.1, fun e => e.2.2.2.1⟩

/-- One constant for all elements. -/
theorem AccL.bound {ι : Type} {u : ι → ℝ} (u0 : ∀ e, 0 ≤ u e) {X : ι → R (List ℝ)} {Y : R (List ℝ)} (h : AccL u X Y) : ∃ c, 0 ≤ c ∧ ∀ e,
    (∀ er, Y = .error er → X e = .error er) ∧ ∀ L, Y = .ok L → ∃ C, X e = .ok C ∧ C.length = L.length ∧ ∀ k, |C.getD k 0 - L.getD k 0| ≤ c * u e := by
  rcases h with ⟨er, rfl, h⟩ | ⟨L, C, rfl, h, hl, hk⟩
  · refine ⟨0, le_rfl, fun e => ⟨fun er' he => ?_, fun L hL => by simp at hL⟩⟩
    cases he
    exact h e
  · choose c c0 hc using hk
    refine ⟨∑ k ∈ Finset.range L.length, c k, Finset.sum_nonneg fun k _ => c0 k, fun e => ⟨fun er he => by simp at he, fun L' hL => ?_⟩⟩
    cases hL
    refine ⟨C e, h e, hl e, fun k => ?_⟩
    by_cases hk : k < L.length
    · exact (hc k e).trans (mul_le_mul_of_nonneg_right (Finset.single_le_sum (fun k _ => c0 k) (Finset.mem_range.2 hk)) (u0 e))
    · rw [List.getD_eq_default _ _ (by rw [hl e]; omega), List.getD_eq_default _ _ (by omega), sub_self, abs_zero]
      exact mul_nonneg (Finset.sum_nonneg fun k _ => c0 k) (u0 e)

/-! ### the coefficients -/

/-- C101: `gmakeCfromT` in rounded arithmetic raises what it raises in exact arithmetic; otherwise its coefficients, computed from amplitudes that are wrong by at most `b * u`, are wrong by at most
`c * u`. -/
theorem C101_gmakeCfromT (no nv order : ℕ) (occ? : Option (List ℤ)) (S1 : ℕ → ℕ → ℝ) (S2 : ℕ → ℕ → ℕ → ℕ → ℝ) (η : ℝ) {b : ℝ} (hb : 0 ≤ b) :
    ∃ c, 0 ≤ c ∧ ∀ u, 0 ≤ u → u ≤ 1 → ∀ rd : ℝ → ℝ, (∀ x, |rd x - x| ≤ u * (|x| + η)) → ∀ (T1 : ℕ → ℕ → ℝ) (T2 : ℕ → ℕ → ℕ → ℕ → ℝ),
      (∀ a i, |T1 a i - S1 a i| ≤ b * u) → (∀ p q r s, |T2 p q r s - S2 p q r s| ≤ b * u) →
      (∀ er, CI.gmakeCfromT no nv S1 S2 order occ? = .error er → gmakeCfromT rd no nv T1 T2 order occ? = .error er) ∧
      ∀ L, CI.gmakeCfromT no nv S1 S2 order occ? = .ok L → ∃ C, gmakeCfromT rd no nv T1 T2 order occ? = .ok C ∧ C.length = L.length ∧
        ∀ k, |C.getD k 0 - L.getD k 0| ≤ c * u := by
  let P : ℝ → (ℕ → ℕ → ℝ) × (ℕ → ℕ → ℕ → ℕ → ℝ) → Prop := fun u T => (∀ a i, |T.1 a i - S1 a i| ≤ b * u) ∧ ∀ p q r s, |T.2 p q r s - S2 p q r s| ≤ b * u
  obtain ⟨c, c0, h⟩ := (gmakeCfromT_acc (runs η _ P) no nv order occ? (T1 := fun e => e.1.2.2.1) (S1 := S1) (fun a i => ⟨b, hb, fun e => e.2.2.2.2.1 a i⟩)
    (T2 := fun e => e.1.2.2.2) (S2 := S2) fun p q r s => ⟨b, hb, fun e => e.2.2.2.2.2 p q r s⟩).bound fun e => e.2.1
  exact ⟨c, c0, fun u u0 u1 rd hr T1 T2 h1 h2 => h ⟨(u, rd, T1, T2), u0, u1, hr, h1, h2⟩⟩

/-- C101: the same for `makeCfromT`. -/
theorem C101_makeCfromT (noa nva nob nvb order : ℕ) (Sa Sb : ℕ → ℕ → ℝ) (Saa Sab Sbb : ℕ → ℕ → ℕ → ℕ → ℝ) (η : ℝ) {b : ℝ} (hb : 0 ≤ b) :
    ∃ c, 0 ≤ c ∧ ∀ u, 0 ≤ u → u ≤ 1 → ∀ rd : ℝ → ℝ, (∀ x, |rd x - x| ≤ u * (|x| + η)) → ∀ (Ta Tb : ℕ → ℕ → ℝ) (Taa Tab Tbb : ℕ → ℕ → ℕ → ℕ → ℝ),
      (∀ a i, |Ta a i - Sa a i| ≤ b * u) → (∀ a i, |Tb a i - Sb a i| ≤ b * u) → (∀ p q r s, |Taa p q r s - Saa p q r s| ≤ b * u) →
      (∀ p q r s, |Tab p q r s - Sab p q r s| ≤ b * u) → (∀ p q r s, |Tbb p q r s - Sbb p q r s| ≤ b * u) →
      (∀ er, CI.makeCfromT noa nva nob nvb Sa Sb Saa Sab Sbb order = .error er → makeCfromT rd noa nva nob nvb Ta Tb Taa Tab Tbb order = .error er) ∧
      ∀ L, CI.makeCfromT noa nva nob nvb Sa Sb Saa Sab Sbb order = .ok L → ∃ C, makeCfromT rd noa nva nob nvb Ta Tb Taa Tab Tbb order = .ok C ∧ C.length = L.length ∧
        ∀ k, |C.getD k 0 - L.getD k 0| ≤ c * u := by
  let P : ℝ → (ℕ → ℕ → ℝ) × (ℕ → ℕ → ℝ) × (ℕ → ℕ → ℕ → ℕ → ℝ) × (ℕ → ℕ → ℕ → ℕ → ℝ) × (ℕ → ℕ → ℕ → ℕ → ℝ) → Prop := fun u T =>
    (∀ a i, |T.1 a i - Sa a i| ≤ b * u) ∧ (∀ a i, |T.2.1 a i - Sb a i| ≤ b * u) ∧ (∀ p q r s, |T.2.2.1 p q r s - Saa p q r s| ≤ b * u) ∧
    (∀ p q r s, |T.2.2.2.1 p q r s - Sab p q r s| ≤ b * u) ∧ ∀ p q r s, |T.2.2.2.2 p q r s - Sbb p q r s| ≤ b * u
  obtain ⟨c, c0, h⟩ := (makeCfromT_acc (runs η _ P) noa nva nob nvb order (T1a := fun e => e.1.2.2.1) (S1a := Sa) (fun a i => ⟨b, hb, fun e => e.2.2.2.2.1 a i⟩)
    (T1b := fun e => e.1.2.2.2.1) (S1b := Sb) (fun a i => ⟨b, hb, fun e => e.2.2.2.2.2.1 a i⟩)
    (T2aa := fun e => e.1.2.2.2.2.1) (S2aa := Saa) (fun p q r s => ⟨b, hb, fun e => e.2.2.2.2.2.2.1 p q r s⟩)
    (T2ab := fun e => e.1.2.2.2.2.2.1) (S2ab := Sab) (fun p q r s => ⟨b, hb, fun e => e.2.2.2.2.2.2.2.1 p q r s⟩)
    (T2bb := fun e => e.1.2.2.2.2.2.2) (S2bb := Sbb) fun p q r s => ⟨b, hb, fun e => e.2.2.2.2.2.2.2.2 p q r s⟩).bound fun e => e.2.1
  exact ⟨c, c0, fun u u0 u1 rd hr Ta Tb Taa Tab Tbb h1 h2 h3 h4 h5 => h ⟨(u, rd, Ta, Tb, Taa, Tab, Tbb), u0, u1, hr, h1, h2, h3, h4, h5⟩⟩

theorem eq_of_close {L C : List ℝ} {c : ℝ} (hl : C.length = L.length) (h : ∀ k, |C.getD k 0 - L.getD k 0| ≤ c * 0) : C = L := by
  refine List.ext_getElem hl fun k h1 h2 => ?_
  have := h k
  rw [mul_zero, abs_nonpos_iff, sub_eq_zero] at this
  rwa [List.getD_eq_getElem _ _ h1, List.getD_eq_getElem _ _ h2] at this

/-- C101: without rounding the functions are those of C37 and C46. -/
theorem C101_exact (no nv order : ℕ) (occ? : Option (List ℤ)) (T1 : ℕ → ℕ → ℝ) (T2 : ℕ → ℕ → ℕ → ℕ → ℝ) (noa nva nob nvb : ℕ) (Ta Tb : ℕ → ℕ → ℝ) (Taa Tab Tbb : ℕ → ℕ → ℕ → ℕ → ℝ) :
    gmakeCfromT id no nv T1 T2 order occ? = CI.gmakeCfromT no nv T1 T2 order occ? ∧ makeCfromT id noa nva nob nvb Ta Tb Taa Tab Tbb order = CI.makeCfromT noa nva nob nvb Ta Tb Taa Tab Tbb order := by
  constructor
  · obtain ⟨c, -, h⟩ := C101_gmakeCfromT no nv order occ? T1 T2 0 le_rfl
    obtain ⟨h1, h2⟩ := h 0 le_rfl zero_le_one id (fun x => by simp) T1 T2 (fun _ _ => by simp) fun _ _ _ _ => by simp
    cases e : CI.gmakeCfromT no nv T1 T2 order occ? with
    | error er => exact h1 er e
    | ok L =>
      obtain ⟨C, hC, hl, hk⟩ := h2 L e
      rw [hC, eq_of_close hl hk]
  · obtain ⟨c, -, h⟩ := C101_makeCfromT noa nva nob nvb order Ta Tb Taa Tab Tbb 0 le_rfl
    obtain ⟨h1, h2⟩ := h 0 le_rfl zero_le_one id (fun x => by simp) Ta Tb Taa Tab Tbb (fun _ _ => by simp) (fun _ _ => by simp) (fun _ _ _ _ => by simp) (fun _ _ _ _ => by simp)
      fun _ _ _ _ => by simp
    cases e : CI.makeCfromT noa nva nob nvb Ta Tb Taa Tab Tbb order with
    | error er => exact h1 er e
    | ok L =>
      obtain ⟨C, hC, hl, hk⟩ := h2 L e
      rw [hC, eq_of_close hl hk]

/-! ### the amplitudes of a coupled-cluster iteration -/

/-- Indexing an array of singles, with zeros beyond its end. -/
def tab1 (n : ℕ → ℕ) (x : Heap.Arr ℝ) : ℕ → ℕ → ℝ := fun a i => if a < n 1 ∧ i < n 0 then x.val [a, i] else 0
/-- Indexing an array of doubles, with zeros beyond its end. -/
def tab2 (n : ℕ → ℕ) (x : Heap.Arr ℝ) : ℕ → ℕ → ℕ → ℕ → ℝ := fun a b i j => if a < n 1 ∧ b < n 1 ∧ i < n 0 ∧ j < n 0 then x.val [a, b, i, j] else 0
/-- Exact singles, with zeros beyond their end. -/
def ext1 {n : ℕ → ℕ} (T : CC.Amp ℝ (Fin (n 0)) (Fin (n 1))) : ℕ → ℕ → ℝ := fun a i => if h : a < n 1 ∧ i < n 0 then T.1 ⟨a, h.1⟩ ⟨i, h.2⟩ else 0
/-- Exact doubles, with zeros beyond their end. -/
def ext2 {n : ℕ → ℕ} (T : CC.Amp ℝ (Fin (n 0)) (Fin (n 1))) : ℕ → ℕ → ℕ → ℕ → ℝ := fun a b i j =>
  if h : a < n 1 ∧ b < n 1 ∧ i < n 0 ∧ j < n 0 then T.2 ⟨a, h.1⟩ ⟨b, h.2.1⟩ ⟨i, h.2.2.1⟩ ⟨j, h.2.2.2⟩ else 0

theorem ext2_anti {n : ℕ → ℕ} (T : CC.Amp ℝ (Fin (n 0)) (Fin (n 1))) (hT : CC.Anti T.2) : Anti (n 0) (n 1) (ext2 T) := by
  intro a b i j ha hb hi hj
  simp only [ext2, ha, hb, hi, hj, and_self, dif_pos]
  exact ⟨hT.1 _ _ _ _, hT.2 _ _ _ _⟩

theorem tab_close {n : ℕ → ℕ} {T : CC.Amp ℝ (Fin (n 0)) (Fin (n 1))} {x : Heap.Arr ℝ × Heap.Arr ℝ} {ε : ℝ} (h : ‖Heap.ampOf (n := n) x - T‖ ≤ ε) :
    (∀ a i, |tab1 n x.1 a i - ext1 T a i| ≤ ε) ∧ ∀ a b i j, |tab2 n x.2 a b i j - ext2 T a b i j| ≤ ε := by
  have e0 : 0 ≤ ε := (norm_nonneg _).trans h
  constructor
  · intro a i
    by_cases hh : a < n 1 ∧ i < n 0
    · simp only [tab1, ext1, hh, and_self, if_true, dif_pos]
      exact (Heap.le_amp1 (Heap.ampOf (n := n) x - T) ⟨a, hh.1⟩ ⟨i, hh.2⟩).trans h
    · simpa only [tab1, ext1, if_neg hh, dif_neg hh, sub_zero, abs_zero] using e0
  · intro a b i j
    by_cases hh : a < n 1 ∧ b < n 1 ∧ i < n 0 ∧ j < n 0
    · simp only [tab2, ext2, hh, and_self, if_true, dif_pos]
      exact (Heap.le_amp2 (Heap.ampOf (n := n) x - T) ⟨a, hh.1⟩ ⟨b, hh.2.1⟩ ⟨i, hh.2.2.1⟩ ⟨j, hh.2.2.2⟩).trans h
    · simpa only [tab2, ext2, if_neg hh, dif_neg hh, sub_zero, abs_zero] using e0

/-- C101: let `T` be antisymmetric amplitudes, and `x` arrays of singles and doubles within `b * u` of them, like those of the rounded iteration of C96 after some number of updates.  Then `gmakeCfromT`,
in rounded arithmetic and with `order` one, two or three, returns the coefficients of `exp(T)` applied to the reference determinant, each up to `c * u`. -/
theorem C101_cluster {n : ℕ → ℕ} (hn : (n 0 + n 1) % 2 = 0) (T : CC.Amp ℝ (Fin (n 0)) (Fin (n 1))) (hT : CC.Anti T.2) (η : ℝ) {b : ℝ} (hb : 0 ≤ b) :
    ∃ c, 0 ≤ c ∧ ∀ order, 1 ≤ order → order ≤ 3 → ∃ B D, (if order = 1 then gcis_basis (n 0 + n 1) (n 0) else if order = 2 then gcisd_basis (n 0 + n 1) (n 0) else gcisdt_basis (n 0 + n 1) (n 0)) = .ok B ∧
      Basis (n 0 + n 1) B D ∧ ∀ u, 0 ≤ u → u ≤ 1 → ∀ rd : ℝ → ℝ, (∀ x, |rd x - x| ≤ u * (|x| + η)) → ∀ x : Heap.Arr ℝ × Heap.Arr ℝ, ‖Heap.ampOf (n := n) x - T‖ ≤ b * u →
        ∃ C, gmakeCfromT rd (n 0) (n 1) (tab1 n x.1) (tab2 n x.2) order (some (gocc (n 0 + n 1) (n 0))) = .ok C ∧ C.length = D.length ∧ ∀ k (hk : k < D.length),
          |C.getD k 0 - IsNilpotent.exp (clusterG (n 0) (n 1) (focc (n 0 + n 1) (n 0)) (fvir (n 0 + n 1) (n 0)) (ext1 T) (ext2 T)) (det (gref (n 0 + n 1) (n 0))) (supp D[k])| ≤ c * u := by
  choose c c0 h using fun order => C101_gmakeCfromT (n 0) (n 1) order (some (gocc (n 0 + n 1) (n 0))) (ext1 T) (ext2 T) η hb
  have key : ∀ (order : ℕ) (D : List Dstring) (L : Dstring → ℝ), CI.gmakeCfromT (n 0) (n 1) (ext1 T) (ext2 T) order (some (gocc (n 0 + n 1) (n 0))) = .ok (D.map L) → c order ≤ c 1 + c 2 + c 3 →
      ∀ u, 0 ≤ u → u ≤ 1 → ∀ rd : ℝ → ℝ, (∀ x, |rd x - x| ≤ u * (|x| + η)) → ∀ x : Heap.Arr ℝ × Heap.Arr ℝ, ‖Heap.ampOf (n := n) x - T‖ ≤ b * u →
        ∃ C, gmakeCfromT rd (n 0) (n 1) (tab1 n x.1) (tab2 n x.2) order (some (gocc (n 0 + n 1) (n 0))) = .ok C ∧ C.length = D.length ∧ ∀ k (hk : k < D.length),
          |C.getD k 0 - L D[k]| ≤ (c 1 + c 2 + c 3) * u := by
    intro order D L e hc u u0 u1 rd hr x hx
    obtain ⟨C, hC, hl, hk⟩ := (h order u u0 u1 rd hr _ _ (tab_close hx).1 (tab_close hx).2).2 _ e
    refine ⟨C, hC, by simpa using hl, fun k hk' => ?_⟩
    have := (hk k).trans (mul_le_mul_of_nonneg_right hc u0)
    rwa [List.getD_eq_getElem (D.map L) _ (by simpa using hk'), List.getElem_map] at this
  have p1 := c0 1
  have p2 := c0 2
  have p3 := c0 3
  refine ⟨c 1 + c 2 + c 3, by positivity, fun order h1 h3 => ?_⟩
  obtain rfl | rfl | rfl : order = 1 ∨ order = 2 ∨ order = 3 := by omega
  · obtain ⟨B, D, hB, hD, e⟩ := C37_gmakeCfromT_1 hn (ext1 T) (ext2_anti T hT)
    exact ⟨B, D, hB, hD, key 1 D _ e (by linarith)⟩
  · obtain ⟨B, D, hB, hD, e⟩ := C37_gmakeCfromT_2 hn (ext1 T) (ext2_anti T hT)
    exact ⟨B, D, hB, hD, key 2 D _ e (by linarith)⟩
  · obtain ⟨B, D, hB, hD, e⟩ := C37_gmakeCfromT_3 hn (ext1 T) (ext2_anti T hT)
    exact ⟨B, D, hB, hD, key 3 D _ e (by linarith)⟩

/-- C101: the whole computation for a weak interaction: the rounded iteration with `ccsd_simple` or `ccsd_stanton`, for so many updates that exact ones would have reduced the error to `u`, and then `gmakeCfromT` in
rounded arithmetic.  Its coefficients are those of `exp(T)` for the exact solution `T`, up to a constant times `u`. -/
theorem C101_ccsd {n : ℕ → ℕ} (hn : (n 0 + n 1) % 2 = 0) (re : ℝ → ℝ) (hre : ∀ x y, ‖re x - re y‖ ≤ ‖x - y‖) {η : ℝ} (hη : 0 ≤ η) {G : List (List ℝ) → ℝ} (hG : Heap.GMono G) {c : ℝ} (hc : 0 ≤ c)
    (t : Bool) (f : CC.OneE (Fin (n 0)) (Fin (n 1)) ℝ) (I : CC.TwoE (Fin (n 0)) (Fin (n 1)) ℝ) (hI : CC.AntiI I) (eo : Fin (n 0) → ℝ) (ev : Fin (n 1) → ℝ)
    (g1 : ∀ a i, ev a - eo i ≠ 0) (g2 : ∀ a b i j, ev a + ev b - eo i - eo j ≠ 0) (r : ℝ) (hr : 0 < r) {g : Heap.Fun} (hg : Heap.Residuals g) :
    ∃ z₀ : ℝ, 0 < z₀ ∧ ∀ z : ℝ, ‖z‖ ≤ z₀ → ∃ T : CC.Amp ℝ (Fin (n 0)) (Fin (n 1)), CC.Anti T.2 ∧
      CC.ccsd_simple ((CC.diagF eo ev).addMul z f) (I.mul z) T.1 T.2 = (fun _ _ => 0, fun _ _ _ _ => 0) ∧
      ∃ C u₀ : ℝ, 0 ≤ C ∧ 0 < u₀ ∧ ∀ order, 1 ≤ order → order ≤ 3 → ∃ B D,
        (if order = 1 then gcis_basis (n 0 + n 1) (n 0) else if order = 2 then gcisd_basis (n 0 + n 1) (n 0) else gcisdt_basis (n 0 + n 1) (n 0)) = .ok B ∧ Basis (n 0 + n 1) B D ∧
        ∀ u, 0 ≤ u → u ≤ u₀ → ∀ (A : Heap.Rounding ℝ u η G), Heap.SignSym A → ∀ rd : ℝ → ℝ, (∀ x, |rd x - x| ≤ u * (|x| + η)) → ∀ (ins : List (Heap.Arr ℝ)) (d1 d2 : Heap.Arr ℝ)
          (x : ℕ → Heap.Arr ℝ × Heap.Arr ℝ), List.Forall₂ (Heap.NearIs (c * u)) (Heap.ham t ((CC.diagF eo ev).addMul z f) (I.mul z)) ins → Heap.NearDen (c * u) eo ev d1 d2 →
          Heap.Typed n t (x 0) → CC.Anti (Heap.ampOf (n := n) (x 0)).2 → ‖Heap.ampOf (n := n) (x 0)‖ ≤ r → ∀ k, (∀ j < k, Heap.AStep A re g ins d1 d2 (x j) (x (j + 1))) →
            (1 / 2) ^ k * ‖Heap.ampOf (n := n) (x 0) - T‖ ≤ u →
            ∃ V, gmakeCfromT rd (n 0) (n 1) (tab1 n (x k).1) (tab2 n (x k).2) order (some (gocc (n 0 + n 1) (n 0))) = .ok V ∧ V.length = D.length ∧ ∀ m (hm : m < D.length),
              |V.getD m 0 - IsNilpotent.exp (clusterG (n 0) (n 1) (focc (n 0 + n 1) (n 0)) (fvir (n 0 + n 1) (n 0)) (ext1 T) (ext2 T)) (det (gref (n 0 + n 1) (n 0))) (supp D[m])| ≤ C * u := by
  obtain ⟨z₀, hz, h⟩ := Heap.C96_weak re hre hη hG hc t f I hI eo ev g1 g2 r hr hg
  refine ⟨z₀, hz, fun z hzz => ?_⟩
  obtain ⟨T, hA, -, hsol, C, u₀, hC, hu, h'⟩ := h z hzz
  obtain ⟨c', c0', hcl⟩ := C101_cluster hn T hA η (b := 1 + C) (by positivity)
  refine ⟨T, hA, hsol, c', min u₀ 1, c0', lt_min hu one_pos, fun order o1 o3 => ?_⟩
  obtain ⟨B, D, hB, hD, hV⟩ := hcl order o1 o3
  refine ⟨B, D, hB, hD, fun u u0 uu A hA' rd hrd ins d1 d2 x hi hd t0 a0 n0 k hk hs => ?_⟩
  obtain ⟨m1, -⟩ := h' u u0 (uu.trans (min_le_left _ _)) A hA' ins d1 d2 x hi hd t0 a0 n0 k hk
  exact hV u u0 (uu.trans (min_le_right _ _)) rd hrd (x k) (by linarith)

/-! ### excitations of vectors -/

theorem loop_map' {α β σ : Type} (l : List α) (m : α → β) (f : β → σ → R σ) (c : σ) : loop (l.map m) f c = loop l (fun x => f (m x)) c := by
  induction l generalizing c with
  | nil => rfl
  | cons x l ih =>
    simp only [List.map_cons, loop, bind, Except.bind]
    cases f (m x) c with
    | error e => rfl
    | ok c' => exact ih c'

theorem enum_range (v : List ℝ) : enum v = (List.range v.length).map fun i => (i, v.getD i 0) := by
  refine List.ext_getElem (by simp [enum]) fun k h1 h2 => ?_
  have : k < v.length := by simpa using h2
  simp [enum, this]

theorem loopv_acc {ι : Type} {u : ι → ℝ} {v : ι → List ℝ} {w : List ℝ} (hv : AccV u v w) {f : ι → ℕ × ℝ → List ℝ → R (List ℝ)} {g : ℕ × ℝ → List ℝ → R (List ℝ)}
    (h : ∀ (ix : ℕ) (x : ι → ℝ) (y : ℝ) C L, Acc u x y → AccV u C L → AccL u (fun e => f e (ix, x e) (C e)) (g (ix, y) L)) {C : ι → List ℝ} {L : List ℝ} (hC : AccV u C L) :
    AccL u (fun e => loop (enum (v e)) (f e) (C e)) (loop (enum w) g L) := by
  have e1 : (fun e => loop (enum (v e)) (f e) (C e)) = fun e => loop (List.range w.length) (fun i => f e (i, (v e).getD i 0)) (C e) :=
    funext fun e => by rw [enum_range, loop_map', hv.1 e]
  rw [e1, enum_range, loop_map']
  exact loop_acc (fun i C L hC => h i _ _ C L (hv.2 i) hC) hC

theorem zeros_acc {ι : Type} {u : ι → ℝ} {v : ι → List ℝ} {w : List ℝ} (hv : AccV u v w) : AccV u (fun e => List.replicate (v e).length 0) (zeros w) := by
  refine ⟨fun e => by simp [zeros, hv.1 e], fun k => ?_⟩
  simp only [zeros, hv.1]
  exact .const _

/-- The vectors within `b * u` of a given one. -/
abbrev NearV (b : ℝ) (w : List ℝ) (u : ℝ) (v : List ℝ) : Prop := v.length = w.length ∧ ∀ k, |v.getD k 0 - w.getD k 0| ≤ b * u

theorem nearV_acc {η b : ℝ} (hb : 0 ≤ b) (w : List ℝ) : AccV (fun e : Runs η (List ℝ) (NearV b w) => e.1.1) (fun e => e.1.2.2) w :=
  ⟨fun e => e.2.2.2.2.1, fun k => ⟨b, hb, fun e => e.2.2.2.2.2 k⟩⟩

theorem s_on_vec_acc {ι : Type} {u : ι → ℝ} {η : ℝ} {rd : ι → ℝ → ℝ} (H : Roundings u η rd) (basis : List (Option Dstring)) {v : ι → List ℝ} {w : List ℝ} (hv : AccV u v w) (i a : ℕ) :
    AccL u (fun e => s_on_vec (rd e) basis (v e) i a) (CI.s_on_vec basis w i a) := by
  unfold s_on_vec CI.s_on_vec
  refine loopv_acc hv (fun ix x y C L hx hC => ?_) (zeros_acc hv)
  dsimp only
  refine same_acc fun dd => same_acc fun rs => ?_
  rcases rs with _ | ⟨_, _⟩
  · exact pure_acc hC
  exact tryAddFl_acc H hC (H.mul (.const _) hx)

/-- C101: `s_on_vec`, applied in rounded arithmetic to a vector that is wrong by at most `β * u`. -/
theorem C101_s_on_vec (basis : List (Option Dstring)) (w : List ℝ) (i a : ℕ) (η : ℝ) {β : ℝ} (hβ : 0 ≤ β) : ∃ c, 0 ≤ c ∧ ∀ u, 0 ≤ u → u ≤ 1 → ∀ rd : ℝ → ℝ, (∀ x, |rd x - x| ≤ u * (|x| + η)) →
    ∀ v : List ℝ, NearV β w u v → (∀ er, CI.s_on_vec basis w i a = .error er → s_on_vec rd basis v i a = .error er) ∧
      ∀ L, CI.s_on_vec basis w i a = .ok L → ∃ C, s_on_vec rd basis v i a = .ok C ∧ C.length = L.length ∧ ∀ k, |C.getD k 0 - L.getD k 0| ≤ c * u := by
  obtain ⟨c, c0, h⟩ := (s_on_vec_acc (runs η _ (NearV β w)) basis (nearV_acc hβ w) i a).bound fun e => e.2.1
  exact ⟨c, c0, fun u u0 u1 rd hr v hv => h ⟨(u, rd, v), u0, u1, hr, hv⟩⟩

theorem sa_on_vec_acc {ι : Type} {u : ι → ℝ} {η : ℝ} {rd : ι → ℝ → ℝ} (H : Roundings u η rd) (basis : List Pair) {v : ι → List ℝ} {w : List ℝ} (hv : AccV u v w) (i a : ℕ) :
    AccL u (fun e => sa_on_vec (rd e) basis (v e) i a) (CI.sa_on_vec basis w i a) := by
  unfold sa_on_vec CI.sa_on_vec
  refine loopv_acc hv (fun ix x y C L hx hC => ?_) (zeros_acc hv)
  dsimp only
  refine same_acc fun dd => ?_
  obtain ⟨ab, bb⟩ := dd
  refine same_acc fun rs => ?_
  rcases rs with _ | ⟨_, _⟩
  · exact pure_acc hC
  dsimp only
  cases bb with
  | none => exact .error _
  | some _ => exact tryAddFl_acc H hC (H.mul (.const _) hx)

/-- C101: `sa_on_vec`, applied in rounded arithmetic to a vector that is wrong by at most `β * u`. -/
theorem C101_sa_on_vec (basis : List Pair) (w : List ℝ) (i a : ℕ) (η : ℝ) {β : ℝ} (hβ : 0 ≤ β) : ∃ c, 0 ≤ c ∧ ∀ u, 0 ≤ u → u ≤ 1 → ∀ rd : ℝ → ℝ, (∀ x, |rd x - x| ≤ u * (|x| + η)) →
    ∀ v : List ℝ, NearV β w u v → (∀ er, CI.sa_on_vec basis w i a = .error er → sa_on_vec rd basis v i a = .error er) ∧
      ∀ L, CI.sa_on_vec basis w i a = .ok L → ∃ C, sa_on_vec rd basis v i a = .ok C ∧ C.length = L.length ∧ ∀ k, |C.getD k 0 - L.getD k 0| ≤ c * u := by
  obtain ⟨c, c0, h⟩ := (sa_on_vec_acc (runs η _ (NearV β w)) basis (nearV_acc hβ w) i a).bound fun e => e.2.1
  exact ⟨c, c0, fun u u0 u1 rd hr v hv => h ⟨(u, rd, v), u0, u1, hr, hv⟩⟩

theorem sb_on_vec_acc {ι : Type} {u : ι → ℝ} {η : ℝ} {rd : ι → ℝ → ℝ} (H : Roundings u η rd) (basis : List Pair) {v : ι → List ℝ} {w : List ℝ} (hv : AccV u v w) (i a : ℕ) :
    AccL u (fun e => sb_on_vec (rd e) basis (v e) i a) (CI.sb_on_vec basis w i a) := by
  unfold sb_on_vec CI.sb_on_vec
  refine loopv_acc hv (fun ix x y C L hx hC => ?_) (zeros_acc hv)
  dsimp only
  refine same_acc fun dd => ?_
  obtain ⟨ab, bb⟩ := dd
  refine same_acc fun rs => ?_
  rcases rs with _ | ⟨_, _⟩
  · exact pure_acc hC
  dsimp only
  cases ab with
  | none => exact .error _
  | some _ => exact tryAddFl_acc H hC (H.mul (.const _) hx)

/-- C101: `sb_on_vec`, applied in rounded arithmetic to a vector that is wrong by at most `β * u`. -/
theorem C101_sb_on_vec (basis : List Pair) (w : List ℝ) (i a : ℕ) (η : ℝ) {β : ℝ} (hβ : 0 ≤ β) : ∃ c, 0 ≤ c ∧ ∀ u, 0 ≤ u → u ≤ 1 → ∀ rd : ℝ → ℝ, (∀ x, |rd x - x| ≤ u * (|x| + η)) →
    ∀ v : List ℝ, NearV β w u v → (∀ er, CI.sb_on_vec basis w i a = .error er → sb_on_vec rd basis v i a = .error er) ∧
      ∀ L, CI.sb_on_vec basis w i a = .ok L → ∃ C, sb_on_vec rd basis v i a = .ok C ∧ C.length = L.length ∧ ∀ k, |C.getD k 0 - L.getD k 0| ≤ c * u := by
  obtain ⟨c, c0, h⟩ := (sb_on_vec_acc (runs η _ (NearV β w)) basis (nearV_acc hβ w) i a).bound fun e => e.2.1
  exact ⟨c, c0, fun u u0 u1 rd hr v hv => h ⟨(u, rd, v), u0, u1, hr, hv⟩⟩

theorem d_on_vec_acc {ι : Type} {u : ι → ℝ} {η : ℝ} {rd : ι → ℝ → ℝ} (H : Roundings u η rd) (basis : List (Option Dstring)) {v : ι → List ℝ} {w : List ℝ} (hv : AccV u v w) (i j a b : ℕ) :
    AccL u (fun e => d_on_vec (rd e) basis (v e) i j a b) (CI.d_on_vec basis w i j a b) := by
  unfold d_on_vec CI.d_on_vec
  refine loopv_acc hv (fun ix x y C L hx hC => ?_) (zeros_acc hv)
  dsimp only
  refine same_acc fun dd => same_acc fun rs => ?_
  rcases rs with _ | ⟨_, _⟩
  · exact pure_acc hC
  refine same_acc fun rs => ?_
  rcases rs with _ | ⟨_, _⟩
  · exact pure_acc hC
  exact tryAddFl_acc H hC (H.mul (H.mul (.const _) (.const _)) hx)

/-- C101: `d_on_vec`, applied in rounded arithmetic to a vector that is wrong by at most `β * u`. -/
theorem C101_d_on_vec (basis : List (Option Dstring)) (w : List ℝ) (i j a b : ℕ) (η : ℝ) {β : ℝ} (hβ : 0 ≤ β) : ∃ c, 0 ≤ c ∧ ∀ u, 0 ≤ u → u ≤ 1 → ∀ rd : ℝ → ℝ, (∀ x, |rd x - x| ≤ u * (|x| + η)) →
    ∀ v : List ℝ, NearV β w u v → (∀ er, CI.d_on_vec basis w i j a b = .error er → d_on_vec rd basis v i j a b = .error er) ∧
      ∀ L, CI.d_on_vec basis w i j a b = .ok L → ∃ C, d_on_vec rd basis v i j a b = .ok C ∧ C.length = L.length ∧ ∀ k, |C.getD k 0 - L.getD k 0| ≤ c * u := by
  obtain ⟨c, c0, h⟩ := (d_on_vec_acc (runs η _ (NearV β w)) basis (nearV_acc hβ w) i j a b).bound fun e => e.2.1
  exact ⟨c, c0, fun u u0 u1 rd hr v hv => h ⟨(u, rd, v), u0, u1, hr, hv⟩⟩

theorem da_on_vec_acc {ι : Type} {u : ι → ℝ} {η : ℝ} {rd : ι → ℝ → ℝ} (H : Roundings u η rd) (basis : List Pair) {v : ι → List ℝ} {w : List ℝ} (hv : AccV u v w) (i j a b : ℕ) :
    AccL u (fun e => da_on_vec (rd e) basis (v e) i j a b) (CI.da_on_vec basis w i j a b) := by
  unfold da_on_vec CI.da_on_vec
  refine loopv_acc hv (fun ix x y C L hx hC => ?_) (zeros_acc hv)
  dsimp only
  refine same_acc fun dd => ?_
  obtain ⟨ab, bb⟩ := dd
  refine same_acc fun rs => ?_
  rcases rs with _ | ⟨_, _⟩
  · exact pure_acc hC
  refine same_acc fun rs => ?_
  rcases rs with _ | ⟨_, _⟩
  · exact pure_acc hC
  dsimp only
  cases bb with
  | none => exact .error _
  | some _ => exact tryAddFl_acc H hC (H.mul (H.mul (.const _) (.const _)) hx)

/-- C101: `da_on_vec`, applied in rounded arithmetic to a vector that is wrong by at most `β * u`. -/
theorem C101_da_on_vec (basis : List Pair) (w : List ℝ) (i j a b : ℕ) (η : ℝ) {β : ℝ} (hβ : 0 ≤ β) : ∃ c, 0 ≤ c ∧ ∀ u, 0 ≤ u → u ≤ 1 → ∀ rd : ℝ → ℝ, (∀ x, |rd x - x| ≤ u * (|x| + η)) →
    ∀ v : List ℝ, NearV β w u v → (∀ er, CI.da_on_vec basis w i j a b = .error er → da_on_vec rd basis v i j a b = .error er) ∧
      ∀ L, CI.da_on_vec basis w i j a b = .ok L → ∃ C, da_on_vec rd basis v i j a b = .ok C ∧ C.length = L.length ∧ ∀ k, |C.getD k 0 - L.getD k 0| ≤ c * u := by
  obtain ⟨c, c0, h⟩ := (da_on_vec_acc (runs η _ (NearV β w)) basis (nearV_acc hβ w) i j a b).bound fun e => e.2.1
  exact ⟨c, c0, fun u u0 u1 rd hr v hv => h ⟨(u, rd, v), u0, u1, hr, hv⟩⟩

theorem db_on_vec_acc {ι : Type} {u : ι → ℝ} {η : ℝ} {rd : ι → ℝ → ℝ} (H : Roundings u η rd) (basis : List Pair) {v : ι → List ℝ} {w : List ℝ} (hv : AccV u v w) (i j a b : ℕ) :
    AccL u (fun e => db_on_vec (rd e) basis (v e) i j a b) (CI.db_on_vec basis w i j a b) := by
  unfold db_on_vec CI.db_on_vec
  refine loopv_acc hv (fun ix x y C L hx hC => ?_) (zeros_acc hv)
  dsimp only
  refine same_acc fun dd => ?_
  obtain ⟨ab, bb⟩ := dd
  refine same_acc fun rs => ?_
  rcases rs with _ | ⟨_, _⟩
  · exact pure_acc hC
  refine same_acc fun rs => ?_
  rcases rs with _ | ⟨_, _⟩
  · exact pure_acc hC
  dsimp only
  cases ab with
  | none => exact .error _
  | some _ => exact tryAddFl_acc H hC (H.mul (H.mul (.const _) (.const _)) hx)

/-- C101: `db_on_vec`, applied in rounded arithmetic to a vector that is wrong by at most `β * u`. -/
theorem C101_db_on_vec (basis : List Pair) (w : List ℝ) (i j a b : ℕ) (η : ℝ) {β : ℝ} (hβ : 0 ≤ β) : ∃ c, 0 ≤ c ∧ ∀ u, 0 ≤ u → u ≤ 1 → ∀ rd : ℝ → ℝ, (∀ x, |rd x - x| ≤ u * (|x| + η)) →
    ∀ v : List ℝ, NearV β w u v → (∀ er, CI.db_on_vec basis w i j a b = .error er → db_on_vec rd basis v i j a b = .error er) ∧
      ∀ L, CI.db_on_vec basis w i j a b = .ok L → ∃ C, db_on_vec rd basis v i j a b = .ok C ∧ C.length = L.length ∧ ∀ k, |C.getD k 0 - L.getD k 0| ≤ c * u := by
  obtain ⟨c, c0, h⟩ := (db_on_vec_acc (runs η _ (NearV β w)) basis (nearV_acc hβ w) i j a b).bound fun e => e.2.1
  exact ⟨c, c0, fun u u0 u1 rd hr v hv => h ⟨(u, rd, v), u0, u1, hr, hv⟩⟩

theorem sasb_on_vec_acc {ι : Type} {u : ι → ℝ} {η : ℝ} {rd : ι → ℝ → ℝ} (H : Roundings u η rd) (basis : List Pair) {v : ι → List ℝ} {w : List ℝ} (hv : AccV u v w) (i j a b : ℕ) :
    AccL u (fun e => sasb_on_vec (rd e) basis (v e) i j a b) (CI.sasb_on_vec basis w i j a b) := by
  unfold sasb_on_vec CI.sasb_on_vec
  refine loopv_acc hv (fun ix x y C L hx hC => ?_) (zeros_acc hv)
  dsimp only
  refine same_acc fun dd => ?_
  obtain ⟨ab, bb⟩ := dd
  refine same_acc fun rs => ?_
  rcases rs with _ | ⟨_, _⟩
  · exact pure_acc hC
  refine same_acc fun rs => ?_
  rcases rs with _ | ⟨_, _⟩
  · exact pure_acc hC
  exact tryAddFl_acc H hC (H.mul (H.mul (.const _) (.const _)) hx)

/-- C101: `sasb_on_vec`, applied in rounded arithmetic to a vector that is wrong by at most `β * u`. -/
theorem C101_sasb_on_vec (basis : List Pair) (w : List ℝ) (i j a b : ℕ) (η : ℝ) {β : ℝ} (hβ : 0 ≤ β) : ∃ c, 0 ≤ c ∧ ∀ u, 0 ≤ u → u ≤ 1 → ∀ rd : ℝ → ℝ, (∀ x, |rd x - x| ≤ u * (|x| + η)) →
    ∀ v : List ℝ, NearV β w u v → (∀ er, CI.sasb_on_vec basis w i j a b = .error er → sasb_on_vec rd basis v i j a b = .error er) ∧
      ∀ L, CI.sasb_on_vec basis w i j a b = .ok L → ∃ C, sasb_on_vec rd basis v i j a b = .ok C ∧ C.length = L.length ∧ ∀ k, |C.getD k 0 - L.getD k 0| ≤ c * u := by
  obtain ⟨c, c0, h⟩ := (sasb_on_vec_acc (runs η _ (NearV β w)) basis (nearV_acc hβ w) i j a b).bound fun e => e.2.1
  exact ⟨c, c0, fun u u0 u1 rd hr v hv => h ⟨(u, rd, v), u0, u1, hr, hv⟩⟩

/-! ### concrete cases -/

/-- Two occupied and two virtual spin orbitals, all singles one, all doubles zero, an arithmetic whose results are all too large by the factor `1 + u`: all coefficients are computed, with an error of order `u`. -/
example : ∃ c, 0 ≤ c ∧ ∃ L : List ℝ, CI.gmakeCfromT 2 2 (fun _ _ => 1) (fun _ _ _ _ => 0) 2 (some (gocc 4 2)) = .ok L ∧ ∀ u, 0 ≤ u → u ≤ 1 →
    ∃ C, gmakeCfromT (fun x => (1 + u) * x) 2 2 (fun _ _ => 1) (fun _ _ _ _ => 0) 2 (some (gocc 4 2)) = .ok C ∧ C.length = L.length ∧ ∀ k, |C.getD k 0 - L.getD k 0| ≤ c * u := by
  obtain ⟨c, c0, h⟩ := C101_gmakeCfromT 2 2 2 (some (gocc 4 2)) (fun _ _ => 1) (fun _ _ _ _ => 0) 0 (b := 0) le_rfl
  obtain ⟨B, D, -, -, e⟩ := C37_gmakeCfromT_2 (K := ℝ) (no := 2) (nv := 2) rfl (fun _ _ => 1) (T2 := fun _ _ _ _ => 0) (fun _ _ _ _ _ _ _ _ => by simp)
  refine ⟨c, c0, _, e, fun u u0 u1 => (h u u0 u1 (fun x => (1 + u) * x) (fun x => ?_) _ _ (fun _ _ => by simp) fun _ _ _ _ => by simp).2 _ e⟩
  rw [show (1 + u) * x - x = u * x by ring, abs_mul, abs_of_nonneg u0, add_zero]

/-- One electron in two orbitals, `T1 = 1/3`, and an arithmetic whose results are too large by the factor `1 + u`: the coefficient is `(1 + u)^2 / 3`. -/
example (u : ℝ) : makeCfromT (fun x => (1 + u) * x) 1 1 0 2 (fun _ _ => 1 / 3) (fun _ _ => 0) (fun _ _ _ _ => 0) (fun _ _ _ _ => 0) (fun _ _ _ _ => 0) 1 = .ok [1, (1 + u) ^ 2 / 3] := by
  have : makeCfromT (fun x => (1 + u) * x) 1 1 0 2 (fun _ _ => 1 / 3) (fun _ _ => 0) (fun _ _ _ _ => 0) (fun _ _ _ _ => 0) (fun _ _ _ _ => 0) 1 =
    .ok [1, (1 + u) * (0 + (1 + u) * (((1 : ℤ) : ℝ) * (1 / 3)))] := rfl
  rw [this]
  congr 3
  push_cast
  ring

end CI.FlExp
end
