import Verif.Model.Ft
import Mathlib.Analysis.SpecialFunctions.Log.Deriv
import Mathlib.Tactic.Linarith
import Mathlib.Tactic.FieldSimp
import Mathlib.Tactic.Ring
import Mathlib.Tactic.NormNum
import Mathlib.Analysis.SpecialFunctions.Exp
/-!
# C28, C29, C30: finite-temperature occupations and grand potentials
-/
noncomputable section
namespace Ft
open Real

/-- The Fermi-Dirac distribution without cut-offs. -/
def fd (x : ℝ) : ℝ := (exp x + 1)⁻¹

/-- The grand potential of a level without cut-offs. -/
def omega (beta e : ℝ) : ℝ := -(1 / beta) * log (1 + exp (-(beta * e)))

theorem fd_neg (x : ℝ) : fd (-x) = exp x * fd x := by
  unfold fd
  have := exp_pos x
  rw [exp_neg]; field_simp; ring

theorem fd_add (x : ℝ) : fd x + fd (-x) = 1 := by
  rw [fd_neg, fd]; have := exp_pos x; field_simp; ring

theorem fd_pos (x : ℝ) : 0 < fd x := inv_pos.mpr (by have := exp_pos x; linarith)
theorem fd_lt_one (x : ℝ) : fd x < 1 := by have := fd_add x; have := fd_pos (-x); linarith

/-! ## C28 -/

/-- C28: occupied and virtual occupation numbers add up to one. -/
theorem C28_complement (beta epsilon mu : ℝ) :
    fermi_function beta epsilon mu + vfermi_function beta epsilon mu = 1 := by
  simp only [fermi_function, vfermi_function]
  generalize beta * (epsilon - mu) = x
  have h := exp_pos x
  split_ifs <;> first | (exfalso; norm_num at *; linarith) | norm_num
  field_simp; ring

/-- C28: occupation numbers are between zero and one. -/
theorem C28_range (beta epsilon mu : ℝ) :
    0 < fermi_function beta epsilon mu ∧ fermi_function beta epsilon mu < 1 ∧
    0 < vfermi_function beta epsilon mu ∧ vfermi_function beta epsilon mu < 1 := by
  have key : 0 < fermi_function beta epsilon mu ∧ 0 < vfermi_function beta epsilon mu := by
    simp only [fermi_function, vfermi_function]
    generalize beta * (epsilon - mu) = x
    have h := exp_pos x
    have h' := exp_pos (-x)
    constructor
    · split_ifs with h1 h2
      · have : exp x < 1 := (Real.exp_lt_one_iff).mpr (by norm_num at h1; linarith)
        norm_num; linarith
      · exact h'
      · positivity
    · split_ifs with h1 h2
      · have : exp (-x) < 1 := (Real.exp_lt_one_iff).mpr (by norm_num at h1; linarith)
        norm_num at *; linarith
      · exact h
      · positivity
  have := C28_complement beta epsilon mu
  refine ⟨key.1, by linarith [key.2], key.2, by linarith [key.1]⟩

/-- C28: reflecting the energy about the chemical potential exchanges particles and holes, exactly. -/
theorem C28_particle_hole (beta mu d : ℝ) :
    fermi_function beta (mu + d) mu = vfermi_function beta (mu - d) mu := by
  simp only [fermi_function, vfermi_function]
  have e1 : beta * (mu + d - mu) = beta * d := by ring
  have e2 : beta * (mu - d - mu) = -(beta * d) := by ring
  rw [e1, e2, neg_neg]
  generalize beta * d = x
  have h := exp_pos x
  have c1 : (-x > 30.0) ↔ (x < -30.0) := by constructor <;> intro h <;> linarith
  have c2 : (-x < -30.0) ↔ (x > 30.0) := by constructor <;> intro h <;> linarith
  simp only [c1, c2]
  split_ifs
  · rfl
  · rfl
  · rw [exp_neg]; norm_num; field_simp; ring

/-- C28: at the chemical potential a level is half filled. -/
theorem C28_half (beta mu : ℝ) : fermi_function beta mu mu = 1 / 2 := by
  simp [fermi_function]; norm_num

theorem foldl_set (f : ℕ → ℝ) (n : ℕ) (a : Vec) :
    ((List.range n).foldl (fun a i => a.set i (f i)) a).len = a.len ∧
    ∀ j, ((List.range n).foldl (fun a i => a.set i (f i)) a).val j = if j < n then f j else a.val j := by
  induction n with
  | zero => simp
  | succ n ih =>
    rw [List.range_succ, List.foldl_append, List.foldl_cons, List.foldl_nil]
    refine ⟨ih.1, fun j => ?_⟩
    show (if j = n then f n else (List.foldl (fun a i => a.set i (f i)) a (List.range n)).val j) = _
    rw [ih.2]
    split_ifs with h1 h2 h3 <;> first | rfl | (subst h1; rfl) | (exfalso; omega)

/-- C28: the array versions apply the scalar functions to every element and keep the length. -/
theorem C28_vectors (beta mu : ℝ) (epsilon : Vec) :
    (ff beta epsilon mu).len = epsilon.len ∧ (ffv beta epsilon mu).len = epsilon.len ∧
    (∀ i < epsilon.len, (ff beta epsilon mu).val i = fermi_function beta (epsilon.val i) mu) ∧
    (∀ i < epsilon.len, (ffv beta epsilon mu).val i = vfermi_function beta (epsilon.val i) mu) := by
  refine ⟨(foldl_set _ _ _).1, (foldl_set _ _ _).1, fun i hi => ?_, fun i hi => ?_⟩
  · exact ((foldl_set _ _ _).2 i).trans (if_pos hi)
  · exact ((foldl_set _ _ _).2 i).trans (if_pos hi)

/-- C28: occupations of a list of levels are complementary element by element. -/
theorem C28_vectors_complement (beta mu : ℝ) (epsilon : Vec) (i : ℕ) (hi : i < epsilon.len) :
    (ff beta epsilon mu).val i + (ffv beta epsilon mu).val i = 1 := by
  rw [(C28_vectors beta mu epsilon).2.2.1 i hi, (C28_vectors beta mu epsilon).2.2.2 i hi]
  exact C28_complement _ _ _

/-- a vector with two levels on different branches -/
example : (0 : ℕ) < (⟨2, fun i => if i = 0 then -40 else 40⟩ : Vec).len ∧
    fermi_function 1 (-40) 0 = 1.0 - exp (1 * (-40 - 0)) ∧ fermi_function 1 40 0 = exp (-(1 * (40 - 0))) :=
  ⟨by decide, if_pos (by norm_num), (if_neg (by norm_num)).trans (if_pos (by norm_num))⟩

/-! ## Distance from the exact distribution -/

theorem fermi_eq_fd {beta epsilon mu : ℝ} (h : |beta * (epsilon - mu)| ≤ 30) :
    fermi_function beta epsilon mu = fd (beta * (epsilon - mu)) := by
  obtain ⟨h1, h2⟩ := abs_le.mp h
  rw [fermi_function, if_neg (by norm_num; linarith), if_neg (by norm_num; linarith), fd]
  norm_num

/-- for large `y = exp x`, resp. small, the cut-off forms -/
theorem fd_bounds (x : ℝ) : fd x ≤ exp (-x) ∧ exp (-x) - fd x ≤ exp (-x) ^ 2 ∧ 1 - exp x ≤ fd x ∧ fd x - (1 - exp x) ≤ exp x ^ 2 := by
  have h := exp_pos x
  have e : fd x = exp (-x) / (1 + exp (-x)) := by
    rw [fd, exp_neg]; field_simp
  have e' : fd x = 1 / (exp x + 1) := by rw [fd, one_div]
  have h' := exp_pos (-x)
  refine ⟨?_, ?_, ?_, ?_⟩
  · rw [e, div_le_iff₀ (by linarith)]; nlinarith
  · rw [e, sub_le_iff_le_add, ← sub_le_iff_le_add', le_div_iff₀ (by linarith)]; nlinarith [mul_pos h' (mul_pos h' h')]
  · rw [e', le_div_iff₀ (by linarith)]; nlinarith
  · rw [e', sub_le_iff_le_add, div_le_iff₀ (by linarith)]; nlinarith [mul_pos h (mul_pos h h)]

/-- C28: `fermi_function` is within `exp(-60)` of the Fermi-Dirac distribution for all arguments. -/
theorem C28_accuracy (beta epsilon mu : ℝ) :
    |fermi_function beta epsilon mu - fd (beta * (epsilon - mu))| ≤ exp (-60) := by
  by_cases h : |beta * (epsilon - mu)| ≤ 30
  · rw [fermi_eq_fd h, sub_self, abs_zero]; exact (exp_pos _).le
  · simp only [fermi_function]
    generalize beta * (epsilon - mu) = x at *
    obtain ⟨b1, b2, b3, b4⟩ := fd_bounds x
    rw [not_le, lt_abs] at h
    rcases h with h | h
    · rw [if_neg (by norm_num; linarith), if_pos (by norm_num; linarith), abs_of_nonneg (by linarith)]
      refine b2.trans ?_
      rw [← exp_nat_mul]; exact exp_le_exp.mpr (by norm_num; linarith)
    · rw [if_pos (by norm_num; linarith), abs_sub_comm, abs_of_nonneg (by norm_num; linarith)]
      rw [show (1.0 : ℝ) = 1 by norm_num]
      refine b4.trans ?_
      rw [← exp_nat_mul]; exact exp_le_exp.mpr (by norm_num; linarith)

/-! ## C29 -/

theorem fd_anti {x y : ℝ} (h : x ≤ y) : fd y ≤ fd x := by
  unfold fd
  exact inv_anti₀ (by have := exp_pos x; linarith) (by have := exp_le_exp.mpr h; linarith)

/-- C29: on each of the three branches the occupation does not increase with the energy. -/
theorem C29_branches (beta mu e1 e2 : ℝ) (hb : 0 < beta) (h : e1 ≤ e2)
    (hbr : beta * (e2 - mu) < -30 ∨ (30 < beta * (e1 - mu)) ∨ (-30 ≤ beta * (e1 - mu) ∧ beta * (e2 - mu) ≤ 30)) :
    fermi_function beta e2 mu ≤ fermi_function beta e1 mu := by
  have hx : beta * (e1 - mu) ≤ beta * (e2 - mu) := mul_le_mul_of_nonneg_left (by linarith) hb.le
  rcases hbr with hbr | hbr | hbr
  · simp only [fermi_function]
    rw [if_pos (by norm_num; linarith), if_pos (by norm_num; linarith)]
    have := exp_le_exp.mpr hx; linarith
  · simp only [fermi_function]
    rw [if_neg (by norm_num; linarith), if_pos (by norm_num; linarith), if_neg (by norm_num; linarith),
      if_pos (by norm_num; linarith)]
    exact exp_le_exp.mpr (by linarith)
  · rw [fermi_eq_fd (abs_le.mpr ⟨by linarith, by linarith⟩), fermi_eq_fd (abs_le.mpr ⟨by linarith, by linarith⟩)]
    exact fd_anti hx

/-- C29: for all pairs of energies the occupation increases by at most `exp(-60)`. -/
theorem C29_almost_antitone (beta mu e1 e2 : ℝ) (hb : 0 < beta) (h : e1 ≤ e2) :
    fermi_function beta e2 mu ≤ fermi_function beta e1 mu + exp (-60) := by
  have hx : beta * (e1 - mu) ≤ beta * (e2 - mu) := mul_le_mul_of_nonneg_left (by linarith) hb.le
  have hp := exp_pos (-60)
  rcases lt_or_ge (beta * (e2 - mu)) (-30) with h1 | h1
  · have := C29_branches beta mu e1 e2 hb h (Or.inl h1); linarith
  rcases lt_or_ge 30 (beta * (e1 - mu)) with h2 | h2
  · have := C29_branches beta mu e1 e2 hb h (Or.inr (Or.inl h2)); linarith
  have hxy := fd_anti hx
  have key : ∀ z : ℝ, z ≤ -30 → exp z ^ 2 ≤ exp (-60) := fun z hz => by
    rw [← exp_nat_mul]; exact exp_le_exp.mpr (by norm_num; linarith)
  obtain ⟨a1, a2, a3, a4⟩ := fd_bounds (beta * (e1 - mu))
  obtain ⟨b1, b2, b3, b4⟩ := fd_bounds (beta * (e2 - mu))
  rcases lt_or_ge (beta * (e1 - mu)) (-30) with h3 | h3 <;> rcases lt_or_ge 30 (beta * (e2 - mu)) with h4 | h4
  · have hy1 : exp (-(beta * (e2 - mu))) ≤ exp (-30) := exp_le_exp.mpr (by linarith)
    have hx1 : exp (beta * (e1 - mu)) ≤ exp (-30) := exp_le_exp.mpr (by linarith)
    have h30 : exp (-30) < 1 / 2 := by
      have := add_one_lt_exp (show (30:ℝ) ≠ 0 by norm_num)
      rw [exp_neg, inv_lt_comm₀ (exp_pos _) (by norm_num)]; norm_num; linarith
    simp only [fermi_function]
    rw [if_neg (by norm_num; linarith), if_pos (by norm_num; linarith), if_pos (by norm_num; linarith),
      show (1.0 : ℝ) = 1 by norm_num]
    linarith
  · rw [fermi_eq_fd (epsilon := e2) (abs_le.mpr ⟨by linarith, by linarith⟩)]
    simp only [fermi_function]
    rw [if_pos (by norm_num; linarith), show (1.0 : ℝ) = 1 by norm_num]
    have := key _ h3.le; linarith
  · rw [fermi_eq_fd (epsilon := e1) (abs_le.mpr ⟨by linarith, by linarith⟩)]
    simp only [fermi_function]
    rw [if_neg (by norm_num; linarith), if_pos (by norm_num; linarith)]
    have := key _ (show -(beta * (e2 - mu)) ≤ -30 by linarith); linarith
  · have := C29_branches beta mu e1 e2 hb h (Or.inr (Or.inr ⟨h3, h4⟩)); linarith

/-- C29: strictly, the occupation is not monotone: it jumps up at the lower cut-off. -/
theorem C29_not_antitone : ∃ e1 e2 : ℝ, e1 ≤ e2 ∧ fermi_function 1 e1 0 < fermi_function 1 e2 0 := by
  -- e2 = -30, e1 slightly below
  have hp := exp_pos (-30)
  have hlt : 1 - exp (-30) < fd (-30) := by
    unfold fd
    rw [← one_div, lt_div_iff₀ (by linarith)]
    nlinarith
  have hc : ContinuousAt (fun x : ℝ => 1 - exp x) (-30) := by fun_prop
  have := (hc.eventually_lt_const hlt)
  rw [Metric.eventually_nhds_iff] at this
  obtain ⟨r, hr, hh⟩ := this
  refine ⟨-30 - r / 2, -30, by linarith, ?_⟩
  have h1 := @hh (-30 - r / 2) (by rw [Real.dist_eq, show -30 - r / 2 - -30 = -(r / 2) by ring, abs_neg, abs_of_pos (by linarith)]; linarith)
  have e1 : fermi_function 1 (-30 - r / 2) 0 = 1 - exp (-30 - r / 2) := by
    rw [fermi_function, if_pos (by norm_num; linarith)]; norm_num
  have e2 : fermi_function 1 (-30) 0 = fd (-30) := by
    rw [fermi_eq_fd (by norm_num)]; norm_num
  rw [e1, e2]; exact h1

example : (0 : ℝ) < 2 ∧ (1 : ℝ) ≤ 3 ∧ (-30 ≤ 2 * ((1 : ℝ) - 0) ∧ 2 * ((3 : ℝ) - 0) ≤ 30) := by norm_num

/-! ## C30 -/

theorem log_bounds (y : ℝ) (hy : 0 < y) : y - y ^ 2 ≤ log (1 + y) ∧ log (1 + y) ≤ y := by
  constructor
  · have := one_sub_inv_le_log_of_pos (show 0 < 1 + y by linarith)
    refine le_trans ?_ this
    have e : 1 - (1 + y)⁻¹ = y / (1 + y) := by field_simp; ring
    rw [e, le_div_iff₀ (by linarith)]
    nlinarith [mul_pos hy (mul_pos hy hy)]
  · have := log_le_sub_one_of_pos (show 0 < 1 + y by linarith)
    linarith

theorem vfermi_eq_fd {beta epsilon mu : ℝ} (h : |beta * (epsilon - mu)| ≤ 30) :
    vfermi_function beta epsilon mu = 1 - fd (beta * (epsilon - mu)) := by
  have := C28_complement beta epsilon mu
  rw [fermi_eq_fd h] at this; linarith

theorem log_fd (x : ℝ) : log (fd x) = -log (1 + exp x) := by
  rw [fd, log_inv, add_comm]

/-- `log(1 + e^x) = x + log(1 + e^{-x})` -/
theorem log_split (x : ℝ) : log (1 + exp x) = x + log (1 + exp (-x)) := by
  have h := exp_pos (-x)
  have e : 1 + exp x = exp x * (1 + exp (-x)) := by
    rw [mul_add, ← exp_add, add_neg_cancel, exp_zero]; ring
  rw [e, log_mul (exp_pos x).ne' (by linarith), log_exp]

/-- C30: within the cut-off the grand potential is exactly that of a Fermi level. -/
theorem C30_grand_potential (beta epsilon mu : ℝ) (hb : beta ≠ 0) (h : |beta * (epsilon - mu)| ≤ 20) :
    grand_potential0 beta epsilon mu = omega beta (epsilon - mu) := by
  obtain ⟨h1, h2⟩ := abs_le.mp h
  have : |beta * (epsilon - mu)| ≤ 30 := by linarith
  rw [grand_potential0, if_neg (by norm_num; linarith), if_neg (by norm_num; linarith), fermi_eq_fd this, log_fd, log_split,
    omega]
  field_simp; ring

/-- C30: outside the cut-off the error of the grand potential is at most `exp(-2|x|)/|beta|`. -/
theorem C30_grand_potential_error (beta epsilon mu : ℝ) (hb : 0 < beta) :
    |grand_potential0 beta epsilon mu - omega beta (epsilon - mu)| ≤ exp (-2 * |beta * (epsilon - mu)|) / beta := by
  by_cases h : |beta * (epsilon - mu)| ≤ 20
  · rw [C30_grand_potential beta epsilon mu hb.ne' h, sub_self, abs_zero]; positivity
  rw [not_le, lt_abs] at h
  simp only [grand_potential0, omega]
  have hx : epsilon - mu = beta * (epsilon - mu) / beta := by field_simp
  generalize hy : beta * (epsilon - mu) = x at *
  rcases h with h | h
  · rw [if_neg (by norm_num; linarith), if_pos (by norm_num; linarith), abs_of_nonneg (a := x) (by linarith)]
    obtain ⟨l1, l2⟩ := log_bounds (exp (-x)) (exp_pos _)
    have e : -exp (-x) / beta - -(1 / beta) * log (1 + exp (-x)) = (log (1 + exp (-x)) - exp (-x)) / beta := by ring
    have e2 : exp (-2 * x) = exp (-x) ^ 2 := by rw [← exp_nat_mul]; congr 1; push_cast; ring
    rw [e, abs_div, abs_of_pos hb, e2]
    exact div_le_div_of_nonneg_right (abs_le.mpr ⟨by linarith, by have := sq_nonneg (exp (-x)); linarith⟩) hb.le
  · rw [if_pos (by norm_num; linarith), abs_of_nonpos (a := x) (by linarith)]
    obtain ⟨l1, l2⟩ := log_bounds (exp x) (exp_pos _)
    have e : -exp x / beta + (epsilon - mu) - -(1 / beta) * log (1 + exp (-x)) = (log (1 + exp x) - exp x) / beta := by
      rw [log_split x, hx]; ring
    have e2 : exp (-2 * -x) = exp x ^ 2 := by rw [← exp_nat_mul]; congr 1; push_cast; ring
    rw [e, abs_div, abs_of_pos hb, e2]
    exact div_le_div_of_nonneg_right (abs_le.mpr ⟨by linarith, by have := sq_nonneg (exp x); linarith⟩) hb.le

/-- The exact derivative of the grand potential of a level with respect to the inverse temperature. -/
theorem omega_deriv (beta e : ℝ) (hb : beta ≠ 0) :
    HasDerivAt (fun b => omega b e) (log (1 + exp (-(beta * e))) / beta ^ 2 + e * fd (beta * e) / beta) beta := by
  have hp := exp_pos (-(beta * e))
  have h1 : HasDerivAt (fun b : ℝ => exp (-(b * e))) (exp (-(beta * e)) * (-(1 * e))) beta :=
    (((hasDerivAt_id beta).mul_const e).neg).exp
  have h2 : HasDerivAt (fun b : ℝ => log (1 + exp (-(b * e)))) ((exp (-(beta * e)) * (-(1 * e))) / (1 + exp (-(beta * e)))) beta :=
    (h1.const_add 1).log (by linarith)
  have h3 : HasDerivAt (fun b : ℝ => -(1 / b)) (-((0 * beta - 1 * 1) / beta ^ 2)) beta :=
    ((hasDerivAt_const beta (1:ℝ)).div (hasDerivAt_id beta) hb).neg
  have h4 := h3.mul h2
  refine h4.congr_deriv ?_
  have e1 : fd (beta * e) = exp (-(beta * e)) / (1 + exp (-(beta * e))) := by
    rw [fd, exp_neg]; have := exp_pos (beta * e); field_simp
  rw [e1]
  have : (1 + exp (-(beta * e))) ≠ 0 := by linarith
  field_simp; ring

/-- C30: within the cut-off `dgrand_potential0` is the derivative of `grand_potential0` with respect to `beta`. -/
theorem C30_derivative (beta epsilon mu : ℝ) (hb : beta ≠ 0) (h : |beta * (epsilon - mu)| < 20) :
    HasDerivAt (fun b => grand_potential0 b epsilon mu) (dgrand_potential0 beta epsilon mu) beta := by
  have hd := omega_deriv beta (epsilon - mu) hb
  have hev : (fun b => grand_potential0 b epsilon mu) =ᶠ[nhds beta] fun b => omega b (epsilon - mu) := by
    have hc : ContinuousAt (fun b : ℝ => |b * (epsilon - mu)|) beta := by fun_prop
    have h1 := hc.eventually_lt_const h
    have h2 : ∀ᶠ b in nhds beta, b ≠ 0 := isOpen_ne.mem_nhds hb
    filter_upwards [h1, h2] with b hb1 hb2
    exact C30_grand_potential b epsilon mu hb2 hb1.le
  refine (hd.congr_of_eventuallyEq hev).congr_deriv ?_
  obtain ⟨h1, h2⟩ := abs_lt.mp h
  have h30 : |beta * (epsilon - mu)| ≤ 30 := by linarith
  rw [dgrand_potential0, if_neg (by norm_num; linarith), if_neg (by norm_num; linarith), fermi_eq_fd h30, vfermi_eq_fd h30,
    log_fd, log_split]
  field_simp; ring

/-- C30: within the cut-off the derivative of the grand potential with respect to the orbital energy is the
occupation number. -/
theorem C30_occupation (beta epsilon mu : ℝ) (hb : beta ≠ 0) (h : |beta * (epsilon - mu)| < 20) :
    HasDerivAt (fun e => grand_potential0 beta e mu) (fermi_function beta epsilon mu) epsilon := by
  have hp := exp_pos (-(beta * (epsilon - mu)))
  have h1 : HasDerivAt (fun e : ℝ => exp (-(beta * (e - mu)))) (exp (-(beta * (epsilon - mu))) * (-(beta * 1))) epsilon :=
    ((((hasDerivAt_id epsilon).sub_const mu).const_mul beta).neg).exp
  have h2 : HasDerivAt (fun e : ℝ => log (1 + exp (-(beta * (e - mu)))))
      ((exp (-(beta * (epsilon - mu))) * (-(beta * 1))) / (1 + exp (-(beta * (epsilon - mu))))) epsilon :=
    (h1.const_add 1).log (by linarith)
  have hd := h2.const_mul (-(1 / beta))
  have hev : (fun e => grand_potential0 beta e mu) =ᶠ[nhds epsilon] fun e => omega beta (e - mu) := by
    have hc : ContinuousAt (fun e : ℝ => |beta * (e - mu)|) epsilon := by fun_prop
    filter_upwards [hc.eventually_lt_const h] with e he
    exact C30_grand_potential beta e mu hb he.le
  refine (hd.congr_of_eventuallyEq hev).congr_deriv ?_
  rw [fermi_eq_fd (by linarith)]
  have e1 : fd (beta * (epsilon - mu)) = exp (-(beta * (epsilon - mu))) / (1 + exp (-(beta * (epsilon - mu)))) := by
    rw [fd, exp_neg]; have := exp_pos (beta * (epsilon - mu)); field_simp
  rw [e1]
  have : (1 + exp (-(beta * (epsilon - mu)))) ≠ 0 := by linarith
  field_simp

/-- C30: beyond the cut-off `dgrand_potential0` differs from the exact derivative by at most
`exp(-2|x|) (1/beta² + |epsilon - mu|/beta)`. -/
theorem C30_derivative_error (beta epsilon mu : ℝ) (hb : 0 < beta) :
    ∃ D, HasDerivAt (fun b => omega b (epsilon - mu)) D beta ∧
      |dgrand_potential0 beta epsilon mu - D|
        ≤ exp (-2 * |beta * (epsilon - mu)|) * (1 / beta ^ 2 + |epsilon - mu| / beta) := by
  refine ⟨_, omega_deriv beta (epsilon - mu) hb.ne', ?_⟩
  have hz : 0 ≤ |epsilon - mu| / beta := by positivity
  have hz2 : 0 ≤ 1 / beta ^ 2 := by positivity
  by_cases h : |beta * (epsilon - mu)| ≤ 20
  · obtain ⟨h1, h2⟩ := abs_le.mp h
    have h30 : |beta * (epsilon - mu)| ≤ 30 := by linarith
    rw [dgrand_potential0, if_neg (by norm_num; linarith), if_neg (by norm_num; linarith), fermi_eq_fd h30, vfermi_eq_fd h30,
      log_fd, log_split]
    have : -(-(beta * (epsilon - mu) + log (1 + exp (-(beta * (epsilon - mu)))))) / (beta * beta) -
        (epsilon - mu) * (1 - fd (beta * (epsilon - mu))) / beta -
        (log (1 + exp (-(beta * (epsilon - mu)))) / beta ^ 2 + (epsilon - mu) * fd (beta * (epsilon - mu)) / beta) = 0 := by
      field_simp; ring
    rw [this, abs_zero]; positivity
  rw [not_le, lt_abs] at h
  -- accuracy of the occupations beyond the cut-off
  have hf : |fermi_function beta epsilon mu - fd (beta * (epsilon - mu))| ≤ exp (-2 * |beta * (epsilon - mu)|) := by
    by_cases h30 : |beta * (epsilon - mu)| ≤ 30
    · rw [fermi_eq_fd h30, sub_self, abs_zero]; positivity
    · simp only [fermi_function]
      generalize beta * (epsilon - mu) = x at *
      obtain ⟨b1, b2, b3, b4⟩ := fd_bounds x
      rw [not_le, lt_abs] at h30
      rcases h30 with h | h
      · rw [if_neg (by norm_num; linarith), if_pos (by norm_num; linarith), abs_of_nonneg (by linarith)]
        refine b2.trans (le_of_eq ?_)
        rw [← exp_nat_mul, abs_of_nonneg (by linarith)]; congr 1; push_cast; ring
      · rw [if_pos (by norm_num; linarith), abs_sub_comm, abs_of_nonneg (by norm_num; linarith),
          show (1.0 : ℝ) = 1 by norm_num]
        refine b4.trans (le_of_eq ?_)
        rw [← exp_nat_mul, abs_of_nonpos (by linarith)]; congr 1; push_cast; ring
  have hv : vfermi_function beta epsilon mu = 1 - fermi_function beta epsilon mu := by
    have := C28_complement beta epsilon mu; linarith
  have hx : epsilon - mu = beta * (epsilon - mu) / beta := by field_simp
  simp only [dgrand_potential0, hv]
  generalize fermi_function beta epsilon mu = f at *
  rcases h with h | h
  · rw [if_neg (by norm_num; linarith), if_pos (by norm_num; linarith)]
    obtain ⟨l1, l2⟩ := log_bounds (exp (-(beta * (epsilon - mu)))) (exp_pos _)
    have e2 : exp (-2 * |beta * (epsilon - mu)|) = exp (-(beta * (epsilon - mu))) ^ 2 := by
      rw [← exp_nat_mul, abs_of_nonneg (by linarith)]; congr 1; push_cast; ring
    have e : (epsilon - mu) * f / beta + exp (-(beta * (epsilon - mu))) / (beta * beta) -
        (log (1 + exp (-(beta * (epsilon - mu)))) / beta ^ 2 + (epsilon - mu) * fd (beta * (epsilon - mu)) / beta)
        = (exp (-(beta * (epsilon - mu))) - log (1 + exp (-(beta * (epsilon - mu))))) * (1 / beta ^ 2)
          + (f - fd (beta * (epsilon - mu))) * ((epsilon - mu) / beta) := by field_simp; ring
    rw [e, mul_add]
    refine (abs_add_le _ _).trans (add_le_add ?_ ?_)
    · rw [abs_mul, abs_of_nonneg hz2]
      exact mul_le_mul_of_nonneg_right (by rw [e2, abs_of_nonneg (by linarith)]; linarith) hz2
    · rw [abs_mul, abs_div, abs_of_pos hb]
      exact mul_le_mul_of_nonneg_right hf hz
  · rw [if_pos (by norm_num; linarith)]
    obtain ⟨l1, l2⟩ := log_bounds (exp (beta * (epsilon - mu))) (exp_pos _)
    have e2 : exp (-2 * |beta * (epsilon - mu)|) = exp (beta * (epsilon - mu)) ^ 2 := by
      rw [← exp_nat_mul, abs_of_nonpos (by linarith)]; congr 1; push_cast; ring
    have e : -(epsilon - mu) * (1 - f) / beta + exp (beta * (epsilon - mu)) / (beta * beta) -
        (log (1 + exp (-(beta * (epsilon - mu)))) / beta ^ 2 + (epsilon - mu) * fd (beta * (epsilon - mu)) / beta)
        = (exp (beta * (epsilon - mu)) - log (1 + exp (beta * (epsilon - mu)))) * (1 / beta ^ 2)
          + (f - fd (beta * (epsilon - mu))) * ((epsilon - mu) / beta) := by
      rw [log_split (beta * (epsilon - mu))]; field_simp; ring
    rw [e, mul_add]
    refine (abs_add_le _ _).trans (add_le_add ?_ ?_)
    · rw [abs_mul, abs_of_nonneg hz2]
      exact mul_le_mul_of_nonneg_right (by rw [e2, abs_of_nonneg (by linarith)]; linarith) hz2
    · rw [abs_mul, abs_div, abs_of_pos hb]
      exact mul_le_mul_of_nonneg_right hf hz

/-- C30: the array versions apply the scalar functions to every element and keep the lengths. -/
theorem C30_vectors (beta mu : ℝ) (ea eb : Vec) :
    (GP0 beta ea mu).len = ea.len ∧ (dGP0 beta ea mu).len = ea.len ∧
    (∀ i < ea.len, (GP0 beta ea mu).val i = grand_potential0 beta (ea.val i) mu) ∧
    (∀ i < ea.len, (dGP0 beta ea mu).val i = dgrand_potential0 beta (ea.val i) mu) ∧
    uGP0 beta ea eb mu = (GP0 beta ea mu, GP0 beta eb mu) := by
  refine ⟨(foldl_set _ _ _).1, (foldl_set _ _ _).1, fun i hi => ?_, fun i hi => ?_, rfl⟩
  · exact ((foldl_set _ _ _).2 i).trans (if_pos hi)
  · exact ((foldl_set _ _ _).2 i).trans (if_pos hi)

/-- hypotheses of C30 with a non-zero energy -/
example : (2 : ℝ) ≠ 0 ∧ (0 : ℝ) < 2 ∧ |(2 : ℝ) * (5 - 1)| < 20 ∧ grand_potential0 2 5 1 = omega 2 4 := by
  refine ⟨by norm_num, by norm_num, by norm_num, ?_⟩
  rw [C30_grand_potential 2 5 1 (by norm_num) (by norm_num)]; norm_num

end Ft
end
