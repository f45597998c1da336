import Verif.Model.CIRe
/-!
# C87: complex amplitudes and coefficients lose their imaginary parts

Generated by tools/gen_cire.py.  The theorems about `makeCfromT`, `gmakeCfromT` and the routines that act on vectors (C37, C38) hold over every field.  For the complex
numbers they are about the algorithm; the program stores its result in a real array.
-/
set_option linter.unusedVariables false
set_option linter.unusedSectionVars false
set_option linter.unusedSimpArgs false
noncomputable section
namespace CI.Re
open Complex (re)

/-! ### loops -/

theorem loop_re {α : Type} (l : List α) (f : α → List ℝ → R (List ℝ)) (g : α → List ℂ → R (List ℂ))
    (h : ∀ x c, f x (c.map re) = (g x c).map (List.map re)) (c : List ℂ) : loop l f (c.map re) = (loop l g c).map (List.map re) := by
  induction l generalizing c with
  | nil => rfl
  | cons x l ih =>
    simp only [loop, bind, Except.bind, h]
    cases hg : g x c with
    | error e => rfl
    | ok c' => simp only [Except.map]; exact ih c'

theorem bind_re {α : Type} (e : R α) (f : α → R (List ℝ)) (g : α → R (List ℂ)) (h : ∀ r, f r = (g r).map (List.map re)) :
    e.bind f = (e.bind g).map (List.map re) := by
  cases e with
  | error e => rfl
  | ok r => exact h r

theorem addRe_re (C : List ℂ) (idx : ℕ) (x : ℂ) : addRe (C.map re) idx x = (addAt C idx x).map (List.map re) := by
  unfold addRe addAt
  rw [List.length_map]
  split
  · simp only [Except.map]
    congr 1
    apply List.ext_getElem
    · simp
    · intro i h1 h2
      simp only [List.getElem_modify, List.getElem_map]
      split <;> simp
  · rfl

theorem tryAddRe_re (idx : R ℕ) (C : List ℂ) (x : ℂ) : tryAddRe idx (C.map re) x = (tryAdd idx C x).map (List.map re) := by
  unfold tryAddRe tryAdd
  rcases idx with e | k
  · cases e <;> rfl
  · exact addRe_re C k x

theorem addRe_real (C : List ℝ) (idx : ℕ) {x : ℂ} {y : ℝ} (h : x = (y : ℂ)) : addRe C idx x = addAt C idx y := by
  subst h
  unfold addRe addAt
  simp only [Complex.add_re, Complex.ofReal_re]

theorem tryAddRe_real (idx : R ℕ) (C : List ℝ) {x : ℂ} {y : ℝ} (h : x = (y : ℂ)) : tryAddRe idx C x = tryAdd idx C y := by
  unfold tryAddRe tryAdd
  rcases idx with e | k
  · cases e <;> rfl
  · exact addRe_real C k h

theorem loop_congr {α σ : Type} (l : List α) (f g : α → σ → R σ) (h : ∀ x c, f x c = g x c) (c : σ) : loop l f c = loop l g c := by
  rw [show f = g from funext fun x => funext fun c => h x c]

theorem bind_congr' {α β : Type} (e : R α) (f g : α → R β) (h : ∀ r, f r = g r) : e.bind f = e.bind g := by
  rw [show f = g from funext h]

/-- a table of real numbers as one of complex numbers -/
def c2 (T : ℕ → ℕ → ℝ) : ℕ → ℕ → ℂ := fun a i => (T a i : ℂ)
/-- the same with four indices -/
def c4 (T : ℕ → ℕ → ℕ → ℕ → ℝ) : ℕ → ℕ → ℕ → ℕ → ℂ := fun a b i j => (T a b i j : ℂ)

/-- nested loops that end in `C[idx] += x` -/
macro "re_loops" : tactic => `(tactic| repeat' first
  | exact addRe_re _ _ _
  | exact tryAddRe_re _ _ _
  | rfl
  | (refine loop_re _ _ _ ?_ _; intro x C; try dsimp only)
  | (split; rfl)
  | (refine bind_re _ _ _ ?_; rintro (_ | ⟨s, d⟩) <;> try dsimp only)
  | (refine bind_re _ _ _ ?_; intro r))

/-- the same for real numbers -/
macro "real_loops" : tactic => `(tactic| repeat' first
  | with_reducible rfl
  | (with_reducible refine addRe_real _ _ ?_; push_cast; ring)
  | (with_reducible refine tryAddRe_real _ _ ?_; push_cast; ring)
  | (refine loop_congr _ _ _ ?_ _; intro x C; try dsimp only)
  | (split; with_reducible rfl)
  | (refine bind_congr' _ _ _ ?_; rintro (_ | ⟨s, d⟩) <;> try dsimp only)
  | (refine bind_congr' _ _ _ ?_; intro r))

theorem g_T1_re (basis : List (Option Dstring)) (ref : Dstring) (iocc ivir : List ℕ) (T1 : ℕ → ℕ → ℂ) (T2 : ℕ → ℕ → ℕ → ℕ → ℂ) (C : List ℂ) :
    g_T1 basis ref iocc ivir T1 T2 (C.map re) = (CI.g_T1 basis ref iocc ivir T1 T2 C).map (List.map re) := by
  unfold g_T1 CI.g_T1
  re_loops

theorem g_T1_real (basis : List (Option Dstring)) (ref : Dstring) (iocc ivir : List ℕ) (T1 : ℕ → ℕ → ℝ) (T2 : ℕ → ℕ → ℕ → ℕ → ℝ) (C : List ℝ) :
    g_T1 basis ref iocc ivir (c2 T1) (c4 T2) C = CI.g_T1 basis ref iocc ivir T1 T2 C := by
  unfold g_T1 CI.g_T1
  simp only [c2, c4]
  real_loops

theorem g_T2_re (basis : List (Option Dstring)) (ref : Dstring) (iocc ivir : List ℕ) (T1 : ℕ → ℕ → ℂ) (T2 : ℕ → ℕ → ℕ → ℕ → ℂ) (C : List ℂ) :
    g_T2 basis ref iocc ivir T1 T2 (C.map re) = (CI.g_T2 basis ref iocc ivir T1 T2 C).map (List.map re) := by
  unfold g_T2 CI.g_T2
  re_loops

theorem g_T2_real (basis : List (Option Dstring)) (ref : Dstring) (iocc ivir : List ℕ) (T1 : ℕ → ℕ → ℝ) (T2 : ℕ → ℕ → ℕ → ℕ → ℝ) (C : List ℝ) :
    g_T2 basis ref iocc ivir (c2 T1) (c4 T2) C = CI.g_T2 basis ref iocc ivir T1 T2 C := by
  unfold g_T2 CI.g_T2
  simp only [c2, c4]
  real_loops

theorem g_T1_T1_re (basis : List (Option Dstring)) (ref : Dstring) (iocc ivir : List ℕ) (T1 : ℕ → ℕ → ℂ) (T2 : ℕ → ℕ → ℕ → ℕ → ℂ) (C : List ℂ) :
    g_T1_T1 basis ref iocc ivir T1 T2 (C.map re) = (CI.g_T1_T1 basis ref iocc ivir T1 T2 C).map (List.map re) := by
  unfold g_T1_T1 CI.g_T1_T1
  re_loops

theorem g_T1_T1_real (basis : List (Option Dstring)) (ref : Dstring) (iocc ivir : List ℕ) (T1 : ℕ → ℕ → ℝ) (T2 : ℕ → ℕ → ℕ → ℕ → ℝ) (C : List ℝ) :
    g_T1_T1 basis ref iocc ivir (c2 T1) (c4 T2) C = CI.g_T1_T1 basis ref iocc ivir T1 T2 C := by
  unfold g_T1_T1 CI.g_T1_T1
  simp only [c2, c4]
  real_loops

theorem g_T1_T2_re (basis : List (Option Dstring)) (ref : Dstring) (iocc ivir : List ℕ) (T1 : ℕ → ℕ → ℂ) (T2 : ℕ → ℕ → ℕ → ℕ → ℂ) (C : List ℂ) :
    g_T1_T2 basis ref iocc ivir T1 T2 (C.map re) = (CI.g_T1_T2 basis ref iocc ivir T1 T2 C).map (List.map re) := by
  unfold g_T1_T2 CI.g_T1_T2
  re_loops

theorem g_T1_T2_real (basis : List (Option Dstring)) (ref : Dstring) (iocc ivir : List ℕ) (T1 : ℕ → ℕ → ℝ) (T2 : ℕ → ℕ → ℕ → ℕ → ℝ) (C : List ℝ) :
    g_T1_T2 basis ref iocc ivir (c2 T1) (c4 T2) C = CI.g_T1_T2 basis ref iocc ivir T1 T2 C := by
  unfold g_T1_T2 CI.g_T1_T2
  simp only [c2, c4]
  real_loops

theorem g_T1_T1_T1_re (basis : List (Option Dstring)) (ref : Dstring) (iocc ivir : List ℕ) (T1 : ℕ → ℕ → ℂ) (T2 : ℕ → ℕ → ℕ → ℕ → ℂ) (C : List ℂ) :
    g_T1_T1_T1 basis ref iocc ivir T1 T2 (C.map re) = (CI.g_T1_T1_T1 basis ref iocc ivir T1 T2 C).map (List.map re) := by
  unfold g_T1_T1_T1 CI.g_T1_T1_T1
  re_loops

theorem g_T1_T1_T1_real (basis : List (Option Dstring)) (ref : Dstring) (iocc ivir : List ℕ) (T1 : ℕ → ℕ → ℝ) (T2 : ℕ → ℕ → ℕ → ℕ → ℝ) (C : List ℝ) :
    g_T1_T1_T1 basis ref iocc ivir (c2 T1) (c4 T2) C = CI.g_T1_T1_T1 basis ref iocc ivir T1 T2 C := by
  unfold g_T1_T1_T1 CI.g_T1_T1_T1
  simp only [c2, c4]
  real_loops

theorem g_T2_T2_re (basis : List (Option Dstring)) (ref : Dstring) (iocc ivir : List ℕ) (T1 : ℕ → ℕ → ℂ) (T2 : ℕ → ℕ → ℕ → ℕ → ℂ) (C : List ℂ) :
    g_T2_T2 basis ref iocc ivir T1 T2 (C.map re) = (CI.g_T2_T2 basis ref iocc ivir T1 T2 C).map (List.map re) := by
  unfold g_T2_T2 CI.g_T2_T2
  re_loops

theorem g_T2_T2_real (basis : List (Option Dstring)) (ref : Dstring) (iocc ivir : List ℕ) (T1 : ℕ → ℕ → ℝ) (T2 : ℕ → ℕ → ℕ → ℕ → ℝ) (C : List ℝ) :
    g_T2_T2 basis ref iocc ivir (c2 T1) (c4 T2) C = CI.g_T2_T2 basis ref iocc ivir T1 T2 C := by
  unfold g_T2_T2 CI.g_T2_T2
  simp only [c2, c4]
  real_loops

theorem g_T1_T1_T2_re (basis : List (Option Dstring)) (ref : Dstring) (iocc ivir : List ℕ) (T1 : ℕ → ℕ → ℂ) (T2 : ℕ → ℕ → ℕ → ℕ → ℂ) (C : List ℂ) :
    g_T1_T1_T2 basis ref iocc ivir T1 T2 (C.map re) = (CI.g_T1_T1_T2 basis ref iocc ivir T1 T2 C).map (List.map re) := by
  unfold g_T1_T1_T2 CI.g_T1_T1_T2
  re_loops

theorem g_T1_T1_T2_real (basis : List (Option Dstring)) (ref : Dstring) (iocc ivir : List ℕ) (T1 : ℕ → ℕ → ℝ) (T2 : ℕ → ℕ → ℕ → ℕ → ℝ) (C : List ℝ) :
    g_T1_T1_T2 basis ref iocc ivir (c2 T1) (c4 T2) C = CI.g_T1_T1_T2 basis ref iocc ivir T1 T2 C := by
  unfold g_T1_T1_T2 CI.g_T1_T1_T2
  simp only [c2, c4]
  real_loops

theorem g_T1_T1_T1_T1_re (basis : List (Option Dstring)) (ref : Dstring) (iocc ivir : List ℕ) (T1 : ℕ → ℕ → ℂ) (T2 : ℕ → ℕ → ℕ → ℕ → ℂ) (C : List ℂ) :
    g_T1_T1_T1_T1 basis ref iocc ivir T1 T2 (C.map re) = (CI.g_T1_T1_T1_T1 basis ref iocc ivir T1 T2 C).map (List.map re) := by
  unfold g_T1_T1_T1_T1 CI.g_T1_T1_T1_T1
  re_loops

theorem g_T1_T1_T1_T1_real (basis : List (Option Dstring)) (ref : Dstring) (iocc ivir : List ℕ) (T1 : ℕ → ℕ → ℝ) (T2 : ℕ → ℕ → ℕ → ℕ → ℝ) (C : List ℝ) :
    g_T1_T1_T1_T1 basis ref iocc ivir (c2 T1) (c4 T2) C = CI.g_T1_T1_T1_T1 basis ref iocc ivir T1 T2 C := by
  unfold g_T1_T1_T1_T1 CI.g_T1_T1_T1_T1
  simp only [c2, c4]
  real_loops

theorem u_T1a_re (basis : List Pair) (refa refb : Dstring) (noa nva nob nvb : ℕ) (T1a T1b : ℕ → ℕ → ℂ)
    (T2aa T2ab T2bb : ℕ → ℕ → ℕ → ℕ → ℂ) (C : List ℂ) :
    u_T1a basis refa refb noa nva nob nvb T1a T1b T2aa T2ab T2bb (C.map re) = (CI.u_T1a basis refa refb noa nva nob nvb T1a T1b T2aa T2ab T2bb C).map (List.map re) := by
  unfold u_T1a CI.u_T1a
  re_loops

theorem u_T1a_real (basis : List Pair) (refa refb : Dstring) (noa nva nob nvb : ℕ) (T1a T1b : ℕ → ℕ → ℝ)
    (T2aa T2ab T2bb : ℕ → ℕ → ℕ → ℕ → ℝ) (C : List ℝ) :
    u_T1a basis refa refb noa nva nob nvb (c2 T1a) (c2 T1b) (c4 T2aa) (c4 T2ab) (c4 T2bb) C = CI.u_T1a basis refa refb noa nva nob nvb T1a T1b T2aa T2ab T2bb C := by
  unfold u_T1a CI.u_T1a
  simp only [c2, c4]
  real_loops

theorem u_T1b_re (basis : List Pair) (refa refb : Dstring) (noa nva nob nvb : ℕ) (T1a T1b : ℕ → ℕ → ℂ)
    (T2aa T2ab T2bb : ℕ → ℕ → ℕ → ℕ → ℂ) (C : List ℂ) :
    u_T1b basis refa refb noa nva nob nvb T1a T1b T2aa T2ab T2bb (C.map re) = (CI.u_T1b basis refa refb noa nva nob nvb T1a T1b T2aa T2ab T2bb C).map (List.map re) := by
  unfold u_T1b CI.u_T1b
  re_loops

theorem u_T1b_real (basis : List Pair) (refa refb : Dstring) (noa nva nob nvb : ℕ) (T1a T1b : ℕ → ℕ → ℝ)
    (T2aa T2ab T2bb : ℕ → ℕ → ℕ → ℕ → ℝ) (C : List ℝ) :
    u_T1b basis refa refb noa nva nob nvb (c2 T1a) (c2 T1b) (c4 T2aa) (c4 T2ab) (c4 T2bb) C = CI.u_T1b basis refa refb noa nva nob nvb T1a T1b T2aa T2ab T2bb C := by
  unfold u_T1b CI.u_T1b
  simp only [c2, c4]
  real_loops

theorem u_T2aa_re (basis : List Pair) (refa refb : Dstring) (noa nva nob nvb : ℕ) (T1a T1b : ℕ → ℕ → ℂ)
    (T2aa T2ab T2bb : ℕ → ℕ → ℕ → ℕ → ℂ) (C : List ℂ) :
    u_T2aa basis refa refb noa nva nob nvb T1a T1b T2aa T2ab T2bb (C.map re) = (CI.u_T2aa basis refa refb noa nva nob nvb T1a T1b T2aa T2ab T2bb C).map (List.map re) := by
  unfold u_T2aa CI.u_T2aa
  re_loops

theorem u_T2aa_real (basis : List Pair) (refa refb : Dstring) (noa nva nob nvb : ℕ) (T1a T1b : ℕ → ℕ → ℝ)
    (T2aa T2ab T2bb : ℕ → ℕ → ℕ → ℕ → ℝ) (C : List ℝ) :
    u_T2aa basis refa refb noa nva nob nvb (c2 T1a) (c2 T1b) (c4 T2aa) (c4 T2ab) (c4 T2bb) C = CI.u_T2aa basis refa refb noa nva nob nvb T1a T1b T2aa T2ab T2bb C := by
  unfold u_T2aa CI.u_T2aa
  simp only [c2, c4]
  real_loops

theorem u_T2bb_re (basis : List Pair) (refa refb : Dstring) (noa nva nob nvb : ℕ) (T1a T1b : ℕ → ℕ → ℂ)
    (T2aa T2ab T2bb : ℕ → ℕ → ℕ → ℕ → ℂ) (C : List ℂ) :
    u_T2bb basis refa refb noa nva nob nvb T1a T1b T2aa T2ab T2bb (C.map re) = (CI.u_T2bb basis refa refb noa nva nob nvb T1a T1b T2aa T2ab T2bb C).map (List.map re) := by
  unfold u_T2bb CI.u_T2bb
  re_loops

theorem u_T2bb_real (basis : List Pair) (refa refb : Dstring) (noa nva nob nvb : ℕ) (T1a T1b : ℕ → ℕ → ℝ)
    (T2aa T2ab T2bb : ℕ → ℕ → ℕ → ℕ → ℝ) (C : List ℝ) :
    u_T2bb basis refa refb noa nva nob nvb (c2 T1a) (c2 T1b) (c4 T2aa) (c4 T2ab) (c4 T2bb) C = CI.u_T2bb basis refa refb noa nva nob nvb T1a T1b T2aa T2ab T2bb C := by
  unfold u_T2bb CI.u_T2bb
  simp only [c2, c4]
  real_loops

theorem u_T2ab_re (basis : List Pair) (refa refb : Dstring) (noa nva nob nvb : ℕ) (T1a T1b : ℕ → ℕ → ℂ)
    (T2aa T2ab T2bb : ℕ → ℕ → ℕ → ℕ → ℂ) (C : List ℂ) :
    u_T2ab basis refa refb noa nva nob nvb T1a T1b T2aa T2ab T2bb (C.map re) = (CI.u_T2ab basis refa refb noa nva nob nvb T1a T1b T2aa T2ab T2bb C).map (List.map re) := by
  unfold u_T2ab CI.u_T2ab
  re_loops

theorem u_T2ab_real (basis : List Pair) (refa refb : Dstring) (noa nva nob nvb : ℕ) (T1a T1b : ℕ → ℕ → ℝ)
    (T2aa T2ab T2bb : ℕ → ℕ → ℕ → ℕ → ℝ) (C : List ℝ) :
    u_T2ab basis refa refb noa nva nob nvb (c2 T1a) (c2 T1b) (c4 T2aa) (c4 T2ab) (c4 T2bb) C = CI.u_T2ab basis refa refb noa nva nob nvb T1a T1b T2aa T2ab T2bb C := by
  unfold u_T2ab CI.u_T2ab
  simp only [c2, c4]
  real_loops

theorem u_T1a_T1a_re (basis : List Pair) (refa refb : Dstring) (noa nva nob nvb : ℕ) (T1a T1b : ℕ → ℕ → ℂ)
    (T2aa T2ab T2bb : ℕ → ℕ → ℕ → ℕ → ℂ) (C : List ℂ) :
    u_T1a_T1a basis refa refb noa nva nob nvb T1a T1b T2aa T2ab T2bb (C.map re) = (CI.u_T1a_T1a basis refa refb noa nva nob nvb T1a T1b T2aa T2ab T2bb C).map (List.map re) := by
  unfold u_T1a_T1a CI.u_T1a_T1a
  re_loops

theorem u_T1a_T1a_real (basis : List Pair) (refa refb : Dstring) (noa nva nob nvb : ℕ) (T1a T1b : ℕ → ℕ → ℝ)
    (T2aa T2ab T2bb : ℕ → ℕ → ℕ → ℕ → ℝ) (C : List ℝ) :
    u_T1a_T1a basis refa refb noa nva nob nvb (c2 T1a) (c2 T1b) (c4 T2aa) (c4 T2ab) (c4 T2bb) C = CI.u_T1a_T1a basis refa refb noa nva nob nvb T1a T1b T2aa T2ab T2bb C := by
  unfold u_T1a_T1a CI.u_T1a_T1a
  simp only [c2, c4]
  real_loops

theorem u_T1b_T1b_re (basis : List Pair) (refa refb : Dstring) (noa nva nob nvb : ℕ) (T1a T1b : ℕ → ℕ → ℂ)
    (T2aa T2ab T2bb : ℕ → ℕ → ℕ → ℕ → ℂ) (C : List ℂ) :
    u_T1b_T1b basis refa refb noa nva nob nvb T1a T1b T2aa T2ab T2bb (C.map re) = (CI.u_T1b_T1b basis refa refb noa nva nob nvb T1a T1b T2aa T2ab T2bb C).map (List.map re) := by
  unfold u_T1b_T1b CI.u_T1b_T1b
  re_loops

theorem u_T1b_T1b_real (basis : List Pair) (refa refb : Dstring) (noa nva nob nvb : ℕ) (T1a T1b : ℕ → ℕ → ℝ)
    (T2aa T2ab T2bb : ℕ → ℕ → ℕ → ℕ → ℝ) (C : List ℝ) :
    u_T1b_T1b basis refa refb noa nva nob nvb (c2 T1a) (c2 T1b) (c4 T2aa) (c4 T2ab) (c4 T2bb) C = CI.u_T1b_T1b basis refa refb noa nva nob nvb T1a T1b T2aa T2ab T2bb C := by
  unfold u_T1b_T1b CI.u_T1b_T1b
  simp only [c2, c4]
  real_loops

theorem u_T1a_T1b_re (basis : List Pair) (refa refb : Dstring) (noa nva nob nvb : ℕ) (T1a T1b : ℕ → ℕ → ℂ)
    (T2aa T2ab T2bb : ℕ → ℕ → ℕ → ℕ → ℂ) (C : List ℂ) :
    u_T1a_T1b basis refa refb noa nva nob nvb T1a T1b T2aa T2ab T2bb (C.map re) = (CI.u_T1a_T1b basis refa refb noa nva nob nvb T1a T1b T2aa T2ab T2bb C).map (List.map re) := by
  unfold u_T1a_T1b CI.u_T1a_T1b
  re_loops

theorem u_T1a_T1b_real (basis : List Pair) (refa refb : Dstring) (noa nva nob nvb : ℕ) (T1a T1b : ℕ → ℕ → ℝ)
    (T2aa T2ab T2bb : ℕ → ℕ → ℕ → ℕ → ℝ) (C : List ℝ) :
    u_T1a_T1b basis refa refb noa nva nob nvb (c2 T1a) (c2 T1b) (c4 T2aa) (c4 T2ab) (c4 T2bb) C = CI.u_T1a_T1b basis refa refb noa nva nob nvb T1a T1b T2aa T2ab T2bb C := by
  unfold u_T1a_T1b CI.u_T1a_T1b
  simp only [c2, c4]
  real_loops

theorem u_T1a_T2aa_re (basis : List Pair) (refa refb : Dstring) (noa nva nob nvb : ℕ) (T1a T1b : ℕ → ℕ → ℂ)
    (T2aa T2ab T2bb : ℕ → ℕ → ℕ → ℕ → ℂ) (C : List ℂ) :
    u_T1a_T2aa basis refa refb noa nva nob nvb T1a T1b T2aa T2ab T2bb (C.map re) = (CI.u_T1a_T2aa basis refa refb noa nva nob nvb T1a T1b T2aa T2ab T2bb C).map (List.map re) := by
  unfold u_T1a_T2aa CI.u_T1a_T2aa
  re_loops

theorem u_T1a_T2aa_real (basis : List Pair) (refa refb : Dstring) (noa nva nob nvb : ℕ) (T1a T1b : ℕ → ℕ → ℝ)
    (T2aa T2ab T2bb : ℕ → ℕ → ℕ → ℕ → ℝ) (C : List ℝ) :
    u_T1a_T2aa basis refa refb noa nva nob nvb (c2 T1a) (c2 T1b) (c4 T2aa) (c4 T2ab) (c4 T2bb) C = CI.u_T1a_T2aa basis refa refb noa nva nob nvb T1a T1b T2aa T2ab T2bb C := by
  unfold u_T1a_T2aa CI.u_T1a_T2aa
  simp only [c2, c4]
  real_loops

theorem u_T1a_T2ab_re (basis : List Pair) (refa refb : Dstring) (noa nva nob nvb : ℕ) (T1a T1b : ℕ → ℕ → ℂ)
    (T2aa T2ab T2bb : ℕ → ℕ → ℕ → ℕ → ℂ) (C : List ℂ) :
    u_T1a_T2ab basis refa refb noa nva nob nvb T1a T1b T2aa T2ab T2bb (C.map re) = (CI.u_T1a_T2ab basis refa refb noa nva nob nvb T1a T1b T2aa T2ab T2bb C).map (List.map re) := by
  unfold u_T1a_T2ab CI.u_T1a_T2ab
  re_loops

theorem u_T1a_T2ab_real (basis : List Pair) (refa refb : Dstring) (noa nva nob nvb : ℕ) (T1a T1b : ℕ → ℕ → ℝ)
    (T2aa T2ab T2bb : ℕ → ℕ → ℕ → ℕ → ℝ) (C : List ℝ) :
    u_T1a_T2ab basis refa refb noa nva nob nvb (c2 T1a) (c2 T1b) (c4 T2aa) (c4 T2ab) (c4 T2bb) C = CI.u_T1a_T2ab basis refa refb noa nva nob nvb T1a T1b T2aa T2ab T2bb C := by
  unfold u_T1a_T2ab CI.u_T1a_T2ab
  simp only [c2, c4]
  real_loops

theorem u_T1b_T2aa_re (basis : List Pair) (refa refb : Dstring) (noa nva nob nvb : ℕ) (T1a T1b : ℕ → ℕ → ℂ)
    (T2aa T2ab T2bb : ℕ → ℕ → ℕ → ℕ → ℂ) (C : List ℂ) :
    u_T1b_T2aa basis refa refb noa nva nob nvb T1a T1b T2aa T2ab T2bb (C.map re) = (CI.u_T1b_T2aa basis refa refb noa nva nob nvb T1a T1b T2aa T2ab T2bb C).map (List.map re) := by
  unfold u_T1b_T2aa CI.u_T1b_T2aa
  re_loops

theorem u_T1b_T2aa_real (basis : List Pair) (refa refb : Dstring) (noa nva nob nvb : ℕ) (T1a T1b : ℕ → ℕ → ℝ)
    (T2aa T2ab T2bb : ℕ → ℕ → ℕ → ℕ → ℝ) (C : List ℝ) :
    u_T1b_T2aa basis refa refb noa nva nob nvb (c2 T1a) (c2 T1b) (c4 T2aa) (c4 T2ab) (c4 T2bb) C = CI.u_T1b_T2aa basis refa refb noa nva nob nvb T1a T1b T2aa T2ab T2bb C := by
  unfold u_T1b_T2aa CI.u_T1b_T2aa
  simp only [c2, c4]
  real_loops

theorem u_T1a_T2bb_re (basis : List Pair) (refa refb : Dstring) (noa nva nob nvb : ℕ) (T1a T1b : ℕ → ℕ → ℂ)
    (T2aa T2ab T2bb : ℕ → ℕ → ℕ → ℕ → ℂ) (C : List ℂ) :
    u_T1a_T2bb basis refa refb noa nva nob nvb T1a T1b T2aa T2ab T2bb (C.map re) = (CI.u_T1a_T2bb basis refa refb noa nva nob nvb T1a T1b T2aa T2ab T2bb C).map (List.map re) := by
  unfold u_T1a_T2bb CI.u_T1a_T2bb
  re_loops

theorem u_T1a_T2bb_real (basis : List Pair) (refa refb : Dstring) (noa nva nob nvb : ℕ) (T1a T1b : ℕ → ℕ → ℝ)
    (T2aa T2ab T2bb : ℕ → ℕ → ℕ → ℕ → ℝ) (C : List ℝ) :
    u_T1a_T2bb basis refa refb noa nva nob nvb (c2 T1a) (c2 T1b) (c4 T2aa) (c4 T2ab) (c4 T2bb) C = CI.u_T1a_T2bb basis refa refb noa nva nob nvb T1a T1b T2aa T2ab T2bb C := by
  unfold u_T1a_T2bb CI.u_T1a_T2bb
  simp only [c2, c4]
  real_loops

theorem u_T1b_T2ab_re (basis : List Pair) (refa refb : Dstring) (noa nva nob nvb : ℕ) (T1a T1b : ℕ → ℕ → ℂ)
    (T2aa T2ab T2bb : ℕ → ℕ → ℕ → ℕ → ℂ) (C : List ℂ) :
    u_T1b_T2ab basis refa refb noa nva nob nvb T1a T1b T2aa T2ab T2bb (C.map re) = (CI.u_T1b_T2ab basis refa refb noa nva nob nvb T1a T1b T2aa T2ab T2bb C).map (List.map re) := by
  unfold u_T1b_T2ab CI.u_T1b_T2ab
  re_loops

theorem u_T1b_T2ab_real (basis : List Pair) (refa refb : Dstring) (noa nva nob nvb : ℕ) (T1a T1b : ℕ → ℕ → ℝ)
    (T2aa T2ab T2bb : ℕ → ℕ → ℕ → ℕ → ℝ) (C : List ℝ) :
    u_T1b_T2ab basis refa refb noa nva nob nvb (c2 T1a) (c2 T1b) (c4 T2aa) (c4 T2ab) (c4 T2bb) C = CI.u_T1b_T2ab basis refa refb noa nva nob nvb T1a T1b T2aa T2ab T2bb C := by
  unfold u_T1b_T2ab CI.u_T1b_T2ab
  simp only [c2, c4]
  real_loops

theorem u_T1b_T2bb_re (basis : List Pair) (refa refb : Dstring) (noa nva nob nvb : ℕ) (T1a T1b : ℕ → ℕ → ℂ)
    (T2aa T2ab T2bb : ℕ → ℕ → ℕ → ℕ → ℂ) (C : List ℂ) :
    u_T1b_T2bb basis refa refb noa nva nob nvb T1a T1b T2aa T2ab T2bb (C.map re) = (CI.u_T1b_T2bb basis refa refb noa nva nob nvb T1a T1b T2aa T2ab T2bb C).map (List.map re) := by
  unfold u_T1b_T2bb CI.u_T1b_T2bb
  re_loops

theorem u_T1b_T2bb_real (basis : List Pair) (refa refb : Dstring) (noa nva nob nvb : ℕ) (T1a T1b : ℕ → ℕ → ℝ)
    (T2aa T2ab T2bb : ℕ → ℕ → ℕ → ℕ → ℝ) (C : List ℝ) :
    u_T1b_T2bb basis refa refb noa nva nob nvb (c2 T1a) (c2 T1b) (c4 T2aa) (c4 T2ab) (c4 T2bb) C = CI.u_T1b_T2bb basis refa refb noa nva nob nvb T1a T1b T2aa T2ab T2bb C := by
  unfold u_T1b_T2bb CI.u_T1b_T2bb
  simp only [c2, c4]
  real_loops

theorem u_T1a_T1a_T1a_re (basis : List Pair) (refa refb : Dstring) (noa nva nob nvb : ℕ) (T1a T1b : ℕ → ℕ → ℂ)
    (T2aa T2ab T2bb : ℕ → ℕ → ℕ → ℕ → ℂ) (C : List ℂ) :
    u_T1a_T1a_T1a basis refa refb noa nva nob nvb T1a T1b T2aa T2ab T2bb (C.map re) = (CI.u_T1a_T1a_T1a basis refa refb noa nva nob nvb T1a T1b T2aa T2ab T2bb C).map (List.map re) := by
  unfold u_T1a_T1a_T1a CI.u_T1a_T1a_T1a
  re_loops

theorem u_T1a_T1a_T1a_real (basis : List Pair) (refa refb : Dstring) (noa nva nob nvb : ℕ) (T1a T1b : ℕ → ℕ → ℝ)
    (T2aa T2ab T2bb : ℕ → ℕ → ℕ → ℕ → ℝ) (C : List ℝ) :
    u_T1a_T1a_T1a basis refa refb noa nva nob nvb (c2 T1a) (c2 T1b) (c4 T2aa) (c4 T2ab) (c4 T2bb) C = CI.u_T1a_T1a_T1a basis refa refb noa nva nob nvb T1a T1b T2aa T2ab T2bb C := by
  unfold u_T1a_T1a_T1a CI.u_T1a_T1a_T1a
  simp only [c2, c4]
  real_loops

theorem u_T1a_T1a_T1b_re (basis : List Pair) (refa refb : Dstring) (noa nva nob nvb : ℕ) (T1a T1b : ℕ → ℕ → ℂ)
    (T2aa T2ab T2bb : ℕ → ℕ → ℕ → ℕ → ℂ) (C : List ℂ) :
    u_T1a_T1a_T1b basis refa refb noa nva nob nvb T1a T1b T2aa T2ab T2bb (C.map re) = (CI.u_T1a_T1a_T1b basis refa refb noa nva nob nvb T1a T1b T2aa T2ab T2bb C).map (List.map re) := by
  unfold u_T1a_T1a_T1b CI.u_T1a_T1a_T1b
  re_loops

theorem u_T1a_T1a_T1b_real (basis : List Pair) (refa refb : Dstring) (noa nva nob nvb : ℕ) (T1a T1b : ℕ → ℕ → ℝ)
    (T2aa T2ab T2bb : ℕ → ℕ → ℕ → ℕ → ℝ) (C : List ℝ) :
    u_T1a_T1a_T1b basis refa refb noa nva nob nvb (c2 T1a) (c2 T1b) (c4 T2aa) (c4 T2ab) (c4 T2bb) C = CI.u_T1a_T1a_T1b basis refa refb noa nva nob nvb T1a T1b T2aa T2ab T2bb C := by
  unfold u_T1a_T1a_T1b CI.u_T1a_T1a_T1b
  simp only [c2, c4]
  real_loops

theorem u_T1a_T1b_T1b_re (basis : List Pair) (refa refb : Dstring) (noa nva nob nvb : ℕ) (T1a T1b : ℕ → ℕ → ℂ)
    (T2aa T2ab T2bb : ℕ → ℕ → ℕ → ℕ → ℂ) (C : List ℂ) :
    u_T1a_T1b_T1b basis refa refb noa nva nob nvb T1a T1b T2aa T2ab T2bb (C.map re) = (CI.u_T1a_T1b_T1b basis refa refb noa nva nob nvb T1a T1b T2aa T2ab T2bb C).map (List.map re) := by
  unfold u_T1a_T1b_T1b CI.u_T1a_T1b_T1b
  re_loops

theorem u_T1a_T1b_T1b_real (basis : List Pair) (refa refb : Dstring) (noa nva nob nvb : ℕ) (T1a T1b : ℕ → ℕ → ℝ)
    (T2aa T2ab T2bb : ℕ → ℕ → ℕ → ℕ → ℝ) (C : List ℝ) :
    u_T1a_T1b_T1b basis refa refb noa nva nob nvb (c2 T1a) (c2 T1b) (c4 T2aa) (c4 T2ab) (c4 T2bb) C = CI.u_T1a_T1b_T1b basis refa refb noa nva nob nvb T1a T1b T2aa T2ab T2bb C := by
  unfold u_T1a_T1b_T1b CI.u_T1a_T1b_T1b
  simp only [c2, c4]
  real_loops

theorem u_T1b_T1b_T1b_re (basis : List Pair) (refa refb : Dstring) (noa nva nob nvb : ℕ) (T1a T1b : ℕ → ℕ → ℂ)
    (T2aa T2ab T2bb : ℕ → ℕ → ℕ → ℕ → ℂ) (C : List ℂ) :
    u_T1b_T1b_T1b basis refa refb noa nva nob nvb T1a T1b T2aa T2ab T2bb (C.map re) = (CI.u_T1b_T1b_T1b basis refa refb noa nva nob nvb T1a T1b T2aa T2ab T2bb C).map (List.map re) := by
  unfold u_T1b_T1b_T1b CI.u_T1b_T1b_T1b
  re_loops

theorem u_T1b_T1b_T1b_real (basis : List Pair) (refa refb : Dstring) (noa nva nob nvb : ℕ) (T1a T1b : ℕ → ℕ → ℝ)
    (T2aa T2ab T2bb : ℕ → ℕ → ℕ → ℕ → ℝ) (C : List ℝ) :
    u_T1b_T1b_T1b basis refa refb noa nva nob nvb (c2 T1a) (c2 T1b) (c4 T2aa) (c4 T2ab) (c4 T2bb) C = CI.u_T1b_T1b_T1b basis refa refb noa nva nob nvb T1a T1b T2aa T2ab T2bb C := by
  unfold u_T1b_T1b_T1b CI.u_T1b_T1b_T1b
  simp only [c2, c4]
  real_loops

theorem u_T2aa_T2aa_re (basis : List Pair) (refa refb : Dstring) (noa nva nob nvb : ℕ) (T1a T1b : ℕ → ℕ → ℂ)
    (T2aa T2ab T2bb : ℕ → ℕ → ℕ → ℕ → ℂ) (C : List ℂ) :
    u_T2aa_T2aa basis refa refb noa nva nob nvb T1a T1b T2aa T2ab T2bb (C.map re) = (CI.u_T2aa_T2aa basis refa refb noa nva nob nvb T1a T1b T2aa T2ab T2bb C).map (List.map re) := by
  unfold u_T2aa_T2aa CI.u_T2aa_T2aa
  re_loops

theorem u_T2aa_T2aa_real (basis : List Pair) (refa refb : Dstring) (noa nva nob nvb : ℕ) (T1a T1b : ℕ → ℕ → ℝ)
    (T2aa T2ab T2bb : ℕ → ℕ → ℕ → ℕ → ℝ) (C : List ℝ) :
    u_T2aa_T2aa basis refa refb noa nva nob nvb (c2 T1a) (c2 T1b) (c4 T2aa) (c4 T2ab) (c4 T2bb) C = CI.u_T2aa_T2aa basis refa refb noa nva nob nvb T1a T1b T2aa T2ab T2bb C := by
  unfold u_T2aa_T2aa CI.u_T2aa_T2aa
  simp only [c2, c4]
  real_loops

theorem u_T2aa_T2ab_re (basis : List Pair) (refa refb : Dstring) (noa nva nob nvb : ℕ) (T1a T1b : ℕ → ℕ → ℂ)
    (T2aa T2ab T2bb : ℕ → ℕ → ℕ → ℕ → ℂ) (C : List ℂ) :
    u_T2aa_T2ab basis refa refb noa nva nob nvb T1a T1b T2aa T2ab T2bb (C.map re) = (CI.u_T2aa_T2ab basis refa refb noa nva nob nvb T1a T1b T2aa T2ab T2bb C).map (List.map re) := by
  unfold u_T2aa_T2ab CI.u_T2aa_T2ab
  re_loops

theorem u_T2aa_T2ab_real (basis : List Pair) (refa refb : Dstring) (noa nva nob nvb : ℕ) (T1a T1b : ℕ → ℕ → ℝ)
    (T2aa T2ab T2bb : ℕ → ℕ → ℕ → ℕ → ℝ) (C : List ℝ) :
    u_T2aa_T2ab basis refa refb noa nva nob nvb (c2 T1a) (c2 T1b) (c4 T2aa) (c4 T2ab) (c4 T2bb) C = CI.u_T2aa_T2ab basis refa refb noa nva nob nvb T1a T1b T2aa T2ab T2bb C := by
  unfold u_T2aa_T2ab CI.u_T2aa_T2ab
  simp only [c2, c4]
  real_loops

theorem u_T2aa_T2bb_re (basis : List Pair) (refa refb : Dstring) (noa nva nob nvb : ℕ) (T1a T1b : ℕ → ℕ → ℂ)
    (T2aa T2ab T2bb : ℕ → ℕ → ℕ → ℕ → ℂ) (C : List ℂ) :
    u_T2aa_T2bb basis refa refb noa nva nob nvb T1a T1b T2aa T2ab T2bb (C.map re) = (CI.u_T2aa_T2bb basis refa refb noa nva nob nvb T1a T1b T2aa T2ab T2bb C).map (List.map re) := by
  unfold u_T2aa_T2bb CI.u_T2aa_T2bb
  re_loops

theorem u_T2aa_T2bb_real (basis : List Pair) (refa refb : Dstring) (noa nva nob nvb : ℕ) (T1a T1b : ℕ → ℕ → ℝ)
    (T2aa T2ab T2bb : ℕ → ℕ → ℕ → ℕ → ℝ) (C : List ℝ) :
    u_T2aa_T2bb basis refa refb noa nva nob nvb (c2 T1a) (c2 T1b) (c4 T2aa) (c4 T2ab) (c4 T2bb) C = CI.u_T2aa_T2bb basis refa refb noa nva nob nvb T1a T1b T2aa T2ab T2bb C := by
  unfold u_T2aa_T2bb CI.u_T2aa_T2bb
  simp only [c2, c4]
  real_loops

theorem u_T2ab_T2ab_re (basis : List Pair) (refa refb : Dstring) (noa nva nob nvb : ℕ) (T1a T1b : ℕ → ℕ → ℂ)
    (T2aa T2ab T2bb : ℕ → ℕ → ℕ → ℕ → ℂ) (C : List ℂ) :
    u_T2ab_T2ab basis refa refb noa nva nob nvb T1a T1b T2aa T2ab T2bb (C.map re) = (CI.u_T2ab_T2ab basis refa refb noa nva nob nvb T1a T1b T2aa T2ab T2bb C).map (List.map re) := by
  unfold u_T2ab_T2ab CI.u_T2ab_T2ab
  re_loops

theorem u_T2ab_T2ab_real (basis : List Pair) (refa refb : Dstring) (noa nva nob nvb : ℕ) (T1a T1b : ℕ → ℕ → ℝ)
    (T2aa T2ab T2bb : ℕ → ℕ → ℕ → ℕ → ℝ) (C : List ℝ) :
    u_T2ab_T2ab basis refa refb noa nva nob nvb (c2 T1a) (c2 T1b) (c4 T2aa) (c4 T2ab) (c4 T2bb) C = CI.u_T2ab_T2ab basis refa refb noa nva nob nvb T1a T1b T2aa T2ab T2bb C := by
  unfold u_T2ab_T2ab CI.u_T2ab_T2ab
  simp only [c2, c4]
  real_loops

theorem u_T2ab_T2bb_re (basis : List Pair) (refa refb : Dstring) (noa nva nob nvb : ℕ) (T1a T1b : ℕ → ℕ → ℂ)
    (T2aa T2ab T2bb : ℕ → ℕ → ℕ → ℕ → ℂ) (C : List ℂ) :
    u_T2ab_T2bb basis refa refb noa nva nob nvb T1a T1b T2aa T2ab T2bb (C.map re) = (CI.u_T2ab_T2bb basis refa refb noa nva nob nvb T1a T1b T2aa T2ab T2bb C).map (List.map re) := by
  unfold u_T2ab_T2bb CI.u_T2ab_T2bb
  re_loops

theorem u_T2ab_T2bb_real (basis : List Pair) (refa refb : Dstring) (noa nva nob nvb : ℕ) (T1a T1b : ℕ → ℕ → ℝ)
    (T2aa T2ab T2bb : ℕ → ℕ → ℕ → ℕ → ℝ) (C : List ℝ) :
    u_T2ab_T2bb basis refa refb noa nva nob nvb (c2 T1a) (c2 T1b) (c4 T2aa) (c4 T2ab) (c4 T2bb) C = CI.u_T2ab_T2bb basis refa refb noa nva nob nvb T1a T1b T2aa T2ab T2bb C := by
  unfold u_T2ab_T2bb CI.u_T2ab_T2bb
  simp only [c2, c4]
  real_loops

theorem u_T2bb_T2bb_re (basis : List Pair) (refa refb : Dstring) (noa nva nob nvb : ℕ) (T1a T1b : ℕ → ℕ → ℂ)
    (T2aa T2ab T2bb : ℕ → ℕ → ℕ → ℕ → ℂ) (C : List ℂ) :
    u_T2bb_T2bb basis refa refb noa nva nob nvb T1a T1b T2aa T2ab T2bb (C.map re) = (CI.u_T2bb_T2bb basis refa refb noa nva nob nvb T1a T1b T2aa T2ab T2bb C).map (List.map re) := by
  unfold u_T2bb_T2bb CI.u_T2bb_T2bb
  re_loops

theorem u_T2bb_T2bb_real (basis : List Pair) (refa refb : Dstring) (noa nva nob nvb : ℕ) (T1a T1b : ℕ → ℕ → ℝ)
    (T2aa T2ab T2bb : ℕ → ℕ → ℕ → ℕ → ℝ) (C : List ℝ) :
    u_T2bb_T2bb basis refa refb noa nva nob nvb (c2 T1a) (c2 T1b) (c4 T2aa) (c4 T2ab) (c4 T2bb) C = CI.u_T2bb_T2bb basis refa refb noa nva nob nvb T1a T1b T2aa T2ab T2bb C := by
  unfold u_T2bb_T2bb CI.u_T2bb_T2bb
  simp only [c2, c4]
  real_loops

theorem u_T1a_T1a_T2aa_re (basis : List Pair) (refa refb : Dstring) (noa nva nob nvb : ℕ) (T1a T1b : ℕ → ℕ → ℂ)
    (T2aa T2ab T2bb : ℕ → ℕ → ℕ → ℕ → ℂ) (C : List ℂ) :
    u_T1a_T1a_T2aa basis refa refb noa nva nob nvb T1a T1b T2aa T2ab T2bb (C.map re) = (CI.u_T1a_T1a_T2aa basis refa refb noa nva nob nvb T1a T1b T2aa T2ab T2bb C).map (List.map re) := by
  unfold u_T1a_T1a_T2aa CI.u_T1a_T1a_T2aa
  re_loops

theorem u_T1a_T1a_T2aa_real (basis : List Pair) (refa refb : Dstring) (noa nva nob nvb : ℕ) (T1a T1b : ℕ → ℕ → ℝ)
    (T2aa T2ab T2bb : ℕ → ℕ → ℕ → ℕ → ℝ) (C : List ℝ) :
    u_T1a_T1a_T2aa basis refa refb noa nva nob nvb (c2 T1a) (c2 T1b) (c4 T2aa) (c4 T2ab) (c4 T2bb) C = CI.u_T1a_T1a_T2aa basis refa refb noa nva nob nvb T1a T1b T2aa T2ab T2bb C := by
  unfold u_T1a_T1a_T2aa CI.u_T1a_T1a_T2aa
  simp only [c2, c4]
  real_loops

theorem u_T1a_T1a_T2ab_re (basis : List Pair) (refa refb : Dstring) (noa nva nob nvb : ℕ) (T1a T1b : ℕ → ℕ → ℂ)
    (T2aa T2ab T2bb : ℕ → ℕ → ℕ → ℕ → ℂ) (C : List ℂ) :
    u_T1a_T1a_T2ab basis refa refb noa nva nob nvb T1a T1b T2aa T2ab T2bb (C.map re) = (CI.u_T1a_T1a_T2ab basis refa refb noa nva nob nvb T1a T1b T2aa T2ab T2bb C).map (List.map re) := by
  unfold u_T1a_T1a_T2ab CI.u_T1a_T1a_T2ab
  re_loops

theorem u_T1a_T1a_T2ab_real (basis : List Pair) (refa refb : Dstring) (noa nva nob nvb : ℕ) (T1a T1b : ℕ → ℕ → ℝ)
    (T2aa T2ab T2bb : ℕ → ℕ → ℕ → ℕ → ℝ) (C : List ℝ) :
    u_T1a_T1a_T2ab basis refa refb noa nva nob nvb (c2 T1a) (c2 T1b) (c4 T2aa) (c4 T2ab) (c4 T2bb) C = CI.u_T1a_T1a_T2ab basis refa refb noa nva nob nvb T1a T1b T2aa T2ab T2bb C := by
  unfold u_T1a_T1a_T2ab CI.u_T1a_T1a_T2ab
  simp only [c2, c4]
  real_loops

theorem u_T1a_T1b_T2aa_re (basis : List Pair) (refa refb : Dstring) (noa nva nob nvb : ℕ) (T1a T1b : ℕ → ℕ → ℂ)
    (T2aa T2ab T2bb : ℕ → ℕ → ℕ → ℕ → ℂ) (C : List ℂ) :
    u_T1a_T1b_T2aa basis refa refb noa nva nob nvb T1a T1b T2aa T2ab T2bb (C.map re) = (CI.u_T1a_T1b_T2aa basis refa refb noa nva nob nvb T1a T1b T2aa T2ab T2bb C).map (List.map re) := by
  unfold u_T1a_T1b_T2aa CI.u_T1a_T1b_T2aa
  re_loops

theorem u_T1a_T1b_T2aa_real (basis : List Pair) (refa refb : Dstring) (noa nva nob nvb : ℕ) (T1a T1b : ℕ → ℕ → ℝ)
    (T2aa T2ab T2bb : ℕ → ℕ → ℕ → ℕ → ℝ) (C : List ℝ) :
    u_T1a_T1b_T2aa basis refa refb noa nva nob nvb (c2 T1a) (c2 T1b) (c4 T2aa) (c4 T2ab) (c4 T2bb) C = CI.u_T1a_T1b_T2aa basis refa refb noa nva nob nvb T1a T1b T2aa T2ab T2bb C := by
  unfold u_T1a_T1b_T2aa CI.u_T1a_T1b_T2aa
  simp only [c2, c4]
  real_loops

theorem u_T1a_T1a_T2bb_re (basis : List Pair) (refa refb : Dstring) (noa nva nob nvb : ℕ) (T1a T1b : ℕ → ℕ → ℂ)
    (T2aa T2ab T2bb : ℕ → ℕ → ℕ → ℕ → ℂ) (C : List ℂ) :
    u_T1a_T1a_T2bb basis refa refb noa nva nob nvb T1a T1b T2aa T2ab T2bb (C.map re) = (CI.u_T1a_T1a_T2bb basis refa refb noa nva nob nvb T1a T1b T2aa T2ab T2bb C).map (List.map re) := by
  unfold u_T1a_T1a_T2bb CI.u_T1a_T1a_T2bb
  re_loops

theorem u_T1a_T1a_T2bb_real (basis : List Pair) (refa refb : Dstring) (noa nva nob nvb : ℕ) (T1a T1b : ℕ → ℕ → ℝ)
    (T2aa T2ab T2bb : ℕ → ℕ → ℕ → ℕ → ℝ) (C : List ℝ) :
    u_T1a_T1a_T2bb basis refa refb noa nva nob nvb (c2 T1a) (c2 T1b) (c4 T2aa) (c4 T2ab) (c4 T2bb) C = CI.u_T1a_T1a_T2bb basis refa refb noa nva nob nvb T1a T1b T2aa T2ab T2bb C := by
  unfold u_T1a_T1a_T2bb CI.u_T1a_T1a_T2bb
  simp only [c2, c4]
  real_loops

theorem u_T1a_T1b_T2ab_re (basis : List Pair) (refa refb : Dstring) (noa nva nob nvb : ℕ) (T1a T1b : ℕ → ℕ → ℂ)
    (T2aa T2ab T2bb : ℕ → ℕ → ℕ → ℕ → ℂ) (C : List ℂ) :
    u_T1a_T1b_T2ab basis refa refb noa nva nob nvb T1a T1b T2aa T2ab T2bb (C.map re) = (CI.u_T1a_T1b_T2ab basis refa refb noa nva nob nvb T1a T1b T2aa T2ab T2bb C).map (List.map re) := by
  unfold u_T1a_T1b_T2ab CI.u_T1a_T1b_T2ab
  re_loops

theorem u_T1a_T1b_T2ab_real (basis : List Pair) (refa refb : Dstring) (noa nva nob nvb : ℕ) (T1a T1b : ℕ → ℕ → ℝ)
    (T2aa T2ab T2bb : ℕ → ℕ → ℕ → ℕ → ℝ) (C : List ℝ) :
    u_T1a_T1b_T2ab basis refa refb noa nva nob nvb (c2 T1a) (c2 T1b) (c4 T2aa) (c4 T2ab) (c4 T2bb) C = CI.u_T1a_T1b_T2ab basis refa refb noa nva nob nvb T1a T1b T2aa T2ab T2bb C := by
  unfold u_T1a_T1b_T2ab CI.u_T1a_T1b_T2ab
  simp only [c2, c4]
  real_loops

theorem u_T1a_T1b_T2bb_re (basis : List Pair) (refa refb : Dstring) (noa nva nob nvb : ℕ) (T1a T1b : ℕ → ℕ → ℂ)
    (T2aa T2ab T2bb : ℕ → ℕ → ℕ → ℕ → ℂ) (C : List ℂ) :
    u_T1a_T1b_T2bb basis refa refb noa nva nob nvb T1a T1b T2aa T2ab T2bb (C.map re) = (CI.u_T1a_T1b_T2bb basis refa refb noa nva nob nvb T1a T1b T2aa T2ab T2bb C).map (List.map re) := by
  unfold u_T1a_T1b_T2bb CI.u_T1a_T1b_T2bb
  re_loops

theorem u_T1a_T1b_T2bb_real (basis : List Pair) (refa refb : Dstring) (noa nva nob nvb : ℕ) (T1a T1b : ℕ → ℕ → ℝ)
    (T2aa T2ab T2bb : ℕ → ℕ → ℕ → ℕ → ℝ) (C : List ℝ) :
    u_T1a_T1b_T2bb basis refa refb noa nva nob nvb (c2 T1a) (c2 T1b) (c4 T2aa) (c4 T2ab) (c4 T2bb) C = CI.u_T1a_T1b_T2bb basis refa refb noa nva nob nvb T1a T1b T2aa T2ab T2bb C := by
  unfold u_T1a_T1b_T2bb CI.u_T1a_T1b_T2bb
  simp only [c2, c4]
  real_loops

theorem u_T1b_T1b_T2ab_re (basis : List Pair) (refa refb : Dstring) (noa nva nob nvb : ℕ) (T1a T1b : ℕ → ℕ → ℂ)
    (T2aa T2ab T2bb : ℕ → ℕ → ℕ → ℕ → ℂ) (C : List ℂ) :
    u_T1b_T1b_T2ab basis refa refb noa nva nob nvb T1a T1b T2aa T2ab T2bb (C.map re) = (CI.u_T1b_T1b_T2ab basis refa refb noa nva nob nvb T1a T1b T2aa T2ab T2bb C).map (List.map re) := by
  unfold u_T1b_T1b_T2ab CI.u_T1b_T1b_T2ab
  re_loops

theorem u_T1b_T1b_T2ab_real (basis : List Pair) (refa refb : Dstring) (noa nva nob nvb : ℕ) (T1a T1b : ℕ → ℕ → ℝ)
    (T2aa T2ab T2bb : ℕ → ℕ → ℕ → ℕ → ℝ) (C : List ℝ) :
    u_T1b_T1b_T2ab basis refa refb noa nva nob nvb (c2 T1a) (c2 T1b) (c4 T2aa) (c4 T2ab) (c4 T2bb) C = CI.u_T1b_T1b_T2ab basis refa refb noa nva nob nvb T1a T1b T2aa T2ab T2bb C := by
  unfold u_T1b_T1b_T2ab CI.u_T1b_T1b_T2ab
  simp only [c2, c4]
  real_loops

theorem u_T1b_T1b_T2bb_re (basis : List Pair) (refa refb : Dstring) (noa nva nob nvb : ℕ) (T1a T1b : ℕ → ℕ → ℂ)
    (T2aa T2ab T2bb : ℕ → ℕ → ℕ → ℕ → ℂ) (C : List ℂ) :
    u_T1b_T1b_T2bb basis refa refb noa nva nob nvb T1a T1b T2aa T2ab T2bb (C.map re) = (CI.u_T1b_T1b_T2bb basis refa refb noa nva nob nvb T1a T1b T2aa T2ab T2bb C).map (List.map re) := by
  unfold u_T1b_T1b_T2bb CI.u_T1b_T1b_T2bb
  re_loops

theorem u_T1b_T1b_T2bb_real (basis : List Pair) (refa refb : Dstring) (noa nva nob nvb : ℕ) (T1a T1b : ℕ → ℕ → ℝ)
    (T2aa T2ab T2bb : ℕ → ℕ → ℕ → ℕ → ℝ) (C : List ℝ) :
    u_T1b_T1b_T2bb basis refa refb noa nva nob nvb (c2 T1a) (c2 T1b) (c4 T2aa) (c4 T2ab) (c4 T2bb) C = CI.u_T1b_T1b_T2bb basis refa refb noa nva nob nvb T1a T1b T2aa T2ab T2bb C := by
  unfold u_T1b_T1b_T2bb CI.u_T1b_T1b_T2bb
  simp only [c2, c4]
  real_loops

theorem u_T1a_T1a_T1a_T1a_re (basis : List Pair) (refa refb : Dstring) (noa nva nob nvb : ℕ) (T1a T1b : ℕ → ℕ → ℂ)
    (T2aa T2ab T2bb : ℕ → ℕ → ℕ → ℕ → ℂ) (C : List ℂ) :
    u_T1a_T1a_T1a_T1a basis refa refb noa nva nob nvb T1a T1b T2aa T2ab T2bb (C.map re) = (CI.u_T1a_T1a_T1a_T1a basis refa refb noa nva nob nvb T1a T1b T2aa T2ab T2bb C).map (List.map re) := by
  unfold u_T1a_T1a_T1a_T1a CI.u_T1a_T1a_T1a_T1a
  re_loops

theorem u_T1a_T1a_T1a_T1a_real (basis : List Pair) (refa refb : Dstring) (noa nva nob nvb : ℕ) (T1a T1b : ℕ → ℕ → ℝ)
    (T2aa T2ab T2bb : ℕ → ℕ → ℕ → ℕ → ℝ) (C : List ℝ) :
    u_T1a_T1a_T1a_T1a basis refa refb noa nva nob nvb (c2 T1a) (c2 T1b) (c4 T2aa) (c4 T2ab) (c4 T2bb) C = CI.u_T1a_T1a_T1a_T1a basis refa refb noa nva nob nvb T1a T1b T2aa T2ab T2bb C := by
  unfold u_T1a_T1a_T1a_T1a CI.u_T1a_T1a_T1a_T1a
  simp only [c2, c4]
  real_loops

theorem u_T1a_T1a_T1a_T1b_re (basis : List Pair) (refa refb : Dstring) (noa nva nob nvb : ℕ) (T1a T1b : ℕ → ℕ → ℂ)
    (T2aa T2ab T2bb : ℕ → ℕ → ℕ → ℕ → ℂ) (C : List ℂ) :
    u_T1a_T1a_T1a_T1b basis refa refb noa nva nob nvb T1a T1b T2aa T2ab T2bb (C.map re) = (CI.u_T1a_T1a_T1a_T1b basis refa refb noa nva nob nvb T1a T1b T2aa T2ab T2bb C).map (List.map re) := by
  unfold u_T1a_T1a_T1a_T1b CI.u_T1a_T1a_T1a_T1b
  re_loops

theorem u_T1a_T1a_T1a_T1b_real (basis : List Pair) (refa refb : Dstring) (noa nva nob nvb : ℕ) (T1a T1b : ℕ → ℕ → ℝ)
    (T2aa T2ab T2bb : ℕ → ℕ → ℕ → ℕ → ℝ) (C : List ℝ) :
    u_T1a_T1a_T1a_T1b basis refa refb noa nva nob nvb (c2 T1a) (c2 T1b) (c4 T2aa) (c4 T2ab) (c4 T2bb) C = CI.u_T1a_T1a_T1a_T1b basis refa refb noa nva nob nvb T1a T1b T2aa T2ab T2bb C := by
  unfold u_T1a_T1a_T1a_T1b CI.u_T1a_T1a_T1a_T1b
  simp only [c2, c4]
  real_loops

theorem u_T1a_T1a_T1b_T1b_re (basis : List Pair) (refa refb : Dstring) (noa nva nob nvb : ℕ) (T1a T1b : ℕ → ℕ → ℂ)
    (T2aa T2ab T2bb : ℕ → ℕ → ℕ → ℕ → ℂ) (C : List ℂ) :
    u_T1a_T1a_T1b_T1b basis refa refb noa nva nob nvb T1a T1b T2aa T2ab T2bb (C.map re) = (CI.u_T1a_T1a_T1b_T1b basis refa refb noa nva nob nvb T1a T1b T2aa T2ab T2bb C).map (List.map re) := by
  unfold u_T1a_T1a_T1b_T1b CI.u_T1a_T1a_T1b_T1b
  re_loops

theorem u_T1a_T1a_T1b_T1b_real (basis : List Pair) (refa refb : Dstring) (noa nva nob nvb : ℕ) (T1a T1b : ℕ → ℕ → ℝ)
    (T2aa T2ab T2bb : ℕ → ℕ → ℕ → ℕ → ℝ) (C : List ℝ) :
    u_T1a_T1a_T1b_T1b basis refa refb noa nva nob nvb (c2 T1a) (c2 T1b) (c4 T2aa) (c4 T2ab) (c4 T2bb) C = CI.u_T1a_T1a_T1b_T1b basis refa refb noa nva nob nvb T1a T1b T2aa T2ab T2bb C := by
  unfold u_T1a_T1a_T1b_T1b CI.u_T1a_T1a_T1b_T1b
  simp only [c2, c4]
  real_loops

theorem u_T1a_T1b_T1b_T1b_re (basis : List Pair) (refa refb : Dstring) (noa nva nob nvb : ℕ) (T1a T1b : ℕ → ℕ → ℂ)
    (T2aa T2ab T2bb : ℕ → ℕ → ℕ → ℕ → ℂ) (C : List ℂ) :
    u_T1a_T1b_T1b_T1b basis refa refb noa nva nob nvb T1a T1b T2aa T2ab T2bb (C.map re) = (CI.u_T1a_T1b_T1b_T1b basis refa refb noa nva nob nvb T1a T1b T2aa T2ab T2bb C).map (List.map re) := by
  unfold u_T1a_T1b_T1b_T1b CI.u_T1a_T1b_T1b_T1b
  re_loops

theorem u_T1a_T1b_T1b_T1b_real (basis : List Pair) (refa refb : Dstring) (noa nva nob nvb : ℕ) (T1a T1b : ℕ → ℕ → ℝ)
    (T2aa T2ab T2bb : ℕ → ℕ → ℕ → ℕ → ℝ) (C : List ℝ) :
    u_T1a_T1b_T1b_T1b basis refa refb noa nva nob nvb (c2 T1a) (c2 T1b) (c4 T2aa) (c4 T2ab) (c4 T2bb) C = CI.u_T1a_T1b_T1b_T1b basis refa refb noa nva nob nvb T1a T1b T2aa T2ab T2bb C := by
  unfold u_T1a_T1b_T1b_T1b CI.u_T1a_T1b_T1b_T1b
  simp only [c2, c4]
  real_loops

theorem u_T1b_T1b_T1b_T1b_re (basis : List Pair) (refa refb : Dstring) (noa nva nob nvb : ℕ) (T1a T1b : ℕ → ℕ → ℂ)
    (T2aa T2ab T2bb : ℕ → ℕ → ℕ → ℕ → ℂ) (C : List ℂ) :
    u_T1b_T1b_T1b_T1b basis refa refb noa nva nob nvb T1a T1b T2aa T2ab T2bb (C.map re) = (CI.u_T1b_T1b_T1b_T1b basis refa refb noa nva nob nvb T1a T1b T2aa T2ab T2bb C).map (List.map re) := by
  unfold u_T1b_T1b_T1b_T1b CI.u_T1b_T1b_T1b_T1b
  re_loops

theorem u_T1b_T1b_T1b_T1b_real (basis : List Pair) (refa refb : Dstring) (noa nva nob nvb : ℕ) (T1a T1b : ℕ → ℕ → ℝ)
    (T2aa T2ab T2bb : ℕ → ℕ → ℕ → ℕ → ℝ) (C : List ℝ) :
    u_T1b_T1b_T1b_T1b basis refa refb noa nva nob nvb (c2 T1a) (c2 T1b) (c4 T2aa) (c4 T2ab) (c4 T2bb) C = CI.u_T1b_T1b_T1b_T1b basis refa refb noa nva nob nvb T1a T1b T2aa T2ab T2bb C := by
  unfold u_T1b_T1b_T1b_T1b CI.u_T1b_T1b_T1b_T1b
  simp only [c2, c4]
  real_loops

end CI.Re
end
