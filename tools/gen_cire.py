"""Generate lean/Verif/Model/CIRe.lean and lean/Verif/Props/CIRe.lean: the vector routines of cqcpy/ci_utils.py with complex input.

The result arrays are made by numpy.zeros and are real, so every `out[idx] += x` keeps the real part only.  The loops are those of
Model/CI and Model/CIExp.
"""
import re
D = '/verif/lean/Verif/'
exp = open(D + 'Model/CIExp.lean').read()
ci = open(D + 'Model/CI.lean').read()

body = exp[exp.index('/-- cqcpy/ci_utils.py:444'):exp.rindex('end CI')]
vec = ci[ci.index('/-- cqcpy/ci_utils.py:1428'):ci.index('/-- the strings of a basis element')] + ci[ci.index('/-- cqcpy/ci_utils.py:1545'):ci.rindex('end CI')]

def conv(s):
    s = re.sub(r'\(C : List K\)', '(C : List ℝ)', s)
    s = s.replace('R (List K)', 'R (List ℝ)').replace('let C : List K :=', 'let C : List ℝ :=')
    s = s.replace('(vec : List K)', '(vec : List ℂ)')
    s = s.replace('addAt ', 'addRe ').replace('tryAdd ', 'tryAddRe ').replace('(zeros vec)', '(List.replicate vec.length 0)')
    s = re.sub(r'\bK\b', 'ℂ', s)
    return s

model = '''import Verif.Model.CIExp
import Mathlib.Analysis.Complex.Basic
/-!
# `gmakeCfromT`, `makeCfromT` and the routines that act on vectors, with complex amplitudes and coefficients

Generated by tools/gen_cire.py from Model/CI and Model/CIExp.  In cqcpy/ci_utils.py the arrays returned are made by `numpy.zeros`
(:441-442, :622-623, :1429, :1444, :1459, :1474, :1492, :1510, :1528, :1546, :1555) and are real whatever the type of the input.  Adding a complex number to an
element, `out[idx] += x`, stores the real part of the sum and emits a `ComplexWarning`.
-/
noncomputable section
namespace CI.Re
set_option linter.unusedVariables false

/-- `out[idx] += x` for a real array and a complex number: the sum is complex and its real part is stored. -/
def addRe (out : List ℝ) (idx : ℕ) (x : ℂ) : R (List ℝ) :=
  if idx < out.length then .ok (out.modify idx fun r => ((r : ℂ) + x).re) else .error .index

/-- `try: idx = basis.index(..); out[idx] += x / except ValueError: pass` -/
def tryAddRe (idx : R ℕ) (out : List ℝ) (x : ℂ) : R (List ℝ) :=
  match idx with
  | .ok k => addRe out k x
  | .error .value => .ok out
  | .error e => .error e

''' + conv(body) + conv(vec) + '''end CI.Re
end
'''
open(D + 'Model/CIRe.lean', 'w').write(model)

defs = re.findall(r'^def ((?:g|u)_\w+)', body, re.M)
HEAD = """import Verif.Model.CIRe
/-!
# C87: complex amplitudes and coefficients lose their imaginary parts

Generated by tools/gen_cire.py.  The theorems about `makeCfromT`, `gmakeCfromT` and the routines that act on vectors (C37, C38) hold over every field.  For the complex
numbers they are about the algorithm; the program stores its result in a real array.
-/
set_option linter.unusedVariables false
set_option linter.unusedSectionVars false
set_option linter.unusedSimpArgs false
noncomputable section
namespace CI.Re
open Complex (re)

/-! ### loops -/

theorem loop_re {α : Type} (l : List α) (f : α → List ℝ → R (List ℝ)) (g : α → List ℂ → R (List ℂ))
    (h : ∀ x c, f x (c.map re) = (g x c).map (List.map re)) (c : List ℂ) : loop l f (c.map re) = (loop l g c).map (List.map re) := by
  induction l generalizing c with
  | nil => rfl
  | cons x l ih =>
    simp only [loop, bind, Except.bind, h]
    cases hg : g x c with
    | error e => rfl
    | ok c' => simp only [Except.map]; exact ih c'

theorem bind_re {α : Type} (e : R α) (f : α → R (List ℝ)) (g : α → R (List ℂ)) (h : ∀ r, f r = (g r).map (List.map re)) :
    e.bind f = (e.bind g).map (List.map re) := by
  cases e with
  | error e => rfl
  | ok r => exact h r

theorem addRe_re (C : List ℂ) (idx : ℕ) (x : ℂ) : addRe (C.map re) idx x = (addAt C idx x).map (List.map re) := by
  unfold addRe addAt
  rw [List.length_map]
  split
  · simp only [Except.map]
    congr 1
    apply List.ext_getElem
    · simp
    · intro i h1 h2
      simp only [List.getElem_modify, List.getElem_map]
      split <;> simp
  · rfl

theorem tryAddRe_re (idx : R ℕ) (C : List ℂ) (x : ℂ) : tryAddRe idx (C.map re) x = (tryAdd idx C x).map (List.map re) := by
  unfold tryAddRe tryAdd
  rcases idx with e | k
  · cases e <;> rfl
  · exact addRe_re C k x

theorem addRe_real (C : List ℝ) (idx : ℕ) {x : ℂ} {y : ℝ} (h : x = (y : ℂ)) : addRe C idx x = addAt C idx y := by
  subst h
  unfold addRe addAt
  simp only [Complex.add_re, Complex.ofReal_re]

theorem tryAddRe_real (idx : R ℕ) (C : List ℝ) {x : ℂ} {y : ℝ} (h : x = (y : ℂ)) : tryAddRe idx C x = tryAdd idx C y := by
  unfold tryAddRe tryAdd
  rcases idx with e | k
  · cases e <;> rfl
  · exact addRe_real C k h

theorem loop_congr {α σ : Type} (l : List α) (f g : α → σ → R σ) (h : ∀ x c, f x c = g x c) (c : σ) : loop l f c = loop l g c := by
  rw [show f = g from funext fun x => funext fun c => h x c]

theorem bind_congr' {α β : Type} (e : R α) (f g : α → R β) (h : ∀ r, f r = g r) : e.bind f = e.bind g := by
  rw [show f = g from funext h]

/-- a table of real numbers as one of complex numbers -/
def c2 (T : ℕ → ℕ → ℝ) : ℕ → ℕ → ℂ := fun a i => (T a i : ℂ)
/-- the same with four indices -/
def c4 (T : ℕ → ℕ → ℕ → ℕ → ℝ) : ℕ → ℕ → ℕ → ℕ → ℂ := fun a b i j => (T a b i j : ℂ)

/-- nested loops that end in `C[idx] += x` -/
macro "re_loops" : tactic => `(tactic| repeat' first
  | exact addRe_re _ _ _
  | exact tryAddRe_re _ _ _
  | rfl
  | (refine loop_re _ _ _ ?_ _; intro x C; try dsimp only)
  | (split; rfl)
  | (refine bind_re _ _ _ ?_; rintro (_ | ⟨s, d⟩) <;> try dsimp only)
  | (refine bind_re _ _ _ ?_; intro r))

/-- the same for real numbers -/
macro "real_loops" : tactic => `(tactic| repeat' first
  | with_reducible rfl
  | (with_reducible refine addRe_real _ _ ?_; push_cast; ring)
  | (with_reducible refine tryAddRe_real _ _ ?_; push_cast; ring)
  | (refine loop_congr _ _ _ ?_ _; intro x C; try dsimp only)
  | (split; with_reducible rfl)
  | (refine bind_congr' _ _ _ ?_; rintro (_ | ⟨s, d⟩) <;> try dsimp only)
  | (refine bind_congr' _ _ _ ?_; intro r))

"""
lem = [HEAD]
for d in defs:
    a = 'basis ref iocc ivir T1 T2' if d.startswith('g_') else 'basis refa refb noa nva nob nvb T1a T1b T2aa T2ab T2bb'
    ac = 'basis ref iocc ivir (c2 T1) (c4 T2)' if d.startswith('g_') else 'basis refa refb noa nva nob nvb (c2 T1a) (c2 T1b) (c4 T2aa) (c4 T2ab) (c4 T2bb)'
    v = '(basis : List (Option Dstring)) (ref : Dstring) (iocc ivir : List ℕ) (T1 : ℕ → ℕ → ℂ) (T2 : ℕ → ℕ → ℕ → ℕ → ℂ)' if d.startswith('g_') else \
        '(basis : List Pair) (refa refb : Dstring) (noa nva nob nvb : ℕ) (T1a T1b : ℕ → ℕ → ℂ)\n    (T2aa T2ab T2bb : ℕ → ℕ → ℕ → ℕ → ℂ)'
    lem.append(f'theorem {d}_re {v} (C : List ℂ) :\n    {d} {a} (C.map re) = (CI.{d} {a} C).map (List.map re) := by\n  unfold {d} CI.{d}\n  re_loops\n\n')
    lem.append(f'theorem {d}_real {v.replace("ℂ", "ℝ")} (C : List ℝ) :\n    {d} {ac} C = CI.{d} {a} C := by\n  unfold {d} CI.{d}\n  simp only [c2, c4]\n  real_loops\n\n')

def stage_terms(fn):
    b = exp[exp.index(f'def {fn} '):]
    b = b[:b.index('\n  return C\n')]
    first, *rest = re.split(r'\(if order ≥ \d', b)
    f = lambda t: re.findall(r'← ((?:g|u)_\w+) ', t)
    return f(first), [f(r) for r in rest]

def proof(fn, sfx):
    first, stages = stage_terms(fn)
    n = 7 if fn.startswith('g') else 13
    t = lambda d: f'({d}{sfx}{" _" * n})'
    out = []
    for d in first:
        out.append(f'  with_reducible refine bind_step{sfx} {t(d)} ?_\n  intro C\n')
    for q, st in enumerate(stages):
        last = q == len(stages) - 1
        if not last:
            out.append(f'  with_reducible refine bind_step{sfx} ?_ ?_\n  · ' )
        else:
            out.append('  ')
        ind = '    ' if not last else '  '
        out.append(f'with_reducible refine ite{sfx} ?_ (pure{sfx} _)\n')
        for d in st[:-1]:
            out.append(f'{ind}with_reducible refine bind_step{sfx} {t(d)} ?_\n{ind}intro C\n')
        out.append(f'{ind}with_reducible exact {t(st[-1])}\n')
        if not last:
            out.append('  intro C\n')
    return ''.join(out)

def main(fn, v, a, ac):
    pre = '  with_reducible refine ite_@ (throw_@ _ _ _) ?_\n' * (1 if fn.startswith('g') else 2) + f"""  with_reducible refine bind_same_@ _ _ _ ?_
  intro basis
""" + '  with_reducible refine bind_same_@ _ _ _ ?_\n  intro ref\n' * (1 if fn.startswith('g') else 2)
    vr = v.replace('ℂ', 'ℝ')
    w = "with complex amplitudes the vector returned consists of the real parts of the exact coefficients"
    return f"""/-- `{fn}`: {w}.  Errors are the same. -/
theorem C87_{fn} {v} :
    {fn} {a} = (CI.{fn} {a}).map (List.map re) := by
  unfold {fn} CI.{fn}
  dsimp only
{pre.replace('@', 're')}  with_reducible refine bind_step_re (one_re _) ?_
  intro C
{proof(fn, '_re')}
/-- for real amplitudes nothing is lost -/
theorem C87_{fn}_real {vr} :
    {fn} {ac} = CI.{fn} {a} := by
  unfold {fn} CI.{fn}
  dsimp only
{pre.replace('@', 'real')}  with_reducible refine bind_step_real (one_real _) ?_
  intro C
{proof(fn, '_real')}
"""

TOP = """import Verif.Props.CIReTerms
/-!
# C87: complex amplitudes and coefficients lose their imaginary parts

Generated by tools/gen_cire.py.
-/
noncomputable section
namespace CI.Re
open Complex (re)

"""

FOOT = """theorem bind_step_re {e : R (List ℝ)} {e' : R (List ℂ)} {f : List ℝ → R (List ℝ)} {g : List ℂ → R (List ℂ)}
    (h : e = e'.map (List.map re)) (hf : ∀ C : List ℂ, f (C.map re) = (g C).map (List.map re)) : e >>= f = (e' >>= g).map (List.map re) := by
  subst h
  cases e' with
  | error e => rfl
  | ok C => exact hf C

theorem bind_step_real {e e' : R (List ℝ)} {f g : List ℝ → R (List ℝ)} (h : e = e') (hf : ∀ C, f C = g C) : e >>= f = e' >>= g := by
  subst h
  cases e with
  | error e => rfl
  | ok C => exact hf C

theorem pure_re (C : List ℂ) : (pure (C.map re) : R (List ℝ)) = (pure C : R (List ℂ)).map (List.map re) := rfl

theorem one_re (n : ℕ) : (if 0 < (List.replicate n (0 : ℝ)).length then pure ((List.replicate n (0 : ℝ)).set 0 1) else throw .index : R (List ℝ)) =
    (if 0 < (List.replicate n (0 : ℂ)).length then pure ((List.replicate n (0 : ℂ)).set 0 1) else throw .index : R (List ℂ)).map (List.map re) := by
  simp only [List.length_replicate]
  split
  · rw [← pure_re, List.map_set, List.map_replicate, Complex.zero_re, Complex.one_re]
  · rfl

theorem bind_same_re {α : Type} (e : R α) (f : α → R (List ℝ)) (g : α → R (List ℂ)) (h : ∀ r, f r = (g r).map (List.map re)) :
    e >>= f = (e >>= g).map (List.map re) := bind_re e f g h

theorem bind_same_real {α : Type} (e : R α) (f g : α → R (List ℝ)) (h : ∀ r, f r = g r) : e >>= f = e >>= g := bind_congr' e f g h

theorem one_real (n : ℕ) : (if 0 < (List.replicate n (0 : ℝ)).length then pure ((List.replicate n (0 : ℝ)).set 0 1) else throw .index : R (List ℝ)) =
    (if 0 < (List.replicate n (0 : ℝ)).length then pure ((List.replicate n (0 : ℝ)).set 0 1) else throw .index : R (List ℝ)) := rfl

theorem throw_re {α : Type} (e : Err) (f : α → R (List ℝ)) (g : α → R (List ℂ)) :
    (throw e : R α) >>= f = ((throw e : R α) >>= g).map (List.map re) := rfl

theorem throw_real {α : Type} (e : Err) (f g : α → R (List ℝ)) : (throw e : R α) >>= f = (throw e : R α) >>= g := by
  rw [show (throw e : R α) >>= f = .error e from rfl, show (throw e : R α) >>= g = .error e from rfl]

theorem pure_real (C : List ℝ) : (pure C : R (List ℝ)) = pure C := rfl

theorem ite_re {p : Prop} [Decidable p] {e f : R (List ℝ)} {e' f' : R (List ℂ)} (h : e = e'.map (List.map re)) (h' : f = f'.map (List.map re)) :
    (if p then e else f) = (if p then e' else f').map (List.map re) := by split <;> assumption

theorem ite_real {p : Prop} [Decidable p] {e f e' f' : R (List ℝ)} (h : e = e') (h' : f = f') :
    (if p then e else f) = (if p then e' else f') := by rw [h, h']

""" + main('gmakeCfromT', '(no nv : ℕ) (T1 : ℕ → ℕ → ℂ) (T2 : ℕ → ℕ → ℕ → ℕ → ℂ) (order : ℕ) (occ? : Option (List ℤ))',
    'no nv T1 T2 order occ?', 'no nv (c2 T1) (c4 T2) order occ?') + \
    main('makeCfromT', '(noa nva nob nvb : ℕ) (T1a T1b : ℕ → ℕ → ℂ)\n    (T2aa T2ab T2bb : ℕ → ℕ → ℕ → ℕ → ℂ) (order : ℕ)',
    'noa nva nob nvb T1a T1b T2aa T2ab T2bb order', 'noa nva nob nvb (c2 T1a) (c2 T1b) (c4 T2aa) (c4 T2ab) (c4 T2bb) order')
TAIL = """/-! ### routines that act on vectors -/

theorem zeros_re (vec : List ℂ) : List.replicate vec.length (0 : ℝ) = (zeros vec).map re := by
  rw [zeros, List.map_replicate, Complex.zero_re]

theorem zeros_real (vec : List ℝ) : List.replicate (vec.map Complex.ofReal).length (0 : ℝ) = zeros vec := by
  rw [zeros, List.length_map]

theorem loop_map {α β σ : Type} (l : List α) (m : α → β) (f : β → σ → R σ) (c : σ) : loop (l.map m) f c = loop l (fun x => f (m x)) c := by
  induction l generalizing c with
  | nil => rfl
  | cons x l ih =>
    simp only [List.map_cons, loop, bind, Except.bind]
    cases f (m x) c with
    | error e => rfl
    | ok c' => exact ih c'

theorem enum_map {α β : Type} (vec : List α) (m : α → β) : enum (vec.map m) = (enum vec).map fun p => (p.1, m p.2) := by
  simp only [enum, List.zipIdx_map, List.map_map]
  rfl

/-- the branches of a routine that acts on a vector -/
macro "re_branches" : tactic => `(tactic| repeat' first
  | with_reducible exact tryAddRe_re _ _ _
  | with_reducible exact addRe_re _ _ _
  | with_reducible exact pure_re _
  | (with_reducible refine bind_same_re _ _ _ ?_; rintro (_ | ⟨s, d⟩) <;> try dsimp only)
  | (with_reducible refine bind_same_re _ _ _ ?_; rintro ⟨d, e⟩; try dsimp only)
  | (with_reducible refine bind_same_re _ _ _ ?_; intro d; try dsimp only)
  | (split <;> try dsimp only)
  | rfl)

/-- the same for real vectors -/
macro "real_branches" : tactic => `(tactic| repeat' first
  | with_reducible rfl
  | (with_reducible refine tryAddRe_real _ _ ?_; push_cast; ring)
  | (with_reducible refine addRe_real _ _ ?_; push_cast; ring)
  | (with_reducible refine bind_same_real _ _ _ ?_; rintro (_ | ⟨s, d⟩) <;> try dsimp only)
  | (with_reducible refine bind_same_real _ _ _ ?_; rintro ⟨d, e⟩; try dsimp only)
  | (with_reducible refine bind_same_real _ _ _ ?_; intro d; try dsimp only)
  | (split <;> try dsimp only))

/-- `s_on_vec` -/
theorem C87_s_on_vec (basis : List (Option Dstring)) (vec : List ℂ) (i a : ℕ) :
    s_on_vec basis vec i a = (CI.s_on_vec basis vec i a).map (List.map re) := by
  unfold s_on_vec CI.s_on_vec
  rw [zeros_re]
  refine loop_re _ _ _ ?_ _
  rintro ⟨ix, x⟩ C
  re_branches

theorem C87_s_on_vec_real (basis : List (Option Dstring)) (vec : List ℝ) (i a : ℕ) :
    s_on_vec basis (vec.map Complex.ofReal) i a = CI.s_on_vec basis vec i a := by
  unfold s_on_vec CI.s_on_vec
  rw [zeros_real, enum_map, loop_map]
  refine loop_congr _ _ _ ?_ _
  rintro ⟨ix, x⟩ C
  real_branches

/-- `sa_on_vec` -/
theorem C87_sa_on_vec (basis : List Pair) (vec : List ℂ) (i a : ℕ) :
    sa_on_vec basis vec i a = (CI.sa_on_vec basis vec i a).map (List.map re) := by
  unfold sa_on_vec CI.sa_on_vec
  rw [zeros_re]
  refine loop_re _ _ _ ?_ _
  rintro ⟨ix, x⟩ C
  re_branches

theorem C87_sa_on_vec_real (basis : List Pair) (vec : List ℝ) (i a : ℕ) :
    sa_on_vec basis (vec.map Complex.ofReal) i a = CI.sa_on_vec basis vec i a := by
  unfold sa_on_vec CI.sa_on_vec
  rw [zeros_real, enum_map, loop_map]
  refine loop_congr _ _ _ ?_ _
  rintro ⟨ix, x⟩ C
  real_branches

/-- `sb_on_vec` -/
theorem C87_sb_on_vec (basis : List Pair) (vec : List ℂ) (i a : ℕ) :
    sb_on_vec basis vec i a = (CI.sb_on_vec basis vec i a).map (List.map re) := by
  unfold sb_on_vec CI.sb_on_vec
  rw [zeros_re]
  refine loop_re _ _ _ ?_ _
  rintro ⟨ix, x⟩ C
  re_branches

theorem C87_sb_on_vec_real (basis : List Pair) (vec : List ℝ) (i a : ℕ) :
    sb_on_vec basis (vec.map Complex.ofReal) i a = CI.sb_on_vec basis vec i a := by
  unfold sb_on_vec CI.sb_on_vec
  rw [zeros_real, enum_map, loop_map]
  refine loop_congr _ _ _ ?_ _
  rintro ⟨ix, x⟩ C
  real_branches

/-- `d_on_vec` -/
theorem C87_d_on_vec (basis : List (Option Dstring)) (vec : List ℂ) (i j a b : ℕ) :
    d_on_vec basis vec i j a b = (CI.d_on_vec basis vec i j a b).map (List.map re) := by
  unfold d_on_vec CI.d_on_vec
  rw [zeros_re]
  refine loop_re _ _ _ ?_ _
  rintro ⟨ix, x⟩ C
  re_branches

theorem C87_d_on_vec_real (basis : List (Option Dstring)) (vec : List ℝ) (i j a b : ℕ) :
    d_on_vec basis (vec.map Complex.ofReal) i j a b = CI.d_on_vec basis vec i j a b := by
  unfold d_on_vec CI.d_on_vec
  rw [zeros_real, enum_map, loop_map]
  refine loop_congr _ _ _ ?_ _
  rintro ⟨ix, x⟩ C
  real_branches

/-- `da_on_vec` -/
theorem C87_da_on_vec (basis : List Pair) (vec : List ℂ) (i j a b : ℕ) :
    da_on_vec basis vec i j a b = (CI.da_on_vec basis vec i j a b).map (List.map re) := by
  unfold da_on_vec CI.da_on_vec
  rw [zeros_re]
  refine loop_re _ _ _ ?_ _
  rintro ⟨ix, x⟩ C
  re_branches

theorem C87_da_on_vec_real (basis : List Pair) (vec : List ℝ) (i j a b : ℕ) :
    da_on_vec basis (vec.map Complex.ofReal) i j a b = CI.da_on_vec basis vec i j a b := by
  unfold da_on_vec CI.da_on_vec
  rw [zeros_real, enum_map, loop_map]
  refine loop_congr _ _ _ ?_ _
  rintro ⟨ix, x⟩ C
  real_branches

/-- `db_on_vec` -/
theorem C87_db_on_vec (basis : List Pair) (vec : List ℂ) (i j a b : ℕ) :
    db_on_vec basis vec i j a b = (CI.db_on_vec basis vec i j a b).map (List.map re) := by
  unfold db_on_vec CI.db_on_vec
  rw [zeros_re]
  refine loop_re _ _ _ ?_ _
  rintro ⟨ix, x⟩ C
  re_branches

theorem C87_db_on_vec_real (basis : List Pair) (vec : List ℝ) (i j a b : ℕ) :
    db_on_vec basis (vec.map Complex.ofReal) i j a b = CI.db_on_vec basis vec i j a b := by
  unfold db_on_vec CI.db_on_vec
  rw [zeros_real, enum_map, loop_map]
  refine loop_congr _ _ _ ?_ _
  rintro ⟨ix, x⟩ C
  real_branches

/-- `sasb_on_vec` -/
theorem C87_sasb_on_vec (basis : List Pair) (vec : List ℂ) (i j a b : ℕ) :
    sasb_on_vec basis vec i j a b = (CI.sasb_on_vec basis vec i j a b).map (List.map re) := by
  unfold sasb_on_vec CI.sasb_on_vec
  rw [zeros_re]
  refine loop_re _ _ _ ?_ _
  rintro ⟨ix, x⟩ C
  re_branches

theorem C87_sasb_on_vec_real (basis : List Pair) (vec : List ℝ) (i j a b : ℕ) :
    sasb_on_vec basis (vec.map Complex.ofReal) i j a b = CI.sasb_on_vec basis vec i j a b := by
  unfold sasb_on_vec CI.sasb_on_vec
  rw [zeros_real, enum_map, loop_map]
  refine loop_congr _ _ _ ?_ _
  rintro ⟨ix, x⟩ C
  real_branches

/-- `H_on_vec` returns the real part of the product with the hamiltonian. -/
theorem C87_H_on_vec (basis : List Pair) (vec : List ℂ) (ha hb : ℕ → ℕ → ℂ) (Ia Ib Iabab : ℕ → ℕ → ℕ → ℕ → ℂ) :
    H_on_vec basis vec ha hb Ia Ib Iabab = (CI.H_on_vec basis vec ha hb Ia Ib Iabab).map (List.map re) := by
  unfold H_on_vec CI.H_on_vec
  rw [zeros_re]
  refine loop_re _ _ _ ?_ _
  rintro ⟨i, b⟩ C
  refine loop_re _ _ _ ?_ _
  rintro ⟨j, k⟩ C
  re_branches

/-- `gH_on_vec` -/
theorem C87_gH_on_vec (basis : List (Option Dstring)) (vec : List ℂ) (h : ℕ → ℕ → ℂ) (I : ℕ → ℕ → ℕ → ℕ → ℂ) :
    gH_on_vec basis vec h I = (CI.gH_on_vec basis vec h I).map (List.map re) := by
  unfold gH_on_vec CI.gH_on_vec
  rw [zeros_re]
  refine loop_re _ _ _ ?_ _
  rintro ⟨i, b⟩ C
  refine loop_re _ _ _ ?_ _
  rintro ⟨j, k⟩ C
  refine bind_same_re _ _ _ fun x => ?_
  cases b with
  | none => rfl
  | some b => cases k with
    | none => rfl
    | some k => exact bind_same_re _ _ _ fun m => addRe_re _ _ _

theorem parity_cast (b : List ℤ) (i j : ℕ) : (parity b i j : ℂ) = ((parity b i j : ℝ) : ℂ) := by
  unfold parity; split <;> simp

theorem tr1_cast (M : ℕ → ℕ → ℝ) (p : List ℤ) : tr1 (fun x y => ((M x y : ℝ) : ℂ)) p = ((tr1 M p : ℝ) : ℂ) := by
  simp only [tr1, val]; push_cast; rfl

theorem coul_cast (M : ℕ → ℕ → ℕ → ℕ → ℝ) (p q : List ℤ) : coul (fun x y z w => ((M x y z w : ℝ) : ℂ)) p q = ((coul M p q : ℝ) : ℂ) := by
  simp only [coul, val]; push_cast; rfl

theorem exch_cast (M : ℕ → ℕ → ℕ → ℕ → ℝ) (p q : List ℤ) : exch (fun x y z w => ((M x y z w : ℝ) : ℂ)) p q = ((exch M p q : ℝ) : ℂ) := by
  simp only [exch, val]; push_cast; rfl

theorem bind_cast {α : Type} (e : R α) (f : α → R ℂ) (g : α → R ℝ) (h : ∀ r, f r = (g r).map Complex.ofReal) :
    e >>= f = (e >>= g).map Complex.ofReal := by
  cases e with
  | error e => rfl
  | ok r => exact h r

theorem pure_cast {x : ℂ} {y : ℝ} (h : x = (y : ℂ)) : (pure x : R ℂ) = (pure y : R ℝ).map Complex.ofReal := by
  rw [h]; rfl

theorem ite_cast' {p : Prop} [Decidable p] {e f : R ℂ} {e' f' : R ℝ} (h : e = e'.map Complex.ofReal) (h' : f = f'.map Complex.ofReal) :
    (if p then e else f) = (if p then e' else f').map Complex.ofReal := by split <;> assumption

/-- matrix elements of real integrals -/
macro "mel_cast" : tactic => `(tactic| repeat' first
  | (with_reducible refine pure_cast ?_; simp only [parity_cast, tr1_cast, coul_cast, exch_cast]; push_cast; rfl)
  | (with_reducible refine pure_cast ?_; simp only [parity_cast, tr1_cast, coul_cast, exch_cast]; split <;> push_cast <;> rfl)
  | (with_reducible refine pure_cast ?_; push_cast; rfl)
  | (with_reducible refine bind_cast _ _ _ ?_; rintro ⟨o, v⟩; try dsimp only)
  | (with_reducible refine bind_cast _ _ _ ?_; intro o; try dsimp only)
  | with_reducible refine ite_cast' ?_ ?_)

theorem gci_matrixel_cast (bra ket : Dstring) (h : ℕ → ℕ → ℝ) (I : ℕ → ℕ → ℕ → ℕ → ℝ) :
    gci_matrixel bra ket (c2 h) (c4 I) 0 = (gci_matrixel bra ket h I 0).map Complex.ofReal := by
  unfold gci_matrixel c2 c4
  dsimp only
  mel_cast

theorem ci_matrixel_cast (braa brab keta ketb : Dstring) (ha hb : ℕ → ℕ → ℝ) (Ia Ib Iabab : ℕ → ℕ → ℕ → ℕ → ℝ) :
    ci_matrixel braa brab keta ketb (c2 ha) (c2 hb) (c4 Ia) (c4 Ib) (c4 Iabab) 0 =
      (ci_matrixel braa brab keta ketb ha hb Ia Ib Iabab 0).map Complex.ofReal := by
  unfold ci_matrixel c2 c4
  dsimp only
  mel_cast

theorem get_map {α β : Type} (l : List α) (m : α → β) (i : ℕ) : get (l.map m) i = (get l i).map m := by
  unfold get
  rw [List.getElem?_map]
  cases l[i]? <;> rfl

theorem bind_map_real {α β : Type} (e : R α) (m : α → β) (f : β → R (List ℝ)) (g : α → R (List ℝ)) (h : ∀ r, f (m r) = g r) :
    e.map m >>= f = e >>= g := by
  cases e with
  | error e => rfl
  | ok r => exact h r

/-- for real integrals and vectors nothing is lost -/
theorem C87_H_on_vec_real (basis : List Pair) (vec : List ℝ) (ha hb : ℕ → ℕ → ℝ) (Ia Ib Iabab : ℕ → ℕ → ℕ → ℕ → ℝ) :
    H_on_vec basis (vec.map Complex.ofReal) (c2 ha) (c2 hb) (c4 Ia) (c4 Ib) (c4 Iabab) = CI.H_on_vec basis vec ha hb Ia Ib Iabab := by
  unfold H_on_vec CI.H_on_vec
  rw [zeros_real]
  refine loop_congr _ _ _ ?_ _
  rintro ⟨i, b⟩ C
  refine loop_congr _ _ _ ?_ _
  rintro ⟨j, k⟩ C
  simp only [get_map, ci_matrixel_cast]
  refine bind_map_real _ _ _ _ fun x => bind_same_real _ _ _ fun bb => bind_same_real _ _ _ fun kk => bind_map_real _ _ _ _ fun m => ?_
  exact addRe_real _ _ (by push_cast; rfl)

theorem C87_gH_on_vec_real (basis : List (Option Dstring)) (vec : List ℝ) (h : ℕ → ℕ → ℝ) (I : ℕ → ℕ → ℕ → ℕ → ℝ) :
    gH_on_vec basis (vec.map Complex.ofReal) (c2 h) (c4 I) = CI.gH_on_vec basis vec h I := by
  unfold gH_on_vec CI.gH_on_vec
  rw [zeros_real]
  refine loop_congr _ _ _ ?_ _
  rintro ⟨i, b⟩ C
  refine loop_congr _ _ _ ?_ _
  rintro ⟨j, k⟩ C
  simp only [get_map, gci_matrixel_cast]
  refine bind_map_real _ _ _ _ fun x => ?_
  cases b with
  | none => rfl
  | some b => cases k with
    | none => rfl
    | some k =>
      refine bind_map_real _ _ _ _ fun m => ?_
      exact addRe_real _ _ (by push_cast; rfl)

/-! ### what is lost -/

/-- One electron in two orbitals. -/
theorem one_electron (z : ℂ) : CI.makeCfromT 1 1 0 2 (fun _ _ => z) (fun _ _ => 0) (fun _ _ _ _ => 0) (fun _ _ _ _ => 0) (fun _ _ _ _ => 0) 1
    = .ok [1, 0 + ((1 : ℤ) : ℂ) * z] := rfl

/-- Refuted: `makeCfromT` is exact for complex amplitudes.  With the amplitude `i` the coefficients are `1` and `i` and the program returns `1` and `0`. -/
theorem C87_makeCfromT_refuted : ∃ T1a T1b : ℕ → ℕ → ℂ, ∃ T2aa T2ab T2bb : ℕ → ℕ → ℕ → ℕ → ℂ,
    CI.makeCfromT 1 1 0 2 T1a T1b T2aa T2ab T2bb 1 = .ok [1, Complex.I] ∧ makeCfromT 1 1 0 2 T1a T1b T2aa T2ab T2bb 1 = .ok [1, 0] := by
  have h : ((1 : ℤ) : ℂ) * Complex.I = Complex.I := by push_cast; ring
  refine ⟨fun _ _ => Complex.I, fun _ _ => 0, fun _ _ _ _ => 0, fun _ _ _ _ => 0, fun _ _ _ _ => 0, ?_, ?_⟩
  · rw [one_electron, zero_add, h]
  · rw [C87_makeCfromT, one_electron, zero_add, h]
    simp [Except.map]

/-- Refuted: the routines that act on vectors are linear over the complex numbers. -/
theorem C87_s_on_vec_refuted : ∃ basis : List (Option Dstring), ∃ vec : List ℂ,
    CI.s_on_vec basis vec 0 1 = .ok [0, Complex.I] ∧ s_on_vec basis vec 0 1 = .ok [0, 0] := by
  have e : CI.s_on_vec [some ⟨2, [1, 0]⟩, some ⟨2, [0, 1]⟩] [Complex.I, 0] 0 1 = .ok [0, 0 + ((1 : ℤ) : ℂ) * Complex.I] := rfl
  have h : ((1 : ℤ) : ℂ) * Complex.I = Complex.I := by push_cast; ring
  rw [zero_add, h] at e
  exact ⟨_, _, e, by rw [C87_s_on_vec, e]; simp [Except.map]⟩

/-- the hypotheses are met: a vector with entries off the real axis whose image is not lost altogether -/
example : s_on_vec [some ⟨2, [1, 0]⟩, some ⟨2, [0, 1]⟩] [⟨2, 3⟩, 0] 0 1 = .ok [0, 2] := by
  have e : CI.s_on_vec [some ⟨2, [1, 0]⟩, some ⟨2, [0, 1]⟩] [(⟨2, 3⟩ : ℂ), 0] 0 1 = .ok [0, 0 + ((1 : ℤ) : ℂ) * ⟨2, 3⟩] := rfl
  rw [C87_s_on_vec, e]
  simp [Except.map]

/-- real amplitudes: nothing is lost -/
example (t : ℝ) : makeCfromT 1 1 0 2 (c2 fun _ _ => t) (c2 fun _ _ => 0) (c4 fun _ _ _ _ => 0) (c4 fun _ _ _ _ => 0) (c4 fun _ _ _ _ => 0) 1
    = .ok [1, t] := by
  rw [C87_makeCfromT_real, show CI.makeCfromT 1 1 0 2 (fun _ _ => t) (fun _ _ => 0) (fun _ _ _ _ => 0) (fun _ _ _ _ => 0) (fun _ _ _ _ => 0) 1
    = .ok [1, 0 + ((1 : ℤ) : ℝ) * t] from rfl]
  norm_num

"""
open(D + 'Props/CIReTerms.lean', 'w').write(''.join(lem) + 'end CI.Re\nend\n')
open(D + 'Props/CIRe.lean', 'w').write(TOP + FOOT + TAIL + 'end CI.Re\nend\n')
