"""Generate lean/Verif/Model/CIExpRound.lean and lean/Verif/Props/CIExpRoundTerms.lean: `gmakeCfromT`, `makeCfromT` and the routines that apply
an excitation to a vector (cqcpy/ci_utils.py), with a rounding after every `*`, `/` and `+`.  The loops are those of Model/CI and Model/CIExp.
"""
import re
D = '/verif/lean/Verif/'
exp = open(D + 'Model/CIExp.lean').read()
ci = open(D + 'Model/CI.lean').read()

body = exp[exp.index('/-- cqcpy/ci_utils.py:444'):exp.rindex('end CI')]
vec = ci[ci.index('/-- cqcpy/ci_utils.py:1428'):ci.index('/-- the strings of a basis element')]


def parse(s):
    """A fully parenthesised product or quotient, with a rounding after every operation."""
    s = s.strip()
    d, ops = 0, []
    for i, c in enumerate(s):
        d += (c == '(') - (c == ')')
        if d == 0 and c in '*/':
            ops.append(i)
    if not ops:
        if s == '1 / 2':
            return s
        if s[0] == '(' and s[-1] == ')':
            t = s[1:-1]
            if re.fullmatch(r'\w+ : ℝ|1 / 2', t) or re.fullmatch(r'T\w+( \w+)+', t):
                return s
            return parse(t)
        return s
    i = ops[-1]
    a = s[:i].strip()
    b = s[i + 1:].strip()
    a = '(1 / 2)' if a == '(1 / 2)' else parse(a)
    return f'(rd ({a} {s[i]} {parse(b)}))'


def conv(s):
    s = re.sub(r'\bK\b', 'ℝ', s)
    s = s.replace('(zeros vec)', '(List.replicate vec.length 0)')
    out = []
    for ln in s.split('\n'):
        m = re.match(r'(.*)\baddAt C idx (\(.*)$', ln)
        if m:
            e, d = m[2], 0
            for i, c in enumerate(e):
                d += (c == '(') - (c == ')')
                if d == 0:
                    break
            ln = f'{m[1]}addFl rd C idx {parse(e[:i + 1])}{e[i + 1:]}'
        m = re.match(r'(.*)\btryAdd (\(index.*?\)) out (\(.*)$', ln)
        if m:
            e, d = m[3], 0
            for i, c in enumerate(e):
                d += (c == '(') - (c == ')')
                if d == 0:
                    break
            x = e[1:i]
            x = re.sub(r'^\((\w+) : ℝ\) \* (\w+) \* x$', r'((\1 : ℝ) * (\2 : ℝ)) * x', x)
            ln = f'{m[1]}tryAddFl rd {m[2]} out {parse("(" + x + ")")}{e[i + 1:]}'
        out.append(ln)
    s = '\n'.join(out)
    s = re.sub(r'\bdef (\w+) ', r'def \1 (rd : ℝ → ℝ) ', s)
    s = re.sub(r'← ((?:g|u)_\w+) ', r'← \1 rd ', s)
    return s


model = '''import Verif.Model.CIExp
import Mathlib.Analysis.Complex.Basic
/-!
# `gmakeCfromT`, `makeCfromT` and the excitation of vectors in rounded arithmetic

Generated by tools/gen_ciexpfl.py from Model/CI and Model/CIExp.  Every `*`, `/` and `+` of cqcpy/ci_utils.py:418-1269 and :1428-1542 that involves a
coefficient or an amplitude is followed by the rounding `rd`; so are the products of signs, which a sensible rounding leaves alone.  Overflow is not part of
this model.
-/
noncomputable section
namespace CI.FlExp
set_option linter.unusedVariables false

/-- `out[idx] += x` -/
def addFl (rd : ℝ → ℝ) (out : List ℝ) (idx : ℕ) (x : ℝ) : R (List ℝ) :=
  if idx < out.length then .ok (out.modify idx fun r => rd (r + x)) else .error .index

/-- `try: idx = basis.index(..); out[idx] += x / except ValueError: pass` -/
def tryAddFl (rd : ℝ → ℝ) (idx : R ℕ) (out : List ℝ) (x : ℝ) : R (List ℝ) :=
  match idx with
  | .ok k => addFl rd out k x
  | .error .value => .ok out
  | .error e => .error e

''' + conv(body) + conv(vec).rstrip() + '\n\nend CI.FlExp\nend\n'
open(D + 'Model/CIExpRound.lean', 'w').write(model)

HEAD = r"""import Verif.Model.CIExpRound
/-!
# C101: coefficients from amplitudes in rounded arithmetic, loop by loop

Generated by tools/gen_ciexpfl.py.  A family of runs, one for every rounding, is compared with the exact run.  No branch depends on the amplitudes, so the runs take the
same path; each number is wrong by a constant times the roundoff.
-/
set_option linter.unusedVariables false
noncomputable section
namespace CI.FlExp
variable {ι : Type} {u : ι → ℝ} {η : ℝ} {rd : ι → ℝ → ℝ}

/-- A family of roundings, with their roundoffs. -/
structure Roundings (u : ι → ℝ) (η : ℝ) (rd : ι → ℝ → ℝ) : Prop where
  nonneg : ∀ e, 0 ≤ u e
  le_one : ∀ e, u e ≤ 1
  err : ∀ e x, |rd e x - x| ≤ u e * (|x| + η)

/-- All numbers of the family differ from `y` by at most a constant times the roundoff. -/
def Acc (u : ι → ℝ) (x : ι → ℝ) (y : ℝ) : Prop := ∃ c, 0 ≤ c ∧ ∀ e, |x e - y| ≤ c * u e

theorem Acc.const (y : ℝ) : Acc u (fun _ => y) y := ⟨0, le_rfl, fun e => by simp⟩

theorem Acc.round (H : Roundings u η rd) {x : ι → ℝ} {y : ℝ} (h : Acc u x y) : Acc u (fun e => rd e (x e)) y := by
  obtain ⟨c, c0, h⟩ := h
  refine ⟨|y| + 2 * c + |η|, by positivity, fun e => ?_⟩
  have h1 := H.err e (x e)
  have h2 : |x e| ≤ |y| + c * u e := by
    have := abs_add_le (x e - y) y
    rw [sub_add_cancel] at this
    linarith [h e]
  have h3 : c * u e ≤ c := mul_le_of_le_one_right c0 (H.le_one e)
  have h4 : |rd e (x e) - y| ≤ |rd e (x e) - x e| + |x e - y| := by
    have := abs_add_le (rd e (x e) - x e) (x e - y)
    rwa [sub_add_sub_cancel] at this
  have h5 : u e * (|x e| + η) ≤ u e * (|y| + c + |η|) := mul_le_mul_of_nonneg_left (by linarith [le_abs_self η]) (H.nonneg e)
  calc _ ≤ u e * (|y| + c + |η|) + c * u e := by linarith [h e]
    _ = _ := by ring

theorem Acc.add {x x' : ι → ℝ} {y y' : ℝ} (h : Acc u x y) (h' : Acc u x' y') : Acc u (fun e => x e + x' e) (y + y') := by
  obtain ⟨c, c0, h⟩ := h
  obtain ⟨c', c0', h'⟩ := h'
  refine ⟨c + c', add_nonneg c0 c0', fun e => ?_⟩
  rw [add_sub_add_comm, add_mul]
  exact (abs_add_le _ _).trans (add_le_add (h e) (h' e))

theorem Acc.mul' (H : Roundings u η rd) {x x' : ι → ℝ} {y y' : ℝ} (h : Acc u x y) (h' : Acc u x' y') : Acc u (fun e => x e * x' e) (y * y') := by
  obtain ⟨c, c0, h⟩ := h
  obtain ⟨c', c0', h'⟩ := h'
  refine ⟨c * (|y'| + c') + |y| * c', by positivity, fun e => ?_⟩
  have h2 : |x' e| ≤ |y'| + c' := by
    have := abs_add_le (x' e - y') y'
    rw [sub_add_cancel] at this
    have h3 : c' * u e ≤ c' := mul_le_of_le_one_right c0' (H.le_one e)
    linarith [h' e]
  have e1 : x e * x' e - y * y' = (x e - y) * x' e + y * (x' e - y') := by ring
  rw [e1]
  refine (abs_add_le _ _).trans ?_
  rw [abs_mul, abs_mul]
  calc _ ≤ c * u e * (|y'| + c') + |y| * (c' * u e) :=
        add_le_add (mul_le_mul (h e) h2 (abs_nonneg _) (mul_nonneg c0 (H.nonneg e))) (mul_le_mul_of_nonneg_left (h' e) (abs_nonneg _))
    _ = _ := by ring

theorem Roundings.mul (H : Roundings u η rd) {x x' : ι → ℝ} {y y' : ℝ} (h : Acc u x y) (h' : Acc u x' y') : Acc u (fun e => rd e (x e * x' e)) (y * y') :=
  (h.mul' H h').round H

theorem Roundings.div (H : Roundings u η rd) {x : ι → ℝ} {y : ℝ} (h : Acc u x y) (n : ℝ) : Acc u (fun e => rd e (x e / n)) (y / n) := by
  simp only [div_eq_mul_inv]
  exact H.mul h (.const _)

/-- a table of numbers with two indices -/
def Acc2 (u : ι → ℝ) (T : ι → ℕ → ℕ → ℝ) (S : ℕ → ℕ → ℝ) : Prop := ∀ a i, Acc u (fun e => T e a i) (S a i)
/-- a table of numbers with four indices -/
def Acc4 (u : ι → ℝ) (T : ι → ℕ → ℕ → ℕ → ℕ → ℝ) (S : ℕ → ℕ → ℕ → ℕ → ℝ) : Prop := ∀ a b i j, Acc u (fun e => T e a b i j) (S a b i j)
/-- a vector -/
def AccV (u : ι → ℝ) (C : ι → List ℝ) (L : List ℝ) : Prop := (∀ e, (C e).length = L.length) ∧ ∀ k, Acc u (fun e => (C e).getD k 0) (L.getD k 0)
/-- the result of a computation: the same error for all, or a vector -/
def AccL (u : ι → ℝ) (X : ι → R (List ℝ)) (Y : R (List ℝ)) : Prop :=
  (∃ er, Y = .error er ∧ ∀ e, X e = .error er) ∨ ∃ L C, Y = .ok L ∧ (∀ e, X e = .ok (C e)) ∧ AccV u C L

theorem AccL.ok {C : ι → List ℝ} {L : List ℝ} (h : AccV u C L) : AccL u (fun e => .ok (C e)) (.ok L) := .inr ⟨L, C, rfl, fun _ => rfl, h⟩

theorem AccL.error (er : Err) : AccL u (fun _ => .error er) (.error er) := .inl ⟨er, rfl, fun _ => rfl⟩

theorem step_acc {X : ι → R (List ℝ)} {Y : R (List ℝ)} {f : ι → List ℝ → R (List ℝ)} {g : List ℝ → R (List ℝ)} (h : AccL u X Y)
    (hf : ∀ C L, AccV u C L → AccL u (fun e => f e (C e)) (g L)) : AccL u (fun e => X e >>= f e) (Y >>= g) := by
  rcases h with ⟨er, rfl, h⟩ | ⟨L, C, rfl, h, hC⟩
  · exact .inl ⟨er, rfl, fun e => by simp only [h]; rfl⟩
  · have : (fun e => X e >>= f e) = fun e => f e (C e) := funext fun e => by rw [h]; rfl
    rw [this]
    exact hf C L hC

theorem bind_acc {α : Type} {r : R α} {f : ι → α → R (List ℝ)} {g : α → R (List ℝ)} (h : ∀ x, AccL u (fun e => f e x) (g x)) :
    AccL u (fun e => r.bind (f e)) (r.bind g) := by
  cases r with
  | error e => exact .error e
  | ok x => exact h x

theorem ite_acc {p : Prop} [Decidable p] {X X' : ι → R (List ℝ)} {Y Y' : R (List ℝ)} (h : p → AccL u X Y) (h' : ¬p → AccL u X' Y') :
    AccL u (fun e => if p then X e else X' e) (if p then Y else Y') := by
  by_cases hp : p
  · simp only [hp, if_true]; exact h hp
  · simp only [hp, if_false]; exact h' hp

theorem loop_acc {α : Type} {l : List α} {f : ι → α → List ℝ → R (List ℝ)} {g : α → List ℝ → R (List ℝ)}
    (h : ∀ x C L, AccV u C L → AccL u (fun e => f e x (C e)) (g x L)) {C : ι → List ℝ} {L : List ℝ} (hC : AccV u C L) :
    AccL u (fun e => loop l (f e) (C e)) (loop l g L) := by
  induction l generalizing C L with
  | nil => exact .ok hC
  | cons x l ih => exact step_acc (h x C L hC) fun C L hC => ih hC

theorem addFl_acc (H : Roundings u η rd) {C : ι → List ℝ} {L : List ℝ} (hC : AccV u C L) {idx : ℕ} {x : ι → ℝ} {y : ℝ} (hx : Acc u x y) :
    AccL u (fun e => addFl (rd e) (C e) idx (x e)) (addAt L idx y) := by
  unfold addFl addAt
  by_cases h : idx < L.length
  · rw [if_pos h]
    have : (fun e => if idx < (C e).length then (.ok ((C e).modify idx fun r => rd e (r + x e)) : R (List ℝ)) else .error .index) =
        fun e => .ok ((C e).modify idx fun r => rd e (r + x e)) := funext fun e => by rw [if_pos (by rwa [hC.1 e])]
    rw [this]
    refine .ok ⟨fun e => by simp [hC.1 e], fun k => ?_⟩
    by_cases hk : k < L.length
    · have h1 : ∀ e, k < (C e).length := fun e => by rwa [hC.1 e]
      have hk' := hC.2 k
      simp only [List.getD_eq_getElem?_getD, List.getElem?_modify, List.getElem?_eq_getElem (h1 _), List.getElem?_eq_getElem hk, Option.getD_some] at hk' ⊢
      by_cases e1 : idx = k
      · simp only [e1, if_true]
        exact (hk'.add hx).round H
      · simp only [e1, if_false]
        exact hk'
    · have h1 : ∀ e, (C e).length ≤ k := fun e => by rw [hC.1 e]; omega
      simp only [List.getD_eq_getElem?_getD, List.getElem?_modify, List.getElem?_eq_none (h1 _), List.getElem?_eq_none (not_lt.1 hk)]
      exact .const _
  · rw [if_neg h]
    have : (fun e => if idx < (C e).length then (.ok ((C e).modify idx fun r => rd e (r + x e)) : R (List ℝ)) else .error .index) =
        fun e => .error .index := funext fun e => by rw [if_neg (by rwa [hC.1 e])]
    rw [this]
    exact .error _

theorem tryAddFl_acc (H : Roundings u η rd) {C : ι → List ℝ} {L : List ℝ} (hC : AccV u C L) {idx : R ℕ} {x : ι → ℝ} {y : ℝ} (hx : Acc u x y) :
    AccL u (fun e => tryAddFl (rd e) idx (C e) (x e)) (tryAdd idx L y) := by
  unfold tryAddFl tryAdd
  rcases idx with er | k
  · cases er <;> first | exact .ok hC | exact .error _
  · exact addFl_acc H hC hx

"""


def prf(s):
    """The proof that an expression is accurate."""
    s = s.strip()
    d, ops = 0, []
    for i, c in enumerate(s):
        d += (c == '(') - (c == ')')
        if d == 0 and c in '*/':
            ops.append(i)
    if not ops:
        if s[0] == '(' and s[-1] == ')':
            t = s[1:-1]
            if re.fullmatch(r'\w+ : ℝ|1 / 2', t):
                return '(.const _)'
            m = re.fullmatch(r'(T\w+)((?: \w+)+)', t)
            if m:
                return f'(h{m[1]}' + ' _' * len(m[2].split()) + ')'
            return prf(t)
        assert False, s
    i = ops[-1]
    a, b = s[:i].strip(), s[i + 1:].strip()
    if s[i] == '*':
        return f'(H.mul {prf(a)} {prf(b)})'
    return f'(H.div {prf(a)} _)'


terms = [HEAD]
names = []
for name, bd in re.findall(r'def ([gu]_\w+) .*?:=\n(.*?)\n\n', exp, re.S):
    names.append(name)
    g = name[0] == 'g'
    a = 'basis ref iocc ivir' if g else 'basis refa refb noa nva nob nvb'
    ts = ['T1', 'T2'] if g else ['T1a', 'T1b', 'T2aa', 'T2ab', 'T2bb']
    v = '(basis : List (Option Dstring)) (ref : Dstring) (iocc ivir : List ℕ)' if g else '(basis : List Pair) (refa refb : Dstring) (noa nva nob nvb : ℕ)'
    hy = ''
    for t in ts:
        n = t[1]
        n = {'1': '2', '2': '4'}[n]
        ty = 'ℕ → ' * int(n) + 'ℝ'
        hy += f' {{{t} : ι → {ty}}} {{S{t[1:]} : {ty}}} (h{t} : Acc{n} u {t} S{t[1:]})'
    o = f'theorem {name}_acc (H : Roundings u η rd) {v}\n   {hy}\n    {{C : ι → List ℝ}} {{L : List ℝ}} (hC : AccV u C L) :\n    AccL u (fun e => {name} (rd e) {a} ' + ' '.join(f'({t} e)' for t in ts) + f' (C e)) (CI.{name} {a} ' + ' '.join(f'S{t[1:]}' for t in ts) + f' L) := by\n  unfold {name} CI.{name}\n'
    for ln in bd.split('\n'):
        ln = ln.strip()
        if ln.startswith('loop (enum'):
            o += '  refine loop_acc (fun x C L hC => ?_) hC\n  obtain ⟨_, _⟩ := x\n  dsimp only\n'
        elif ln.startswith('loop (List.range'):
            o += '  refine loop_acc (fun x C L hC => ?_) hC\n'
        elif ln.startswith('if '):
            o += '  refine ite_acc (fun _ => .ok hC) fun _ => ?_\n'
        elif '.excite ' in ln:
            rs = re.search(r'fun (\w+) =>', ln)[1]
            o += f'  refine bind_acc fun {rs} => ?_\n'
        elif ln.startswith('match '):
            mt = ln.split()[1]
        elif ln.startswith('| none => .ok C'):
            o += f'  rcases {mt} with _ | ⟨_, _⟩\n  · exact .ok hC\n  dsimp only\n'
        elif ln.startswith('| some'):
            pass
        else:
            m = re.match(r'\(index2? basis .*?\)\.bind fun idx => addAt C idx (\(.*)$', ln)
            assert m, ln
            e, d = re.sub(r'\bK\b', 'ℝ', m[1]), 0
            for i, c in enumerate(e):
                d += (c == '(') - (c == ')')
                if d == 0:
                    break
            o += f'  exact bind_acc fun idx => addFl_acc H hC {prf(e[:i + 1])}\n'
    terms.append(o + '\n')
terms.append('end CI.FlExp\nend\n')
open(D + 'Props/CIExpRoundTerms.lean', 'w').write(''.join(terms))


def stage_terms(fn):
    b = exp[exp.index(f'def {fn} '):]
    b = b[:b.index('\n  return C\n')]
    first, *rest = re.split(r'\(if order ≥ \d', b)
    f = lambda t: re.findall(r'← ((?:g|u)_\w+) ', t)
    return f(first), [f(r) for r in rest]


def main(fn):
    g = fn[0] == 'g'
    first, stages = stage_terms(fn)
    ts = ['T1', 'T2'] if g else ['T1a', 'T1b', 'T2aa', 'T2ab', 'T2bb']
    hh = ' '.join('h' + t for t in ts)
    t = lambda d: f'({d}_acc H{" _" * (4 if g else 7)} {hh} hC)'
    hy = ''
    for x in ts:
        n = {'1': '2', '2': '4'}[x[1]]
        ty = 'ℕ → ' * int(n) + 'ℝ'
        hy += f' {{{x} : ι → {ty}}} {{S{x[1:]} : {ty}}} (h{x} : Acc{n} u {x} S{x[1:]})'
    v = '(no nv order : ℕ) (occ? : Option (List ℤ))' if g else '(noa nva nob nvb order : ℕ)'
    a = 'no nv' if g else 'noa nva nob nvb'
    tl = 'order occ?' if g else 'order'
    te = ' '.join(f'({x} e)' for x in ts)
    ss = ' '.join('S' + x[1:] for x in ts)
    o = f'theorem {fn}_acc (H : Roundings u η rd) {v}\n   {hy} :\n    AccL u (fun e => {fn} (rd e) {a} {te} {tl}) (CI.{fn} {a} {ss} {tl}) := by\n  unfold {fn} CI.{fn}\n  dsimp only\n'
    o += '  with_reducible refine ite_acc (fun _ => throw_acc _) fun _ => ?_\n' * (1 if g else 2)
    o += '  with_reducible refine same_acc fun _ => ?_\n' * (2 if g else 3)
    o += '  with_reducible refine step_acc (.const _) fun C L hC => ?_\n'
    for d in first:
        o += f'  with_reducible refine step_acc {t(d)} fun C L hC => ?_\n'
    for q, st in enumerate(stages):
        last = q == len(stages) - 1
        o += '  with_reducible refine step_acc (X := fun e => _) ?_ fun C L hC => ?_\n  · ' if not last else '  '
        ind = '    ' if not last else '  '
        o += 'with_reducible refine ite_acc (fun _ => ?_) fun _ => pure_acc hC\n'
        for d in st[:-1]:
            o += f'{ind}with_reducible refine step_acc {t(d)} fun C L hC => ?_\n'
        o += f'{ind}with_reducible exact {t(st[-1])}\n'
    return o + '\n'


MAIN = r"""import Verif.Props.CIExpRoundTerms
/-!
# C101: coefficients from amplitudes in rounded arithmetic, the functions

Generated by tools/gen_ciexpfl.py.
-/
set_option linter.unusedVariables false
noncomputable section
namespace CI.FlExp
variable {ι : Type} {u : ι → ℝ} {η : ℝ} {rd : ι → ℝ → ℝ}

theorem throw_acc {α : Type} (er : Err) {f : ι → α → R (List ℝ)} {g : α → R (List ℝ)} : AccL u (fun e => (throw er : R α) >>= f e) ((throw er : R α) >>= g) := .error er

theorem same_acc {α : Type} {r : R α} {f : ι → α → R (List ℝ)} {g : α → R (List ℝ)} (h : ∀ x, AccL u (fun e => f e x) (g x)) :
    AccL u (fun e => r >>= f e) (r >>= g) := bind_acc h

theorem pure_acc {C : ι → List ℝ} {L : List ℝ} (h : AccV u C L) : AccL u (fun e => pure (C e)) (pure L) := .ok h

theorem AccL.const (Y : R (List ℝ)) : AccL u (fun _ => Y) Y := by
  cases Y with
  | error e => exact .error e
  | ok L => exact .ok ⟨fun _ => rfl, fun _ => .const _⟩

""" + main('gmakeCfromT') + main('makeCfromT') + 'end CI.FlExp\nend\n'
open(D + 'Props/CIExpRoundRun.lean', 'w').write(MAIN)
