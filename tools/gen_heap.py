#!/usr/bin/env python3
"""Transcribes the routines of cc_equations.py and cc_energy.py into the language of Verif/Model/Heap.lean.

One Lean definition `Heap.Prog.<name>` per Python function, one statement per Python statement, in the order of the source.
Names, attributes `F.vv` and tuple components `T1old.0` become numbers (listed in the comment of each definition); the parameters of a
definition are the names of the Python parameters, or the attributes and components of them, that the body (or a procedure it calls) uses.
Nothing is simplified: only docstrings are left out.  Any other syntax stops the script.
"""
import ast, os

OUT = os.path.join(os.path.dirname(__file__), '..', 'lean', 'Verif', 'Model', 'HeapProg.lean')
OUT2 = os.path.join(os.path.dirname(__file__), '..', 'lean', 'Verif', 'Props', 'HeapCC.lean')
funs = {}
order = []
for mod in ['cc_energy', 'cc_equations']:
    tree = ast.parse(open(f'/repo/cqcpy/{mod}.py').read())
    for f in tree.body:
        if isinstance(f, ast.FunctionDef):
            funs[f.name] = (mod, f); order.append(f.name)
        elif isinstance(f, ast.ClassDef):
            for g in f.body:
                assert isinstance(g, ast.FunctionDef) and g.name == '__init__'
                funs[f.name] = (mod, g); order.append(f.name)

def lname(n):
    return n.lstrip('_') + ('_proc' if n.startswith('_') else '')

done = {}

def lit(v):
    from fractions import Fraction
    q = Fraction(str(v))
    assert q > 0
    return f'.lit {q.numerator} {q.denominator}'

class Tr:
    def __init__(self, name):
        self.name = name
        self.mod, self.f = funs[name]
        self.pyparams = [a.arg for a in self.f.args.args]
        self.defaults = {}
        d = self.f.args.defaults
        for a, v in zip(self.pyparams[len(self.pyparams) - len(d):], d):
            self.defaults[a] = v
        self.nums = {}
        self.bound = set()      # names assigned in the body
        self.used = []          # free names (parameters and their parts)
        self.lines = []
        self.ret = []
    def num(self, n):
        if n not in self.nums:
            self.nums[n] = len(self.nums)
        return self.nums[n]
    def read(self, n):
        if n not in self.bound and n not in self.used:
            root = n.split('.')[0]
            assert root in self.pyparams, (self.name, n)
            self.used.append(n)
        return f'.var {self.num(n)}'
    def num_read(self, n):
        self.read(n); return self.num(n)
    def dotted(self, e):
        if isinstance(e, ast.Name): return e.id
        if isinstance(e, ast.Attribute) and isinstance(e.value, ast.Name): return e.value.id + '.' + e.attr
        return None
    def expr(self, e):
        d = self.dotted(e)
        if d is not None: return self.read(d)
        if isinstance(e, ast.Constant):
            assert isinstance(e.value, (int, float)); return lit(e.value)
        if isinstance(e, ast.UnaryOp):
            assert isinstance(e.op, ast.USub); return f'.neg ({self.expr(e.operand)})'
        if isinstance(e, ast.BinOp):
            op = {ast.Add: 'add', ast.Sub: 'sub', ast.Mult: 'mul'}[type(e.op)]
            return f'.bin .{op} ({self.expr(e.left)}) ({self.expr(e.right)})'
        if isinstance(e, ast.Call):
            if isinstance(e.func, ast.Name) and e.func.id == 'einsum':
                s = e.args[0]; assert isinstance(s, ast.Constant) and not e.keywords
                ops = e.args[1:]
                assert 2 <= len(ops) <= 5
                ins, to = s.value.replace(' ', '').split('->')
                il = lambda w: '[' + ', '.join(w) + ']'
                assert ins.count(',') + 1 == len(ops) and all(ch.isalpha() or ch == ',' for ch in ins + to)
                return f'.ein{len(ops)} {il([il(w) for w in ins.split(",")])} {il(to)} ' + ' '.join(f'({self.expr(a)})' for a in ops)
            if isinstance(e.func, ast.Attribute):
                at = e.func.attr
                assert not e.keywords
                if at == 'copy':
                    assert not e.args; return f'.copy ({self.expr(e.func.value)})'
                if at == 'astype':
                    assert len(e.args) == 1 and isinstance(e.args[0], ast.Attribute) and e.args[0].attr == 'dtype' and isinstance(e.args[0].value, ast.Name)
                    return f'.astype ({self.expr(e.func.value)}) {self.num_read(e.args[0].value.id)}'
                if at == 'transpose':
                    assert len(e.args) == 1
                    p = ', '.join(str(c.value) for c in e.args[0].elts)
                    return f'.transp [{p}] ({self.expr(e.func.value)})'
        raise Exception((self.name, ast.unparse(e)))
    def emit(self, s, node): self.lines.append((s, node.lineno))
    def callargs(self, call):
        g = done[call.func.id]
        actual = {}
        for p, a in zip(g.pyparams, call.args): actual[p] = a
        for k in call.keywords: actual[k.arg] = k.value
        out = []
        for u in g.params:
            root, _, suf = u.partition('.')
            a = actual.get(root)
            if a is None:
                assert not suf; out.append(lit(g.defaults[root].value)); continue
            if not suf: out.append(self.expr(a)); continue
            if isinstance(a, ast.Tuple): out.append(self.expr(a.elts[int(suf)])); continue
            assert isinstance(a, ast.Name)
            out.append(self.read(a.id + '.' + suf))
        return g, out
    def stmt(self, s):
        if isinstance(s, ast.Expr) and isinstance(s.value, ast.Constant): return
        if isinstance(s, ast.Expr) and isinstance(s.value, ast.Call):
            g, args = self.callargs(s.value)
            assert not g.ret
            self.emit(f'.callFun {lname(g.name)} [{", ".join(args)}] []', s); return
        if isinstance(s, ast.Assign):
            assert len(s.targets) == 1
            t = s.targets[0]
            if isinstance(t, ast.Tuple):
                assert isinstance(s.value, ast.Name)
                for i, x in enumerate(t.elts):
                    e = self.read(f'{s.value.id}.{i}')
                    self.bound.add(x.id)
                    self.emit(f'.assign {self.num(x.id)} ({e})', s)
                return
            x = self.dotted(t); assert x
            v = s.value
            if isinstance(v, ast.Call) and isinstance(v.func, ast.Name) and v.func.id != 'einsum':
                g, args = self.callargs(v)
                assert len(g.ret) == 1
                self.bound.add(x)
                self.emit(f'.callFun {lname(g.name)} [{", ".join(args)}] [{self.num(x)}]', s); return
            e = self.expr(v)
            self.bound.add(x)
            self.emit(f'.assign {self.num(x)} ({e})', s); return
        if isinstance(s, ast.AugAssign):
            x = self.dotted(s.target); assert x
            e = self.expr(s.value)
            self.read(x)
            op = {ast.Add: 'add', ast.Sub: 'sub'}[type(s.op)]
            self.emit(f'.aug {self.num(x)} .{op} ({e})', s); return
        if isinstance(s, ast.Delete):
            for t in s.targets: self.emit(f'.del {self.num(t.id)}', s)
            return
        if isinstance(s, ast.Return):
            def flat(e):
                if isinstance(e, ast.Tuple):
                    return [y for x in e.elts for y in flat(x)]
                return [e]
            self.ret = [self.expr(e) for e in flat(s.value)]; return
        raise Exception((self.name, ast.unparse(s)))
    def run(self):
        # number the parameters first, in the order of the signature: find them by a dry run
        dry = Tr0(self.name)
        self.params = dry
        for u in dry: self.num(u)
        for s in self.f.body: self.stmt(s)
        if self.name == 'lambda_int':
            self.ret = [f'.var {i}' for n, i in self.nums.items() if n.startswith('self.')]
        assert sorted(self.used) == sorted(dry)

def Tr0(name):
    t = Tr(name)
    for s in t.f.body: t.stmt(s)
    return sorted(t.used, key=lambda u: (t.pyparams.index(u.split('.')[0]), u))

def callees(name):
    return [n.func.id for n in ast.walk(funs[name][1]) if isinstance(n, ast.Call) and isinstance(n.func, ast.Name) and n.func.id in funs]

out = []
visited = []
def visit(name):
    if name in visited: return
    for c in callees(name): visit(c)
    visited.append(name)
skip = {'ccsd_pt_simple'}  # only raises
for name in order:
    if name not in skip: visit(name)
for name in visited:
    t = Tr(name); done[name] = t
    t.run()
    names = ', '.join(f'{i} {n}' for n, i in t.nums.items())
    o = [f'/-- cqcpy/{t.mod}.py:{t.f.lineno}-{t.f.end_lineno} (`{name}`).  Names: {names}. -/',
         f'def {lname(name)} : Fun where',
         f'  params := [{", ".join(str(t.nums[u]) for u in t.params)}]',
         f'  body := .block [']
    for i, (l, n) in enumerate(t.lines):
        o.append(f'    {l}{"," if i + 1 < len(t.lines) else ""} -- {n}')
    o.append('    ]')
    o.append(f'  ret := [{", ".join(t.ret)}]')
    out.append('\n'.join(o))

hdr = '''import Verif.Model.Heap
/-!
# The routines of `cc_energy.py` and `cc_equations.py` as array programs

Generated by `tools/gen_heap.py` from the Python syntax tree: every statement of every routine, in order.  `ccsd_pt_simple`, which only
raises, is left out.
-/

namespace Heap

/-- statements in sequence -/
def Stmt.block : List Stmt → Stmt
  | [] => .skip
  | s :: l => .seq s (.block l)

/-- the call of a routine, binding the returned values to `outs` -/
def Stmt.callFun (f : Fun) (args : List Ex) (outs : List ℕ) : Stmt := .call (f.params.zip args) f.body (outs.zip f.ret)

/-! index letters -/
namespace Letter
abbrev a : ℕ := 0
abbrev b : ℕ := 1
abbrev c : ℕ := 2
abbrev d : ℕ := 3
abbrev e : ℕ := 4
abbrev f : ℕ := 5
abbrev g : ℕ := 6
abbrev h : ℕ := 7
abbrev i : ℕ := 8
abbrev j : ℕ := 9
abbrev k : ℕ := 10
abbrev l : ℕ := 11
abbrev m : ℕ := 12
abbrev n : ℕ := 13
abbrev o : ℕ := 14
abbrev p : ℕ := 15
abbrev q : ℕ := 16
abbrev r : ℕ := 17
abbrev s : ℕ := 18
abbrev t : ℕ := 19
abbrev u : ℕ := 20
abbrev v : ℕ := 21
abbrev w : ℕ := 22
abbrev x : ℕ := 23
abbrev y : ℕ := 24
abbrev z : ℕ := 25
abbrev A : ℕ := 26
abbrev B : ℕ := 27
abbrev C : ℕ := 28
abbrev D : ℕ := 29
abbrev E : ℕ := 30
abbrev F : ℕ := 31
abbrev G : ℕ := 32
abbrev H : ℕ := 33
abbrev I : ℕ := 34
abbrev J : ℕ := 35
abbrev K : ℕ := 36
abbrev L : ℕ := 37
abbrev M : ℕ := 38
abbrev N : ℕ := 39
abbrev O : ℕ := 40
abbrev P : ℕ := 41
abbrev Q : ℕ := 42
abbrev R : ℕ := 43
abbrev S : ℕ := 44
abbrev T : ℕ := 45
abbrev U : ℕ := 46
abbrev V : ℕ := 47
abbrev W : ℕ := 48
abbrev X : ℕ := 49
abbrev Y : ℕ := 50
abbrev Z : ℕ := 51
end Letter

namespace Prog
open Letter

'''
open(OUT, 'w').write(hdr + '\n\n'.join(out) + '\n\nend Prog\nend Heap\n')

pub = [n for n in visited if not n.startswith('_')]
o = ['''import Verif.Model.HeapProg
import Verif.Props.HeapFun
/-!
# C42: the routines of `cc_energy.py` and `cc_equations.py` leave their arguments alone

Generated by `tools/gen_heap.py`.  Each theorem is the soundness theorem `chkFun_sound` applied to the routine, whose premise is computed
by the kernel; the routine is a fixed program, the theorem is about all its executions (`LeavesArguments`).
-/

namespace Heap
open Prog
''']
for n in pub:
    o.append(f'theorem C42_{n} : LeavesArguments {lname(n)} := chkFun_sound (by decide +kernel)')
o.append('''
/-- all arguments may be one and the same array -/
example (W : Type) (J : Interp W) (w : W) : ∃ rs M', ccsd_simple.run J (List.replicate ccsd_simple.params.length (0, [])) ⟨1, fun _ => w⟩ = some (rs, M') ∧
    M'.heap 0 = w := by
  obtain ⟨rs, M', h1, h2, -⟩ := C42_ccsd_simple W J ⟨1, fun _ => w⟩ (List.replicate ccsd_simple.params.length (0, [])) (by simp)
    (fun r hr => by rw [List.eq_of_mem_replicate hr]; exact Nat.one_pos)
  exact ⟨rs, M', h1, h2 0 Nat.one_pos⟩''')
o.append('\nend Heap\n')
open(OUT2, 'w').write('\n'.join(o))
print(len(visited), 'routines,', len(pub), 'public')
