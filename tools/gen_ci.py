"""Generate lean/Verif/Model/CIExp.lean from gmakeCfromT and makeCfromT of cqcpy/ci_utils.py.

The two functions consist of a prologue and a sequence of nested loops.  Each top-level loop becomes one Lean definition,
translated statement by statement; the prologues are written by hand below and the script checks that the remaining
statements have the expected form.
"""
import ast
SRC = '/repo/cqcpy/ci_utils.py'
OUT = '/verif/lean/Verif/Model/CIExp.lean'
src = open(SRC).read()
tree = ast.parse(src)
lines = src.split('\n')
fns = {f.name: f for f in tree.body if isinstance(f, ast.FunctionDef)}


def expr(e):
    if isinstance(e, ast.BinOp):
        op = {ast.Mult: '*', ast.Add: '+', ast.Div: '/'}[type(e.op)]
        return '(%s %s %s)' % (expr(e.left), op, expr(e.right))
    if isinstance(e, ast.Constant):
        v = e.value
        if v == 0.5:
            return '(1 / 2)'
        assert v == int(v)
        return '%d' % int(v)
    if isinstance(e, ast.Name):
        if e.id[0] == 's':
            return '(%s : K)' % e.id
        return e.id
    if isinstance(e, ast.Subscript):
        assert isinstance(e.slice, ast.Tuple)
        return '(%s %s)' % (e.value.id, ' '.join(x.id for x in e.slice.elts))
    raise Exception(ast.dump(e))


def nexpr(e):
    if isinstance(e, ast.Name):
        return e.id
    assert isinstance(e, ast.BinOp) and isinstance(e.op, ast.Add)
    return '(%s + %s)' % (e.left.id, e.right.id)


def is_none_test(t, op):
    return isinstance(t, ast.Compare) and isinstance(t.ops[0], op) and t.comparators[0].value is None


def body(stmts, ind, pend, known, g):
    """pend: list of (resultvar, signvar, strvar) results not yet tested; known: strings known not None"""
    s = stmts[0]
    sp = ' ' * ind
    if isinstance(s, ast.For):
        assert len(stmts) == 1 and not pend
        return loop(s, ind, known, g)
    if isinstance(s, ast.If) and isinstance(s.test, ast.Compare) and isinstance(s.test.ops[0], ast.LtE):
        assert isinstance(s.body[0], ast.Continue) and not pend
        return '%sif %s ≤ %s then .ok C else\n' % (sp, s.test.left.id, s.test.comparators[0].id) + body(stmts[1:], ind, pend, known, g)
    if isinstance(s, ast.Assign) and isinstance(s.targets[0], ast.Tuple):
        sv, dv = [x.id for x in s.targets[0].elts]
        c = s.value
        assert c.func.attr == 'excite'
        recv = c.func.value.id
        assert recv in known and recv not in [p[2] for p in pend], (recv, known, s.lineno)
        r = 'r' + sv
        out = '%s(%s.excite %s %s).bind fun %s =>\n' % (sp, recv, nexpr(c.args[0]), nexpr(c.args[1]), r)
        return out + body(stmts[1:], ind, [p for p in pend if p[2] != dv] + [(r, sv, dv)], known - {dv}, g)
    if isinstance(s, ast.If) and is_none_test(s.test, ast.Is):
        assert isinstance(s.body[0], ast.Continue) and len(s.body) == 1 and not s.orelse
        v = s.test.left.id
        p = [x for x in pend if x[2] == v]
        assert len(p) == 1
        p = p[0]
        out = '%smatch %s with\n%s| none => .ok C\n%s| some (%s, %s) =>\n' % (sp, p[0], sp, sp, p[1], p[2])
        return out + body(stmts[1:], ind + 2, [x for x in pend if x != p], known | {v}, g)
    if isinstance(s, ast.If):
        assert len(stmts) == 1 and not s.orelse
        tests = s.test.values if isinstance(s.test, ast.BoolOp) else [s.test]
        vs = [t.left.id for t in tests]
        assert all(is_none_test(t, ast.IsNot) for t in tests)
        known = set(known)
        ps = [x for x in pend]
        assert set(p[2] for p in ps) <= set(vs), s.lineno
        assert all(v in known or v in [p[2] for p in ps] for v in vs)
        out = ''
        n = ind
        for p in ps:
            out += '%smatch %s with\n%s| none => .ok C\n%s| some (%s, %s) =>\n' % (' ' * n, p[0], ' ' * n, ' ' * n, p[1], p[2])
            n += 2
            known |= {p[2]}
        a, b = s.body
        assert a.targets[0].id == 'idx' and a.value.func.attr == 'index' and isinstance(b, ast.AugAssign) and isinstance(b.op, ast.Add)
        arg = a.value.args[0]
        if g:
            ix = 'index basis %s' % arg.id
            assert arg.id in known
        else:
            assert all(x.id in known for x in arg.elts)
            ix = 'index2 basis %s %s' % tuple(x.id for x in arg.elts)
        assert b.target.value.id == 'C' and b.target.slice.id == 'idx'
        out += '%s(%s).bind fun idx => addAt C idx %s\n' % (' ' * n, ix, expr(b.value))
        return out
    raise Exception(ast.dump(s))


def loop(f, ind, known, g):
    sp = ' ' * ind
    if g:
        x, y = f.target.elts
        assert f.iter.func.id == 'enumerate'
        hd = 'loop (enum %s) (fun (%s, %s) C =>\n' % (f.iter.args[0].id, x.id, y.id)
    else:
        args = f.iter.args
        assert f.iter.func.id == 'range'
        if len(args) == 1:
            r = 'List.range %s' % args[0].id
        else:
            lo = args[0]
            assert lo.right.value == 1
            r = "List.range' (%s + 1) (%s - (%s + 1))" % (lo.left.id, args[1].id, lo.left.id)
        hd = 'loop (%s) (fun %s C =>\n' % (r, f.target.id)
    b = body(f.body, ind + 2, [], known, g).rstrip('\n')
    return '%s%s%s) C\n' % (sp, hd, b)


def blocks(fn, g):
    res = []   # (order, name, For)
    def walk(stmts, order):
        for s in stmts:
            if isinstance(s, ast.For):
                res.append((order, s))
            elif isinstance(s, ast.If) and isinstance(s.test, ast.Compare) and isinstance(s.test.ops[0], ast.GtE) and s.test.comparators[0].value <= 4:
                walk(s.body, s.test.comparators[0].value)
    walk(fn.body, 1)
    return res


out = '''import Verif.Model.CI
/-!
# Model of `gmakeCfromT` and `makeCfromT` (cqcpy/ci_utils.py:418-1269)

Generated by tools/gen_ci.py from the source, one definition per top-level loop.
-/
namespace CI
set_option linter.unusedVariables false
variable {K : Type} [Field K]

'''
calls = {}
for fn, g, args, params in [
        ('gmakeCfromT', True, 'basis ref iocc ivir T1 T2',
         '(basis : List (Option Dstring)) (ref : Dstring) (iocc ivir : List ℕ) (T1 : ℕ → ℕ → K) (T2 : ℕ → ℕ → ℕ → ℕ → K)'),
        ('makeCfromT', False, 'basis refa refb noa nva nob nvb T1a T1b T2aa T2ab T2bb',
         '(basis : List Pair) (refa refb : Dstring) (noa nva nob nvb : ℕ) (T1a T1b : ℕ → ℕ → K)\n    (T2aa T2ab T2bb : ℕ → ℕ → ℕ → ℕ → K)')]:
    calls[fn] = {}
    for k, (order, f) in enumerate(blocks(fns[fn], g)):
        txt = ast.get_source_segment(src, f)
        # name from the amplitudes multiplied
        aug = [x for x in ast.walk(f) if isinstance(x, ast.AugAssign)]
        assert len(aug) == 1
        names = [x.value.id for x in ast.walk(aug[0].value) if isinstance(x, ast.Subscript)]
        names.sort()
        nm = ('g' if g else 'u') + '_' + '_'.join(names)
        known = {'ref'} if g else {'refa', 'refb'}
        out += '/-- cqcpy/ci_utils.py:%d-%d -/\n' % (f.lineno, f.end_lineno)
        out += 'def %s %s (C : List K) : R (List K) :=\n' % (nm, params)
        out += loop(f, 2, known, g) + '\n'
        calls[fn].setdefault(order, []).append('%s %s' % (nm, args))
ln = {k: (f.lineno, f.end_lineno) for k, f in fns.items()}


def stage(cs, ind):
    return ''.join(' ' * ind + 'let C ← %s C\n' % c for c in cs)


def func(cs):
    o = stage(cs[1], 2)
    for k in (2, 3, 4):
        o += '  let C ← (if order ≥ %d then (do\n' % k + stage(cs[k], 4) + '    return C) else return C : R (List K))\n'
    return o


out += '''/-- cqcpy/ci_utils.py:%d-%d (`gmakeCfromT`). -/
def gmakeCfromT (no nv : ℕ) (T1 : ℕ → ℕ → K) (T2 : ℕ → ℕ → ℕ → ℕ → K) (order : ℕ := 2) (occ? : Option (List ℤ) := none) :
    R (List K) := do
  let nmo := no + nv
  if order < 1 then throw .exception
  let basis ← (if order = 1 then gcis_basis nmo no
    else if order = 2 then gcisd_basis nmo no
    else if order = 3 then gcisdt_basis nmo no
    else if order = 4 then gcisdtq_basis nmo no
    else throw .exception : R (List (Option Dstring)))
  let occ := occ?.getD (aufbau (nmo / 2) no)
  let vir := virt occ
  let iocc := positions occ
  let ivir := positions vir
  let ref ← Dstring.new nmo occ
  let C : List K := List.replicate basis.length 0
  let C ← (if 0 < C.length then return C.set 0 1 else throw .index : R (List K))
''' % ln['gmakeCfromT'] + func(calls['gmakeCfromT']) + '''  return C

/-- cqcpy/ci_utils.py:%d-%d (`makeCfromT`). -/
def makeCfromT (noa nva nob nvb : ℕ) (T1a T1b : ℕ → ℕ → K) (T2aa T2ab T2bb : ℕ → ℕ → ℕ → ℕ → K) (order : ℕ := 2) :
    R (List K) := do
  let na := noa + nva
  let nb := nob + nvb
  if na ≠ nb then throw .assertion
  if order < 1 then throw .exception
  let basis ← (if order = 1 then ucis_basis na noa nob
    else if order = 2 then ucisd_basis na noa nob
    else if order = 3 then ucisdt_basis na noa nob
    else if order = 4 then ucisdtq_basis na noa nob
    else throw .exception : R (List Pair))
  let refa ← Dstring.new na (aufbau na noa)
  let refb ← Dstring.new nb (aufbau nb nob)
  let C : List K := List.replicate basis.length 0
  let C ← (if 0 < C.length then return C.set 0 1 else throw .index : R (List K))
''' % ln['makeCfromT'] + func(calls['makeCfromT']) + '''  return C

end CI
'''
open(OUT, 'w').write(out)
