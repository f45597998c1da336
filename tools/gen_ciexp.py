"""Generate lean/Verif/Props/CIExpG.lean and CIExpU*.lean: for every loop of Model/CIExp.lean a proof that it adds to the coefficients
those of a product of cluster operators applied to the reference.  The statement of each lemma is obtained from the amplitudes
multiplied in the loop; the proofs follow the order of the statements of the loop.  Lean checks everything."""
import re
SRC = '/verif/lean/Verif/Model/CIExp.lean'
txt = open(SRC).read()
blocks = re.findall(r'def ([gu]_\w+) .*?:=\n(.*?)\n\n', txt, re.S)


def parse(name, body):
    g = name[0] == 'g'
    prog = []
    for ln in body.split('\n'):
        ln = ln.strip()
        m = re.match(r'loop \(enum (\w+)\) \(fun \((\w+), (\w+)\) C =>', ln)
        if m:
            prog.append(('loop', m[2], m[1], None, m[3])); continue
        m = re.match(r'loop \(List.range (\w+)\) \(fun (\w+) C =>', ln)
        if m:
            prog.append(('loop', m[2], m[1], None, m[2])); continue
        m = re.match(r"loop \(List.range' \((\w+) \+ 1\) \((\w+) - .*\(fun (\w+) C =>", ln)
        if m:
            prog.append(('loop', m[3], m[2], m[1], m[3])); continue
        m = re.match(r'if (\w+) ≤ (\w+) then', ln)
        if m:
            prog.append(('skip', m[1], m[2])); continue
        m = re.match(r'\((\w+)\.excite (\w+) (.*)\)\.bind fun (\w+) =>', ln)
        if m:
            v = re.match(r'\(?(\w+)', m[3])[1]
            prog.append(('exc', m[1], m[2], v, m[4])); continue
        m = re.match(r'match (\w+) with', ln)
        if m:
            prog.append(('match', m[1])); continue
        if ln.startswith('| none'):
            continue
        m = re.match(r'\| some \((\w+), (\w+)\) =>', ln)
        if m:
            prog.append(('some', m[1], m[2])); continue
        m = re.match(r'\(index2? basis (.*?)\)\.bind fun idx => addAt C idx (.*?)( C\))* C$', ln)
        if m:
            e = m[2]
            e = e[:-1] if e.count('(') < e.count(')') else e
            prog.append(('final', m[1], e)); continue
        raise Exception(ln)
    return prog


def run(name, body):
    g = name[0] == 'g'
    prog = parse(name, body)
    loops = [p for p in prog if p[0] == 'loop']
    skips = [p for p in prog if p[0] == 'skip']
    fin = prog[-1]
    facs = re.findall(r'\((T\w+) ([\w ]+?)\)', fin[2])
    facs = [(n, v.split()) for n, v in facs]
    const = '1'
    m = re.search(r'/ (\d+)\)$', fin[2])
    if m:
        const = '(1 / %s)' % m[1]
    elif '(1 / 2)' in fin[2]:
        const = '(1 / 2)'
    idx = [l[1] for l in loops]           # index names
    orb = {l[4]: l[1] for l in loops}     # orbital name -> index name
    rng = {l[1]: l[2] for l in loops}
    greater = {}                          # index -> smaller index
    for l in loops:
        if l[3]:
            greater[l[1]] = l[3]
    for s in skips:
        greater[orb[s[1]]] = orb[s[2]]
    # expected chains
    chain = {'a': [], 'b': []}
    for n, v in facs:
        if n[1] == '1':
            sp = n[2:] or 'a'
            chain[sp].append((v[1], v[0]))
        else:
            sp = n[2:] or 'aa'
            chain[sp[0]].append((v[2], v[0]))
            chain[sp[1]].append((v[3], v[1]))
            if sp[0] == sp[1]:
                assert greater.get(v[3]) == v[2] and greater.get(v[1]) == v[0], (name, n, v, greater)
    assert len(greater) == 2 * sum(1 for n, v in facs if n in ('T2', 'T2aa', 'T2bb'))
    def O(i): return 'iocc.getD %s 0' % i if g else None
    def op(sp, i, a):
        if g:
            return 'E (iocc.getD %s 0) (ivir.getD %s 0)' % (i, a)
        u = 'up' if sp == 'a' else 'dn'
        return 'E (%s %s) (%s (%s + no%s))' % (u, i, u, a, sp)
    def coef(n, v):
        if n == 'T2':
            return 'triG iocc ivir T2 ' + ' '.join(v)
        if n in ('T2aa', 'T2bb'):
            return 'tri %s ' % n + ' '.join(v)
        return n + ' ' + ' '.join(v)
    c = ' * '.join('(%s)' % coef(n, v) for n, v in facs)
    y = '(%s : K) * (%s)' % (const, c) if const != '1' else c
    ref = 'det (ofR)'
    vec = '(det R)' if g else '(det (uref noa nob))'
    for sp in ('b', 'a'):
        for i, a in chain[sp]:
            vec = '(%s %s)' % (op(sp, i, a), vec)
    rr = {i: ('iocc.length' if rng[i] == 'iocc' else 'ivir.length') if g else rng[i] for i in idx}
    nest = ' '.join('∑ %s ∈ Finset.range %s,' % (i, 'noa' if False else rr[i]) for i in idx) + ' (%s) • %s' % (y, vec)
    # operator side
    if g:
        opn = {'T1': '(oT1 iocc ivir T1)', 'T2': '(oT2 iocc ivir T2)'}
        head = '%s B (ofSet n R) iocc ivir T1 T2' % name
        L = 'L'
    else:
        opn = {'T1a': '(oT1a noa nva T1a)', 'T1b': '(oT1b nob nvb T1b)', 'T2aa': '(oT2aa noa nva T2aa)',
               'T2bb': '(oT2bb nob nvb T2bb)', 'T2ab': '(oT2ab noa nva nob nvb T2ab)'}
        head = '%s B (ofSet (noa + nva) (Finset.range noa)) (ofSet (nob + nvb) (Finset.range nob)) noa nva nob nvb T1a T1b T2aa T2ab T2bb' % name
        L = 'L'
    v = 'det R' if g else 'det (uref noa nob)'
    ops = '%s' % v
    for n, _ in facs:
        ops = '%s (%s)' % (opn[n], ops)
    if const != '1':
        ops = '%s • %s' % ('(%s : K)' % const[1:-1], ops)
    nexc = sum(1 for p in prog if p[0] == 'exc')
    o = ''
    o += 'theorem add_%s (ho : %d ≤ order) :\n    Adds (%s) (%s)\n      (%s) := by\n' % (name, nexc, L, head, ops)
    o += '  have key : Adds (%s) (%s)\n      (%s) := by\n' % (L, head, nest)
    o += '    unfold %s\n' % name
    ind = 4
    hyp = {}
    k = 0
    def zero(i):
        # all coefficients containing the pair (greater i) vanish
        for n, v in facs:
            if n == 'T2' and i in (v[3], v[1]):
                lem = 'triG_i' if i == v[3] else 'triG_a'
            elif n in ('T2aa', 'T2bb') and i in (v[3], v[1]):
                lem = 'tri_i' if i == v[3] else 'tri_a'
            else:
                continue
            args = '_ _ _ h' if lem.endswith('_i') else '_ _ _ h'
            return 'simp only [%s %s, mul_zero, zero_mul, zero_smul, Finset.sum_const_zero]' % (lem, args)
        raise Exception
    body_prog = prog[:]
    while body_prog[0][0] in ('loop', 'skip'):
        p = body_prog.pop(0)
        sp = ' ' * ind
        if p[0] == 'loop' and p[3] is None:
            if g:
                o += sp + 'refine Adds.loop_enum fun %s h%s => ?_\n' % (p[1], p[1])
                o += sp + 'change Adds _ (fun C => _) _\n'
            else:
                o += sp + 'refine Adds.loop_range fun %s h%s => ?_\n' % (p[1], p[1])
        elif p[0] == 'loop':
            o += sp + 'refine Adds.loop_lt (fun %s g%s h%s => ?_) (fun %s h => by %s)\n' % (p[1], p[1], p[1], p[1], zero(p[1]))
        else:
            i = orb[p[1]]
            o += sp + 'refine Adds.ite (fun g%s => ?_) (fun h => by %s)\n' % (i, zero(i))
    sp = ' ' * ind
    o += sp + 'intro c\n'
    cnt = [0]

    def tri_rw():
        r = []
        for n, v in facs:
            if n == 'T2':
                r.append('triG_pos T2 g%s g%s' % (v[3], v[1]))
            elif n in ('T2aa', 'T2bb'):
                r.append('tri_pos %s g%s g%s' % (n, v[3], v[1]))
        return r

    def gen(prog, ind, env, res, fail):
        """env: string variable -> (spin, state hypothesis or None); res: result var -> (spin, outcome)"""
        sp = ' ' * ind
        p = prog[0]
        if p[0] == 'exc':
            spin, st, pairs = env[p[1]]
            i, a = orb[p[2]], orb[p[3]]
            cnt[0] += 1
            q = cnt[0]
            if g:
                step = '%s.step hR (ho\' %s h%s) (hv\' %s h%s) (hn\' %s h%s)' % (st, i, i, a, a, a, a)
            else:
                step = '%s.step h%s h%s' % (st, i, a)
            out = sp + 'rcases %s with ⟨e%d, z%d⟩ | ⟨s%d, S%d, e%d, st%d⟩\n' % (step, q, q, q, q, q, q)
            env1 = dict(env)
            r1 = dict(res); r1[p[4]] = ('none', 'z%d' % q, spin)
            out += sp + '· simp only [e%d, Except.bind]\n' % q
            out += gen(prog[1:], ind + 2, env, r1, fail)
            r2 = dict(res); r2[p[4]] = ('some', 'st%d' % q, spin, pairs + [(i, a)])
            out += sp + '· simp only [e%d, Except.bind]\n' % q
            out += gen(prog[1:], ind + 2, env, r2, fail)
            return out
        if p[0] == 'match':
            r = res[p[1]]
            if r[0] == 'none':
                z = r[1]
                s = sp + 'refine skip_tab ?_ c\n'
                s += sp + 'simp only [Module.End.mul_apply, Module.End.one_apply] at %s\n' % z
                if not g:
                    s += sp + 'unfold uref\n'
                if not g and r[2] == 'a':
                    s += sp + 'simp only [E_up_dn, %s, map_zero, smul_zero]\n' % z
                else:
                    s += sp + 'simp only [%s, map_zero, smul_zero]\n' % z
                return s
            q = prog[1]
            assert q[0] == 'some'
            env = dict(env)
            env[q[2]] = (r[2], r[1], r[3])
            return gen(prog[2:], ind, env, res, fail)
        if p[0] == 'final':
            args = p[1].split()
            rw = tri_rw()
            rws = sp + 'rw [%s]\n' % ', '.join(rw) if rw else ''
            if g:
                assert env[args[0]][2] == chain['a'], (name, env[args[0]][2], chain)
                return rws + sp + 'exact leafL hB hL %s ho _ rfl (by push_cast; ring) c\n' % env[args[0]][1]
            assert env[args[0]][2] == chain['a'] and env[args[1]][2] == chain['b'], (name, env, chain)
            return rws + sp + 'exact leafUL hB hL %s %s (by omega) _ rfl (by push_cast; ring) c\n' % (env[args[0]][1], env[args[1]][1])
        raise Exception(p)
    if g:
        env0 = {'ref': ('a', '(GSt.ref (K := K) hR)', [])}
    else:
        env0 = {'refa': ('a', '(ASt.ref (K := K) noa nva)', []), 'refb': ('b', '(BSt.ref (K := K) nob nvb)', [])}
    o += gen(body_prog, 4, env0, {}, False)
    o += '  refine key.congr ?_\n'
    names = ['oT1', 'oT2'] if g else sorted(set('o' + n for n, _ in facs))
    o += '  simp only [%s, LinearMap.sum_apply, LinearMap.smul_apply, Module.End.mul_apply, map_sum, map_smul, Finset.smul_sum, smul_smul%s]\n' % (
        ', '.join(sorted(set('o' + n for n, _ in facs))), '' if g else ', E_dn_up')
    cur = []
    for n, v in facs:
        cur += [v[1], v[0]] if n[1] == '1' else [v[2], v[3], v[0], v[1]]
    assert sorted(cur) == sorted(idx)
    for p in range(len(idx)):
        q = cur.index(idx[p])
        while q > p:
            t = 'Finset.sum_comm'
            for _ in range(q - 1):
                t = 'Finset.sum_congr rfl fun _ _ => ' + t
            o += '  refine Eq.trans (%s) ?_\n' % t
            cur[q - 1], cur[q] = cur[q], cur[q - 1]
            q -= 1
    if len(facs) == 1:
        return o + '\n'
    o += '  refine %s?_\n' % ''.join('Finset.sum_congr rfl fun _ _ => ' for _ in idx)
    o += '  first | rfl | (congr 1; ring)\n'
    return o + '\n'


HEAD_G = '''import Verif.Props.CIExpLoc
/-!
# C37: the loops of `gmakeCfromT`

Generated by tools/gen_ciexp.py.
-/
set_option linter.unusedSectionVars false
set_option linter.unusedVariables false
set_option linter.unusedSimpArgs false
set_option linter.unreachableTactic false
set_option linter.unusedTactic false
namespace CI
open Fock
variable {K : Type} [Field K] [CharZero K] {n order : ℕ} {R : Finset ℕ} {B : List (Option Dstring)} {L : List (Finset ℕ)} (hB : Locates n B L)
  (hL : FullG L R n order) (hR : R ⊆ Finset.range n) {iocc ivir : List ℕ} (ho' : ∀ i, i < iocc.length → iocc.getD i 0 ∈ R)
  (hv' : ∀ a, a < ivir.length → ivir.getD a 0 ∉ R) (hn' : ∀ a, a < ivir.length → ivir.getD a 0 < n)
  (T1 : ℕ → ℕ → K) (T2 : ℕ → ℕ → ℕ → ℕ → K)
include hB hL hR ho' hv' hn'

'''
HEAD_U = '''import Verif.Props.CIExpLoc
/-!
# C37: the loops of `makeCfromT`

Generated by tools/gen_ciexp.py.
-/
set_option linter.unusedSectionVars false
set_option linter.unusedVariables false
set_option linter.unusedSimpArgs false
set_option linter.unreachableTactic false
set_option linter.unusedTactic false
namespace CI
open Fock
variable {K : Type} [Field K] [CharZero K] {noa nva nob nvb order : ℕ} {B : List Pair} {L : List (Finset SO)}
  (hB : PLocates (noa + nva) (nob + nvb) B L) (hL : Full L noa (noa + nva) nob (nob + nvb) order)
  (T1a T1b : ℕ → ℕ → K) (T2aa T2ab T2bb : ℕ → ℕ → ℕ → ℕ → K)
include hB hL

'''
import sys
out = {'G': HEAD_G, 'U': HEAD_U, 'U4': HEAD_U}
for name, body in blocks:
    if name in ('gmakeCfromT', 'makeCfromT'):
        continue
    key = 'G' if name[0] == 'g' else ('U4' if body.count('.excite') == 4 else 'U')
    out[key] += run(name, body)
for k, v in out.items():
    open('/verif/lean/Verif/Props/CIExp%s.lean' % k, 'w').write(v + 'end CI\n')
