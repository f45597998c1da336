#!/usr/bin/env python3
"""Generate lean/Verif/Model/SpinFin.lean (numeric-index model of spin_utils.py).

usage: gen_spin.py /repo/cqcpy lean/Verif/Model
"""
import re, sys
src=open(sys.argv[1]+'/spin_utils.py').read().split('\n')
out=[]
P=out.append
P('''/-
Numeric-index model of cqcpy/spin_utils.py, generated by tools/gen_spin.py.

An array is a function of natural-number indices, meaningful below its extents.  `X[l1:h1, ...] = A` is the
update `setSl2`/`setSl4` with explicit bounds (an omitted lower bound is 0, an omitted upper bound is the
extent of the axis).  Reading a slice shifts the indices and truncates\nto the extents of the slice (zero beyond, so that the extents of the result are visible).  Statements are in source order.
Not modelled: shape mismatch errors of numpy, and `numpy.zeros` having a real element type.
-/
import Verif.Model.Blocks
import Mathlib.Algebra.Ring.Defs

set_option linter.unusedVariables false
namespace CC.Num

variable {K : Type} [Field K]

/-- `X[l1:h1, l2:h2] = A` -/
def setSl2 (l1 h1 l2 h2 : ℕ) (A X : ℕ → ℕ → K) : ℕ → ℕ → K := fun x y =>
  if l1 ≤ x ∧ x < h1 ∧ l2 ≤ y ∧ y < h2 then A (x - l1) (y - l2) else X x y

/-- `X[l1:h1, l2:h2, l3:h3, l4:h4] = A` -/
def setSl4 (l1 h1 l2 h2 l3 h3 l4 h4 : ℕ) (A X : ℕ → ℕ → ℕ → ℕ → K) : ℕ → ℕ → ℕ → ℕ → K := fun x y z w =>
  if l1 ≤ x ∧ x < h1 ∧ l2 ≤ y ∧ y < h2 ∧ l3 ≤ z ∧ z < h3 ∧ l4 ≤ w ∧ w < h4
  then A (x - l1) (y - l2) (z - l3) (w - l4) else X x y z w

/-- `X[l1:h1, l2:h2]`: an array of extents `h1 - l1`, `h2 - l2`, padded with zeros. -/
def getSl2 (l1 h1 l2 h2 : ℕ) (X : ℕ → ℕ → K) : ℕ → ℕ → K := fun x y =>
  if l1 + x < h1 ∧ l2 + y < h2 then X (l1 + x) (l2 + y) else 0

/-- `X[l1:h1, l2:h2, l3:h3, l4:h4]`, likewise. -/
def getSl4 {K : Type} [Zero K] (l1 h1 l2 h2 l3 h3 l4 h4 : ℕ) (X : ℕ → ℕ → ℕ → ℕ → K) : ℕ → ℕ → ℕ → ℕ → K := fun x y z w =>
  if l1 + x < h1 ∧ l2 + y < h2 ∧ l3 + z < h3 ∧ l4 + w < h4 then X (l1 + x) (l2 + y) (l3 + z) (l4 + w) else 0
''')
names='xyzw'
def getfn(name):
    s=[i for i,l in enumerate(src) if l.startswith('def %s('%name)][0]
    e=s+1
    while e<len(src) and (src[e].startswith(' ') or src[e].strip()==''): e+=1
    while src[e-1].strip()=='': e-=1
    # join continuation lines
    lines=[];cur='';ln=0
    for k in range(s,e):
        l=src[k].split('#')[0].rstrip()
        if not l.strip(): continue
        if not cur: ln=k+1
        cur+=(' ' if cur else '')+l.strip()
        if cur.count('(')==cur.count(')') and cur.count('[')==cur.count(']'):
            lines.append((ln,cur));cur=''
    return s+1,e,lines
def perm(p,neg,body):
    j=[None]*len(p)
    for k in range(len(p)): j[p[k]]=names[k]
    v=' '.join(names[:len(p)])
    return '(fun %s => %s%s %s)'%(v,'-' if neg else '',body,' '.join(j))
def rhs(e):
    e=e.replace('.copy()','').strip()
    if ' - ' in e:
        a,b=e.split(' - ')
        return '(fun x y z w => %s x y z w - %s x y z w)'%(rhs(a),rhs(b))
    neg=e.startswith('-')
    if neg: e=e[1:]
    m=re.match(r'([\w.]+)(?:\.transpose\(\((.*?)\)\))?$',e)
    if m.group(2) is None:
        assert not neg
        return m.group(1)
    return perm([int(t) for t in m.group(2).split(',')],neg,m.group(1))
def readslice(e):
    neg=e.startswith('-')
    if neg:e=e[1:]
    e=e.replace('.copy()','')
    m=re.match(r'([\w.]+)\[(.*?)\](?:\.transpose\(\((.*?)\)\))?$',e)
    arr=m.group(1); sl=[t.strip() for t in m.group(2).split(',')]
    kinds=arr.split('.')[1] if '.' in arr else {2:'vo',4:'vvoo'}[len(sl)]
    b=[]
    for t,k in zip(sl,kinds):
        lo,hi=t.split(':')
        b+=[lo or '0',hi or '(n%sa + n%sb)'%(k,k)]
    g='getSl%d %s %s'%(len(sl),' '.join(b),arr)
    if m.group(3) is None:
        assert not neg
        return g
    return perm([int(t) for t in m.group(3).split(',')],neg,'('+g+')')
A2='ℕ → ℕ → K'; A4='ℕ → ℕ → ℕ → ℕ → K'
sig={
'F_to_spin':('(Faa Fbb : OneE ℕ ℕ K) (noa nva nob nvb : ℕ)','OneE ℕ ℕ K'),
'F_to_spatial':('(F : OneE ℕ ℕ K) (noa nva nob nvb : ℕ)','OneE ℕ ℕ K × OneE ℕ ℕ K'),
'T1_to_spin':('(Ta Tb : %s) (noa nva nob nvb : ℕ)'%A2,A2),
'T1_to_spatial':('(T : %s) (noa nva nob nvb : ℕ)'%A2,'(%s) × (%s)'%(A2,A2)),
'T2_to_spin':('(Taa Tab Tbb : %s) (noa nva nob nvb : ℕ)'%A4,A4),
'D2_to_spin':('(Daa Dab Dbb : %s) (noa nva nob nvb : ℕ)'%A4,A4),
'T2_to_spatial':('(T : %s) (noa nva nob nvb : ℕ)'%A4,'(%s) × (%s) × (%s)'%(A4,A4,A4)),
'int_to_spin_block':('(aaaa bbbb abab baba abba baab : %s) (na1 na2 na3 na4 nb1 nb2 nb3 nb4 : ℕ)'%A4,A4),
'int_to_spin':('(I_aaaa I_bbbb I_abab : TwoEFull ℕ ℕ ℕ ℕ K) (noa nva nob nvb : ℕ)','TwoE ℕ ℕ K'),
'int_to_spin2':('(I_aaaa I_bbbb : TwoE ℕ ℕ K) (I_abab : TwoEFull ℕ ℕ ℕ ℕ K) (noa nva nob nvb : ℕ)','TwoE ℕ ℕ K'),
'int_to_spatial':('(I : TwoE ℕ ℕ K) (noa nob nva nvb : ℕ)','TwoE ℕ ℕ K × TwoE ℕ ℕ K × TwoEFull ℕ ℕ ℕ ℕ K'),
}
for fn in sig:
    s,e,lines=getfn(fn)
    ar=re.match(r'def \w+\((.*)\):',lines[0][1]).group(1).replace(' ','').split(',')
    got=re.findall(r'\w+',' '.join(t.split(':')[0] for t in re.findall(r'\(([^()]*?:)',sig[fn][0])))
    assert got==ar,(fn,got,ar)
    P('/-- `%s`, spin_utils.py:%d-%d. -/'%(fn,s,e))
    P('def %s %s :\n    %s :='%(fn,sig[fn][0],sig[fn][1]))
    ext={}
    for ln,l in lines[1:]:
        m=re.match(r'return (.*)$',l)
        if m:
            r=m.group(1)
            mm=re.match(r'(one_e_blocks|two_e_blocks|two_e_blocks_full)\((.*)\)$',r)
            if mm:
                a=[t.strip() for t in mm.group(2).split(',')]
                if mm.group(1)=='one_e_blocks':
                    assert len(a)==4
                    P('  { oo := %s, ov := %s, vo := %s, vv := %s }'%tuple(a))
                else:
                    P('  { '+', '.join('%s := %s'%tuple(t.split('=')) for t in a)+' }')
            else:
                r=r.strip('()') if r.startswith('(') else r
                P('  (%s)'%r if ',' in r else '  '+r)
            continue
        m=re.match(r'(\w+) = numpy\.zeros\(\((.*)\)\)$',l)
        if m:
            x=m.group(1);d=[t.strip() for t in m.group(2).split(',')]
            ext[x]=d
            P('  let %s : %s := fun %s => 0  -- L%d'%(x,A2 if len(d)==2 else A4,' '.join('_' for _ in d),ln)); continue
        m=re.match(r'(\w+)\[(.*?)\] = (.*)$',l)
        if m:
            x=m.group(1);sl=[t.strip() for t in m.group(2).split(',')]
            b=[]
            for t,d in zip(sl,ext[x]):
                lo,hi=t.split(':'); b+= [lo or '0',hi or d]
            P('  let %s := setSl%d %s %s %s  -- L%d'%(x,len(sl),' '.join(b),rhs(m.group(3)),x,ln)); continue
        m=re.match(r'(\w+) = (\w+ \+ \w+)$',l)
        if m: P('  let %s := %s  -- L%d'%(m.group(1),m.group(2),ln)); continue
        m=re.match(r'(\w+) = int_to_spin_block\((.*)\)$',l)
        if m:
            P('  let %s := int_to_spin_block %s  -- L%d'%(m.group(1),' '.join(t.strip() for t in m.group(2).split(',')),ln)); continue
        m=re.match(r'(\w+) = (one_e_blocks|two_e_blocks|two_e_blocks_full)\((.*)\)$',l)
        if m:
            a=[t.strip() for t in m.group(3).split(',')]
            ty={'one_e_blocks':'OneE ℕ ℕ K','two_e_blocks':'TwoE ℕ ℕ K','two_e_blocks_full':'TwoEFull ℕ ℕ ℕ ℕ K'}[m.group(2)]
            if m.group(2)=='one_e_blocks':
                a=['%s := %s'%(f,t) for f,t in zip(('oo','ov','vo','vv'),a)]
            else: a=['%s := %s'%tuple(t.split('=')) for t in a]
            P('  let %s : %s := { %s }  -- L%d'%(m.group(1),ty,', '.join(a),ln)); continue
        m=re.match(r'(\w+) = (.*\[.*)$',l)
        if m: P('  let %s := %s  -- L%d'%(m.group(1),readslice(m.group(2)),ln)); continue
        m=re.match(r'(\w+) = (.*)$',l)
        P('  let %s : %s := %s  -- L%d'%(m.group(1),A4,rhs(m.group(2)),ln))
    P('')
P('end CC.Num')
open(sys.argv[2]+'/SpinFin.lean','w').write('\n'.join(out)+'\n')
