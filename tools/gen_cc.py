#!/usr/bin/env python3
"""Translate cqcpy/cc_equations.py and cqcpy/cc_energy.py (read as text) into Lean 4
definitions, one Lean definition per python function, one `let` per python statement.

Usage: gen_cc.py <dir with cc_equations.py> <output dir>

The translation is purely syntactic:
  einsum('ab,bi->ai', X, Y)      ~>  fun a i => Sum b, X a b * Y b i
  X.transpose((1,0,2,3))         ~>  re-ordered indices
  X.copy(), X.astype(..)         ~>  X
  X += e / X -= e / X = e        ~>  let X := ...
  _f(X, ...) (mutates X)         ~>  let X := f X ...
Index types are inferred from the declared shapes of the parameters; a shape
mismatch is an error of this script.
"""
import ast, sys, os

SRC, OUT = sys.argv[1], sys.argv[2]

BLOCKS9 = ['vvvv','vvvo','vovv','vvoo','vovo','oovv','vooo','ooov','oooo']
def blk16():
    return [a+b+c+d for a in 'ov' for b in 'ov' for c in 'ov' for d in 'ov']

class Ty: pass
class Tens(Ty):
    def __init__(s, sorts): s.sorts = list(sorts)
    def lean(s): return ' → '.join(s.sorts + ['K'])
class Struct(Ty):
    def __init__(s, name, fields): s.name=name; s.fields=fields  # fields: dict name->Tens
    def lean(s): return s.name
class Prod(Ty):
    def __init__(s, parts): s.parts=parts
    def lean(s): return ' × '.join('('+p.lean()+')' for p in s.parts)
class Tup:      # python tuple value in return position
    def __init__(s, parts): s.parts=parts

def one_e(o,v):
    m={'o':o,'v':v}
    return Struct(f'OneE {o} {v} K', {a+b:Tens([m[a],m[b]]) for a in 'ov' for b in 'ov'})
def two_e(o,v):
    m={'o':o,'v':v}
    return Struct(f'TwoE {o} {v} K', {b:Tens([m[c] for c in b]) for b in BLOCKS9})
def two_full(o1,v1,o2,v2):
    m1={'o':o1,'v':v1}; m2={'o':o2,'v':v2}
    return Struct(f'TwoEFull {o1} {v1} {o2} {v2} K',
        {b:Tens([m1[b[0]],m2[b[1]],m1[b[2]],m2[b[3]]]) for b in blk16()})

def base_params(kind):
    """parameter name -> type"""
    P={}
    P['fac']=Tens([]); P['tfac']=Tens([])
    if kind in ('g','r'):
        for n in ('T1','T1old'): P[n]=Tens(['V','O'])
        for n in ('T2','T2old'): P[n]=Tens(['V','V','O','O'])
        for n in ('L1','L1old'): P[n]=Tens(['O','V'])
        for n in ('L2','L2old'): P[n]=Tens(['O','O','V','V'])
        P['F']=one_e('O','V')
        P['I']=two_e('O','V') if kind=='g' else two_full('O','V','O','V')
    else:
        A={'a':('Oa','Va'),'b':('Ob','Vb')}
        for s,(o,v) in A.items():
            for suf in ('','old'):
                P['T1'+s+suf]=Tens([v,o]); P['L1'+s+suf]=Tens([o,v])
        for s in ('aa','ab','bb'):
            o1,v1=A[s[0]]; o2,v2=A[s[1]]
            P['T2'+s]=Tens([v1,v2,o1,o2]); P['L2'+s]=Tens([o1,o2,v1,v2])
        for s in ('old','olds'):
            P['T1'+s]=Prod([P['T1a'],P['T1b']]); P['T2'+s]=Prod([P['T2aa'],P['T2ab'],P['T2bb']])
            P['L1'+s]=Prod([P['L1a'],P['L1b']]); P['L2'+s]=Prod([P['L2aa'],P['L2ab'],P['L2bb']])
        P['Faa']=P['Fa']=one_e('Oa','Va'); P['Fbb']=P['Fb']=one_e('Ob','Vb')
        P['Ia']=two_e('Oa','Va'); P['Ib']=two_e('Ob','Vb')
        P['Iabab']=P['I_abab']=two_full('Oa','Va','Ob','Vb')
    return P

LINT={}   # fields of lambda_int, filled while translating the class
FUNCS={}  # python name -> (lean name, params, mutated, result type, defaults)

ALPH='abcdefghijklmnopqrstuvwxyz'

class Fn:
    def __init__(s, name, kind, fname):
        s.env={}; s.name=name; s.kind=kind; s.lines=[]; s.fname=fname; s.uses_mut=[]
    # ---- shapes
    def shape(s,e):
        if isinstance(e,ast.Constant): return []
        if isinstance(e,ast.UnaryOp): return s.shape(e.operand)
        if isinstance(e,ast.BinOp):
            a,b=s.shape(e.left),s.shape(e.right)
            if a==[]: return b
            if b==[]: return a
            assert not isinstance(e.op,ast.Mult), ast.unparse(e)
            assert a==b,(s.name,e.lineno,ast.unparse(e),a,b)
            return a
        if isinstance(e,(ast.Name,ast.Attribute)):
            t=s.typ(e); assert isinstance(t,Tens),ast.unparse(e); return t.sorts
        if isinstance(e,ast.Call):
            f=e.func
            if isinstance(f,ast.Name) and f.id=='einsum':
                return s.einsum_sorts(e)[0]
            if isinstance(f,ast.Name) and f.id in FUNCS:
                r=FUNCS[f.id][3]; assert isinstance(r,Tens); return r.sorts
            if isinstance(f,ast.Attribute):
                sh=s.shape(f.value)
                if f.attr in('copy','astype'): return sh
                if f.attr=='transpose':
                    p=ast.literal_eval(e.args[0]); assert sorted(p)==list(range(len(sh)))
                    return [sh[k] for k in p]
        raise Exception(f'{s.name}:{e.lineno}: {ast.unparse(e)}')
    def typ(s,e):
        if isinstance(e,ast.Name): return s.env[e.id][1]
        b=e.value
        if isinstance(b,ast.Name) and b.id=='self': return s.env[e.attr][1]
        t=s.typ(b); return t.fields[e.attr]
    def ref(s,e):
        if isinstance(e,ast.Name): return s.env[e.id][0]
        b=e.value
        if isinstance(b,ast.Name) and b.id=='self': return s.env[e.attr][0]
        return s.ref(b)+'.'+e.attr
    def einsum_sorts(s,e):
        spec=e.args[0].value.replace(' ','')
        ins,out=spec.split('->'); ins=ins.split(',')
        assert len(ins)==len(e.args)-1
        m={}; order=[]
        for l,a in zip(ins,e.args[1:]):
            sh=s.shape(a); assert len(sh)==len(l),(s.name,e.lineno,ast.unparse(e),sh)
            for c,so in zip(l,sh):
                if c in m: assert m[c]==so,(s.name,e.lineno,ast.unparse(e),c,m[c],so)
                else: m[c]=so; order.append(c)
        assert len(set(out))==len(out)
        return [m[c] for c in out],m,order,ins,out
    # ---- translation to scalar expression at given indices; precedence 0 add,1 mul,2 atom
    def tr(s,e,idx,scope):
        if isinstance(e,ast.Constant):
            v=e.value
            t={0.5:'(1/2)',0.25:'(1/4)',1.0:'1',2.0:'2'}[float(v)]
            return t,2
        if isinstance(e,ast.UnaryOp):
            assert isinstance(e.op,ast.USub)
            return '-'+s.par(s.tr(e.operand,idx,scope),2),0
        if isinstance(e,ast.BinOp):
            a,b=s.shape(e.left),s.shape(e.right)
            ia=idx if a else []; ib=idx if b else []
            l=s.tr(e.left,ia,scope); r=s.tr(e.right,ib,scope)
            if isinstance(e.op,ast.Add): return l[0]+' + '+s.par(r,1),0
            if isinstance(e.op,ast.Sub): return l[0]+' - '+s.par(r,1),0
            if isinstance(e.op,ast.Mult): return s.par(l,1)+' * '+s.par(r,2),1
        if isinstance(e,(ast.Name,ast.Attribute)):
            n=s.ref(e)
            return (n+''.join(' '+i for i in idx)), 2
        if isinstance(e,ast.Call):
            f=e.func
            if isinstance(f,ast.Name) and f.id=='einsum':
                osorts,m,order,ins,out=s.einsum_sorts(e)
                ren=dict(zip(out,idx)); used=set(scope)|set(idx)
                summed=[c for c in order if c not in out]
                for c in summed:
                    n=c
                    while n in used: n+="'"
                    ren[c]=n; used.add(n)
                fs=[]
                for l,a in zip(ins,e.args[1:]):
                    fs.append(s.par(s.tr(a,[ren[c] for c in l],used),2 if fs else 1))
                body=' * '.join(fs)
                if summed:
                    return ''.join(f'∑ {ren[c]} : {m[c]}, ' for c in summed)+body,-1
                return body,1
            if isinstance(f,ast.Name) and f.id in FUNCS:
                return s.call(e),2
            if f.attr in('copy','astype'): return s.tr(f.value,idx,scope)
            if f.attr=='transpose':
                p=ast.literal_eval(e.args[0]); j=[None]*len(p)
                for k,q in enumerate(p): j[q]=idx[k]
                return s.tr(f.value,j,scope)
        raise Exception(ast.unparse(e))
    def par(s,t,lvl):
        # a big sum binds everything to its right, so always bracket it in an operand position
        return t[0] if t[1]>=lvl else '('+t[0]+')'
    def names(s,e,sh):
        """binder names: output letters of first einsum, or default"""
        for n in ast.walk(e):
            if isinstance(n,ast.Call) and isinstance(n.func,ast.Name) and n.func.id=='einsum':
                try: so=s.einsum_sorts(n)
                except KeyError: continue
                if so[0]==sh: return list(so[4])
        d={'V':list('abcd'),'O':list('ijkl')}
        return [d[x[0]].pop(0) for x in sh]
    def lam(s,e,acc=None,op=None):
        sh=s.shape(e); nm=s.names(e,sh)
        b=''.join(f' ({n} : {so})' for n,so in zip(nm,sh))
        body=s.tr(e,nm,set())
        if acc:
            assert acc[1]==sh,(s.name,e.lineno,ast.unparse(e),acc[1],sh)
            body=(acc[0]+''.join(' '+n for n in nm)+f' {op} '+s.par(body,1),0)
        if not sh: return body[0],sh
        return f'fun{b} => {body[0]}',sh
    def call(s,e):
        fn,params,mut,res,dfl=FUNCS[e.func.id]
        args=[]
        for i,p in enumerate(params):
            if i<len(e.args):
                a=e.args[i]; t=s.typ(a)
                assert t.lean()==p[1].lean(),(s.name,ast.unparse(e),t.lean(),p[1].lean())
                args.append(s.ref(a))
            else: args.append({'1.0':'1'}[dfl[p[0]]])
        args=['('+a+')' if ' ' in a else a for a in args]
        return fn+''.join(' '+a for a in args)
    def let(s,name,t,line,ty=None):
        s.lines.append((f'let {name} := {t}' if ty is None else f'let {name} : {ty} := {t}',line))
    # ---- statements
    def stmts(s,body):
        for st in body:
            if isinstance(st,ast.Expr) and isinstance(st.value,ast.Constant): continue
            if isinstance(st,ast.Delete): continue
            if isinstance(st,ast.AugAssign):
                n=s.target(st.target)
                nm,ty=s.env[n]
                op={ast.Add:'+',ast.Sub:'-'}[type(st.op)]
                t,sh=s.lam(st.value,acc=(nm,ty.sorts),op=op)
                if n in s.params and n not in s.rebound and n not in s.mut: s.mut.append(n)
                if n in s.alias: s.notes.append(f'line {st.lineno}: in-place update of alias {n}')
                s.let(nm,t,st.lineno); continue
            if isinstance(st,ast.Assign):
                tg=st.targets[0]
                if isinstance(tg,ast.Tuple):
                    assert isinstance(st.value,ast.Name)
                    nm,ty=s.env[st.value.id]; assert isinstance(ty,Prod)
                    k=len(ty.parts); assert k==len(tg.elts)
                    for i,el in enumerate(tg.elts):
                        pr='.2'*i+('.1' if i<k-1 else '')
                        s.let(el.id,nm+pr,st.lineno); s.env[el.id]=(el.id,ty.parts[i]); s.rebound.add(el.id)
                    continue
                n=s.target(tg)
                if isinstance(st.value,(ast.Name,ast.Attribute)): s.alias.add(n)
                else: s.alias.discard(n)
                if isinstance(st.value,(ast.Name,ast.Attribute)) or (isinstance(st.value,ast.Call) and isinstance(st.value.func,ast.Attribute) and st.value.func.attr in('copy','astype') and isinstance(st.value.func.value,(ast.Name,ast.Attribute))):
                    v=st.value if not isinstance(st.value,ast.Call) else st.value.func.value
                    t=s.ref(v); sh=s.shape(v)
                else: t,sh=s.lam(st.value)
                assert n not in s.mut
                s.rebound.add(n)
                s.let(n,t,st.lineno); s.env[n]=(n,Tens(sh)); continue
            if isinstance(st,ast.Expr) and isinstance(st.value,ast.Call):
                fn,params,mut,res,dfl=FUNCS[st.value.func.id]
                c=s.call(st.value)
                tg=[st.value.args[[p[0] for p in params].index(m)].id for m in mut]
                if len(tg)==1: s.let(tg[0],c,st.lineno)
                else:
                    s.let('r',c,st.lineno)
                    for i,x in enumerate(tg):
                        s.let(x,'r'+'.2'*i+('.1' if i<len(tg)-1 else ''),None)
                for x in tg:
                    if x in s.params and x not in s.rebound and x not in s.mut: s.mut.append(x)
                continue
            if isinstance(st,ast.Return):
                s.ret=s.retval(st.value); continue
            raise Exception(f'{s.name}:{st.lineno} {ast.unparse(st)}')
    def target(s,t):
        if isinstance(t,ast.Name): return t.id
        assert isinstance(t,ast.Attribute) and t.value.id=='self'; return t.attr
    def retval(s,e):
        if isinstance(e,ast.Tuple):
            ps=[s.retval(x) for x in e.elts]
            return '('+', '.join(p[0] for p in ps)+')',Prod([p[1] for p in ps])
        if isinstance(e,ast.Name): return s.env[e.id]
        t,sh=s.lam(e); return t,Tens(sh)

def simp_prod(t): return t.lean()

def emit(node,kind,fname,override=None,leanname=None):
    P=base_params(kind)
    if override: P.update(override)
    f=Fn(node.name,kind,fname)
    args=[a.arg for a in node.args.args if a.arg!='self']
    f.params=args; f.mut=[]; f.rebound=set(); f.alias=set(); f.notes=[]; f.ret=None
    for a in args:
        ty=P[a] if a!='intor' else Struct('LambdaInt O V K',LINT)
        f.env[a]=(a,ty)
    ptypes=[(a,f.env[a][1]) for a in args]
    f.stmts(node.body)
    dfl=dict(zip([a.arg for a in node.args.args][-len(node.args.defaults):] if node.args.defaults else [],[ast.unparse(d) for d in node.args.defaults]))
    ln=leanname or node.name.lstrip('_')
    if f.ret is None:
        ms=f.mut
        ms=[a for a in args if a in ms]
        f.ret=('('+', '.join(ms)+')' if len(ms)>1 else ms[0], Prod([dict(ptypes)[m] for m in ms]) if len(ms)>1 else dict(ptypes)[ms[0]])
        f.mut=ms
    else: assert not f.mut or True
    FUNCS[node.name]=(ln,ptypes,f.mut,f.ret[1],dfl)
    cite=f'{fname}:{node.lineno}-{node.end_lineno}'
    out=f'/-- `{node.name}`, {cite}.'
    if f.mut: out+=' Mutates '+', '.join(f'`{m}`' for m in f.mut)+'; the model returns the new value'+('s' if len(f.mut)>1 else '')+'.'
    for n in f.notes: out+=' NOTE '+n+'.'
    out+=' -/\n'
    out+=f'def {ln}'
    line=''
    for a,ty in ptypes: out+=f' ({a} : {ty.lean()})'
    out+=f' :\n    {f.ret[1].lean()} :=\n'
    for t,l in f.lines:
        out+='  '+t+(f'  -- L{l}' if l else '')+'\n'
    out+='  '+f.ret[0]+'\n'
    return out,f

def emit_class(node,fname):
    init=node.body[0]
    P=base_params('g')
    f=Fn('lambda_int','g',fname); args=['F','I','T1old','T2old']
    f.params=args; f.mut=[]; f.rebound=set(); f.alias=set(); f.notes=[]; f.ret=None
    for a in args: f.env[a]=(a,P[a])
    f.stmts(init.body)
    fields=[]
    for st in init.body:
        tg=st.targets[0]
        if isinstance(tg,ast.Attribute) and tg.attr not in fields: fields.append(tg.attr)
    for x in fields: LINT[x]=f.env[x][1]
    out=f'/-- attributes of class `lambda_int`, {fname}:{node.lineno}-{node.end_lineno}. -/\n'
    out+='structure LambdaInt (O V K : Type) where\n'
    for x in fields: out+=f'  {x} : {LINT[x].lean()}\n'
    out+=f'\n/-- `lambda_int.__init__`, {fname}:{init.lineno}-{init.end_lineno}. -/\n'
    out+='def lambda_int'+''.join(f' ({a} : {P[a].lean()})' for a in args)+' : LambdaInt O V K :=\n'
    for t,l in f.lines: out+='  '+t+f'  -- L{l}\n'
    out+='  { '+', '.join(f'{x} := {x}' for x in fields)+' }\n'
    return out

HEAD='''/-
GENERATED by tools/gen_cc.py from cqcpy/{src} (pure text translation); do not edit.
{what}
Every definition cites the python function it mirrors; each `let` carries the source line
of the statement it translates.  Arithmetic is that of an arbitrary field of characteristic
zero (floating point rounding and dtypes are abstracted).
-/
import Verif.Model.Blocks
{imports}
set_option linter.unusedVariables false
set_option maxRecDepth 4000

namespace CC

open Finset

variable {{K : Type}} [Field K]
variable {{O V Oa Va Ob Vb : Type}} [Fintype O] [Fintype V] [Fintype Oa] [Fintype Va]
  [Fintype Ob] [Fintype Vb]

'''

def main():
    eq=ast.parse(open(os.path.join(SRC,'cc_equations.py')).read())
    en=ast.parse(open(os.path.join(SRC,'cc_energy.py')).read())
    files={k:[] for k in ('Energy','GT','GL','GRdm','UT','UL','URdm','RT','RL','RRdm')}
    V,O=['V'],['O']
    gov={'t1':Tens(['V','O']),'t2':Tens(['V','V','O','O']),'f':Tens(['O','V']),'eri':Tens(['O','O','V','V']),
         't11':Tens(['V','O']),'t12':Tens(['V','O']),'I':Tens(['O','O','V','V'])}
    U=base_params('u')
    uov={'t1':U['T1old'],'t2':U['T2old'],'fa':Tens(['Oa','Va']),'fb':Tens(['Ob','Vb']),
         'Ia':Tens(['Oa','Oa','Va','Va']),'Ib':Tens(['Ob','Ob','Vb','Vb']),'Iabab':Tens(['Oa','Ob','Va','Vb'])}
    for n in en.body:
        if isinstance(n,ast.FunctionDef):
            k='u' if n.name.startswith('u') else 'g'
            o,_=emit(n,k,'cc_energy.py',override=uov if k=='u' else gov)
            files['Energy'].append(o)
    notes=[]
    for n in eq.body:
        if isinstance(n,ast.ClassDef):
            files['GL'].append(emit_class(n,'cc_equations.py')); continue
        if not isinstance(n,ast.FunctionDef):
            if isinstance(n,ast.Assign):
                a,b=n.targets[0].id,n.value.id
                ln,pt,mu,res,d=FUNCS[b]
                files['GRdm'].append(f'/-- module level alias `{a} = {b}`, cc_equations.py:{n.lineno}. -/\n'
                    f'def {a}'+''.join(f' ({x} : {ty.lean()})' for x,ty in pt)+f' :\n    {res.lean()} :=\n  {b}'+''.join(' '+x for x,_ in pt)+'\n')
            continue
        nm=n.name
        if nm=='ccsd_pt_simple': continue
        s=nm.lstrip('_')
        kind='u' if s.startswith('u') else ('r' if s.startswith('r') else 'g')
        if 'rdm' in s: part='Rdm'
        elif 'ambda' in s or s.lstrip('ur_').startswith(('LS_','LD_')): part='L'
        else: part='T'
        o,f=emit(n,kind,'cc_equations.py')
        if f.notes: notes.append((nm,f.notes))
        files[kind.upper()+part].append(o)
    W={'Energy':'Energies.','GT':'Generalized (spin-orbital) amplitude equations.','GL':'Generalized Lambda equations.',
       'GRdm':'Generalized reduced density matrices.','UT':'Unrestricted amplitude equations.','UL':'Unrestricted Lambda equations.',
       'URdm':'Unrestricted reduced density matrices.','RT':'Restricted amplitude equations.','RL':'Restricted Lambda equations.','RRdm':'Restricted reduced density matrices.'}
    for k,v in files.items():
        src='cc_energy.py' if k=='Energy' else 'cc_equations.py'
        h=HEAD.format(src=src,what=W[k],imports='')
        if k in('UL','RL'): pass
        open(os.path.join(OUT,'CC'+k+'.lean'),'w').write(h+'\n'.join(v)+'\nend CC\n')
    for n in notes: print('NOTE',n)

main()
