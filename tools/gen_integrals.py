#!/usr/bin/env python3
"""Translate the closed forms in /repo/geotecha/speccon/integrals.py to Lean (Verif/Speccon/Formulas*.lean).
Purely syntactic: the Python AST of each right hand side is printed as a Lean expression."""
import ast, pathlib, sys
SRC='/repo/geotecha/speccon/integrals.py'
src=open(SRC).read(); tree=ast.parse(src)
funcs={f.name:f for f in tree.body if isinstance(f,ast.FunctionDef)}
REN={'at':'a_t','ab':'a_b','bt':'b_t','bb':'b_b','ct':'c_t','cb':'c_b','zt':'z_t','zb':'z_b','a_slope':'aS','b_slope':'bS','c_slope':'cS'}
ORDER=['aS','bS','cS','a_t','a_b','b_t','b_b','c_t','c_b','z_t','z_b','mi','mj','T0','T1','P0','P1','omega','phase','eig','t','dT','z1','z2']
def name_of(n):
    """leaf -> Lean variable or None"""
    if isinstance(n,ast.Name): return REN.get(n.id,n.id)
    if isinstance(n,ast.Subscript):
        b=n.value.id; i=ast.unparse(n.slice)
        if b=='m': return 'm'+i
        if b in('z1','z2'): return b
        if b in('loadtim','loadmag'):
            return {'loadtim':'T','loadmag':'P'}[b]+{'k':'0','k + 1':'1'}[i]
        if i in('layer',): return REN[b]
        if i in('0',): return REN[b]+'0'
        if i in('-1','nlayers - 1'): return REN[b]+'n'
        raise Exception(ast.unparse(n))
    return None
PREC={ast.Add:65,ast.Sub:65,ast.Mult:70,ast.Div:70}
SYM={ast.Add:'+',ast.Sub:'-',ast.Mult:'*',ast.Div:'/'}
cnt={}
# the one denominator repeated (up to 60 times) in the harmonic load formulas is shared as `let D`
DEN='-dT * eig * loadtim[k + 1] + dT * eig * loadtim[k] - 2 * omega ** 2 * loadtim[k + 1] / (dT * eig) + 2 * omega ** 2 * loadtim[k] / (dT * eig) - omega ** 4 * loadtim[k + 1] / (dT ** 3 * eig ** 3) + omega ** 4 * loadtim[k] / (dT ** 3 * eig ** 3)'
def emit(n,vars):
    """returns (string, precedence)"""
    v=name_of(n)
    if v is not None: vars.add(v); return v,100
    if isinstance(n,ast.Constant): return f'({n.value!r}:ℝ)',100
    if isinstance(n,ast.Call):
        f=n.func.id; a,_=emit(n.args[0],vars); assert f in('sin','cos','exp') and len(n.args)==1
        return f'{f} ({a})' if not a.isidentifier() else f'{f} {a}',90
    if isinstance(n,ast.UnaryOp) and isinstance(n.op,ast.USub):
        a,p=emit(n.operand,vars)
        return '-'+(a if p>=75 else f'({a})'),72
    if isinstance(n,ast.BinOp):
        if isinstance(n.op,ast.Pow):
            e=ast.literal_eval(n.right)
            if e==-1 and ast.unparse(n.left)==DEN: vars.add('D'); return 'D⁻¹',80
            a,p=emit(n.left,vars)
            a=a if p>=90 and ' ' not in a or p>=100 else f'({a})'
            if e==-1: return a+'⁻¹',80
            if e<0: return f'({a}^({-e}:ℕ))⁻¹',80
            return f'{a}^({e}:ℕ)',75
        q=PREC[type(n.op)]
        a,p=emit(n.left,vars); b,r=emit(n.right,vars)
        if p<q: a=f'({a})'
        if r<=q or b.startswith('-'): b=f'({b})'
        op=SYM[type(n.op)]
        if q==65:
            # every 6th term of a sum is closed with a type ascription (splits the elaboration problem, keeps the tree)
            cnt[id(n)]=cnt.get(id(n.left),1)+1
            if cnt[id(n)]>=6: cnt[id(n)]=1; return f'({a} {op} {b} : ℝ)',100
        return (f'{a} {op} {b}' if q==65 else f'{a}*{b}' if op=='*' else f'{a}/{b}'),q
    raise Exception(ast.dump(n))
def wrap(s,w=118):
    out=[];line='  '
    toks=s.split(' ')
    for t in toks:
        if len(line)+len(t)+1>w: out.append(line); line='    '
        line+=(' ' if line.strip() else '')+t
    out.append(line); return '\n'.join(out)
def finds(fn,pred):
    return [n for n in ast.walk(funcs[fn]) if pred(n)]
def definition(lname,fn,node,expr,doc,rename={}):
    vs=set(); s,_=emit(expr,vs); pre=''
    if 'D' in vs:
        vs.discard('D'); pre=wrap('let D : ℝ := '+emit(ast.parse(DEN,mode='eval').body,vs)[0]+';')+'\n'
    args=[v for v in ORDER if v in vs]+sorted(vs-set(ORDER))
    return (f'/-- {doc}, `{fn}`, geotecha/speccon/integrals.py:{node.lineno}-{node.end_lineno}. -/\n'
            f'noncomputable def {lname} ({" ".join(args)} : ℝ) : ℝ :=\n{pre}{wrap(s)}\n')
def npsum(e):
    """np.sum(EXPR, axis=1) -> EXPR"""
    assert isinstance(e,ast.Call) and e.func.attr=='sum'; return e.args[0]
def scalar(fn,target): # AugAssign
    return sorted(finds(fn,lambda n:isinstance(n,ast.AugAssign) and ast.unparse(n.target)==target),key=lambda n:n.lineno)
def vec(fn,target):
    return sorted(finds(fn,lambda n:isinstance(n,(ast.Assign,)) and ast.unparse(n.targets[0])==target),key=lambda n:n.lineno)
HEAD='''import Mathlib.Analysis.SpecialFunctions.Trigonometric.Basic

/-!
# Closed forms in geotecha/speccon/integrals.py

Generated by tools/gen_integrals.py (syntactic translation of the right hand sides; `x**(-n)` becomes
`(x^n)⁻¹`, array elements of the current layer become variables, `a_slope` is `aS`).
-/

open Real
namespace Geotecha.Speccon

'''
out=[HEAD]
for fn,sh in [('dim1sin_af_linear','af'),('dim1sin_abf_linear','abf'),('dim1sin_D_aDf_linear','DaDf'),('dim1sin_DD_abDDf_linear','DDabDDf')]:
    n,=scalar(fn,'A[i, i]'); out.append(definition(sh+'_diag_s',fn,n,n.value,'Diagonal entry, one layer, scalar'))
    n,=scalar(fn,'A[i, j]'); out.append(definition(sh+'_off_s',fn,n,n.value,'Off-diagonal entry, one layer, scalar'))
    n,=vec(fn,'A[diag]'); out.append(definition(sh+'_diag_v',fn,n,npsum(n.value),'Diagonal entry, one layer, vectorized'))
    n,=vec(fn,'A[triu]'); out.append(definition(sh+'_off_v',fn,n,npsum(n.value),'Off-diagonal entry, one layer, vectorized'))
for fn,sh in [('dim1sin_ab_linear','ab'),('dim1sin_abc_linear','abc'),('dim1sin_D_aDb_linear','DaDb')]:
    ns=scalar(fn,'A[i]'); n=ns[0]; out.append(definition(sh+'_s',fn,n,n.value,'One layer, scalar'))
    if sh=='DaDb':
        n=ns[1]; out.append(definition(sh+'_end_s',fn,n,n.value,'End terms, scalar'))
        n,=scalar(fn,'A[:]'); out.append(definition(sh+'_end_v',fn,n,n.value,'End terms, vectorized'))
    n,=vec(fn,'A[:]'); out.append(definition(sh+'_v',fn,n,npsum(n.value),'One layer, vectorized'))
ns=scalar('dim1sin_a_linear_between','A[i, j]'); assert len(ns)==4
for n,nm in zip(ns,['both','first','mid','last']):
    out.append(definition('between_'+nm,'dim1sin_a_linear_between',n,n.value,'One layer (z1, z2 the limits)'))
out.append('end Geotecha.Speccon\n')
root=pathlib.Path(__file__).resolve().parent.parent/'lean'/'Verif'/'Speccon'
(root/'Formulas.lean').write_text('\n'.join(out))

# ---- time integrals of loads
def aug(fn,target):
    return scalar(fn,target)
HEAD2=HEAD.replace('# Closed forms in geotecha/speccon/integrals.py','# Closed forms in geotecha/speccon/integrals.py: load terms').replace('array elements of the current layer become variables, `a_slope` is `aS`','`loadtim[k]`, `loadtim[k+1]`, `loadmag[k]`, `loadmag[k+1]` become `T0 T1 P0 P1`')
out=[HEAD2]
def loads(fn,sh,names):
    a=scalar(fn,'A[i, j]'); b=scalar(fn,'A[i, :]'); assert len(a)==len(names)==len(b),(fn,len(a),len(b))
    for n,nm in zip(a,names): out.append(definition(f'{sh}_{nm}_s',fn,n,n.value,'One load segment, scalar'))
    for n,nm in zip(b,names): out.append(definition(f'{sh}_{nm}_v',fn,n,npsum(n.value),'One load segment, vectorized'))
loads('Eload_linear','El',['cc','cl','rc','rl'])
loads('EDload_linear','EDl',['sl','rc','rl'])
out.append('end Geotecha.Speccon\n')
(root/'FormulasLoad.lean').write_text('\n'.join(out))
for fn,sh,names in [('Eload_coslinear','Ec',['cc','cl','rc','rl']),('EDload_coslinear','EDc',['sl','rc','rl','cc','cl']),('Eload_sinlinear','Es',['cc','cl','rc','rl'])]:
    out=[HEAD2]
    loads(fn,sh,names)
    out.append('end Geotecha.Speccon\n')
    (root/f'Formulas{sh}.lean').write_text('\n'.join(out))
#.lean').write_text('\n'.join(out))
