#!/usr/bin/env python3
"""Copy the quadrature tables of /repo/geotecha/mathematics/quadrature.py to Lean (Verif/Quad/Tables.lean).
Decimals become integers in units of 1e-25 (all have at most 25 decimals)."""
import ast, pathlib
from fractions import Fraction as F
src=open('/repo/geotecha/mathematics/quadrature.py').read(); t=ast.parse(src)
fs={f.name:f for f in t.body if isinstance(f,ast.FunctionDef)}
def num(e):
    v=F(ast.get_source_segment(src,e).strip().replace(' ','').replace('\n',''))*10**25
    assert v.denominator==1; return int(v)
rows=lambda arr:[[num(e) for e in r.elts] for r in arr.elts]
def dicts(fn):
    for n in ast.walk(fs[fn]):
        if isinstance(n,ast.Assign) and isinstance(n.value,ast.Dict):
            return list(zip(n.value.keys,n.value.values))
out=['''/-!
# Quadrature tables of geotecha/mathematics/quadrature.py

Generated by tools/gen_quad.py.  Entries are in units of 1e-25 (every decimal in the source has at most 25 places).
-/

namespace Geotecha.Quad
''']
def lst(pairs):
    s=''; line='  ['
    for i,p in enumerate(pairs):
        tok=(f'({p[0]}, {p[1]})' if isinstance(p,tuple) or isinstance(p,list) else str(p))+(', ' if i<len(pairs)-1 else ']')
        if len(line)+len(tok)>115: s+=line.rstrip()+'\n'; line='   '
        line+=tok
    return s+line
gl=dicts('gauss_legendre_abscissae_and_weights'); gls=[]
for k,v in gl:
    n=k.value; gls.append(n)
    out.append(f'/-- (abscissa, weight) rows for n = {n}, quadrature.py:{v.lineno}-{v.end_lineno}. -/\ndef gl{n} : List (Int × Int) :=\n{lst(rows(v.args[0]))}\n')
out.append('/-- The dictionary `weights` of `gauss_legendre_abscissae_and_weights`, quadrature.py:516-966. -/\ndef glTable : Nat → Option (List (Int × Int))\n'+''.join(f'  | {n} => some gl{n}\n' for n in gls)+'  | _ => none\n')
gk=dicts('gauss_kronrod_abscissae_and_weights'); gks=[]
for k,v in gk:
    n=k.value; gks.append(n); d={a.value:b for a,b in zip(v.keys,v.values)}
    g,kk=rows(d['g'].args[0]),rows(d['k'].args[0]); dup=[str(e.value).lower() for e in d['dup'].args[0].elts]
    out.append(f"/-- Entry 'g' for n = {n}, quadrature.py:{d['g'].lineno}-{d['g'].end_lineno}. -/\ndef gkG{n} : List (Int × Int) :=\n{lst(g)}\n")
    out.append(f"/-- Entry 'k' for n = {n}, quadrature.py:{d['k'].lineno}-{d['k'].end_lineno}. -/\ndef gkK{n} : List (Int × Int) :=\n{lst(kk)}\n")
    out.append(f"/-- Entry 'dup' for n = {n}, quadrature.py:{d['dup'].lineno}-{d['dup'].end_lineno}. -/\ndef gkDup{n} : List Bool :=\n{lst(dup)}\n")
out.append("/-- The dictionary `weights` (entries 'g', 'k', 'dup') of `gauss_kronrod_abscissae_and_weights`, quadrature.py:75-472. -/\ndef gkTable : Nat → Option (List (Int × Int) × List (Int × Int) × List Bool)\n"+''.join(f'  | {n} => some (gkG{n}, gkK{n}, gkDup{n})\n' for n in gks)+'  | _ => none\n')
out.append('end Geotecha.Quad\n')
p=pathlib.Path(__file__).resolve().parent.parent/'lean'/'Verif'/'Quad'/'Tables.lean'
p.write_text('\n'.join(out))
