import ast,re
# generates lean/Verif/IO/Setups.lean from the _setup methods of the speccon classes
out=["import Verif.IO.Attrs","","/-! # The `_setup` configuration of the spectral consolidation classes","","Generated by tools/gen_setup.py from the literals in /repo. -/","","namespace Geotecha.IO",""]
def ls(l): return "["+", ".join('"%s"'%v for v in l)+"]"
def lls(l): return "[\n    "+",\n    ".join(ls(g) for g in l)+"]"
for mod,cls,nm in [("speccon1d_vr","Speccon1dVR","vr"),("speccon1d_vrw","Speccon1dVRW","vrw"),("speccon1d_vrc","Speccon1dVRC","vrc"),("speccon1d_unsat","Speccon1dUnsat","unsat")]:
    t=ast.parse(open(f"/repo/geotecha/speccon/{mod}.py").read())
    c=[n for n in t.body if isinstance(n,ast.ClassDef) and n.name==cls][0]
    f=[n for n in c.body if isinstance(n,ast.FunctionDef) and n.name=="_setup"][0]
    d={}; ln={}
    for n in f.body:
        if isinstance(n,ast.Assign):
            k=n.targets[0].attr
            if k.startswith("_") and k!="_attribute_defaults":
                d[k]=eval(compile(ast.Expression(n.value),"x","eval")); ln[k]=(n.lineno,n.end_lineno)
            if k=="_attribute_defaults":
                d[k]=[a.value for a in n.value.keys]
    a=min(v[0] for v in ln.values()); b=max(v[1] for v in ln.values())
    out+= [f"/-- `{cls}._setup` `_attributes`, {mod}.py:{ln['_attributes'][0]}-{ln['_attributes'][1]}. -/",f"def {nm}Attributes : List String :=\n  {ls(d['_attributes'])}",""]
    out+= [f"/-- `{cls}._setup`, {mod}.py:{a}-{b}. -/",f"def {nm}Setup : Setup where"]
    for fld,k in [("zeroOrAll","_zero_or_all"),("atLeastOne","_at_least_one"),("oneImplies","_one_implies_others")]:
        out.append(f"  {fld} := {lls(d[k])}")
    out.append(f"  lists := {ls(d['_attributes_that_should_be_lists'])}")
    for fld,k in [("sameLen","_attributes_to_force_same_len"),("sameLimits","_attributes_that_should_have_same_x_limits"),("lenPairs","_attributes_that_should_have_same_len_pairs")]:
        out.append(f"  {fld} := {lls(d[k])}")
    out.append("")
out.append("end Geotecha.IO")
open("/verif/lean/Verif/IO/Setups.lean","w").write("\n".join(out)+"\n")
