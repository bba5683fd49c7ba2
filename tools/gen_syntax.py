"""Extract the word lists of SyntaxChecker.allow_* from /repo into Lean (machine transcription)."""
import re
src=open('/repo/geotecha/inputoutput/inputoutput.py').read()
lines=src.split('\n')
def method(name):
    i=next(k for k,l in enumerate(lines) if l.startswith('    def '+name))
    j=next((k for k in range(i+1,len(lines)) if lines[k].startswith('    def ') or lines[k].startswith('def ')),len(lines))
    return i,'\n'.join(lines[i:j])
out=["import Mathlib.Data.List.Basic","","/-! Word lists of `SyntaxChecker.allow_*` (generated from the source by tools/gen_syntax.py); a word is a maximal run of non-blank","characters, as `str.split` gives.  Words beginning with `#` are dropped by the model, not here. -/","","namespace Geotecha.IO",""]
for name in ['allow_ast','allow_builtin','allow_numpy','allow_PolyLine']:
    i,t=method(name)
    t=re.sub(r'(?m)^        """.*?"""\n','',t,count=1)
    k=0
    for m in re.finditer(r's=textwrap\.dedent\("""(\\?)(.*?)"""\)(.*?)(?=s=textwrap|\Z)',t,re.S):
        words=m.group(2).split()
        kind='functions' if "add_to='functions'" in m.group(3) else 'attributes'
        ln=i+1+t[:m.start()].count('\n')+1
        nm='words_%s_%d'%(name,k); k+=1
        out.append('/-- inputoutput.py:%d ff., %s block %d (%s). -/'%(ln,name,k, kind if name!='allow_ast' else 'node types'))
        out.append('def %s : List String :='%nm)
        s='  ['; line=s
        for w in words:
            a='"%s", '%w
            if len(line)+len(a)>118:
                out.append(line.rstrip()); line='   '
            line+=a
        out.append(line.rstrip(', ')+']'); out.append('')
out.append('end Geotecha.IO')
open('/verif/lean/Verif/IO/Words.lean','w').write('\n'.join(out)+'\n')
