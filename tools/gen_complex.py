"""Complex-eigenvalue copies of the generated closed forms (same formulas, all quantities complex).
Writes lean/Verif/Speccon/CxFormulas.lean from FormulasLoad, FormulasEc, FormulasEs."""
import re
B = '/verif/lean/Verif/Speccon/'
out = ['import Mathlib.Analysis.SpecialFunctions.Trigonometric.Basic', '', '/-!',
 '# Closed forms in geotecha/speccon/integrals.py: load terms for complex eigenvalues', '',
 'Generated by tools/gen_complex.py from `FormulasLoad`, `FormulasEc`, `FormulasEs` (the same formulas read over the complex',
 'numbers; the code works in complex arithmetic throughout, `dtype=complex`).', '-/', '',
 'open Complex', 'namespace Geotecha.Speccon.Cx', '']
for f, names in (('FormulasLoad', 'El_'), ('FormulasEc', 'Ec_'), ('FormulasEs', 'Es_')):
    t = open(B + f + '.lean').read()
    t = t.split('namespace Geotecha.Speccon', 1)[1].split('end Geotecha.Speccon')[0]
    for blk in re.split(r'\n(?=/-- One load segment)', t):
        m = re.search(r'noncomputable def (\w+)', blk)
        if m and m.group(1).startswith(names):
            out += [blk.strip().replace('ℝ', 'ℂ'), '']
out.append('end Geotecha.Speccon.Cx')
open(B + 'CxFormulas.lean', 'w').write('\n'.join(out) + '\n')
