#!/usr/bin/env python3
"""Lists, per source file, the functions whose lines are cited by a comment of the model, and those that are not.  Writes /verif/COVERAGE.md."""
import ast, glob, os, re, collections
cites = collections.defaultdict(list)
for f in glob.glob('/verif/lean/Verif/**/*.lean', recursive=True):
    s = open(f).read()
    cur = None
    for c in re.findall(r'/-[-!].*?-/', s, re.S):
        c = re.sub(r'\s+', ' ', c)
        for m in re.finditer(r'([A-Za-z_0-9]+\.py)|(?<![\w.])(\d+)-(\d+)(?!\w|\.\d)|(?:lines? |:|`,? |and |, )(\d+)(?![\w-]|\.\d)', c):
            if m.group(1): cur = m.group(1); continue
            if cur is None: continue
            lo = int(m.group(2) or m.group(4)); hi = int(m.group(3) or lo)
            if lo >= 20 and hi >= lo: cites[cur].append((lo, hi, os.path.basename(f)))
out = ["# Which functions are modelled", "", "Generated by tools/coverage.py: a function is listed as modelled when a comment in the Lean model cites lines inside its body",
  "(the comment says what is simplified).  Classes are listed method by method.", ""]
tot = mod = 0
for p in sorted(glob.glob('/repo/geotecha/**/*.py', recursive=True)):
    if '/test' in p or p.endswith('__init__.py'): continue
    name = os.path.basename(p)
    try: tree = ast.parse(open(p).read())
    except Exception as e:
        out.append(f"## {p[6:]}\n\ncannot be parsed: {e}\n"); continue
    fs = []
    def visit(node, prefix):
        for n in node.body:
            if isinstance(n, ast.FunctionDef):
                b = n.body
                start = b[0].lineno
                if isinstance(b[0], ast.Expr) and isinstance(getattr(b[0],'value',None), ast.Constant) and isinstance(b[0].value.value, str):
                    start = b[0].end_lineno + 1
                fs.append((prefix + n.name, n.lineno, start, n.end_lineno))
            elif isinstance(n, ast.ClassDef): visit(n, prefix + n.name + '.')
    visit(tree, '')
    yes, no = [], []
    for q, l0, l1, l2 in fs:
        tot += 1
        if any(lo <= l2 and hi >= l0 for lo, hi, _ in cites[name]):
            yes.append(q); mod += 1
        else: no.append(q)
    if not fs: continue
    out.append(f"## {p[6:]}\n")
    if yes: out.append("modelled: " + ", ".join(f"`{y}`" for y in yes) + "\n")
    if no: out.append("not modelled: " + ", ".join(f"`{y}`" for y in no) + "\n")
out.insert(4, f"\n{mod} of {tot} functions.\n")
open('/verif/COVERAGE.md', 'w').write("\n".join(out))
print(mod, tot)
