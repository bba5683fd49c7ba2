#!/usr/bin/env python3
"""Seeded-bug harness. Usage: mutate.py FILE.json [deps.txt]
FILE.json: list of {file, definition, old, new, claim, edit}. For each, in a scratch copy of
/verif/lean under /tmp/scratch, replace `old` by `new` once, rebuild, and append to
/tmp/mut_results.jsonl which theorems failed (direct errors, and property theorems that
depend on a failed lemma according to deps.txt, made by tools/deps.txt)."""
import json, re, subprocess, sys, pathlib, os
SC = pathlib.Path('/tmp/scratch/lean')
SRC = pathlib.Path('/verif/lean')
deps = {}
for l in open(sys.argv[2] if len(sys.argv) > 2 else '/tmp/deps.txt'):
    w = l.split(); deps[w[0]] = set(w[1:])
out = open('/tmp/mut_results.jsonl', 'a')
def decl_at(text, line):
    """(qualified name, kind) of the declaration enclosing a line"""
    ns, cur, kind = [], None, None
    for i, l in enumerate(text.split('\n'), 1):
        if i > line: break
        g = re.match(r'namespace (\S+)', l)
        if g: ns.append(g.group(1))
        g = re.match(r'end (\S+)', l)
        if g and ns and ns[-1] == g.group(1): ns.pop()
        g = re.match(r'(?:@\[[^\]]*\]\s*)?(?:private |protected |noncomputable )*(theorem|lemma|def|abbrev|instance|example|structure|inductive)\b\s*(\S*)', l)
        if g:
            kind = g.group(1); cur = '.'.join(ns + [g.group(2)]) if kind != 'example' else f'example@{i}'
    return cur, kind
for m in json.load(open(sys.argv[1])):
    subprocess.run(['rsync', '-a', '--delete', '--exclude', '.lake', f'{SRC}/', f'{SC}/'], check=True) if False else None
    f = SC / 'Verif' / m['file']
    orig = f.read_text()
    n = orig.count(m['old'])
    if n != 1 and not m.get('nth'):
        out.write(json.dumps({**m, 'result': f'PATTERN x{n}'}) + '\n'); out.flush(); print('PATTERN', n, m['definition'], m['old']); continue
    if m.get('nth'):
        parts = orig.split(m['old']); k = m['nth']
        new = m['old'].join(parts[:k]) + m['new'] + m['old'].join(parts[k:])
    else:
        new = orig.replace(m['old'], m['new'])
    f.write_text(new)
    try:
        r = subprocess.run(['lake', 'build'] + m.get('targets', []), cwd=SC, capture_output=True, text=True, timeout=1800, env={**os.environ, 'LEAN_NUM_THREADS': '2'})
        txt = r.stdout + r.stderr
    except subprocess.TimeoutExpired as e:
        txt = 'TIMEOUT'; 
    failed = set(); bad_mods = set()
    for g in re.finditer(r'error: (?:\./)*(Verif/\S+?\.lean):(\d+):\d+', txt):
        p = SC / g.group(1); d, k = decl_at(p.read_text(), int(g.group(2)))
        if d: failed.add((d, k))
    names = {d for d, k in failed}
    props = sorted(t for t, s in deps.items() if t in names or (s & names))
    compile_err = [d for d, k in failed if k in ('def', 'abbrev', 'structure', 'inductive', 'instance')]
    f.write_text(orig)
    rec = {**m, 'failed_direct': sorted(names), 'failed_props': props, 'compile_errors': compile_err,
           'survived': ('Build completed' in txt)}
    if txt == 'TIMEOUT': rec['survived'] = 'TIMEOUT'
    out.write(json.dumps(rec, ensure_ascii=False) + '\n'); out.flush()
    print('SURVIVED' if rec['survived'] else 'killed', m['definition'], '|', m['edit'], '|', len(names), len(props), compile_err, flush=True)
