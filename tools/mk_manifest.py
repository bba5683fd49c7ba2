#!/usr/bin/env python3
"""Regenerate MANIFEST.json (theorems named Cnn_* per property) and lean/Verif.lean (imports)."""
import json, re, pathlib
root = pathlib.Path(__file__).resolve().parent.parent
mods = sorted((root/'lean'/'Verif').rglob('*.lean'))
(root/'lean'/'Verif.lean').write_text(''.join(
    'import ' + '.'.join(m.relative_to(root/'lean').with_suffix('').parts) + '\n' for m in mods))
thms = {}
for m in mods:
    ns = []
    for line in m.read_text().split('\n'):
        g = re.match(r'namespace (\S+)', line)
        if g: ns.append(g.group(1))
        g = re.match(r'end (\S+)', line)
        if g and ns and ns[-1] == g.group(1): ns.pop()
        g = re.match(r'theorem (C\d\d+)_(\S+)', line)
        if g:
            thms.setdefault(g.group(1), []).append('.'.join(ns + [g.group(1)+'_'+g.group(2)]))
notes = json.loads((root/'tools'/'notes.json').read_text())
claims = []
for line in (root/'properties.jsonl').read_text().splitlines():
    p = json.loads(line)['id']
    t = thms.get(p, [])
    n = notes.get(p, {})
    if not t:
        if n.get('status') == 'not_applicable':
            claims.append(dict(property=p, status='not_applicable', theorems=[], note=n['note']))
        else:
            print('no theorems yet:', p)
        continue
    status = n.get('status') or ('partial' if any(x.endswith('_partial') for x in t) else 'proved')
    claims.append(dict(property=p, status=status, theorems=t, note=n.get('note', '')))
(root/'MANIFEST.json').write_text(json.dumps({'claims': claims}, indent=1, ensure_ascii=False) + '\n')
print(len(claims), 'claims', sum(len(c['theorems']) for c in claims), 'theorems')
