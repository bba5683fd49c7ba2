#!/usr/bin/env python3
"""Rewrite /verif/seeded/LOG.jsonl from the raw harness results (/tmp/mut_results.jsonl)."""
import json
T = {('Segs4.check','contiguity check dropped'):['C03_refuses'],
 ('PolyLine.step','rsub not negated'):['C12_sub_result'],
 ('xaYaIntegrateProd','limits swapped'):['C08_outer'],
 ('CcCr.avFromStress','normally consolidated point uses Cr'):['C36_slope_loading'],
 ('allowOne','unknown allow member ignored'):['C39_unknown_allow'],
 ('matchNum','+ treated as *'):['C38_matcher'],
 ('muPiecewiseConstant','order check dropped'):['C70_refuses']}
EQ = {('keep','commented words allowed'):'equivalent: a Python name never starts with #, so the edited checker accepts the same programs'}
try: T.update({tuple(k.split('|')):v for k,v in json.load(open('/verif/tools/tightened.json')).items()})
except FileNotFoundError: pass
try: EQ.update({tuple(k.split('|')):v for k,v in json.load(open('/verif/tools/equivalent.json')).items()})
except FileNotFoundError: pass
out = open('/verif/seeded/LOG.jsonl','w')
for l in open('/tmp/mut_results.jsonl'):
    r = json.loads(l)
    if 'result' in r: continue
    k = (r['definition'], r['edit'])
    sv = r['survived'] is True
    o = {'definition': r['definition'], 'file': 'lean/Verif/'+r['file'], 'edit': f"{r['edit']}: `{r['old']}` -> `{r['new']}`",
         'claim': r['claim'], 'outcome': 'survived' if sv else ('build timed out' if r['survived']=='TIMEOUT' else 'caught'),
         'theorems_failed': r['failed_props'] or r['failed_direct'], 'theorems_tightened': T.get(k, []) if sv else []}
    if sv and k in EQ: o['note'] = EQ[k]
    if sv and k in T: o['note'] = 'too weak before; the listed theorems were added and the same edit was tried again (see the later line)'
    if sv and k not in T and k not in EQ: print('UNEXPLAINED', k)
    out.write(json.dumps(o, ensure_ascii=False)+'\n')
