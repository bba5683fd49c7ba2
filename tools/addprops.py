import json,sys
# usage: addprops.py < lines "id|title|statement|quantifier|why|anchors;..."
P='/verif/properties.jsonl'
ids={json.loads(l)['id'] for l in open(P) if l.strip()}
with open(P,'a') as f:
    for l in sys.stdin:
        l=l.strip()
        if not l: continue
        a=l.split('|'); assert len(a)==6,(len(a),l)
        if a[0] in ids: print('dup',a[0]); continue
        f.write(json.dumps(dict(id=a[0],title=a[1],statement=a[2],quantifier=a[3],why_tests_cant=a[4],anchors=a[5].split(';')))+'\n')
