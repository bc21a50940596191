"""Append a property: python3 tools/addprop.py < json lines (dedup by id); notes via key 'note'."""
import json, sys
P='/verif/properties.jsonl'; N='/verif/tools/notes.json'
ids={json.loads(l)['id'] for l in open(P) if l.strip()}
notes=json.load(open(N))
out=open(P,'a')
for l in sys.stdin:
    if not l.strip(): continue
    d=json.loads(l)
    n=d.pop('note',None)
    if n: notes[d['id']]={'note':n}
    if 'title' in d:
        assert d['id'] not in ids, d['id']
        for k in ('id','title','statement','quantifier','why_tests_cant','anchors'): assert k in d,(d['id'],k)
        out.write(json.dumps(d)+'\n'); ids.add(d['id'])
out.close()
json.dump(notes,open(N,'w'),indent=1)
