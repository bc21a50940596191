#!/usr/bin/env python3
"""Regenerate MANIFEST.json and lean/Verif.lean from the sources (theorem names Cxx_...)."""
import json,re,glob,os
root=os.path.dirname(os.path.dirname(os.path.abspath(__file__)))
notes=json.load(open(root+'/tools/notes.json')) if os.path.exists(root+'/tools/notes.json') else {}
props=[json.loads(l) for l in open(root+'/properties.jsonl') if l.strip()]
th={}
files=sorted(glob.glob(root+'/lean/Verif/**/*.lean',recursive=True))
for f in files:
    ns=[]
    for line in open(f):
        m=re.match(r'namespace (\S+)',line)
        if m: ns.append(m.group(1))
        m=re.match(r'end (\S+)',line)
        if m and ns and ns[-1]==m.group(1): ns.pop()
        m=re.match(r'(?:noncomputable )?theorem (C\d\d+_\w+)',line)
        if m:
            th.setdefault(m.group(1).split('_')[0],[]).append('.'.join(ns+[m.group(1)]))
claims=[]
for p in props:
    i=p['id']; t=th.get(i,[])
    if not t: 
        if i in notes and notes[i].get('status')=='not_applicable':
            claims.append(dict(property=i,status='not_applicable',theorems=[],note=notes[i]['note']))
        continue
    st='partial' if any(x.endswith('_partial') for x in t) else 'proved'
    n=notes.get(i,{})
    claims.append(dict(property=i,status=n.get('status',st),theorems=t,note=n.get('note','')))
json.dump({'claims':claims},open(root+'/MANIFEST.json','w'),indent=1)
with open(root+'/lean/Verif.lean','w') as o:
    for f in files:
        o.write('import '+os.path.relpath(f,root+'/lean')[:-5].replace('/','.')+'\n')
print(len(claims),'claims;',sum(len(c['theorems']) for c in claims),'theorems; missing:',[p['id'] for p in props if p['id'] not in {c['property'] for c in claims}])
d=open(root+'/DESIGN.md').read()
mark='## Findings'
if mark in d:
    d=d[:d.index(mark)]+"## Findings (claims refuted of the code, each a theorem `…_wrong` or an exact characterisation; generated from the manifest)\n\n"
    d+=''.join(f"* {c['property']}: {c['note']}\n" for c in claims if c['status']=='partial' and c['note'])
    open(root+'/DESIGN.md','w').write(d)
