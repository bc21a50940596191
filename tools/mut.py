#!/usr/bin/env python3
"""Apply mutants to a scratch copy of the Lean project and record which theorems fail.
usage: mut.py mutants.jsonl   (one object per line: file, definition, old, new, edit, claim[, modules])
Appends to seeded/LOG.jsonl. The scratch copy is /tmp/mut (never /verif)."""
import json,subprocess,sys,os,re,shutil
SRC='/verif/lean'; DST='/tmp/mut'
def sync():
    os.makedirs(DST,exist_ok=True)
    subprocess.run(['rsync','-a','--delete',SRC+'/',DST+'/'],check=True) if shutil.which('rsync') else \
      subprocess.run(f'rm -rf {DST} && cp -a {SRC} {DST}',shell=True,check=True)
mods={}
for d,_,fs in os.walk(SRC+'/Verif'):
    for f in fs:
        if f.endswith('.lean'):
            p=os.path.join(d,f); m=os.path.relpath(p,SRC)[:-5].replace('/','.')
            mods[m]=[l.split()[1] for l in open(p) if l.startswith('import Verif')]
def dependents(m):
    out={m}; ch=True
    while ch:
        ch=False
        for k,v in mods.items():
            if k not in out and out & set(v): out.add(k); ch=True
    return sorted(out)
decl=re.compile(r'^\s*(?:@\[[^\]]*\]\s*)?(?:private\s+|protected\s+|noncomputable\s+)*(theorem|lemma|def|example|instance|structure|abbrev)\s*(\S*)')
def owner(f,line):
    name='?'
    for i,l in enumerate(open(f),1):
        if i>line: break
        g=decl.match(l)
        if g: name=(g.group(1)+' ' if g.group(1)!='theorem' else '')+(g.group(2) if g.group(1)!='example' else f'(line {i})')
    return name
sync()
only=set(sys.argv[2:])
for ln in open(sys.argv[1]):
    if not ln.strip(): continue
    mu=json.loads(ln)
    if only and mu['definition'] not in only: continue
    path=f"{DST}/Verif/{mu['file']}"; orig=open(path).read()
    assert orig.count(mu['old'])>=1,('not found',mu)
    if orig.count(mu['old'])!=1 and not mu.get('all'): print('AMBIGUOUS',mu['definition'],mu['old'])
    open(path,'w').write(orig.replace(mu['old'],mu['new'],-1 if mu.get('all') else 1))
    m='Verif.'+mu['file'][:-5].replace('/','.')
    r=subprocess.run(['lake','build']+dependents(m),cwd=DST,capture_output=True,text=True)
    failed=[];bad=False
    for g in re.finditer(r'^error: (Verif/\S+?\.lean):(\d+):\d+:',r.stdout+r.stderr,re.M):
        o=owner(f'{DST}/{g.group(1)}',int(g.group(2)))
        if f"Verif/{mu['file']}"==g.group(1) and o.startswith(('def','structure','abbrev')): bad=True
        if o not in failed: failed.append(o)
    open(path,'w').write(orig)
    blocked=[]
    st='INVALID' if bad else ('killed' if failed else ('SURVIVED' if r.returncode==0 else 'blocked?'))
    print(st,'|',mu['definition'],'|',mu['edit'],'|',', '.join(failed)[:300],flush=True)
    rec={'definition':mu['definition'],'file':mu['file'],'edit':mu['edit'],'claim':mu['claim'],'failed':failed,'tightened':mu.get('tightened',[])}
    if st=='SURVIVED': rec['note']=mu.get('note','SURVIVED')
    if st in('killed','SURVIVED') and not os.environ.get('DRY'):
        open('/verif/seeded/LOG.jsonl','a').write(json.dumps(rec,ensure_ascii=False)+'\n')
    if bad: print((r.stdout)[-1500:])
