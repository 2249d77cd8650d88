#!/usr/bin/env python3
"""Seeded-bug runner. usage: mutate.py SPEC.json...   Each spec: list of
{"file","definition","old","new","edit","claim","expect":[property ids]}.
Copies /verif/lean to /tmp/scratch (sharing .lake once), applies one edit at a time, rebuilds with keep-going,
and appends one JSON line per attempt to /verif/seeded/LOG.jsonl."""
import json,sys,os,subprocess,re,shutil,time
S='/tmp/scratch'
LOG='/verif/seeded/LOG.jsonl'
def sync():
    subprocess.run(['rsync','-a','--delete','/verif/lean/',S+'/'] if shutil.which('rsync') else ['sh','-c',f'rm -rf {S}; cp -r /verif/lean {S}'],check=True)
def decl_at(path,line):
    L=open(path).read().split('\n')
    ns=''
    for i in range(min(line,len(L))-1,-1,-1):
        m=re.match(r'\s*(?:private |protected |noncomputable |@\[[^\]]*\] ?)*(theorem|lemma|def|instance|example|abbrev)\s*(\S*)',L[i])
        if m: return (m.group(1)+' ' if m.group(1)in('example','def','instance') else '')+m.group(2)
    return '?'
def dependents(mods):
    imp={}
    for r,_,fs in os.walk(S+'/Verif'):
        for f in fs:
            if f.endswith('.lean'):
                p=os.path.join(r,f); m=os.path.relpath(p,S)[:-5].replace('/','.')
                imp[m]=set(re.findall(r'^import (Verif\.\S+)',open(p).read(),re.M))
    out=set(); ch=True
    while ch:
        ch=False
        for m,i in imp.items():
            if m not in out and (i&(set(mods)|out)): out.add(m); ch=True
    return out
def props_in(mod):
    p=S+'/'+mod.replace('.','/')+'.lean'
    return sorted(set(re.findall(r'^theorem (C\d+_\w+)',open(p).read(),re.M)))
def nearest(mod):
    level=[mod]; seen={mod}
    imp={}
    for r,_,fs in os.walk(S+'/Verif'):
        for f in fs:
            if f.endswith('.lean'):
                p=os.path.join(r,f); m=os.path.relpath(p,S)[:-5].replace('/','.')
                imp[m]=set(re.findall(r'^import (Verif\.\S+)',open(p).read(),re.M))
    for _ in range(6):
        nxt=sorted(m for m,i in imp.items() if m not in seen and i&set(level))
        seen|=set(nxt)
        pr=[m for m in nxt if m.startswith('Verif.Props.')]
        if pr:
            base=mod.split('.')[-1]
            pr.sort(key=lambda m:(base not in m,len(m)))
            return pr[:2]
        level=nxt
    return []
def run(x):
    path=S+'/Verif/'+x['file']; src=open(path).read()
    n=src.count(x['old'])
    if n!=1 and not x.get('all'): print('BAD SPEC (count %d):'%n,x['definition'],x['edit']); return
    open(path,'w').write(src.replace(x['old'],x['new']))
    t=time.time()
    near=nearest('Verif.'+x['file'][:-5].replace('/','.'))
    r=subprocess.run(['lake','build']+near,cwd=S,capture_output=True,text=True)
    if r.returncode==0: r=subprocess.run(['lake','build'],cwd=S,capture_output=True,text=True)
    out=r.stdout+r.stderr
    errs=re.findall(r'error: (Verif/\S+?\.lean):(\d+):\d+',out)
    failed=[];mods=[]
    for f,l in errs:
        d=decl_at(S+'/'+f,int(l)); k=f[6:-5]+': '+d
        if k not in failed: failed.append(k)
        m=f[:-5].replace('/','.')
        if m not in mods: mods.append(m)
    if r.returncode!=0 and not errs:
        for t in re.findall(r'^- (Verif\.\S+)',out,re.M):
            failed.append(t[6:].replace('.','/')+': (the prover ran out of memory or time on this module)')
            if t not in mods: mods.append(t)
    blocked=[]
    for m in sorted(dependents(mods)): blocked+= [p for p in props_in(m)]
    open(path,'w').write(src)
    modelbroke=any(m=='Verif.'+x['file'][:-5].replace('/','.') for m in mods)
    direct=[f for f in failed if re.search(r': C\d\d_',f)]
    rec={"definition":x['file'][:-5]+': '+x['definition'],"edit":x['edit'],"claim":x['claim'],"theorems_failed":failed,
         "property_theorems_blocked":blocked if not direct else [p for p in blocked][:40],"theorems_tightened":x.get('tightened',[]),
         "verdict":"model does not compile" if modelbroke else ("caught" if failed else "SURVIVED")}
    if x.get('note'): rec['note']=x['note']
    print(f"[{time.time()-t:.0f}s] {rec['verdict']}: {rec['definition']} :: {x['edit']} -> {failed[:6]}",flush=True)
    if not x.get('dry') and rec['verdict']!='model does not compile': open(LOG,'a').write(json.dumps(rec)+'\n')
if __name__=='__main__':
    sync()
    for s in sys.argv[1:]:
        for x in json.load(open(s)): run(x)
    # restore compiled state
