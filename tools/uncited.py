#!/usr/bin/env python3
"""uncited.py FILE...: functions of the given C++ files none of whose body lines is cited by the model."""
import re,glob,os,sys,collections
cited=collections.defaultdict(set)
for m in glob.glob('/verif/lean/Verif/**/*.lean',recursive=True):
    s=open(m).read()
    for x in re.finditer(r'([a-z0-9_]+\.(?:cpp|ipp|hpp)):\s*((?:\d+(?:-\d+)?(?:, ?)?)+)',s):
        rs=x.group(2)
        for r in re.findall(r'(\d+)(?:-(\d+))?',rs):
            a=int(r[0]); b=int(r[1] or r[0])
            cited[x.group(1)]|=set(range(a,b+1))
for f in sys.argv[1:]:
    L=open(f).read().split('\n'); c=cited[os.path.basename(f)]
    out=[];i=0
    while i<len(L):
        if L[i]=='{':
            j=i-1
            while j>0 and L[j].strip() and not L[j].startswith('}') and not L[j].startswith('namespace'): j-=1
            k=i
            while k<len(L) and not L[k].startswith('}'): k+=1
            sig=' '.join(x.strip() for x in L[j+1:i])
            m=re.findall(r'([\w~=!<>]+)\(',sig)
            if not (set(range(i+1,k+2))&c) and k-i>1: out.append('%s:%d-%d'%(m[0] if m else sig[:30],j+2,k+1))
            i=k
        i+=1
    if out: print(f[6:],' '.join(out))
