#!/usr/bin/env python3
# For each source file of /repo: number of lines cited by the model.
import re,glob,os,sys,collections
cited=collections.defaultdict(set)
base=collections.defaultdict(list)
for f in glob.glob('/repo/src/**/*.cpp',recursive=True)+glob.glob('/repo/include/**/*.[hi]pp',recursive=True):
    base[os.path.basename(f)].append(f)
for m in glob.glob('/verif/lean/Verif/**/*.lean',recursive=True):
    s=open(m).read()
    for x in re.finditer(r'([a-z0-9_]+\.(?:cpp|ipp|hpp)):\s*((?:\d+(?:-\d+)?(?:, ?)?)+)',s):
        for r in re.findall(r'(\d+)(?:-(\d+))?',x.group(2)):
            a=int(r[0]); b=int(r[1] or r[0])
            cited[x.group(1)]|=set(range(a,b+1))
tot=0;ct=0
for n in sorted(base):
    for f in base[n]:
        L=sum(1 for _ in open(f,errors='replace'))
        c=len(cited.get(n,()))
        tot+=L;ct+=min(c,L)
        if len(sys.argv)>1 or f.endswith(('cpp','ipp')):
            print(f"{c:5d}/{L:5d} {f[6:]}")
print(ct,tot)
