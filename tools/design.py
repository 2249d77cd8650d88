#!/usr/bin/env python3
"""Generates /verif/DESIGN.md from the manifest, tools/how.json, tools/findings.txt, tools/axioms.json and the citations in the model."""
import json,re,glob,os,collections
M={c['property']:c for c in json.load(open('/verif/MANIFEST.json'))['claims']}
P=[json.loads(l) for l in open('/verif/properties.jsonl')]
how=json.load(open('/verif/tools/how.json'))
ax=json.load(open('/verif/tools/axioms.json'))
out=[]
w=out.append
w(open('/verif/tools/design_head.md').read().rstrip()+'\n')
w('## Axioms of the property theorems\n')
groups=collections.defaultdict(list)
for c in M.values():
    for t in c['theorems']:
        groups[', '.join(ax.get(t,['(see vcheck)'])) or 'no axioms'].append(t)
w('Printed by `#print axioms` for every theorem named in MANIFEST.json. No axiom of our own, no compiled evaluation.\n')
for g in sorted(groups,key=lambda g:-len(groups[g])):
    w(f'* **{g}** ({len(groups[g])} theorems)'+('' if len(groups[g])>60 else ': '+', '.join(x.split('.')[-1] for x in groups[g])))
w('')
w('## Properties: what is modelled and how it is proved\n')
where=collections.defaultdict(set)
for f in glob.glob('/verif/lean/Verif/Props/*.lean'):
    for x in re.findall(r'^theorem (C\d+)_',open(f).read(),re.M): where[x].add(os.path.basename(f)[:-5])
w('| id | property | files | how | status |')
w('|----|----------|-------|-----|--------|')
for p in P:
    c=M[p['id']]
    w(f"| {p['id']} | {p['title']} | {', '.join('Props/'+x for x in sorted(where[p['id']]))} | {how.get(p['id'],'')} | {c['status']} |")
w('')
w('Restrictions and counterexamples per property are in the notes of MANIFEST.json; each restriction is a hypothesis in the theorem statement.\n')
w('## Findings: where the code does not do what a user would rely on\n')
w('Each was found by failing to prove a property. The theorem named is the machine-checked counterexample in the model.\n')
w(open('/verif/tools/findings.txt').read().rstrip()+'\n')
w('## Modelled code\n')
w('Lines of each source file cited by a definition of the model (`tools/coverage.py`); lines not listed are not modelled.\n')
cited=collections.defaultdict(set); base=collections.defaultdict(list)
for f in glob.glob('/repo/src/**/*.cpp',recursive=True)+glob.glob('/repo/include/**/*.[hi]pp',recursive=True):
    base[os.path.basename(f)].append(f[6:])
for m in glob.glob('/verif/lean/Verif/**/*.lean',recursive=True):
    for x in re.finditer(r'([a-z0-9_]+\.(?:cpp|ipp|hpp)):\s*((?:\d+(?:-\d+)?(?:, ?)?)+)',open(m).read()):
        for r in re.findall(r'(\d+)(?:-(\d+))?',x.group(2)):
            a=int(r[0]); cited[x.group(1)]|=set(range(a,int(r[1] or a)+1))
def ranges(s):
    r=[];s=sorted(s)
    i=0
    while i<len(s):
        j=i
        while j+1<len(s) and s[j+1]<=s[j]+3: j+=1
        r.append(f'{s[i]}-{s[j]}' if j>i else str(s[i])); i=j+1
    return ', '.join(r)
skip=('src/chain/json','src/config/')
for n in sorted(cited):
    fs=[f for f in base.get(n,[]) if not f.startswith(skip)] or base.get(n,[])
    if not fs: continue
    f=fs[0] if n not in ('mnemonic.cpp','electrum_v1.cpp') else ' and '.join(fs)
    w(f'* `{f}`: {ranges(cited[n])}')
w('')
w(open('/verif/tools/design_tail.md').read().rstrip())
open('/verif/DESIGN.md','w').write('\n'.join(out)+'\n')
