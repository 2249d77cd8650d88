#!/usr/bin/env python3
"""Runs #print axioms on every manifest theorem (needs a built project); writes tools/axioms.json."""
import json,subprocess,re,os
ts=[t for c in json.load(open('/verif/MANIFEST.json'))['claims'] for t in c['theorems']]
os.makedirs('/tmp/ax',exist_ok=True)
open('/tmp/ax/Ax.lean','w').write('import Verif\n'+''.join(f'#print axioms {t}\n' for t in ts))
r=subprocess.run(['lake','env','lean','/tmp/ax/Ax.lean'],cwd='/verif/lean',capture_output=True,text=True).stdout
d={}
for m in re.finditer(r"'([^']+)' (does not depend on any axioms|depends on axioms: \[([^\]]*)\])",r.replace('\n ',' ')):
    d[m.group(1)]=sorted(x.strip() for x in (m.group(3) or '').split(',') if x.strip())
# names with a prime
for t in ts:
    if t not in d:
        m=re.search(re.escape("'"+t+"'")+r" (does not depend on any axioms|depends on axioms: \[([^\]]*)\])",r.replace('\n ',' '))
        if m: d[t]=sorted(x.strip() for x in (m.group(2) or '').split(',') if x.strip())
json.dump(d,open('/verif/tools/axioms.json','w'),indent=0)
print(len(ts),len(d),set(tuple(v) for v in d.values()))
