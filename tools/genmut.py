#!/usr/bin/env python3
"""usage: genmut.py N SEED OUT.json Model/X.lean...  Picks up to N seeded edits per model file, at most one per definition and operator, by
operators that imitate realistic slips (boundary, constant, connective, order of bytes, sign, direction). The survivors are reviewed by hand."""
import re,sys,json,random,os
root='/verif/lean/Verif/'
OPS=[(r'(?<![\w.])(\d+)(?![\w.])',lambda m:str(int(m.group(1))+1),'constant %s is one larger'),
 (r'0x([0-9a-fA-F]+)',lambda m:'0x%x'%(int(m.group(1),16)^1),'the last bit of %s is flipped'),
 (r' < ',lambda m:' ≤ ','boundary: < becomes ≤'),(r' ≤ ',lambda m:' < ','boundary: ≤ becomes <'),
 (r' > ',lambda m:' ≥ ','boundary: > becomes ≥'),(r' ≥ ',lambda m:' > ','boundary: ≥ becomes >'),
 (r' && ',lambda m:' || ','and becomes or'),(r' \|\| ',lambda m:' && ','or becomes and'),
 (r' ∧ ',lambda m:' ∨ ','and becomes or'),(r' ∨ ',lambda m:' ∧ ','or becomes and'),
 (r' == ',lambda m:' != ','test negated'),(r' != ',lambda m:' == ','test negated'),
 (r' = (?=[\w.()]+ then)',lambda m:' ≠ ','test negated'),(r' ≠ (?=[\w.()]+ then)',lambda m:' = ','test negated'),
 (r'\btake\b',lambda m:'drop','take becomes drop'),(r'\bdrop\b',lambda m:'take','drop becomes take'),
 (r'<<<',lambda m:'>>>','shift in the other direction'),(r'>>>',lambda m:'<<<','shift in the other direction'),
 (r'\^\^\^',lambda m:'|||','xor becomes or'),(r'&&&',lambda m:'|||','and becomes or (bits)'),(r'\|\|\|',lambda m:'&&&','or becomes and (bits)'),
 (r'\bleBytes\b',lambda m:'beBytes','wrong byte order'),(r'\bbeBytes\b',lambda m:'leBytes','wrong byte order'),
 (r'\bleNat\b',lambda m:'beNat','wrong byte order'),(r'\bbeNat\b',lambda m:'leNat','wrong byte order'),
 (r'\btrue\b',lambda m:'false','true becomes false'),(r'\bfalse\b',lambda m:'true','false becomes true'),
 (r' \+ (?=\w)',lambda m:' - ','plus becomes minus'),(r' - (?=\w)',lambda m:' + ','minus becomes plus'),
 (r'\.reverse\b',lambda m:'','a reversal is dropped'),(r'!(?=[\w(])',lambda m:'','a negation is dropped'),
 (r'(\w+) \+\+ (\w+)(?![\w.( ])',lambda m:m.group(2)+' ++ '+m.group(1),'concatenation in the wrong order')]
def imports(p): return re.findall(r'^import Verif\.(\S+)',open(p).read(),re.M)
def claims(f):
    mod=f[:-5].replace('/','.')
    best=set()
    g={}
    for r,_,fs in os.walk(root):
        for x in fs:
            if x.endswith('.lean'):
                p=os.path.join(r,x); g[os.path.relpath(p,root)[:-5].replace('/','.')]=imports(p)
    level={mod}; seen={mod}
    for _ in range(4):
        nxt={m for m,i in g.items() if m not in seen and set(i)&level}
        seen|=nxt
        for m in nxt:
            if m.startswith('Props.'): best|=set(re.findall(r'^theorem (C\d\d)_',open(root+m.replace('.','/')+'.lean').read(),re.M))
        if best: break
        level=nxt
    return sorted(best)
def main():
    n=int(sys.argv[1]); rnd=random.Random(int(sys.argv[2])); out=[]
    titles={}
    for l in open('/verif/properties.jsonl'):
        d=json.loads(l); titles[d['id']]=d['title']
    for f in sys.argv[4:]:
        src=open(root+f).read()
        # blank comments
        code=re.sub(r'/-.*?-/',lambda m:re.sub(r'[^\n]',' ',m.group(0)),src,flags=re.S)
        code=re.sub(r'--[^\n]*',lambda m:' '*len(m.group(0)),code)
        code=re.sub(r'"[^"\n]*"',lambda m:' '*len(m.group(0)),code)
        defs=[(m.start(),m.group(1)) for m in re.finditer(r'^(?:noncomputable |private |@\[[^\]]*\] ?)*def\s+([\w.\']+)',code,re.M)]
        ends=[m.start() for m in re.finditer(r'^(?=\S)',code,re.M)]+[len(code)]
        C=[]
        for st,name in defs:
            en=min(e for e in ends if e>st)
            body=code.find(':=',st,en); 
            alt=code.find('\n  |',st,en)
            if body<0 or (0<=alt<body): body=alt
            if body<0: continue
            for pat,fn,desc in OPS:
                for m in re.finditer(pat,code[body:en]):
                    a=body+m.start(); b=body+m.end()
                    C.append((name,a,b,fn(m),desc%(m.group(0),) if '%' in desc else desc,pat))
        rnd.shuffle(C)
        used=set(); ops={}; k=0
        ids=claims(f)
        cl='; '.join('%s: %s'%(i,titles.get(i,'')) for i in ids[:3])+('' if len(ids)<=3 else ' and others')
        for name,a,b,new,desc,pat in C:
            if k>=n: break
            if name in used or ops.get(pat,0)>=2: continue
            ls=src.rfind('\n',0,a)+1; le=src.find('\n',b)
            if re.match(r'\s*\|',src[ls:le]) and a<(src.find('=>',ls,le) if '=>' in src[ls:le] else le): continue
            # unique context
            lo,hi=ls,le
            while src.count(src[lo:hi])!=1:
                lo=src.rfind('\n',0,max(lo-1,0))+1
                if lo==0: break
            if src.count(src[lo:hi])!=1: continue
            used.add(name); ops[pat]=ops.get(pat,0)+1; k+=1
            out.append(dict(file=f,definition=name,old=src[lo:hi],new=src[lo:a]+new+src[b:hi],edit=desc+' in `'+src[ls:le].strip()[:120]+'`',claim=cl))
    json.dump(out,open(sys.argv[3],'w'),indent=1,ensure_ascii=False); print(len(out))
main()
