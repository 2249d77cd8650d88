#!/usr/bin/env python3
"""Generates lean/Verif/Model/Catalog/*.lean from /repo/src/words/catalogs/*.cpp: each word as the number its bytes spell."""
import re,os
def load(f):
    out={}
    src=open(f,encoding='utf8').read()
    for m in re.finditer(r'const catalog::words (\w+)\s*=?\s*\{\s*(true|false),\s*\{(.*?)\}\s*\}',src,re.S):
        body=re.sub(r'//.*','',m.group(3))
        ws=re.findall(r'"((?:[^"\\]|\\.)*)"',body)
        assert not any('\\' in w for w in ws)
        out[m.group(1)]=(m.group(2)=='true',[w.encode('utf8') for w in ws],src[:m.start()].count('\n')+1,src[:m.end()].count('\n')+1)
    return out
D='/verif/lean/Verif/Model/Catalog/'
val=lambda w:int.from_bytes(w,'big')
hx=lambda w:'0x'+w.hex()
def emit(name,defname,cat,lang,sorted_,ws,a,b):
    n=len(ws); k=(n+127)//128
    o="/-!\n# The `%s` word list of src/words/catalogs/%s.cpp:%d-%d (generated by tools/gen_words.py)\n\nEach word is the number its UTF-8 bytes spell, most significant byte first.\n-/\nnamespace Verif.Catalog\n\n"%(lang,cat,a,b)
    for i in range(k):
        part=ws[128*i:128*i+128]
        lines=[', '.join(hx(w) for w in part[j:j+8]) for j in range(0,len(part),8)]
        o+="private def %s%d : List Nat := [\n  %s]\n"%(defname,i,',\n  '.join(lines))
    o+="\n/-- Words %d, src/words/catalogs/%s.cpp:%d-%d. -/\ndef %s : List Nat :=\n  %s\n"%(n,cat,a,b,defname,' ++ '.join('(%s%d'%(defname,i) for i in range(k))+')'*k)
    o+="\nend Verif.Catalog\n"
    open(D+name+'.lean','w').write(o)
langs=['en','es','it','fr','cs','pt','ja','ko','zh_Hans','zh_Hant']
m=load('/repo/src/words/catalogs/mnemonic.cpp')
for l in langs:
    emit(l.replace('zh_','Zh').capitalize() if 0 else {'zh_Hans':'ZhHans','zh_Hant':'ZhHant'}.get(l,l.capitalize()),{'zh_Hans':'zhHans','zh_Hant':'zhHant'}.get(l,l),'mnemonic',l,*m[l])
v=load('/repo/src/words/catalogs/electrum_v1.cpp')
emit('V1En','v1En','electrum_v1','en',*v['en'])
emit('V1Pt','v1Pt','electrum_v1','pt',*v['pt'])
# lookup trees
def tree(name,defname,lists,doc):
    d={}
    for li,ws in enumerate(lists):
        for i,w in enumerate(ws): d.setdefault(val(w),[]).append(li*2048+i)
    keys=sorted(d)
    defs=[]
    def build(lo,hi):
        if lo>=hi: return '.e'
        mid=(lo+hi)//2
        k=keys[mid]
        l=build(lo,mid); r=build(mid+1,hi)
        vs=d[k]; assert len(vs)<=2
        t='.o %s %s %d %s'%(l,hex(k),vs[0],r) if len(vs)==1 else '.t %s %s %d %d %s'%(l,hex(k),vs[0],vs[1],r)
        if hi-lo>60:
            nm='%s%d'%(defname,len(defs)); defs.append((nm,t)); return nm
        return '('+t+')'
    root=build(0,len(keys))
    o="import Verif.Model.Catalog.Tree\n/-!\n# %s (generated by tools/gen_words.py; a proof artefact, checked in Verif.Lemmas.Catalog)\n-/\nnamespace Verif.Catalog\nopen Tree\n\n"%doc
    for nm,t in defs: o+="def %s : Tree := %s\n"%(nm,t)
    o+="def %s : Tree := %s\n\nend Verif.Catalog\n"%(defname,root)
    open(D+name+'.lean','w').write(o)
tree('MnemonicTree','mnemonicTree',[m[l][1] for l in langs],'Positions of all words of the ten lists')
tree('V1Tree','v1Tree',[v['en'][1],v['pt'][1]],'Positions of all words of the two Electrum v1 lists')
