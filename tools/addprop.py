#!/usr/bin/env python3
"""usage: addprop.py FILE: FILE is JSON {id,title,statement,quantifier,why,anchors,note,how,[status]}"""
import json,sys
d=json.load(open(sys.argv[1]))
f='/verif/tools/props.py'; s=open(f).read()
assert 'p("%s"'%d['id'] not in s
e='p(%s)\n'%",\n".join([json.dumps(d['id'])+","+json.dumps(d['title'],ensure_ascii=False),json.dumps(d['statement'],ensure_ascii=False),json.dumps(d['quantifier'],ensure_ascii=False)+","+json.dumps(d['why'],ensure_ascii=False),json.dumps(d['anchors'])])
s=s.replace("with open('/verif/properties.jsonl'",e+"with open('/verif/properties.jsonl'",1)
open(f,'w').write(s)
n={"note":d['note']}
if 'status' in d: n['status']=d['status']
for fn,v in(('/verif/tools/notes.json',n),('/verif/tools/how.json',d['how'])):
    x=json.load(open(fn)); x[d['id']]=v; json.dump(x,open(fn,'w'),indent=1,ensure_ascii=False)
