#!/usr/bin/env python3
"""Generates lean/Verif/Model/Catalog/Opcodes.lean from src/chain/enums/opcode.cpp and the enumeration in
include/bitcoin/system/chain/enums/opcode.hpp."""
import re
hpp=open('/repo/include/bitcoin/system/chain/enums/opcode.hpp').read()
cpp=open('/repo/src/chain/enums/opcode.cpp').read()
body=re.search(r'enum class opcode : uint8_t\s*\{(.*?)\n\};',hpp,re.S).group(1)
body=re.sub(r'//.*','',body)
enum={}
for m in re.finditer(r'(\w+)\s*=\s*(\w+)',body):
    v=m.group(2)
    enum[m.group(1)]=enum[v] if v in enum else int(v,0)
line=lambda i: cpp[:i].count('\n')+1
sw=re.search(r'switch \(value\)\s*\{(.*?)\n    \}\n',cpp,re.S)
cases=[];pending=[]
for m in re.finditer(r'case opcode::(\w+):|default:|return ([^;]*);',sw.group(1)):
    if m.group(1): pending.append(m.group(1))
    elif m.group(0).startswith('default'): pass
    else:
        for n in pending: cases.append((enum[n],' '.join(m.group(2).split())))
        pending=[]
frm=re.findall(r'^    RETURN_IF_OPCODE(?:_OR_ALIAS)?\((.*?)\);',cpp,re.M)
fi=[line(m.start()) for m in re.finditer(r'^    RETURN_IF_OPCODE',cpp,re.M)]
names=[]
for f in frm:
    parts=[x.strip() for x in f.split(',')]
    for t in parts[:-1]: names.append((t.strip('"'),enum[parts[-1]]))
out=[];forks=[];kinds={'push':[],'number':[],'hex':[]}
for c,e in cases:
    if re.fullmatch(r'"[^"]*"',e): out.append((c,e.strip('"')))
    elif e=='"push_" + serialize(static_cast<uint8_t>(value))': kinds['push'].append(c)
    elif e=='serialize(static_cast<uint8_t>(value) - push_zero)': kinds['number'].append(c)
    elif e=='opcode_to_hexadecimal(value)': kinds['hex'].append(c)
    else:
        m=re.fullmatch(r'script::is_enabled\(active_forks, flags::(\w+)_rule\) \? "(\w+)" : ("\w+"|opcode_to_hexadecimal\(value\))',e)
        forks.append((c,m.group(1),m.group(2),m.group(3)))
print(kinds,forks,len(out),len(names))
assert kinds['push']==list(range(1,76)) and kinds['number']==list(range(81,97))
assert [f[0] for f in forks]==[177,178,186] and [f[1] for f in forks]==['bip65','bip112','bip342']
assert sorted(c for c,_ in out)+[]==[c for c,_ in out]
def rows(l,f): return ',\n'.join('  '+', '.join(f(x) for x in l[i:i+6]) for i in range(0,len(l),6))
o='''/-!
# Opcode names of src/chain/enums/opcode.cpp (generated by tools/gen_opcodes.py)
-/
namespace Verif.Catalog

/-- The cases of the switch in `opcode_to_mnemonic` that return a literal (src/chain/enums/opcode.cpp:%d-%d). -/
def opcodeText : List (Nat × String) := [
%s]

/-- The texts `opcode_from_mnemonic` compares with, in order, aliases after names (src/chain/enums/opcode.cpp:%d-%d). -/
def opcodeNames : List (String × Nat) := [
%s]

end Verif.Catalog
'''%(line(sw.start()),line(sw.end()),rows(out,lambda x:'(%d, "%s")'%x),fi[0],fi[-1],rows(names,lambda x:'("%s", %d)'%x))
open('/verif/lean/Verif/Model/Catalog/Opcodes.lean','w').write(o)
