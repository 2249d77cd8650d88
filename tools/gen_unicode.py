#!/usr/bin/env python3
"""gen_unicode.py: writes lean/Verif/Model/Catalog/UnicodeTables.lean from the tables of /repo/src/unicode.
Each array becomes one number, element i in bits [w*i, w*(i+1)) where w is the width of the element type."""
import re
def arr(f,name):
    s=open(f).read()
    i=s.index(name+'['); line=s[:i].count('\n')+1
    i=s.index('{',i); j=s.index('}',i)
    body=re.sub(r'//[^\n]*','',s[i+1:j])
    return [int(x,0) for x in re.findall(r'\b(0x[0-9a-fA-F]+|\d+)[uUlL]*\b',body)],line,s[:j].count('\n')+1
U='/repo/src/unicode/unicode_tables.cpp'; C='/repo/src/unicode/code_points.cpp'
T=[('decompositionPool',U,'uint32_t decomposition_pool',32),('decompositionIndex1',U,'decomposition_index1',16),
('decompositionIndex2',U,'decomposition_index2',16),('compositionPairs',U,'composition_pairs',32),('caseFoldPairs',U,'case_fold_pairs',32),
('upperPairs',U,'upper_pairs',32),('combiningIndex',C,'combining_index',8),('unicodeData1',C,'unicode_data1',16),('unicodeData2',C,'unicode_data2',16)]
o=['''/-!
# The Unicode tables of src/unicode, as numbers

Generated by tools/gen_unicode.py.  Element `i` of an array of `w` bit elements is bits `[w * i, w * (i + 1))` of the number.
-/
namespace Verif.Unicode
''']
for lean,f,c,w in T:
    a,l0,l1=arr(f,c)
    n=0
    for i,x in enumerate(a): assert x<1<<w
    h=''.join('%0*x'%(w//4,x) for x in reversed(a)).lstrip('0')
    o.append('/-- `%s` (%s:%d-%d): %d elements of %d bits. -/\n@[irreducible] def %s : Nat :=\n  0x%s\n'%(c.split()[-1],f.split('/')[-1],l0,l1,len(a),w,lean,h))
o.append('end Verif.Unicode\n')
open('/verif/lean/Verif/Model/Catalog/UnicodeTables.lean','w').write('\n'.join(o))
