#!/usr/bin/env python3
"""lines.py FILE...: print 'function start-end' for each function body in the given C++ files (for citations)."""
import sys,re
for f in sys.argv[1:]:
    L=open(f).read().split('\n')
    print(f)
    i=0
    while i<len(L):
        if L[i]=='{':
            j=i-1
            while j>0 and L[j].strip() and not L[j].startswith('}') and not L[j].startswith('namespace'): j-=1
            k=i
            while k<len(L) and not L[k].startswith('}'): k+=1
            sig=' '.join(x.strip() for x in L[j+1:i])
            m=re.findall(r'([\w~=!<>]+)\(',sig)
            print('  %s %d-%d'%(m[0] if m else sig[:50],j+2,k+1))
            i=k
        i+=1
