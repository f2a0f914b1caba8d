#!/usr/bin/env python3
"""Generates lean/Verif/Lemmas/Ext{A,B,C,D}.lean: the perturbation series of the CPM propagator for a potential with Legendre
coefficients v1..v15, up to order 19 (a, b) / 18 (c, d). These are certificates only: that they solve the differential
equation, and that they agree with tH, is checked by Lean's kernel (Lemmas/ExtKernel*.lean)."""
from fractions import Fraction as F
from math import comb
from collections import defaultdict
NV,N,DEN=15,20,2075673600
OUT='/verif/lean/Verif/Lemmas/'
dV=[(k,j,F((-1)**(k+j)*comb(k,j)*comb(k+j,j))) for k in range(1,NV+1) for j in range(k+1)]
def step(a,i):  # 2(theta-(i+1)) a_{i+1} = delta^2 dV a_i - (theta-2i)(theta-2i+1) a_i
    r=defaultdict(F)
    for (vs,o,d),c in a.items():
        for k,j,p in dV:
            if o+2+k<N: r[(tuple(sorted(vs+(k,))),o+2+k,d+2+j)]+=c*p
        r[(vs,o,d)]-=(d-2*i)*(d-2*i+1)*c
    return {k:c/(2*(k[2]-(i+1))) for k,c in r.items() if c}
def col(a0,i0):
    A=[{} for _ in range(i0)]+[a0]
    while A[-1]: A.append(step(A[-1],len(A)-1))
    return A[:-1]
def ccol(A):
    C=[]
    for i in range(len(A)):
        g=0 if i==0 else 2*i-1
        r=defaultdict(F)
        for (vs,o,d),c in A[i].items(): r[(vs,o-1,d-1)]+=(d-g)*c
        if i+1<len(A):
            for (vs,o,d),c in A[i+1].items(): r[(vs,o-1,d-1)]+=c
        C.append({k:v for k,v in r.items() if v})
    return C
a=col({((),0,0):F(1)},0); b=col({((),1,1):F(1)},1); c=ccol(a); d=ccol(b)
def key(k):
    vs,o,d=k
    return sum(64**(i-1)+64**15*i for i in vs)+64**16*o+64**17*d
for nm,X in zip('ABCD',(a,b,c,d)):
    with open(OUT+'Ext%s.lean'%nm,'w') as f:
        f.write('import Verif.Lemmas.FormulaCheck\n\n/-! Generated by tools/gen_ext.py (certificate, see Lemmas/ExtKernel). -/\nnamespace Verif.PL\nset_option maxRecDepth 100000\n\n')
        for i,x in enumerate(X):
            ks=sorted(x,key=key)
            parts=[ks[j:j+400] for j in range(0,len(ks),400)]
            for q,pt in enumerate(parts):
                f.write('def ext%s%d_%d : PL := [\n'%(nm,i,q)+',\n'.join('%s %d %d [%s] %d'%('xp' if x[k]>0 else 'xm',k[1],k[2],','.join(map(str,k[0])),abs(x[k]*DEN)) for k in pt)+']\n')
                assert all((x[k]*DEN).denominator==1 for k in pt)
            f.write('/-- row %d -/\ndef ext%s%d : PL := %s\n'%(i,nm,i,' ++ '.join('ext%s%d_%d'%(nm,i,q) for q in range(len(parts))) or '[]'))
        f.write('/-- all rows -/\ndef ext%s : List PL := [%s]\nend Verif.PL\n'%(nm,', '.join('ext%s%d'%(nm,i) for i in range(len(X)))))
print([len(x) for x in (a,b,c,d)])
