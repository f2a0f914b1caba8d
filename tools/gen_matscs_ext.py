#!/usr/bin/env python3
"""Computes the terms of total power 9 and 10 left out by the tables of matscs_formulas.cpp (lean/Verif/Lemmas/MatscsExt.lean): reads the tables, reconstructs the rationals, and solves the recurrence of the eta functions."""
import re
from fractions import Fraction as F
SRC='/repo/matslise/matscs/matscs_formulas.cpp'
src=open(SRC).read().split('\n')
env={'v%d'%i:(i,) for i in range(9)}
tD={};tH={}   # (i,j,blk) -> list of (hpow, dec-string-coef, word)
BL={('0','0'):'a',('0','n'):'b',('n','0'):'c',('n','n'):'d'}
def parse_sum(s):
    # s: terms like -0.5*v1+-0.3*v0_v1 ; or MatrixXs::Identity(n, n)
    s=s.strip()
    if s=='MatrixXs::Identity(n, n)': return [('1.0',())]
    r=[]
    pos=0
    for m in re.finditer(r'\+?(-?[\d.]+(?:e-?\d+)?)\*(v\d(?:_v\d)*)',s):
        assert m.start()==pos,(s,pos); pos=m.end()
        r.append((m.group(1),env[m.group(2)]))
    assert pos==len(s),(s,pos)
    return r
def parse_rhs(s):
    s=s.strip()
    if s.startswith('MatrixXs::Zero'): return []
    out=[]
    if s=='MatrixXs::Identity(n, n)' : return [(0,c,w) for c,w in parse_sum(s)]
    # pieces separated by ' + '
    for p in s.split(' + '):
        p=p.strip()
        m=re.match(r'^h(\d+) \* \((.*)\)$',p)
        if m: out+= [(int(m.group(1)),c,w) for c,w in parse_sum(m.group(2))]
        elif p.startswith('('): assert p.endswith(')'); out+=[(0,c,w) for c,w in parse_sum(p[1:-1])]
        else: out+=[(0,c,w) for c,w in parse_sum(p)]
    return out
for l in src:
    m=re.match(r'\s*const MatrixXs (v[\d_v]+) = (v\S+) \* (v\S+);',l)
    if m:
        want=tuple(int(x) for x in re.findall(r'\d+',m.group(1)))
        assert env[m.group(2)]+env[m.group(3)]==want; env[m.group(1)]=want; continue
    m=re.match(r'\s*tDelta\((\d+), (\d+)\)\.block\((0|n), (0|n), n, n\) (\+?=) (.*);',l)
    if m:
        k=(int(m[1]),int(m[2]),BL[(m[3],m[4])]); assert m[5]=='=' and k not in tD; tD[k]=parse_rhs(m[6]); continue
    m=re.match(r'\s*tDelta\((\d+), (\d+)\) = MatrixXs::Zero\(2\*n, 2\*n\);',l)
    if m:
        for b in 'abcd':
            k=(int(m[1]),int(m[2]),b); assert k not in tD; tD[k]=[]
        continue
    m=re.match(r'\s*tH\[(\d+)\]\.block\((0|n), (0|n), n, n\) (\+?=) (.*);',l)
    if m:
        k=(int(m[1]),BL[(m[2],m[3])])
        if m[4]=='=': assert k not in tH; tH[k]=parse_rhs(m[5])
        else: tH[k]+=parse_rhs(m[5])
        continue
    if re.search(r'tDelta|tH\[',l) and not 'resize' in l: print('UNPARSED',l[:120])
from math import comb
from collections import defaultdict
def rat(s):
    x=F(s)
    for d in sorted(DEN):
        y=F(round(x*d),d)
        if x==y or (y!=0 and abs(x-y)<=abs(y)*F(5,10**12)): return y
    raise Exception(s)
import sys
# denominators of the form 2^a3^b5^c7^d
DEN=sorted({2**a*3**b*5**c*7**d for a in range(12) for b in range(4) for c in range(3) for d in range(2)})
DEN=[d for d in DEN if d<300000]
cache={}
def R(s):
    if s not in cache: cache[s]=rat(s)
    return cache[s]
mx=0
for t in list(tD.values())+list(tH.values()):
    for p,c,w in t: mx=max(mx,R(c).denominator)
print('maxden',mx)
# legendre shifted poly coefs
def P(k): return [(-1)**(k+j)*comb(k,j)*comb(k+j,j) for j in range(k+1)]
D='D'
def blk(b):
    # list over i of dict (pd,ph,word)->coef
    out=[defaultdict(F) for _ in range(5)]
    for i in range(5):
        for j in range(10):
            for p,c,w in tD[(i,j,b)]: out[i][(j,p,w)]+=R(c)
    return out
def resid(U,W):
    r1=[defaultdict(F) for _ in range(7)]; r2=[defaultdict(F) for _ in range(7)]
    def deriv(U,r):
        for i in range(len(U)):
            for (j,p,w),c in U[i].items():
                if j: r[i][(j-1,p,w)]+=j*c
                if i==0: r[1][(j+1,p,w+(D,))]+=c
                else:
                    assert j>=1
                    r[i-1][(j-1,p,w)]+=c
                    r[i][(j-1,p,w)]-=(2*i-1)*c
    deriv(U,r1)
    for i in range(len(W)):
        for k,c in W[i].items(): r1[i][k]-=c
    deriv(W,r2)
    for i in range(len(U)):
        for (j,p,w),c in U[i].items():
            # (V-E)C e_i = C D e_i + [v0,C] e_i + dV C e_i
            if i>=2:
                assert j>=2
                r2[i-2][(j-2,p,w)]-=c; r2[i-1][(j-2,p,w)]+=(2*i-3)*c
            else: r2[i][(j,p,w+(D,))]-=c
            r2[i][(j,p,(0,)+w)]-=c; r2[i][(j,p,w+(0,))]+=c
            for k in range(1,9):
                for m,q in enumerate(P(k)):
                    r2[i][(j+m,p+k-m,(k,)+w)]-=c*q
    return r1,r2
from math import lcm
L=1
for t in list(tD.values())+list(tH.values()):
    for p,c,w in t: L=lcm(L,R(c).denominator)
print('L',L)
# solve full recurrence: U0 given, degrees up to N
def solve(U0,W0rows,N,rows=8):
    """U: list of dict; extra w: dict row->dict added to W (kappa D delta e1)."""
    pass
def clean(d): return {k:c for k,c in d.items() if c!=0}
def full(kind,N):
    U=[defaultdict(F) for _ in range(9)]
    if kind=='a': U[0][(0,0,())]=F(1)
    else: U[1][(1,0,())]=F(1)
    # iterate: compute W from r1=0 then residual r2 -> next row
    for i in range(0,7):
        # compute W rows from U
        W=Wfrom(U,kind)
        _,r2=resid2(U,W)
        # coefficient at e_i must be cancelled by U_{i+1}: (2j-2i-2) delta^(j-2)
        for (j,p,w),c in r2[i].items():
            if c==0: continue
            if D in w: print('D left',kind,i,(j,p,w),c); continue
            jj=j+2
            if jj+p>N+0: continue
            den=(2*jj-2*i-2)
            assert den!=0
            U[i+1][(jj,p,w)]-=c/F(den)
    W=Wfrom(U,kind)
    return [clean(u) for u in U],[clean(w) for w in W]
def Wfrom(U,kind):
    r=[defaultdict(F) for _ in range(10)]
    for i in range(len(U)):
        for (j,p,w),c in U[i].items():
            if j: r[i][(j-1,p,w)]+=j*c
            if i==0: r[1][(j+1,p,w+(D,))]+=c
            else:
                r[i-1][(j-1,p,w)]+=c; r[i][(j-1,p,w)]-=(2*i-1)*c
    return r
def resid2(U,W):
    U=list(U)+[{}]*2
    r1=None;r2=[defaultdict(F) for _ in range(12)]
    for i in range(len(W)):
        for (j,p,w),c in W[i].items():
            if c==0: continue
            if j: r2[i][(j-1,p,w)]+=j*c
            if i==0: r2[1][(j+1,p,w+(D,))]+=c
            else:
                assert j>=1,(i,j,p,w,c)
                r2[i-1][(j-1,p,w)]+=c; r2[i][(j-1,p,w)]-=(2*i-1)*c
    for i in range(len(U)):
        for (j,p,w),c in U[i].items():
            if c==0: continue
            if i>=2:
                assert j>=2
                r2[i-2][(j-2,p,w)]-=c; r2[i-1][(j-2,p,w)]+=(2*i-3)*c
            else: r2[i][(j,p,w+(D,))]-=c
            r2[i][(j,p,(0,)+w)]-=c; r2[i][(j,p,w+(0,))]+=c
            for k in range(1,9):
                for m,q in enumerate(P(k)): r2[i][(j+m,p+k-m,(k,)+w)]-=c*q
    return r1,r2
out={}
mxd=1
for kind,bu,bw in (('a','a','c'),('b','b','d')):
    U,W=full(kind,11)
    for b,X in ((bu,U),(bw,W)):
        t=blk(b); ext=[]
        for i in range(7):
            d=defaultdict(F)
            for k,c in X[i].items(): d[k]+=c
            if i<5:
                for k,c in t[i].items(): d[k]-=c
            for (j,p,w),c in sorted(d.items(),key=str):
                if c!=0 and D not in w and j+p<=(10 if b in 'ab' else 9): ext.append((i,j,p,w,c)); mxd=lcm(mxd,c.denominator)
        out[b]=ext
print(mxd,{b:len(x) for b,x in out.items()}, 40320%mxd)
L=40320*(lcm(mxd,40320)//40320)
print(L)
with open('/verif/lean/Verif/Lemmas/MatscsExt.lean','w') as f:
    f.write('import Verif.Lemmas.NPoly\n\n/-!\n# Terms of total power 9 and 10 that the tables of coupled systems leave out\n\nGenerated by `tools/gen_matscs_ext.py` from the recurrence of the η functions; nothing about them is trusted, the kernel checks the\nidentities they satisfy (`Lemmas/MatscsKernel`). Coefficients are multiples of `1 / %d`.\n-/\nnamespace Verif.NP\n\n'%L)
    f.write('/-- common denominator -/\ndef LL : Nat := %d\n\n'%L)
    for b in 'abcd':
        f.write('def ext%s : NP := [\n'%b.upper()+',\n'.join('  mk %d %d %d [%s] (%d)'%(i,j,p,', '.join(map(str,w)),c*L) for i,j,p,w,c in out[b])+']\n\n')
    f.write('end Verif.NP\n')
