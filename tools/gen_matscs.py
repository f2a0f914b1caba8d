#!/usr/bin/env python3
"""Translates matslise/matscs/matscs_formulas.cpp:13-419 to Lean data (lean/Verif/Model/MatscsData*.lean).
Every block is written as the list of its pieces (power of h, terms); every term as ⟨digits, number of decimals, word⟩,
in source order. The product variables (v1_v2 = v1 * v2, lines 29-…) are expanded to their index word after checking that their
definition multiplies to exactly the word in their name. Identity blocks are the term 1.0 with the empty word."""
import re
SRC='/repo/matslise/matscs/matscs_formulas.cpp'
OUT='/verif/lean/Verif/Model/'
src=open(SRC).read().split('\n')
env={'v%d'%i:(i,) for i in range(9)}
BL={('0','0'):'a',('0','n'):'b',('n','0'):'c',('n','n'):'d'}
def terms(s):
    s=s.strip()
    if s=='MatrixXs::Identity(n, n)': return [('1.0',())]
    r=[];pos=0
    for m in re.finditer(r'\+?(-?[\d.]+(?:e-\d+)?)\*(v\d(?:_v\d)*)',s):
        assert m.start()==pos,(s,pos); pos=m.end(); r.append((m.group(1),env[m.group(2)]))
    assert pos==len(s),(s,pos)
    return r
def rhs(s):
    s=s.strip()
    if s.startswith('MatrixXs::Zero'): return []
    if s=='MatrixXs::Identity(n, n)': return [(0,terms(s))]
    out=[]
    for p in s.split(' + '):
        m=re.match(r'^h(\d+) \* \((.*)\)$',p)
        if m: out.append((int(m.group(1)),terms(m.group(2))))
        elif p.startswith('('): assert p.endswith(')'); out.append((0,terms(p[1:-1])))
        else: out.append((0,terms(p)))
    return out
tD={};tH={}
for l in src:
    m=re.match(r'\s*const MatrixXs (v[\d_v]+) = (v\S+) \* (v\S+);',l)
    if m:
        want=tuple(int(x) for x in re.findall(r'\d+',m.group(1)))
        assert env[m.group(2)]+env[m.group(3)]==want; env[m.group(1)]=want; continue
    m=re.match(r'\s*const Scalar h(\d+) = h\*h(\d+);',l)
    if m: assert int(m[1])==int(m[2])+1; continue
    m=re.match(r'\s*tDelta\((\d+), (\d+)\)\.block\((0|n), (0|n), n, n\) = (.*);',l)
    if m:
        k=(int(m[1]),int(m[2]),BL[(m[3],m[4])]); assert k not in tD; tD[k]=rhs(m[5]); continue
    m=re.match(r'\s*tDelta\((\d+), (\d+)\) = MatrixXs::Zero\(2\*n, 2\*n\);',l)
    if m:
        for b in 'abcd':
            k=(int(m[1]),int(m[2]),b); assert k not in tD; tD[k]=[]
        continue
    m=re.match(r'\s*tH\[(\d+)\]\.block\((0|n), (0|n), n, n\) (\+?=) (.*);',l)
    if m:
        k=(int(m[1]),BL[(m[2],m[3])])
        if m[4]=='=': assert k not in tH; tH[k]=rhs(m[5])
        else: tH[k]+=rhs(m[5])
        continue
    assert not re.search(r'(tDelta\(|tH\[)',l) or 'resize' in l,l
def lit(s):
    neg=s.startswith('-'); m,_,x=s.lstrip('-').partition('e-'); a,b=m.split('.')
    return ('-' if neg else '')+str(int(a+b)),len(b)+int(x or 0)
def T(t):
    n,e=lit(t[0]); return '⟨%s, %d, [%s]⟩'%(n,e,', '.join(map(str,t[1])))
def E(e): return '['+', '.join('(%d, [%s])'%(p,', '.join(T(t) for t in ts)) for p,ts in e)+']'
def E4(d,k): return '⟨'+',\n     '.join(E(d[k+(b,)]) for b in 'abcd')+'⟩'
if __name__=='__main__':
    for i in range(5):
        with open(OUT+'MatscsData%d.lean'%i,'w') as f:
            f.write('import Verif.Model.MatscsTerm\n\n/-! Generated by `tools/gen_matscs.py`: row %d of `tDelta` — matslise/matscs/matscs_formulas.cpp:145-419 -/\nnamespace Verif.MFormulas\n\n'%i)
            f.write('/-- `tDelta(%d, 0 … 9)` — matscs_formulas.cpp -/\ndef tDelta%d : List MEntry4 := [\n'%(i,i))
            f.write(',\n'.join('    '+E4(tD,(i,j)) for j in range(10))+']\n\nend Verif.MFormulas\n')
    with open(OUT+'MatscsData5.lean','w') as f:
        f.write('import Verif.Model.MatscsTerm\n\n/-! Generated by `tools/gen_matscs.py`: `tH` — matslise/matscs/matscs_formulas.cpp:204-419 -/\nnamespace Verif.MFormulas\n\n')
        f.write('/-- `tH[0 … 5]` — matscs_formulas.cpp -/\ndef tHData : List MEntry4 := [\n')
        f.write(',\n'.join('    '+E4(tH,(i,)) for i in range(6))+']\n\nend Verif.MFormulas\n')
