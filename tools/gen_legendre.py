#!/usr/bin/env python3
"""Transcribe the double tables of /repo/matslise/util/legendre_data.h (decimal literals) into
lean/Verif/Model/LegendreData.lean, scaled by 10^24 (every literal has at most 24 decimals)."""
import re
from fractions import Fraction as F
src=open('/repo/matslise/util/legendre_data.h').read().split('\n')
nodes={};W={};lines={}
for n,l in enumerate(src,1):
    m=re.match(r'\s*template<> inline const Eigen::Array<double, (\d+), (\d+)> (nodes|weights)<double, (\d+)> = .*<< (.*)\)\.finished',l)
    if not m: continue
    k=int(m.group(4)); vals=[F(x.strip())*10**24 for x in m.group(5).split(',')]
    assert all(v.denominator==1 for v in vals)
    vals=[int(v) for v in vals]
    lines[(m.group(3),k)]=n
    if m.group(3)=='nodes': assert len(vals)==k; nodes[k]=vals
    else: assert len(vals)==k*k; W[k]=[vals[i*k:(i+1)*k] for i in range(k)]
o=["/-!","# The quadrature tables for `double`, transcribed by tools/gen_legendre.py","","Every decimal literal of `matslise/util/legendre_data.h` (lines 2-19) times `10^24`.","-/","namespace Verif.Legendre",""]
for k in sorted(nodes):
    o.append(f"/-- `nodes<double, {k}>` — legendre_data.h:{lines[('nodes',k)]}. -/")
    o.append(f"def nodes{k} : List Int := [{', '.join(map(str,nodes[k]))}]")
    o.append(f"/-- `weights<double, {k}>`, row by row — legendre_data.h:{lines[('weights',k)]}. -/")
    o.append(f"def weights{k} : List (List Int) := [")
    o.append(",\n".join("  ["+", ".join(map(str,r))+"]" for r in W[k])+"]")
    o.append("")
o.append("/-- `nodes<double, k>` (times `10^24`); empty for the sizes that do not exist — legendre_data.h:2-19. -/")
o.append("def nodesRaw : Nat → List Int")
for k in sorted(nodes): o.append(f"  | {k} => nodes{k}")
o.append("  | _ => []")
o.append("/-- `weights<double, k>` (times `10^24`) — legendre_data.h:2-19. -/")
o.append("def weightsRaw : Nat → List (List Int)")
for k in sorted(nodes): o.append(f"  | {k} => weights{k}")
o.append("  | _ => []")
o.append("\nend Verif.Legendre")
open('/verif/lean/Verif/Model/LegendreData.lean','w').write("\n".join(o)+"\n")
