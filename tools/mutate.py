#!/usr/bin/env python3
"""usage: mutate.py muts.json out.jsonl
Each mutation: {"file","old","new","def","edit","claim"}. Applies it to a scratch copy of /verif/lean
(/tmp/mut), builds, and reports the declarations that fail."""
import json,sys,subprocess,os,re
muts=json.load(open(sys.argv[1])); out=sys.argv[2]
S='/tmp/mut'
def sh(c): return subprocess.run(c,shell=True,capture_output=True,text=True)
def sync():
    os.makedirs(S,exist_ok=True)
    sh(f"rsync -a --delete --exclude .lake /verif/lean/ {S}/ || (cp -r /verif/lean/. {S}/)")
    if not os.path.exists(S+'/.lake'): sh(f"cp -r /verif/lean/.lake {S}/.lake")
sync()
print(sh(f"cd {S} && lake build 2>&1 | tail -1").stdout)
def declat(f,line):
    ls=open(f).read().split('\n')[:line]
    for l in reversed(ls):
        m=re.match(r'^(?:@\[[^\]]*\]\s*)?(?:private |noncomputable |protected )*(theorem|def|lemma|instance|example|structure|abbrev)\s*([^\s:({\[]*)',l)
        if m: return (m.group(2) or m.group(1)) if m.group(1)!='example' else 'example@%d'%(len(ls))
    return '?'
# the theorems nearest to a model file are built first; the rest only if those still prove
NEAR={'Model/Poly.lean':['Poly'],'Model/Periodic.lean':['Periodic','PeriodicKind','PeriodicNumbers','PeriodicConverge','PeriodicSearch'],'Model/Liouville.lean':['LiouvilleForm','LiouvillePieces','LiouvilleAccept','LiouvilleWeight','LiouvilleLookup','SturmLiouville'],
 'Model/Matscs.lean':['Matscs','MatscsEigen','MatscsPsi'],'Model/Mesh.lean':['MeshUniform','MeshAuto','MeshMatch'],'Model/Lookup.lean':['Lookup'],'Model/Search.lean':['Search'],
 'Model/HalfRange.lean':['HalfRange'],'Model/SectorError.lean':['AutoMesh'],'Model/Prufer.lean':['Prufer'],'Model/Profiler.lean':['Profiler'],'Model/Lifetime.lean':['Lifetime'],
 'Model/Bindings.lean':['Bindings'],'Model/SectorState.lean':['SectorState'],'Model/MatscsArg.lean':['MatscsArg'],'Model/Eta.lean':['Eta'],'Model/YT.lean':['YT'],'Model/MachineInt.lean':['MachineInt'],
 'Model/Eigen.lean':['Eigen'],'Model/Propagate.lean':['Propagate']}
for m in muts:
    p=f"{S}/Verif/{m['file']}"
    orig=open(f"/verif/lean/Verif/{m['file']}").read()
    if orig.count(m['old'])<1:
        print("NOT FOUND",m['def'],m['old']); continue
    open(p,'w').write(orig.replace(m['old'],m['new'],1))
    r=None
    if m['file'] in NEAR:
        r=sh(f"cd {S} && timeout 1500 lake build {' '.join('Verif.Props.'+t for t in NEAR[m['file']])} 2>&1")
    if r is None or 'Build completed' in r.stdout:
        r=sh(f"cd {S} && timeout 2400 lake build 2>&1")
    errs=[]
    for l in r.stdout.split('\n'):
        k=re.match(r'^error: (Verif/\S+\.lean):(\d+):\d+',l)
        if k:
            d=k.group(1)[6:]+':'+declat(S+'/'+k.group(1),int(k.group(2)))
            if d not in errs: errs.append(d)
    open(p,'w').write(orig)
    rec=dict(m); rec['failed']=errs; rec['ok']=('Build completed' in r.stdout)
    open(out,'a').write(json.dumps(rec,ensure_ascii=False)+'\n')
    print(m['def'],'|',m['edit'],'->',('SURVIVED' if rec['ok'] else errs[:8]),flush=True)
