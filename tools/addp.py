"""Append properties: addp.py rows.json, rows = [[id,title,statement,quantifier,why,anchors ';'-separated,design_model,design_how,status,note], ...]"""
import json,sys,subprocess
rows=json.load(open(sys.argv[1]))
have={json.loads(l)['id'] for l in open('/verif/properties.jsonl')}
with open('/verif/properties.jsonl','a') as f:
    for i,t,s,q,w,a,*_ in rows:
        if i in have: continue
        f.write(json.dumps(dict(id=i,title=t,statement=s,quantifier=q,why_tests_cant=w,anchors=a.split('; ')))+'\n')
d=open('/verif/DESIGN.md').read()
for i,t,s,q,w,a,dm,dh,st,note in rows:
    if f'| {i} |' in d: continue
    last=[l for l in d.split('\n') if l.startswith('| C')][-1]
    d=d.replace(last,last+f'\n| {i} | {dm} | {dh} |')
open('/verif/DESIGN.md','w').write(d)
for r in rows: subprocess.run(['python3','/verif/tools/status_set.py',r[0],r[8],r[9]],check=True)
subprocess.run(['python3','/verif/tools/manifest.py'],check=True)
