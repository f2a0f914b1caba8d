#!/usr/bin/env python3
"""usage: logmut.py out.jsonl [tight.json]: appends mutation results to seeded/LOG.jsonl.
tight.json maps "def|edit" to {"tightened":[...],"comment":"..."}"""
import json,sys
t=json.load(open(sys.argv[2])) if len(sys.argv)>2 else {}
with open('/verif/seeded/LOG.jsonl','a') as f:
    for l in open(sys.argv[1]):
        r=json.loads(l); x=t.get(r['def']+'|'+r['edit'],{})
        o={'definition':'lean/Verif/'+r['file']+' : '+r['def'],'edit':r['edit']+'  [`%s` -> `%s`]'%(r['old'],r['new']),'claim_broken':r['claim'],
           'theorems_failed':r['failed'],'survived':r['ok'],'theorems_tightened':x.get('tightened',[])}
        if 'comment' in x: o['comment']=x['comment']
        f.write(json.dumps(o,ensure_ascii=False)+'\n')
