#!/usr/bin/env python3
"""usage: status_set.py Cnn status note  -- record status and note of a claim"""
import json,sys
p='/verif/tools/status.json'
d=json.load(open(p))
c,st,note=sys.argv[1:4]
e={}
if st!='proved': e['status']=st
e['note']=note
d[c]={**d.get(c,{}),**e}
json.dump(d,open(p,'w'),indent=1)
