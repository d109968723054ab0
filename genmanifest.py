#!/usr/bin/env python3
"""Generates MANIFEST.json from the theorem names in lean/Verif/Props (CNN_ prefix) and notes.json."""
import re,json,glob,os
root=os.path.dirname(os.path.abspath(__file__))
thms={}
for f in sorted(glob.glob(root+'/lean/Verif/Props/*.lean')):
    ns=[]
    for l in open(f):
        m=re.match(r'namespace (\S+)',l)
        if m: ns.append(m.group(1))
        m=re.match(r'end (\S+)',l)
        if m and ns and ns[-1]==m.group(1): ns.pop()
        m=re.match(r'theorem (C\d\d_\w+)',l)
        if m: thms.setdefault(m.group(1)[:3],[]).append('.'.join(ns+[m.group(1)]))
notes=json.load(open(root+'/notes.json'))
props=[json.loads(l)['id'] for l in open(root+'/properties.jsonl')]
claims=[]
for p in props:
    n=notes.get(p,{})
    t=thms.get(p,[])
    st=n.get('status') or ('proved' if t else 'partial')
    note=n.get('note','') if t else (n.get('note') or 'work in progress: no theorem yet')
    claims.append({"property":p,"status":st,"theorems":t,"note":note})
json.dump({"claims":claims},open(root+'/MANIFEST.json','w'),indent=1)
for c in claims: print(c['property'],c['status'],len(c['theorems']))
