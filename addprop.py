import json,sys
# usage: addprop.py < json lines ; appends new properties or replaces by id
p='/verif/properties.jsonl'
d={}
for l in open(p):
    o=json.loads(l); d[o['id']]=o
for l in sys.stdin:
    l=l.strip()
    if l:
        o=json.loads(l); d[o['id']]=o
with open(p,'w') as f:
    for k in sorted(d): f.write(json.dumps(d[k],ensure_ascii=False)+"\n")
