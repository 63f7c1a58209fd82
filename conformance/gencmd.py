import sys,json
sys.path.insert(0,'/tmp/conf')
from emit import *
calls=json.load(open('/tmp/conf/calls.json'))
big=int(sys.argv[1]); maxtxt=int(sys.argv[2])
by={}
seen=set(); nskip=0
for mod,name,cs in calls:
    for k,(q,r) in enumerate(cs):
        tot=sum(len(d)//2 for n,d in q['files'])
        t=emit(q,r,None)
        if tot>big or len(t)>maxtxt: nskip+=1; continue
        if any(len(b)>3900 and nm in t for b,nm in DATA.items()): nskip+=1; continue
        if t in seen: nskip+=1; continue
        seen.add(t)
        by.setdefault(mod.split('/')[0],[]).append((f'{mod}.rs, {name}',t))
print({k:len(v) for k,v in by.items()},nskip,sum(len(t) for v in by.values() for _,t in v),file=sys.stderr)
json.dump(by,open('/tmp/conf/by.json','w'))
