import sys,json,os,glob,gzip
sys.path.insert(0,'/tmp/conf')
import cli
from cli import *
DATA={}
for f in sorted(glob.glob('/repo/tests/data/*')):
    b=open(f,'rb').read()
    n=os.path.basename(f)
    if n.endswith('.gz'): b=gzip.decompress(b); n=n[:-3]
    n=re.sub(r'\W+(\w)',lambda m:m.group(1).upper(),n)
    if b in DATA: continue
    nn='data'+n[0].upper()+n[1:]
    if nn in DATA.values(): nn+='Gz'
    DATA[b]=nn
def esc(b):
    t=b.decode()
    out=''
    for c in t:
        if c=='\n': out+='\\n'
        elif c=='\t': out+='\\t'
        elif c=='\r': out+='\\r'
        elif c in '"\\': out+='\\'+c
        elif ord(c)<32 or ord(c)==127: out+='\\x%02x'%ord(c)
        else: out+=c
    return out
def B(b):
    if b in DATA: return DATA[b]
    if b==b'': return '[]'
    try: return 'bs "'+esc(b)+'"'
    except UnicodeDecodeError: return '['+', '.join('0x%02X'%c for c in b)+']'
H=lambda s:B(bytes.fromhex(s))
def L(xs): return '['+', '.join(xs)+']'
def tvl(v):
    t=v['t']
    if t=='s': return '.str (%s)'%H(v['v'])
    if t=='i': return '.int %d'%v['v'] if v['v']>=0 else '.int (%d)'%v['v']
    if t=='b': return '.bool '+('true' if v['v'] else 'false')
    if t=='a': return '.arr '+L([tvl(x) for x in v['v']])
    if t=='t': return '.table '+tbl(v)
    return '.date' if t=='d' else '.float 0'
def tbl(v): return L(['(%s, %s)'%(H(k),tvl(x)) for k,x in v['v']])
def emit(req,res,status):
    r=req; c=r['cmd']; f=[]
    def a(k,v): f.append(f'{k} := {v}')
    a('cmd','"%s"'%c)
    names=[]
    a('files',L(['("%s", %s)'%(bytes.fromhex(n).decode() if c=='filter' else n,H(d)) for n,d in r['files'] ])) if r['files'] else None
    if r['cfgSkip'] or r['cfgNorm']: a('cfg','⟨%s, %s⟩'%(str(r['cfgSkip']).lower(),'some .'+r['cfgNorm'] if r['cfgNorm'] else 'none'))
    for k in 'skip ignoreCase tsv csv unique reverse merge squash records fields subfields gzip get set unset noHeader noEmptyColumns tee invert'.split():
        if r.get(k): a(k,'true')
    for k in 'limit num threshold start length size chunkSize'.split():
        if r.get(k): a(k,r[k])
    if r.get('end'): a('stop',r['end'])
    if r['strsim']!=75: a('strsim',r['strsim'])
    for k in ('allow','deny'):
        if r[k]: a(k,L([H(x) for x in r[k]]))
    for k,n in (('and','ands'),('or','ors'),('not','nots')):
        if r[k]: a(n,L([H(x) for x in r[k]]))
    for k,n in (('column','column'),('source','source'),('where','pred'),('keep','keep'),('discard','discard'),('header','header'),('template','template'),('value','value'),('tags','tags'),('exprFile','exprFile'),('output','output')):
        if k in r and not(c=='hash' and k=='header' and bytes.fromhex(r[k])==b'ppn,hash'): a(n,'some (%s)'%H(r[k]))
    for k in ('query','separator','path','name'):
        if k in r and not(k=='separator' and r[k]=='7c'): a(k,H(r[k]))
    if c=='filter': a('positional',L([H(x) for x in r['positional']]))
    if c=='check':
        a('rules',L(['none' if x is None else 'some (%s)'%H(x) for x in r['rules']]))
        if r['filter']: a('ruleFilter',L([H(x) for x in r['filter']]))
        a('toml',L(['(%s, %s)'%(H(k),'none' if v is None else 'some '+tbl(v)) for k,v in r['toml']]))
    if r['strategy']=='hash': a('hashed','true')
    if r['level'] and c=='explode': a('level','.'+{'local':'«local»'}.get(r['level'],r['level']))
    if r['quotes']!='necessary': a('quotes','.'+{'non-numeric':'nonNumeric'}.get(r['quotes'],r['quotes']))
    if r['nf']: a('nf','some .'+r['nf'])
    if c=='convert' and r['to']!='plus': a('to','.'+{'import':'«import»'}.get(r['to'],r['to']))
    if r['lists']: a('lists',L(['(%s, %s)'%(H(n),'none' if t is None else 'some '+L(['(%s, %s)'%(H(h),L(['none' if x is None else 'some (%s)'%H(x) for x in cs])) for h,cs in t])) for n,t in r['lists']]))
    if r['tr']: a('tr',L(['(.%s, %s, %s)'%(n,H(x),H(y)) for n,x,y in r['tr'] if x!=y]))
    if r['sha']: a('sha',L(['(%s, %s)'%(H(x),H(y)) for x,y in r['sha']]))
    if r['strptime']: a('dates',L(['(%s, %s, %s)'%(H(x),H(y),str(z).lower()) for x,y,z in r['strptime']]))
    st=res['status']
    e='.ok' if st=='ok' else '.refused' if st=='prep' else '.panic' if st=='panic' else '.saved ⟨%s, %s⟩'%(str(res['cfgSkip']).lower(),'some .'+res['cfgNorm'] if res['cfgNorm'] else 'none') if st=='saved' else '.failed'
    ans='⟨%s, %s, %s, %s⟩'%(e,H(res['out']),'some (%s)'%H(res['tee']) if 'tee' in res else 'none',L(['(%s, %s)'%(H(n),H(x)) for n,x in res.get('files',[])]))
    def wrap(s,ind):
        out='';line=' '*ind
        # break at ", " outside strings
        parts=[];cur='';q=False;i=0
        while i<len(s):
            ch=s[i]
            if q and ch=='\\': cur+=s[i:i+2]; i+=2; continue
            if ch=='"': q=not q
            cur+=ch; i+=1
            if not q and ch==',' : parts.append(cur); cur=''
            elif not q and cur.endswith('⟩'): pass
        parts.append(cur)
        lines=[];l=''
        for p in parts:
            if l and len(l)+len(p)>96: lines.append(l); l=p.lstrip()
            else: l+=p
        lines.append(l)
        return ('\n'+' '*ind).join(lines)
    return 'example : Req.run\n    { '+wrap(', '.join(f),6)+' }\n    = '+wrap(ans,6)+' := by decide +kernel'
if __name__=='__main__':
    cli.DRV=Driver()
    rec=[]
    orig=cli.DRV.ask
    last={}
    def ask(req):
        r,m=orig(req); last['q']=json.loads(json.dumps(req)); last['r']=r; return r,m
    cli.DRV.ask=ask
    origrun=cli.run
    cur=[]
    def run2(a,s):
        last.clear(); r=origrun(a,s)
        if 'q' in last: cur.append((last['q'],last['r']))
        return r
    cli.run=run2
    # call uses global run in cli
    out=[]
    seen=set()
    for f in sorted(glob.glob('/repo/crates/pica-cli/tests/**/*.rs',recursive=True)):
        mod=os.path.relpath(f,'/repo/crates/pica-cli/tests')[:-3]
        consts={}
        for m in re.finditer(r'const (\w+): &str = ("(?:\\.|[^"\\])*");',open(f).read(),re.S): consts[m.group(1)]=unesc(m.group(2))
        for name,body in tests(f):
            VFS.clear(); DIRS.clear(); cur.clear(); cli.N[0]=0
            ok=True
            try: P(lex(body),dict(consts)).block()
            except Exception as e: print('SKIP',mod,name,type(e).__name__,e,file=sys.stderr); ok=False
            if not ok and 'sample' in mod: continue
            out.append((mod,name,[(q,r) for q,r in cur]))
    json.dump(out,open('/tmp/conf/calls.json','w'))
    print(sum(len(x[2]) for x in out),'calls')
