import re,sys,os,json,gzip,subprocess,hashlib,unicodedata,tomllib,glob,csv,io
sys.path.insert(0,'/tmp/conf')
from stm import tests
SRC='/repo/crates/pica-cli/src/'
CMDS={'check':'commands/check/mod.rs','convert':'commands/convert/mod.rs'}
for c in 'completions concat config count describe explode filter frequency hash invalid partition print sample select slice split'.split(): CMDS[c]=f'commands/{c}.rs'
# ---- clap definitions
def structs(path):
    src=open(SRC+path).read()
    res={}
    for m in re.finditer(r'struct (\w+)\s*\{',src):
        j=m.end();d=1
        while d:
            if src[j]=='{':d+=1
            if src[j]=='}':d-=1
            j+=1
        body=re.sub(r'//[^\n]*','',src[m.end():j-1])
        fields=[]
        for fm in re.finditer(r'((?:#\[(?:[^\[\]]|\[[^\]]*\])*\]\s*)*)(?:pub\(crate\)\s+)?(?:r#)?(\w+):\s*([\w<>]+),',body):
            fields.append((fm.group(1),fm.group(2),fm.group(3)))
        res[m.group(1)]=fields
    return res
def clapdef(cmd):
    ss=structs(CMDS[cmd]); fs=ss[cmd.capitalize()]
    out=[]
    for a,n,t in fs:
        if t=='FilterOpts':
            out+=[x for x in opts(structs('cli.rs')['FilterOpts'])]
        else: out+=opts([(a,n,t)])
    return out
def opts(fs):
    out=[]
    for a,n,t in fs:
        args=' '.join(re.findall(r'#\[arg\((.*?)\)\]\s*(?=#|$)',a.strip(),re.S))
        args=re.sub(r'\s+',' ',args)
        lg=sh=None
        m=re.search(r'\blong = "([^"]*)"',args)
        if m: lg=m.group(1)
        elif re.search(r'\blong\b',args): lg=n.replace('_','-')
        m=re.search(r"\bshort = '(.)'",args)
        if m: sh=m.group(1)
        elif re.search(r'\bshort\b',args): sh=n[0]
        dm=re.search(r'default_value = "([^"]*)"',args)
        conf=[]
        m=re.search(r'conflicts_with = "(\w+)"',args)
        if m: conf.append(m.group(1))
        m=re.search(r'conflicts_with_all = \[([^\]]*)\]',args)
        if m: conf+=re.findall(r'"(\w+)"',m.group(1))
        req=re.findall(r'requires = "(\w+)"',args)
        out.append(dict(name=n,type=t,long=lg,short=sh,default=dm.group(1) if dm else None,conf=conf,req=req,required='required = true' in args))
    return out
class ClapErr(Exception): pass
def clapparse(argv):
    cfg=None;i=0
    while i<len(argv) and argv[i].startswith('-'):
        if argv[i] in('--config','-c'): cfg=argv[i+1]; i+=2
        else: raise ClapErr(argv[i])
    if i>=len(argv): raise ClapErr('no cmd')
    cmd=argv[i]; i+=1
    cmd={'cat':'concat','freq':'frequency'}.get(cmd,cmd)
    if cmd not in CMDS: raise ClapErr('cmd '+cmd)
    ds=clapdef(cmd); vals={}; pos=[]
    byl={d['long']:d for d in ds if d['long']}; bys={d['short']:d for d in ds if d['short']}
    def put(d,v):
        if d['type'].startswith('Vec'): vals.setdefault(d['name'],[]).append(v)
        elif d['name'] in vals: raise ClapErr('twice '+d['name'])
        else: vals[d['name']]=v
    while i<len(argv):
        a=argv[i]; i+=1
        if a=='--': pos+=argv[i:]; break
        if a.startswith('--'):
            k,eq,v=a[2:].partition('=')
            if k not in byl: raise ClapErr(a)
            d=byl[k]
            if d['type']=='bool': put(d,True)
            else:
                if not eq:
                    if i>=len(argv): raise ClapErr('val')
                    v=argv[i]; i+=1
                put(d,v)
        elif a.startswith('-') and len(a)>1:
            r=a[1:]
            while r:
                if r[0] not in bys: raise ClapErr(a)
                d=bys[r[0]]; r=r[1:]
                if d['type']=='bool': put(d,True)
                else:
                    if r: v=r[1:] if r[0]=='=' else r; r=''
                    else: v=argv[i]; i+=1
                    put(d,v)
        else: pos.append(a)
    pd=[d for d in ds if not d['long'] and not d['short']]
    if cmd=='filter': vals['positional']=pos; pos=[]
    k=0
    for d in pd:
        if cmd=='filter': break
        if d['type'].startswith('Vec'):
            if pos[k:]: vals[d['name']]=pos[k:]; k=len(pos)
        elif k<len(pos): vals[d['name']]=pos[k]; k+=1
        elif d['default'] is None and not d['type'].startswith('Option'): raise ClapErr('missing '+d['name'])
    if k<len(pos): raise ClapErr('extra')
    for d in ds:
        if d['name'] in vals:
            for c in d['conf']:
                if c in vals: raise ClapErr('conflict')
            for c in d['req']:
                c2={'where':'where_clause'}.get(c,c)
                if c not in vals and not any(x in vals for x in ('where','r#where','predicate',c2)): raise ClapErr('requires '+c)
        elif d['required']: raise ClapErr('required '+d['name'])
    for d in ds:
        if d['name'] not in vals and d['default'] is not None: vals[d['name']]=[d['default']] if d['type'].startswith('Vec') else d['default']
    return cfg,cmd,vals
# ---- file system
VFS={}
def rd(p):
    p=os.path.normpath(p)
    if p in VFS: return VFS[p]
    if p.startswith('/repo'): return open(p,'rb').read()
    raise FileNotFoundError(p)
def rdplain(p):
    b=rd(p)
    return gzip.decompress(b) if p.endswith('.gz') else b
def ex(p):
    try: rd(p); return True
    except (FileNotFoundError,IsADirectoryError): return os.path.normpath(p) in DIRS
DIRS=set()
# ---- driver
class Driver:
    def __init__(s):
        s.p=subprocess.Popen(['lake','env','lean','--run','/tmp/conf/driver.lean'],cwd='/verif/lean',stdin=subprocess.PIPE,stdout=subprocess.PIPE,stderr=subprocess.STDOUT)
    def ask(s,req):
        s.p.stdin.write((json.dumps(req)+'\n').encode()); s.p.stdin.flush()
        miss=[]
        while True:
            l=s.p.stdout.readline().decode()
            if not l: raise RuntimeError('driver died '+json.dumps(req)[:3000])
            if l.startswith('MISS '): miss.append(l.split()[1:]); continue
            if l.startswith('{'): return json.loads(l),miss
            raise RuntimeError(l+json.dumps(req)[:2000])
DRV=None
hx=lambda b:(b if isinstance(b,bytes) else b.encode('utf8','surrogateescape')).hex()
def readlist(p):
    try:
        t=rd(p)
        if t[:2]==b'\x1f\x8b': t=gzip.decompress(t)
        t=t.decode()
    except FileNotFoundError: return None
    sep='\t' if p.endswith('tsv') or p.endswith('tsv.gz') else ','
    rows=[r for r in csv.reader(io.StringIO(t),delimiter=sep)]
    rows=[r for r in rows]
    if p.endswith('txt') or p.endswith('txt.gz'):
        n=max([len(r) for r in rows] or [0])
        hd=[f'column_{i+1}' for i in range(n)]
        if hd: hd[0]='ppn'
    else: hd=rows[0] if rows else []; rows=rows[1:]
    return [[hx(h),[hx(r[i]) if i<len(r) and r[i]!='' else None for r in rows]] for i,h in enumerate(hd)]
def tv(v):
    if isinstance(v,bool): return {'t':'b','v':v}
    if isinstance(v,str): return {'t':'s','v':hx(v)}
    if isinstance(v,int): return {'t':'i','v':v}
    if isinstance(v,float): return {'t':'f'}
    if isinstance(v,list): return {'t':'a','v':[tv(x) for x in v]}
    if isinstance(v,dict): return {'t':'t','v':[[hx(k),tv(x)] for k,x in v.items()]}
    return {'t':'d'}
def loadcfg(path):
    if path is None: return False,'' 
    try: t=tomllib.loads(rd(path).decode())
    except FileNotFoundError: return False,''
    return t.get('skip-invalid',False),t.get('normalization','')
def strptime(f,t):
    import datetime
    # chrono-like: fields must be present
    try: datetime.datetime.strptime(t,f); return True
    except ValueError: return False
def lists_in(v,acc):
    if isinstance(v,dict):
        for k,x in v.items():
            if k=='filename' and isinstance(x,str): acc.append(x)
            lists_in(x,acc)
    elif isinstance(v,list):
        for x in v: lists_in(x,acc)
class Unsupported(Exception): pass
def run(argv,stdin):
    try: cfgp,cmd,v=clapparse(argv)
    except ClapErr as e: return dict(code=2,out=b'',why='clap '+str(e))
    g=lambda k,d=None: v.get(k,d)
    cs,cn=loadcfg(cfgp)
    fn=g('filenames',['-'])
    if cmd=='completions': raise Unsupported('completions')
    if cmd=='filter': 
        names=list(g('positional',[]))
    else: names=fn
    files=[]; missing=False
    for n in names:
        if n=='-': files.append([n,stdin or b''])
        else:
            try: files.append([n,rdplain(n)])
            except (FileNotFoundError,IsADirectoryError): missing=True
    if cmd=='filter' and '-' not in names: files.append(['-',stdin or b''])
    req=dict(cmd=cmd,cfgSkip=bool(cs),cfgNorm=cn or '',skip=bool(g('skip_invalid')),limit=int(g('limit',0) or 0),ignoreCase=bool(g('ignore_case')),strsim=int(g('strsim_threshold',75)),
      allow=[hx(x) for x in g('allow',[])],deny=[hx(x) for x in g('deny',[])])
    if g('filter_set_column') is not None: req['column']=hx(g('filter_set_column'))
    if g('filter_set_source') is not None: req['source']=hx(g('filter_set_source'))
    for k in ('predicates','where','where_','r','filter_expr','predicate','where_clause'):
        if g(k) is not None: req['where']=hx(g(k))
    for k in ('and','or','not'): req[k]=[hx(x) for x in g(k,[])]
    req['files']=[[hx(n) if cmd=='filter' else n,hx(c)] for n,c in files]
    ls=[[hx(p),readlist(p)] for p in list(g('allow',[]))+list(g('deny',[]))]
    for k in ('keep','discard','header','query','separator','template','path','name','value','tags'):
        if g(k) is not None: req[k]=hx(g(k))
    for k in ('tsv','csv','unique','reverse','merge','squash','records','fields','subfields','gzip','get','set','unset'): req[k]=bool(g(k))
    req['noHeader']=bool(g('no_header')); req['noEmptyColumns']=bool(g('no_empty_columns'))
    for k in ('num','threshold','start','end','length'): req[k]=int(g(k,0) or 0)
    req['quotes']=g('quote_style','necessary'); req['nf']=g('nf','') or ''
    req['strategy']=g('unique_strategy','idn'); req['tee']=bool(g('tee')); req['level']=g('level',''); req['invert']=bool(g('invert_match'))
    req['size']=int(g('sample_size',0) or 0); req['chunkSize']=int(g('chunk_size',0) or 0); req['to']=g('to','plus')
    if cmd=='convert' and g('from')!='plus': return dict(code=2,out=b'',why='from')
    if cmd=='filter':
        req['positional']=[hx(x) for x in names]
        if g('expr_file'): 
            try: req['exprFile']=hx(rd(g('expr_file')))
            except FileNotFoundError: return dict(code=2,out=b'',why='exprfile')
    if cmd=='check':
        req['filter']=[hx(x) for x in g('filter',[])]; req['rules']=[];req['toml']=[]
        for p in g('rules',[]):
            try: t=rd(p)
            except FileNotFoundError: req['rules'].append(None); continue
            req['rules'].append(hx(t))
            try: d=tomllib.loads(t.decode()); req['toml'].append([hx(t),tv(d)]); acc=[]; lists_in(d,acc); ls+=[[hx(p),readlist(p)] for p in acc]
            except tomllib.TOMLDecodeError: req['toml'].append([hx(t),None])
        if g('output'): req['output']=hx(g('output'))
    if cmd=='describe':
        o=g('output')
        if o is None or not(o.endswith('.tsv') or o.endswith('.csv') or g('tsv') or g('csv')): raise Unsupported('describe output')
        req['tsv']=o.endswith('.tsv') or bool(g('tsv'))
    req['lists']=ls
    if missing and cmd!='filter': raise Unsupported('missing input')
    tr={};sha={};sp={}
    for _ in range(400):
        req['tr']=[[a,b,c] for (a,b),c in tr.items()]; req['sha']=list(map(list,sha.items())); req['strptime']=[[a,b,c] for (a,b),c in sp.items()]
        r,miss=DRV.ask(req)
        new=False
        for m in miss:
            if m[0]=='tr':
                k=(m[1],m[2])
                if k not in tr: 
                    try: tr[k]=hx(unicodedata.normalize(m[1].upper(),bytes.fromhex(m[2]).decode()))
                    except UnicodeDecodeError: tr[k]=m[2]
                    new=True
            elif m[0]=='sha':
                k=m[1] if len(m)>1 else ''
                if k not in sha: sha[k]=hashlib.sha256(bytes.fromhex(k)).hexdigest(); new=True
            elif m[0]=='toml':
                t=bytes.fromhex(m[1] if len(m)>1 else '')
                try: req['toml'].append([hx(t),tv(tomllib.loads(t.decode()))])
                except tomllib.TOMLDecodeError: req['toml'].append([hx(t),None])
                new=True
            elif m[0]=='sp':
                k=(m[1],m[2] if len(m)>2 else '')
                if k not in sp: sp[k]=strptime(bytes.fromhex(k[0]).decode(),bytes.fromhex(k[1]).decode()); new=True
        if not new: break
    st=r['status']; out=bytes.fromhex(r['out'])
    code=0 if st in('ok','saved') else 101 if st=='panic' else 2
    if st=='saved':
        t='skip-invalid = %s\n'%('true' if r['cfgSkip'] else 'false')
        if r['cfgNorm']: t+='normalization = "%s"\n'%r['cfgNorm']
        VFS[os.path.normpath(cfgp)]=t.encode(); out=b''
    o=g('output')
    if st!='prep' or True:
        if g('tee'):
            VFS[os.path.normpath(g('tee'))]=bytes.fromhex(r.get('tee',''))
        if o and cmd!='config':
            p=os.path.normpath(o); c=out
            if g('gzip') or (p.endswith('.gz') and cmd in('filter','concat','slice','sample','explode','invalid')): 
                c=gzip.compress(out)
            if g('append') and p in VFS: c=VFS[p]+c
            VFS[p]=c; out=b''
    if 'files' in r:
        d=g('outdir','.')
        DIRS.add(os.path.normpath(d))
        for n,c in r['files']:
            n=bytes.fromhex(n).decode('utf8','surrogateescape'); c=bytes.fromhex(c)
            if n.endswith('.gz') or g('gzip'): c=gzip.compress(c)
            VFS[os.path.normpath(os.path.join(d,n))]=c
    return dict(code=code,out=out,why=st,req=req)
# ---- rust interpreter
TOK=re.compile(r'''\s+|//[^\n]*|(?P<raw>b?r(?P<h>\#*)"(?P<rs>.*?)"(?P=h))|(?P<str>b?"(?:\\.|[^"\\])*")|(?P<chr>'(?:\\.[^']*|[^'\\])')|(?P<num>\d[\d_]*)|(?P<id>[A-Za-z_]\w*!?(?=\W))|(?P<op>::|==|->|=>|&&|\|\||[-+*/{}()\[\].,;:?&=<>|!\#])''',re.S)
def lex(s):
    out=[];i=0;s+=' '
    while i<len(s):
        m=TOK.match(s,i)
        if not m: raise SyntaxError(s[i:i+60])
        i=m.end()
        if m.group('raw') is not None: 
            out.append(('s',m.group('rs').encode(),m.group('raw')[0]=='b'))
        elif m.group('str') is not None: out.append(('s',unesc(m.group('str')),m.group('str')[0]=='b'))
        elif m.group('chr') is not None: out.append(('s',unesc('"'+m.group('chr')[1:-1]+'"'),False))
        elif m.group('num'): out.append(('n',int(m.group('num').replace('_',''))))
        elif m.group('id'): out.append(('i',m.group('id')))
        elif m.group('op'): out.append(('o',m.group('op')))
    return out
def unesc(s):
    if s[0]=='b': s=s[1:]
    s=s[1:-1]
    s=re.sub(r'\\\n\s*','',s)
    def f(m):
        c=m.group(1)
        if c[0]=='x': return chr(0xE000+int(c[1:],16)) if int(c[1:],16)>127 else chr(int(c[1:],16))
        if c[0]=='u': return chr(int(c[2:-1],16))
        return {'n':'\n','t':'\t','r':'\r','0':'\0'}.get(c,c)
    s=re.sub(r'\\(x[0-9a-fA-F]{2}|u\{[0-9a-fA-F]+\}|.)',f,s,flags=re.S)
    return b''.join(bytes([ord(c)-0xE000]) if 0xE080<=ord(c)<=0xE0FF else c.encode() for c in s)
class P:
    def __init__(s,toks,env): s.t=toks;s.i=0;s.env=env
    def pk(s,k=0): return s.t[s.i+k] if s.i+k<len(s.t) else ('e',)
    def op(s,x): return s.pk()[:2]==('o',x)
    def eat(s,x):
        if s.op(x): s.i+=1; return True
        return False
    def need(s,x):
        if not s.eat(x): raise SyntaxError((x,s.t[s.i-3:s.i+6]))
    def block(s):
        while s.pk()[0]!='e' and not s.op('}'):
            s.stmt()
    def skipbraces(s):
        s.need('{');d=1
        while d:
            if s.op('{'):d+=1
            if s.op('}'):d-=1
            s.i+=1
    def stmt(s):
        if s.eat(';'): return
        if s.op('#'):
            raise Unsupported('attr')
        t=s.pk()
        if t[:2]==('i','let'):
            s.i+=1
            if s.pk()[:2]==('i','mut'): s.i+=1
            n=s.pk()[1]; s.i+=1
            if s.eat(':'):
                while not s.op('='): s.i+=1
            s.need('='); s.env[n]=s.expr(); s.need(';'); return
        if t[:2]==('i','if'):
            while not s.op('{'): s.i+=1
            s.skipbraces(); return
        if t[:2]==('i','for'):
            s.i+=1; n=s.pk()[1]; s.i+=2; xs=s.expr(); s.need('{'); st=s.i
            for x in xs: s.i=st; s.env[n]=x; s.block()
            s.need('}'); return
        if t[0]=='i' and s.pk(1)[:2]==('o','.') and s.pk(2)[1:2]==('push',):
            n=t[1]; s.i+=4; s.env[n]+=s.args()[0]; s.need(';'); return
        if t[0]=='i' and s.pk(1)[:2]==('o','=') :
            n=t[1]; s.i+=2; s.env[n]=s.expr(); s.need(';'); return
        s.expr()
        if s.pk()[0]!='e' and not s.op('}'): s.need(';')
    def args(s,close=')'):
        r=[]
        while not s.op(close):
            r.append(s.expr())
            if not s.eat(','): break
        s.need(close); return r
    def expr(s):
        v=s.un()
        return v
    def un(s):
        if s.eat('&'):
            if s.pk()[:2]==('i','mut'): s.i+=1
            return s.un()
        if s.eat('*'): return s.un()
        v=s.atom()
        while True:
            if s.eat('?'): continue
            if s.eat('.'):
                n=s.pk()[1]; s.i+=1
                if s.eat('::'):
                    while not s.op('('): s.i+=1
                if s.eat('('): v=call(v,n,s.args())
                else: raise SyntaxError('field '+n)
                continue
            return v
    def atom(s):
        t=s.pk(); s.i+=1
        if t[0]=='s': return t[1] if t[2] else t[1]
        if t[0]=='n': return t[1]
        if t[:2]==('o','('):
            a=s.args(); return a[0] if len(a)==1 else tuple(a)
        if t[:2]==('o','['): return s.args(']')
        if t[0]=='i':
            n=t[1]
            while s.op('::'):
                s.i+=1
                n+='::'+s.pk()[1]; s.i+=1
            if n.endswith('!'):
                s.need('(') if s.op('(') else s.need('[')
                return macro(n,s.args(')' if not n=='vec!' else ']'),s.env)
            if s.eat('('): return func(n,s.args())
            if n in s.env: return s.env[n]
            return func(n,None)
        raise SyntaxError(t)
class Path_:
    def __init__(s,p): s.p=p
class Cmd:
    def __init__(s): s.a=[];s.stdin=None
class Assert_:
    def __init__(s,r): s.r=r
class Pred:
    def __init__(s,n,f): s.n=n;s.f=f
class GzEnc:
    def __init__(s): s.b=b''
class Failed(Exception): pass
N=[0]
def text(x): 
    return x.p if isinstance(x,Path_) else x.decode('utf8','surrogateescape') if isinstance(x,bytes) else str(x)
def func(n,a):
    if n=='pica_cmd': return Cmd()
    if n=='data_dir': return Path_('/repo/tests/data')
    if n=='TempDir::new': N[0]+=1; DIRS.add(f'/T{N[0]}'); return Path_(f'/T{N[0]}')
    if n=='Ok': return None
    if n=='read_to_string': return rd(text(a[0]))
    if n in('Vec::new','Compression::default'): return None
    if n=='GzEncoder::new': return GzEnc()
    if n.startswith('predicates::'):
        k=n.split('::')[-1]
        if k=='is_empty': return Pred('empty',lambda b:b==b'')
        if k=='eq': x=a[0]; return Pred('eq',lambda b:b==x)
        if k=='eq_file': x=rd(text(a[0])); return Pred('eq_file',lambda b:b==x)
        if k=='contains': x=a[0]; return Pred('contains',lambda b:x in b)
        if k=='starts_with': x=a[0]; return Pred('starts',lambda b:b.startswith(x))
        if k=='exists': return Pred('exists',None)
        if k=='missing': return Pred('missing',None)
    raise Unsupported('func '+n)
CHK=[0]
def macro(n,a,env):
    if n=='format!':
        t=a[0].decode()
        it=iter(a[1:])
        def f(m):
            return text(env[m.group(1)]) if m.group(1) else text(next(it))
        return re.sub(r'\{(\w*)\}',f,t.replace('{{','\x01').replace('}}','\x02')).replace('\x01','{').replace('\x02','}').encode()
    if n=='assert!':
        CHK[0]+=1
        if a[0] is not True: raise Failed('assert!')
        return
    if n=='assert_eq!':
        CHK[0]+=1
        x,y=a[0],a[1]
        if isinstance(x,bytes)!=isinstance(y,bytes): raise Unsupported('types')
        if x!=y: raise Failed(f'assert_eq {x!r}\n    vs {y!r}')
        return
    if n=='vec!': return a
    raise Unsupported('macro '+n)
def call(v,n,a):
    if n in('unwrap','as_path','as_os_str','path','to_str','into','collect','chars','to_string','iter'):
        if isinstance(v,Cmd): raise Unsupported(n)
        return v
    if isinstance(v,GzEnc):
        if n=='write_all': v.b+=a[0]; return v
        if n=='finish': return gzip.compress(v.b)
    if isinstance(v,Path_):
        if n in('join','child'): return Path_(os.path.join(v.p,text(a[0])))
        if n in('write_str','write_binary'): VFS[os.path.normpath(v.p)]=a[0]; return v
        if n=='close': return None
        if n=='read_dir': return [k for k in VFS if os.path.dirname(k)==os.path.normpath(v.p)]
    if isinstance(v,Cmd):
        if n=='arg': v.a.append(text(a[0])); return v
        if n=='args': v.a+=[text(x) for x in a[0]]; return v
        if n=='write_stdin': v.stdin=a[0]; return v
        if n=='assert':
            return Assert_(run(v.a,v.stdin))
    if isinstance(v,Assert_):
        r=v.r
        if n=='success': CHK[0]+=1; ok=r['code']==0
        elif n=='failure': ok=r['code']!=0
        elif n=='code': ok=r['code']==a[0]
        elif n=='stdout':
            CHK[0]+=1
            ok=a[0].f(r['out'])
            if not ok: raise Failed(f"stdout {a[0].n} got {r['out'][:1500]!r} ({r['why']})")
        elif n=='stderr': ok=True
        if not ok: raise Failed(f"{n} {a} got {r['code']} {r['why'][:300]}")
        return v
    if isinstance(v,Pred):
        if n=='not' and v.n=='exists': return Pred('missing',None)
        if n=='not': f=v.f; return Pred('not '+v.n,lambda b:not f(b))
        if n=='or': f=v.f; g=a[0].f; return Pred('or',lambda b:f(b) or g(b))
        if n=='eval':
            if v.n=='exists': return ex(text(a[0]))
            if v.n=='missing': return not ex(text(a[0]))
            if v.n=='eq_file': return v.f(rd(text(a[0])))
            return v.f(a[0])
    if isinstance(v,list):
        if n=='count': return len(v)
        if n=='nth': return v[a[0]]
        if n=='next': return v[0]
    if isinstance(v,bytes):
        if n=='lines': return v.decode().splitlines() and [l.encode() for l in v.decode().rstrip('\n').split('\n')]
        if n=='replace': return v.replace(a[0],a[1])
        if n=='trim_end': return v.rstrip(b' \t\r\n')
        if n in('nfd','nfc','nfkd','nfkc'): return unicodedata.normalize(n.upper(),v.decode()).encode()
        if n=='push': raise Unsupported('push')
        if n=='push_str': raise Unsupported('push')
    raise Unsupported(f'method {n} on {type(v).__name__}')
if __name__=='__main__':
    DRV=Driver()
    flt=sys.argv[1:] 
    tot=bad=uns=0
    for f in sorted(glob.glob('/repo/crates/pica-cli/tests/**/*.rs',recursive=True)):
        mod=os.path.relpath(f,'/repo/crates/pica-cli/tests')[:-3]
        consts={}
        for m in re.finditer(r'const (\w+): &str = ("(?:\\.|[^"\\])*");',open(f).read(),re.S): consts[m.group(1)]=unesc(m.group(2))
        for name,body in tests(f):
            full=mod+'::'+name
            if flt and not any(x in full for x in flt): continue
            VFS.clear(); DIRS.clear(); tot+=1
            try:
                p=P(lex(body),dict(consts))
                p.block()
            except Failed as e: bad+=1; print('FAIL',full,e,flush=True)
            except Unsupported as e: uns+=1; print('UNSUP',full,e,flush=True)
            except Exception as e:
                bad+=1; print('ERR',full,type(e).__name__,str(e)[:600],flush=True)
                if isinstance(e,RuntimeError): DRV=Driver()
    print(tot,'tests',bad,'bad',uns,'unsupported',CHK[0],'checks')
