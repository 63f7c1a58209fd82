import sys,json,re,os
sys.path.insert(0,'/tmp/conf')
from emit import *
by=json.load(open('/tmp/conf/by.json'))
for k in by:
    d={}
    SK={'concat/mod.rs, append','partition/mod.rs, partition_by_bbg','partition/mod.rs, partition_template','print/mod.rs, print_translit_nfc','print/mod.rs, print_translit_nfkc','split/mod.rs, split_where','split/mod.rs, split_where_or'}
    by[k]=[x for x in by[k] if x[0] not in SK]
    for w,t in by[k]: d.setdefault(w,[]).append(t)
    by[k]=[(w,next((t for t in ts if '⟨.ok, [], none, []⟩' not in t),ts[0])) for w,ts in d.items()]
D='/verif/lean/Verif/Conformance/'
alltext=''.join(t for v in by.values() for _,t in v)
src={}
for f in sorted(glob.glob('/repo/tests/data/*')):
    b=open(f,'rb').read()
    if f.endswith('.gz'): b=gzip.decompress(b)
    src.setdefault(b,os.path.basename(f))
o='import Verif.Base.Bytes\n\n/-! The files of /repo/tests/data that the tests of the commands read or compare with (those in the\ngzip format decompressed). -/\n\nnamespace Pica.Conformance\n'
for b,n in DATA.items():
    if re.search(r'\b'+n+r'\b',alltext):
        s=esc(b)
        lines=[];i=0
        # split into chunks with string gaps
        toks=re.findall(r'\\x..|\\.|.',s,re.S); l=''
        for t in toks:
            if len(l)+len(t)>92 and t!=' ': lines.append(l); l=''
            l+=t
        lines.append(l)
        hs=['0x%02X'%c for c in b]
        ls=[', '.join(hs[i:i+16]) for i in range(0,len(hs),16)]
        o+=f'\n/-- the file tests/data/{src[b]} -/\ndef {n} : Bytes :=\n  ['+',\n   '.join(ls)+']\n'
open(D+'Data.lean','w').write(o+'\nend Pica.Conformance\n')
groups={'Check':['check'],'FilterCmd':['filter'],'SelectCmd':['select'],'OtherCmds':[k for k in by if k not in('check','filter','select')]}
for g,ks in groups.items():
    o='import Verif.Conformance.Commands\nimport Verif.Conformance.Data\n\n/-! The calls in the tests of '+', '.join('`%s`'%k for k in sorted(ks))+' of the repository, evaluated on the model: what is\nwritten is what the tests expect. Generated from /repo/crates/pica-cli/tests. -/\n\nnamespace Pica.Conformance\n'
    for k in sorted(ks):
        lastw=None
        for w,t in by[k]:
            o+='\n'
            if w!=lastw: o+=f'-- tests/{w}\n'; lastw=w
            o+=t+'\n'
    open(D+g+'.lean','w').write(o+'\nend Pica.Conformance\n')
