import re,sys,json
sys.path.insert(0,'/tmp/conf')
from stm import tests,stms
R='/repo/src/'
skipped=[]
def unesc(s):
    # rust string body -> bytes
    out=b'';i=0
    while i<len(s):
        c=s[i]
        if c=='\\':
            n=s[i+1]
            m={'n':b'\n','r':b'\r','t':b'\t','\\':b'\\',"'":b"'",'"':b'"','0':b'\0'}
            if n in m: out+=m[n]; i+=2
            elif n=='x': out+=bytes([int(s[i+2:i+4],16)]); i+=4
            elif n in ' \n':
                i+=1
                while s[i] in ' \n': i+=1
            else: raise Exception(s)
        else: out+=c.encode(); i+=1
    return out
def B(b):
    if isinstance(b,str): b=b.encode()
    if all(32<=c<127 for c in b):
        return '(bs "'+b.decode().replace('\\','\\\\').replace('"','\\"')+'")'
    return '['+', '.join('0x%02X'%c for c in b)+']'
STR=r'(b?r?#*"(?:[^"\\]|\\.)*"#*)'
def S(lit):
    lit=lit.strip()
    if lit.startswith('b'): lit=lit[1:]
    if lit.startswith('r#'): return lit[3:-2].encode()
    assert lit[0]=='"',lit
    return unesc(lit[1:-1])
def codes(x):
    x=x.strip()
    if x=='SUBFIELD_CODES': return 'allCodes'
    return B(S(x))
def splitargs(s):
    out=[];d=0;cur='';i=0
    while i<len(s):
        c=s[i]
        if c=='"':
            e=i+1
            while s[e]!='"':
                if s[e]=='\\': e+=1
                e+=1
            cur+=s[i:e+1]; i=e+1; continue
        if c=="'":
            mm=re.match(r"'(\\.[^']*|[^'\\])'",s[i:])
            if mm: cur+=mm.group(0); i+=mm.end(); continue
        if c in '([{': d+=1
        if c in ')]}': d-=1
        if c==',' and d==0: out.append(cur.strip()); cur=''
        else: cur+=c
        i+=1
    if cur.strip(): out.append(cur.strip())
    return out
def opts(x):
    m=re.search(r'case_ignore\((\w+)\)',x)
    t=re.search(r'strsim_threshold\(0\.(\d+)\)',x)
    return ('true' if m and m.group(1)=='true' else 'false', (t.group(1)+'0')[:2] if t else '80')
def sfs(x):
    out=[]
    for m in re.finditer(r"SubfieldRef::new\('(.)', "+STR+r"\)",x): out.append('⟨0x%02X, %s⟩'%(ord(m.group(1)),B(S(m.group(2)))))
    return '['+', '.join(out)+']'
def field(x):
    m=re.match(r'FieldRef::new\( ?'+STR+r', (None|Some\('+STR+r'\)), vec!\[(.*)\],? ?\)$',x.strip().rstrip('?'))
    assert m,x
    occ='none' if m.group(2)=='None' else '(some %s)'%B(S(m.group(3)))
    ss=', '.join('⟨0x%02X, %s⟩'%(ord(a),B(S(b))) for a,b in re.findall(r"\('(.)', "+STR+r"\)",m.group(4)))
    return '⟨%s, %s, [%s]⟩'%(B(S(m.group(1))),occ,ss)
SK={'CardinalityMatcher':'.card','RegexMatcher':'.regex','RegexSetMatcher':'.regexSet','RelationMatcher':'.relation','ExistsMatcher':'.exists','InMatcher':'.isIn','ContainsMatcher':'.contains'}
FK={'ExistsMatcher':'.exists','SubfieldsMatcher':'.subfields','CardinalityMatcher':'.card'}
OPS={'Eq':'.eq','Ne':'.ne','Ge':'.ge','Gt':'.gt','Le':'.le','Lt':'.lt','StartsWith':'.startsWith','StartsNotWith':'.startsNotWith','EndsWith':'.endsWith','EndsNotWith':'.endsNotWith','Similar':'.similar'}
def new(kind,ty,text):
    b=B(text)
    if kind=='sub':
        if ty=='SubfieldMatcher': return 'subNew '+b
        if ty=='SingletonMatcher': return '(SubSingle.new rx %s).map SubMatcher.single'%b
        return '(SubKind.new rx %s %s).map SubMatcher.single'%(SK[ty],b)
    if ty in('FieldMatcher','RecordMatcher'): return 'fieldNew '+b
    if ty=='SingletonMatcher': return '(FieldSingle.new rx Levels.zero %s).1.map FieldMatcher.single'%b
    return '(FieldKind.new rx Levels.zero %s %s).1'%(FK[ty],b)
def mods(path,kind):
    res=[]
    for name,body in tests(path):
        env={};cs=[]
        o=('false','80')
        for s in stms(body):
            if s in('Ok(())',) : continue
            m=re.match(r'let options = (.*)$',s)
            if m: o=opts(m.group(1)); continue
            m=re.match(r'let subfields = vec!\[(.*)\]$',s)
            if m: env['subfields']=sfs(m.group(1)); continue
            m=re.match(r'let field = (FieldRef.*)$',s)
            if m: env['field']='['+field(m.group(1))+']'; continue
            m=re.match(r'let fields = vec!\[(.*)\]$',s)
            if m: env['fields']='['+', '.join(field(x) for x in splitargs(m.group(1)))+']'; continue
            if s=='let record = RecordRef::from_bytes(ada_lovelace())?': env['record']='ada'; continue
            m=re.match(r'let (?:mut )?(\w+) = (!?)(\w+)::new\( ?'+STR+r',? ?\)\?$',s)
            if m:
                e=new(kind,m.group(3),S(m.group(4)))
                if m.group(2): e='('+e+').map (·.bitnot)'
                env[m.group(1)]=e; continue
            m=re.match(r'matcher (.)= (\w+)::new\( ?'+STR+r',? ?\)\?$',s)
            if m:
                f={'&':'bitandAssign','|':'bitorAssign','^':'bitxorAssign'}[m.group(1)]
                env['matcher']='ap2 (·.%s ·) (%s) (%s)'%(f,env['matcher'],new(kind,m.group(2),S(m.group(3)))); continue
            m=re.match(r'assert!\((!?)matcher\.is_match\( ?&(\w+|RecordRef::from_bytes\(ada_lovelace\(\)\)\?), &(.*?) ?\)\)$',s)
            if m:
                w=m.group(2)
                if w.startswith('RecordRef'): w='record'; env['record']='ada'
                oo=o if m.group(3)=='options' else ('false','80')
                cs.append('%sHolds %s %s (%s) %s %s'%(kind,oo[1],oo[0],env['matcher'],env[w],'false' if m.group(1) else 'true')); continue
            m=re.match(r'assert_eq!\((\w+)(?: (.) (\w+))?, expected\)$',s)
            if m:
                if m.group(2):
                    f={'&':'bitand','|':'bitor','^':'bitxor'}[m.group(2)]
                    l='ap2 (·.%s ·) (%s) (%s)'%(f,env[m.group(1)],env[m.group(3)])
                else: l=env[m.group(1)]
                cs.append('same (%s) (%s)'%(l,env['expected'])); continue
            m=re.match(r'assert_tokens\( ?&matcher, &\[Token::Str\('+STR+r'\)\],? ?\)$',s)
            if m:
                # serialized as the displayed text, and read back to the same
                t=S(m.group(1))
                cs.append('shown (%s) %s'%(env['matcher'],B(t)))
                cs.append('same (%s) (%s)'%(new(kind,{'sub':'SubfieldMatcher','field':'FieldMatcher'}[kind],t),env['matcher'])); continue
            skipped.append((path,name,s))
        res.append((name,cs))
    return res
def Q(x): return {'Any':'.any','All':'.all'}[x.strip()]
def lst(x):
    x=x.strip(); assert x.startswith('vec![')
    return '['+', '.join(B(S(y)) for y in splitargs(x[5:-1]))+']'
def ok(p,i,e): return 'parsesTo (%s) %s (%s)'%(p,i,e)
def bad(p,i): return 'rejects (%s) %s'%(p,i)
SUBP={'parse_exists_matcher':'pSubExists','parse_relation_matcher':'pSubRelation','parse_contains_matcher':'pSubContains','parse_regex_matcher':'pSubRegex rx','parse_regex_set_matcher':'pSubRegexSet rx','parse_in_matcher':'pSubIn','parse_cardinality_matcher':'pSubCard','parse_singleton_matcher':'pSubSingle rx'}
def subparser():
    res=[]
    T={'parse_subfield_not_matcher':('pSubNot rx','(fun | .not _ => true | _ => false)'),
       'parse_subfield_group_matcher':('pSubGroup rx','(fun | .group _ => true | _ => false)'),
       'parse_subfield_and_matcher':('subAnd','(fun | .comp _ .and _ => true | _ => false)'),
       'parse_subfield_xor_matcher':('subXor','(fun | .comp _ .xor _ => true | _ => false)'),
       'parse_subfield_or_matcher':('subOr','(fun | .comp _ .or _ => true | _ => false)'),
       'parse_subfield_matcher':('fun _ => pSubMatcher rx','(fun _ => true)'),
       'parse_subfield_singleton_matcher':('fun _ => pSubSingleM rx',None)}
    for name,body in tests(R+'matcher/subfield/parser.rs'):
        cs=[];fn=name.replace('test_','')
        for s in stms(body):
            if s.startswith('use ') or s.startswith('macro_rules'): continue
            m=re.match(r'assert!\( ?(parse_\w+) ?\.parse\( ?'+STR+r',? ?\) ?\.is_err\(\) ?\)$',s)
            if m:
                f=m.group(1);i=B(S(m.group(2)))
                if f in SUBP: cs.append(bad(SUBP[f],i))
                else: cs.append('trejects (%s) %s'%(T[f][0],i))
                continue
            m=re.match(r'parse_success!\((.*)\)$',s)
            assert m,s
            a=splitargs(m.group(1))
            i=B(S(a[0]))
            if fn=='parse_exists_matcher': e='.exists %s %s'%(codes(a[1]),i)
            elif fn=='parse_relation_matcher': e='.relation %s %s %s %s %s'%(Q(a[1]),codes(a[2]),OPS[a[3]],B(S(a[4])),i)
            elif fn=='parse_contains_matcher': e='.contains %s %s %s %s'%(Q(a[1]),codes(a[2]),lst(a[3]),i)
            elif fn=='parse_regex_matcher': e='.regex %s %s %s %s %s'%(Q(a[1]),codes(a[2]),B(S(a[3])),a[4],i)
            elif fn=='parse_regex_set_matcher': e='.regexSet %s %s %s %s %s'%(Q(a[1]),codes(a[2]),lst(a[3]),a[4],i)
            elif fn=='parse_in_matcher': e='.isIn %s %s %s %s %s'%(Q(a[1]),codes(a[2]),lst(a[3]),a[4],i)
            elif fn=='parse_cardinality_matcher': e='.card %s %s %s %s'%(codes(a[1]),OPS[a[2]],a[3],i)
            elif fn=='parse_singleton_matcher':
                p=a[1]
                pat={'Relation':'.relation .all _ _ _ _','Exists':'.exists _ _','In':'.isIn _ _ _ true _','Cardinality':'.card _ _ 3 _','Regex':'.regex _ _ _ true _','RegexSet':'.regexSet _ _ _ false _'}[re.match(r'\w+',p).group(0)]
                cs.append('parsesAs (pSubSingle rx) %s (fun | %s => true | _ => false) SubSingle.display'%(i,pat)); continue
            elif fn=='parse_subfield_singleton_matcher':
                k=re.match(r'Singleton\((\w+)\(_\)\)',a[1]).group(1)
                pat={'Relation':'.relation ..','Exists':'.exists ..','In':'.isIn ..','Cardinality':'.card ..','Regex':'.regex ..','RegexSet':'.regexSet ..','Contains':'.contains ..'}[k]
                cs.append('tparsesAs (%s) %s (fun | .single (%s) => true | _ => false) SubMatcher.display'%(T[fn][0],i,pat)); continue
            else:
                cs.append('tparsesAs (%s) %s %s SubMatcher.display'%(T[fn][0],i,T[fn][1])); continue
            cs.append(ok(SUBP[fn],i,e))
        res.append((name,cs))
    return res
def tm(x): return '.tag '+B(S(x))
def occ(x):
    x=x.strip()
    if x.endswith('::None'): return '.none'
    if x.endswith('::Any'): return '.any'
    m=re.match(r'OccurrenceMatcher::Exact\(Occurrence::new\('+STR+r'\)\?\)',x)
    if m: return '.exact '+B(S(m.group(1)))
    m=re.match(r'OccurrenceMatcher::Range\( ?Occurrence::new\('+STR+r'\)\?, Occurrence::new\('+STR+r'\)\? ?\)',x)
    return '.range %s %s'%(B(S(m.group(1))),B(S(m.group(2))))
def fieldparser():
    res=[]
    for name,body in tests(R+'matcher/field/parser.rs'):
        cs=[];fn=name.replace('test_','')
        for s in stms(body):
            if s.startswith('use ') or s.startswith('macro_rules') or s.startswith('#[cfg'): continue
            m=re.match(r'parse_success!\((.*)\)$',s); assert m,s
            a=splitargs(m.group(1)); i=B(S(a[0])); x=a[1]
            tag=B(S(re.search(r'TagMatcher::new\('+STR,x).group(1)))
            oc='.any' if 'OccurrenceMatcher::Any' in x else '.none'
            if 'CardinalityMatcher' in x: e='(⟨.tag %s, %s, none, .gt, 5, %s⟩ : FieldCard)'%(tag,oc,i)
            elif 'SubfieldsMatcher' in x:
                if 'FieldMatcher::Singleton' in x: inner='.single (.exists (bs "0") (bs "0?"))'
                else:
                    t=re.search(r'SubfieldMatcher::new\( '+STR,x).group(1)
                    inner='.single (.relation .any (bs "0") .eq (bs "0123456789X") %s)'%B(S(t))
                e='.subfields .any (.tag %s) %s (%s) %s'%(tag,oc,inner,i)
            else: e='.exists (.tag %s) %s'%(tag,oc)
            p={'parse_exists_matcher':('lift pFieldExists','FieldSingle.display'),'parse_subfields_matcher':('subfieldsP','FieldSingle.display'),'parse_singleton_matcher':('pFieldSingle rx','FieldSingle.display'),'parse_cardinality_matcher':('pFieldCard rx','(fun m => (FieldMatcher.card m).display)'),'parse_field_exists_matcher':('lift pFieldExistsM','FieldMatcher.display')}[fn]
            if fn=='parse_field_exists_matcher': e='.single (%s)'%e
            cs.append('tparsesTo (%s) %s (%s) %s'%(p[0],i,e,p[1]))
        res.append((name,cs))
    return res
def misc():
    res=[]
    for name,body in tests(R+'matcher/tag.rs'):
        cs=[];cur=None
        for s in stms(body):
            m=re.match(r'let matcher = TagMatcher::new\('+STR+r'\)\?',s)
            if m: cur='TagMatcher.new '+B(S(m.group(1))); continue
            m=re.match(r'assert_tokens\(&matcher, &\[Token::Str\('+STR+r'\)\]\)',s)
            if m:
                cs.append('shown (%s) %s'%(cur,B(S(m.group(1))))); cs.append('same (TagMatcher.new %s) (%s)'%(B(S(m.group(1))),cur)); continue
            m=re.match(r'parse_success!\((.*)\)$',s)
            if m:
                a=splitargs(m.group(1)); i=B(S(a[0]))
                t=re.search(r'Tag::new\('+STR,a[1])
                if t: e='.tag '+B(S(t.group(1)))
                else:
                    vs=re.findall(r'vec!\[([^\]]*)\]',a[1])
                    e='.pattern %s %s'%(' '.join(B(''.join(re.findall(r"b'(.)'",v))) for v in vs),B(S(re.search(STR+r'\.to_string',a[1]).group(1))))
                cs.append(ok('pTagMatcher',i,e)); continue
            if s not in('Ok(())',) and not s.startswith('macro'): skipped.append(('tag',name,s))
        res.append(('tag',name,cs))
    for name,body in tests(R+'matcher/occurrence.rs'):
        cs=[]
        for s in stms(body):
            m=re.match(r'parse_success!\((.*)\)$',s)
            if m:
                a=splitargs(m.group(1)); i=B(S(a[0]))
                cs.append(ok('pOccMatcher',i,occ(a[1]))); cs.append('shown (OccMatcher.new %s) %s'%(i,i)); continue
            m=re.match(r'assert_eq!\( parse_occurrence_matcher.parse\('+STR+r'\).unwrap\(\), (.*) \)$',s)
            if m: cs.append(ok('pOccMatcher',B(S(m.group(1))),occ(m.group(2)))); continue
            if s not in('Ok(())',) and not s.startswith('macro'): skipped.append(('occ',name,s))
        res.append(('occurrence',name,cs))
    for name,body in tests(R+'matcher/operator.rs'):
        cs=[ok('pRelOp',B(S(a)),OPS[b]) for a,b in re.findall(r'parse_success!\('+STR+r', (\w+)\)',body)]
        res.append(('operator',name,cs))
    for name,body in tests(R+'matcher/quantifier.rs'):
        cs=[ok('pQuantifier',B(S(a)),Q(b)) for a,b in re.findall(r'parse_quantifier.parse\('+STR+r'\).unwrap\(\), (\w+)',body)]
        res.append(('quantifier',name,cs))
    P={'parse_subfield_code_range':'pCodeRange','parse_subfield_code_list':'pCodeList','parse_string_single_quoted':'pQuoted 0x27','parse_string_double_quoted':'pQuoted 0x22','parse_string':'pString'}
    for name,body in tests(R+'parser.rs'):
        if 'compat' in name: continue
        cs=[];fn=name.replace('test_','')
        for s in stms(body):
            if s.startswith('macro'): continue
            m=re.match(r'parse_success!\((.*)\)$',s)
            if m:
                a=splitargs(m.group(1)); i=B(S(a[0]))
                r=re.match(r"\('(.)'\.\.='(.)'\)",a[1])
                if r: e=B(''.join(chr(c) for c in range(ord(r.group(1)),ord(r.group(2))+1)))
                elif a[1].startswith('['): e=B(''.join(re.findall(r"'(.)'",a[1])))
                else: e=B(S(a[1]))
                cs.append(ok(P[fn],i,e)); continue
            m=re.match(r'assert!\((parse_\w+)\.parse\('+STR+r'\)\.is_err\(\)\)',s)
            if m: cs.append(bad(P[m.group(1)],B(S(m.group(2))))); continue
            m=re.match(r'assert!\( (parse_\w+) \.parse\(&\[(.*)\]\) \.is_err\(\) \)',s)
            if m:
                cs.append(bad(P[m.group(1)],'['+', '.join(splitargs(m.group(2)))+']')); continue
            if 'SUBFIELD_CODES' in s: cs.append(ok('pCodeAll','(bs "*")','bs "0123456789abcdefghijklmnopqrstuvwxyzABCDEFGHIJKLMNOPQRSTUVWXYZ"')); continue
            skipped.append(('parser',name,s))
        res.append(('parser',name,cs))
    cs=['(List.range 256).all (fun c => decide (parseAll pSubfieldCode [UInt8.ofNat c] = if isAlnum (UInt8.ofNat c) then some (UInt8.ofNat c) else none))',
        ]
    res.append(('primitives','test_parse_subfield_code',cs))
    for name,body in tests(R+'primitives/parse.rs'):
        if name!='test_parse_subfield_value_ref': 
            if name!='test_parse_subfield_code': skipped.append(('prim',name,'whole'))
            continue
        cs=['peeks pSubfieldValue %s %s %s'%tuple(B(S(x)) for x in splitargs(a)) for a in re.findall(r'parse_success!\((.*)\);',body)]
        res.append(('primitives',name,cs))
    return res
def vecs(x):
    x=re.sub(r'\s+',' ',x.strip())
    def p(s):
        s=s.strip()
        if s.startswith('vec!['): return '['+', '.join(p(y) for y in splitargs(s[5:-1]))+']'
        return B(S(s))
    return p(x)
def pathquery():
    res=[]
    for f in('path','query','fmt/mod'):
        for name,body in tests(R+f+'.rs'):
            cs=[];rec='ada';q=None;o=None
            for s in stms(body):
                if s in('Ok(())','let data = ada_lovelace()','let record = ByteRecord::from_bytes(&data)?','let record = StringRecord::try_from(record)?','let record = RecordRef::from_bytes(ada_lovelace())?','let options = MatcherOptions::default()','let options = FormatOptions::default()'):
                    if 'ada' in s: rec='ada'
                    continue
                m=re.match(r'let data = '+STR+'$',s)
                if m: rec='(rec %s)'%B(S(m.group(1))); continue
                m=re.match(r'let options = QueryOptions::new\(\)(.*)$',s)
                if m:
                    x=m.group(1); sep=re.search(r'separator\('+STR,x)
                    o='⟨false, %s, %s, %s⟩'%(B(S(sep.group(1))) if sep else '(bs "|")','true' if 'squash(true)' in x else 'false','true' if 'merge(true)' in x else 'false'); continue
                m=re.match(r'let (path|query|format) = (?:Path|Query|Format)::new\( ?'+STR+r',? ?\)\?',s)
                if m: q=B(S(m.group(2))); continue
                m=re.match(r'let values: Vec<[^=]*> = record\.(path|format)\(&\w+, &options\)\.collect\(\)$',s)
                if m: continue
                m=re.match(r'assert_eq!\(values, (.*)\)$',s)
                if m: cs.append('pathIs %s %s %s %s'%(q,rec,vecs(m.group(1)),'true' if 'string' in name else 'false')); continue
                if s=='assert!(values.is_empty())': cs.append('formatIs %s %s []'%(q,rec)); continue
                m=re.match(r'assert_eq!\(record.first\(&path, &options\).unwrap\(\), '+STR+r'\)',s)
                if m: cs.append('firstIs %s %s %s'%(q,rec,B(S(m.group(1))))); continue
                m=re.match(r'assert_eq!\(record.ppn\(\).unwrap\(\), '+STR+r'\)',s)
                if m: cs.append('ppnIs %s %s'%(rec,B(S(m.group(1))))); continue
                m=re.match(r'assert_eq!\( record\.query\(&query, &options\)\.into_inner\(\), (.*?),? \)$',s)
                if m: cs.append('queryIs %s %s %s %s'%(q,o,rec,vecs(m.group(1)))); continue
                m=re.match(r'assert_eq!\( record\.format\(&format, &options\)\.collect::<Vec<_>>\(\), (.*) \)$',s)
                if m: cs.append('formatIs %s %s %s'%(q,rec,vecs(m.group(1)))); continue
                if name=='test_parse_path_simple': cs.append(ok('pPathSimple','(bs "003@.0")','⟨.tag (bs "003@"), .none, none, [bs "0"], bs "003@.0"⟩')); continue
                if name=='test_parse_path_curly': cs.append('tparsesTo (pPathCurly rx) (bs "045E{ (e, f) | E == \'m\' }") ⟨.tag (bs "045E"), .none, (subNew (bs "E == \'m\'")), [bs "e", bs "f"], bs "045E{ (e, f) | E == \'m\' }"⟩ Path.display'); continue
                skipped.append((f,name,s))
            res.append((f,name,cs))
    return res
def fmtparser():
    res=[]
    def val(x):
        x=x.strip()
        def opt(k):
            m=re.search(k+r': (None|Some\('+STR+r'\.to_string\(\)\))',x)
            return 'none' if m.group(1)=='None' else '(some %s)'%B(S(m.group(2)))
        c=re.search(r"SubfieldCode::new\( ?'(.)'",x).group(1)
        e=re.search(r'RangeTo \{ end: ([\w:]+) \}',x).group(1)
        return '⟨%s, %s, %s, %s, Modifier.default⟩'%(B(c),opt('prefix'),opt('suffix'),'usizeMax' if 'MAX' in e else e)
    def frag(x):
        x=x.strip()
        m=re.match(r'Fragments::Value\(Value (\{.*\})\)$',x)
        if m: return '.value '+val(m.group(1))
        m=re.match(r'Fragments::Group\(Group \{ fragments: Box::new\((.*)\), bounds: RangeTo \{ end: usize::MAX \}, modifier: Modifier::default\(\),? \}\)$',x)
        if m: return '.group (%s) usizeMax Modifier.default'%frag(m.group(1))
        m=re.match(r'Fragments::List\((.*)\)$',x)
        if m: return lis(m.group(1))
        m=re.match(r'Group \{ fragments: Box::new\((.*)\), bounds: RangeTo \{ end: usize::MAX \}, modifier: Modifier::default\(\),? \}$',x)
        if m: return '.group (%s) usizeMax Modifier.default'%frag(m.group(1))
        raise Exception(x)
    def lis(x):
        m=re.match(r'List::(\w+)\( ?vec!\[(.*)\] ?\)$',x.strip()); assert m,x
        return '%s [%s]'%({'Cons':'.cons','AndThen':'.andThen'}[m.group(1)],', '.join(frag(y) for y in splitargs(m.group(2))))
    for name,body in tests(R+'fmt/parser.rs'):
        cs=[]; inp=None
        for s in stms(body):
            if s=='Ok(())': continue
            m=re.match(r'assert_eq!\( (parse_\w+)\.parse\('+STR+r'\)\.unwrap\(\)(\.unwrap\(\))?, (.*) \)$',s)
            if m:
                i=B(S(m.group(2))); x=m.group(4)
                if m.group(1)=='parse_modifier':
                    e='some ⟨'+', '.join('true' if k+': true' in x else 'false' for k in('lowercase','uppercase','remove_ws','trim','strip_overread_char'))+'⟩'
                    cs.append(ok('pModifier',i,e))
                elif m.group(1)=='parse_value': cs.append(ok('pFmtValue',i,val(x)))
                elif m.group(1)=='parse_group': cs.append('fparsesTo (pFmtGroup 40) %s (%s)'%(i,frag(x)))
                elif m.group(1)=='parse_list_cons': cs.append('fparsesTo (pCons (pFmtGroup 40)) %s (%s)'%(i,lis(x)))
                elif m.group(1)=='parse_list_and_then': cs.append('fparsesTo (pAndThen (pFmtGroup 40)) %s (%s)'%(i,lis(x)))
                continue
            m=re.match(r'let inputs = vec!\[(.*)\]$',s)
            if m: inp=[B(S(x)) for x in splitargs(m.group(1))]; continue
            if s.startswith('for i in inputs'):
                cs+=['(Format.new rx Levels.zero %s).1.isSome'%x for x in inp]; continue
            m=re.match(r'let input = vec!\[(.*)\]$',s)
            if m: inp='['+', '.join(splitargs(m.group(1)))+']'; continue
            if 'is_err' in s: cs.append('(Format.new rx Levels.zero %s).1.isNone'%inp); continue
            skipped.append(('fmt/parser',name,s))
        res.append(('fmt/parser',name,cs))
    return res
groups=[]
groups.append(('Sub',[('src/matcher/subfield/mod.rs',n,c) for n,c in mods(R+'matcher/subfield/mod.rs','sub')]+[('src/matcher/subfield/parser.rs',n,c) for n,c in subparser()]))
groups.append(('Fld',[('src/matcher/field/mod.rs',n,c) for n,c in mods(R+'matcher/field/mod.rs','field')]+[('src/matcher/field/parser.rs',n,c) for n,c in fieldparser()]+[('src/matcher/record.rs',n,c) for n,c in mods(R+'matcher/record.rs','field')]))
groups.append(('Rest',[('src/matcher/%s.rs'%f if f not in('parser','primitives') else {'parser':'src/parser.rs','primitives':'src/primitives/parse.rs'}[f],n,c) for f,n,c in misc()]+[('src/%s.rs'%f,n,c) for f,n,c in pathquery()+fmtparser()]))
if __name__=='__main__':
    for s in skipped: print('SKIP',s)
    mode=sys.argv[1]
    for g,ts in groups:
        out=[]
        n=0
        for f,t,cs in ts:
            if not cs: print('EMPTY',f,t); continue
            n+=len(cs)
            if mode=='eval':
                for c in cs: out.append('#eval if (%s : Bool) then "" else "FAIL %s"'%(c,(f+' '+t+': '+c).replace('\\','\\\\').replace('"','\\"')))
            else:
                out.append('/-- `%s`, %s -/'%(t,f))
                out.append('example : [\n    '+',\n    '.join(cs)+'].all id = true := by\n  decide +kernel\n')
        open('/tmp/conf/%s.body'%g,'w').write('\n'.join(out))
        print(g,len(ts),n)
