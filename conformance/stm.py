import re,sys
def tests(path):
    src=open(path).read()
    i=src.index('mod tests') if 'mod tests' in src else 0
    src=src[i:]
    out=[]
    for m in re.finditer(r'#\[test\]\s*fn (\w+)\(\)[^{]*\{',src):
        # brace matching aware of strings
        j=m.end();d=1
        start=j
        while d:
            c=src[j]
            if c=='"':
                # raw string?
                k=j-1;h=0
                while src[k]=='#': h+=1;k-=1
                if src[k]=='r' and not src[k-1].isalnum():
                    e=src.index('"'+'#'*h,j+1); j=e+h
                else:
                    j+=1
                    while src[j]!='"':
                        if src[j]=='\\': j+=1
                        j+=1
            elif c=="'" :
                mm=re.match(r"'(\\.[^']*|[^'\\])'",src[j:])
                if mm: j+=mm.end()-1
            elif c=='{': d+=1
            elif c=='}': d-=1
            j+=1
        out.append((m.group(1),src[start:j-1]))
    return out
def stms(body):
    out=[];d=0;j=0;s=''
    while j<len(body):
        c=body[j]
        if body.startswith('//',j):
            j=body.index('\n',j); continue
        if c=='"':
            k=j-1;h=0
            while body[k]=='#': h+=1;k-=1
            if body[k]=='r' and not body[k-1].isalnum():
                e=body.index('"'+'#'*h,j+1)+h
            else:
                e=j+1
                while body[e]!='"':
                    if body[e]=='\\': e+=1
                    e+=1
            s+=body[j:e+1]; j=e+1; continue
        if c=="'":
            mm=re.match(r"'(\\.[^']*|[^'\\])'",body[j:])
            if mm: s+=mm.group(0); j+=mm.end(); continue
        if c in '([{': d+=1
        if c in ')]}': d-=1
        if (c==';' and d==0):
            out.append(re.sub(r'\s*\n\s*',' ',s).strip()); s=''
        elif c=='}' and d==0:
            s+=c; out.append(re.sub(r'\s*\n\s*',' ',s).strip()); s=''
        else: s+=c
        j+=1
    if s.strip(): out.append(s.strip())
    return [x for x in out if x]
if __name__=='__main__':
    for p in sys.argv[1:]:
        for n,b in tests(p):
            print('##',n)
            for s in stms(b): print('   ',s)
