import re,sys,glob,os
DEFS={'HAVE_LIBFSAPFS_MULTI_THREAD_SUPPORT','HAVE_STDARG_H','HAVE_STDLIB_H','HAVE_LONG_LONG','HAVE_MULTI_THREAD_SUPPORT','HAVE_LIBFUSE','HAVE_UNISTD_H','HAVE_FCNTL_H','HAVE_ERRNO_H','HAVE_SYS_STAT_H','HAVE_SYS_TIME_H','HAVE_WIDE_CHARACTER_TYPE','HAVE_SIGNAL_H'}
DOKAN='0'
PYMAJOR='3'
def evalcond(c,defs):
    c=re.sub(r'defined\s*\(\s*(\w+)\s*\)',lambda m:'True' if m.group(1) in defs else 'False',c)
    c=c.replace('&&',' and ').replace('||',' or ')
    c=re.sub(r'!(?!=)',' not ',c)
    c=c.replace('PY_MAJOR_VERSION',PYMAJOR).replace('PY_MINOR_VERSION','9').replace('PY_VERSION_HEX','0x0%s090000'%PYMAJOR).replace('SIZEOF_SIZE_T','8').replace('SIZEOF_INT','4').replace('SIZEOF_OFF_T','8').replace('SIZEOF_LONG_LONG','8').replace('SIZEOF_LONG','8')
    c=c.replace('DOKAN_VERSION',DOKAN)
    c=re.sub(r'\b(?!True|False|and|or|not)[A-Za-z_]\w*','0',c)
    c=re.sub(r'\b0\s*\([^()]*\)','0',c)
    try: return bool(eval(c))
    except Exception as e: raise Exception('cond '+c)
def preprocess(text,defs=DEFS):
    text=re.sub(r'/\*.*?\*/',lambda m:re.sub(r'[^\n]','',m.group(0)),text,flags=re.S)
    text=re.sub(r'\b\w*UNREFERENCED_PARAMETER\s*\(\s*\w+\s*\)','',text)
    out=[];stack=[]
    cont=False
    for line in text.split('\n'):
        l=line.strip()
        if cont:
            cont=l.endswith('\\'); out.append(''); continue
        if l.startswith('#'):
            d=l[1:].strip()
            if d.startswith('ifdef'): stack.append([d.split()[1] in defs,False]); stack[-1][1]=stack[-1][0]
            elif d.startswith('ifndef'): stack.append([d.split()[1] not in defs,False]); stack[-1][1]=stack[-1][0]
            elif d.startswith('if'):
                v=evalcond(d[2:],defs); stack.append([v,v])
            elif d.startswith('elif'):
                v=(not stack[-1][1]) and evalcond(d[4:],defs); stack[-1][0]=v; stack[-1][1]|=v
            elif d.startswith('else'):
                stack[-1][0]=not stack[-1][1]; stack[-1][1]=True
            elif d.startswith('endif'): stack.pop()
            cont=l.endswith('\\')
            out.append(''); continue
        out.append(line if all(s[0] for s in stack) else '')
    return '\n'.join(out)
TOK=re.compile(r'\s+|"(?:\\.|[^"\\])*"|\'(?:\\.|[^\'\\])*\'|[A-Za-z_]\w*|0x[0-9a-fA-F]+\w*|\d[\w.]*|->|\+\+|--|<<=|>>=|<=|>=|==|!=|&&|\|\||\+=|-=|\*=|/=|&=|\|=|\^=|%=|<<|>>|\.\.\.|.')
def tokenize(text,line):
    toks=[]
    for m in TOK.finditer(text):
        t=m.group(0)
        if t.strip(): toks.append((t,line))
        line+=t.count('\n')
    return toks
class P:
    def __init__(s,toks): s.t=toks; s.i=0
    def peek(s,k=0): return s.t[s.i+k][0] if s.i+k<len(s.t) else None
    def line(s): return s.t[s.i][1]
    def next(s): s.i+=1; return s.t[s.i-1][0]
    def expect(s,x):
        assert s.peek()==x,(x,s.peek(),s.line()); s.i+=1
    def paren(s):
        s.expect('('); d=1; out=[]
        while True:
            t=s.t[s.i]; s.i+=1
            if t[0]=='(': d+=1
            elif t[0]==')':
                d-=1
                if d==0: return out
            out.append(t)
    def until(s,x):
        out=[];d=0
        while True:
            t=s.t[s.i]
            if d==0 and t[0]==x: s.i+=1; return out
            if t[0] in '([{': d+=1
            elif t[0] in ')]}': d-=1
            out.append(t); s.i+=1
    def block(s):
        s.expect('{'); out=[]
        while s.peek()!='}': out.append(s.stmt())
        s.i+=1
        return ('block',out)
    def stmt(s):
        t=s.peek(); ln=s.line()
        if t=='{': return s.block()
        if t==';': s.i+=1; return ('block',[])
        if t=='if':
            s.i+=1; c=s.paren(); a=s.stmt(); b=None
            if s.peek()=='else': s.i+=1; b=s.stmt()
            return ('if',ln,c,a,b)
        if t=='while':
            s.i+=1; c=s.paren(); return ('while',ln,c,s.stmt())
        if t=='do':
            s.i+=1; b=s.stmt(); s.expect('while'); c=s.paren(); s.expect(';'); return ('do',ln,c,b)
        if t=='for':
            s.i+=1; h=s.paren(); b=s.stmt()
            parts=[[]]; d=0
            for x in h:
                if x[0]==';' and d==0: parts.append([]); continue
                if x[0] in '([': d+=1
                if x[0] in ')]': d-=1
                parts[-1].append(x)
            return ('for',ln,parts[0],parts[1],parts[2],b)
        if t=='switch':
            s.i+=1; c=s.paren(); b=s.block(); return ('switch',ln,c,b)
        if t=='case':
            s.i+=1; s.until(':'); return ('case',ln)
        if t=='default' and s.peek(1)==':': s.i+=2; return ('default',ln)
        if t=='return':
            s.i+=1; e=s.until(';'); return ('return',ln,e)
        if t=='goto':
            s.i+=1; l=s.next(); s.expect(';'); return ('goto',ln,l)
        if t=='break': s.i+=1; s.expect(';'); return ('break',ln)
        if t=='continue': s.i+=1; s.expect(';'); return ('continue',ln)
        if re.match(r'^[A-Za-z_]\w*$',t) and s.peek(1)==':' : s.i+=2; return ('label',ln,t)
        e=s.until(';')
        return ('expr',ln,e)
FUNC=re.compile(r'^((?:static |const |unsigned )*[A-Za-z_][\w ]*[\* ]+)([A-Za-z_]\w*)\(([^;{}]*?)\)\s*\{',re.M)
def functions(path,defs=DEFS):
    text=preprocess(open(path).read(),defs)
    res=[]
    for m in FUNC.finditer(text):
        if m.group(2) in('if','while','for','switch','return'): continue
        if text[m.start()-1:m.start()] not in('\n',''): continue
        ln=text.count('\n',0,m.start())+1
        toks=[]; i=m.end()-1; d=0
        j=i
        # find end
        for mm in TOK.finditer(text,i):
            t=mm.group(0)
            if t=='{': d+=1
            elif t=='}':
                d-=1
                if d==0: j=mm.end(); break
        toks=tokenize(text[i:j],text.count('\n',0,i)+1)
        end=text.count('\n',0,j)+1
        params=[p.strip() for p in re.sub(r'\s+',' ',m.group(3)).split(',')]
        res.append(dict(name=m.group(2),line=ln,end=end,params=params,ret=m.group(1).strip(),body=P(toks).block()))
    return res
def norm(toks):
    """text of an lvalue path without casts and redundant parens"""
    s=''.join(t[0] if isinstance(t,tuple) else t for t in toks)
    return s
def splitargs(toks):
    out=[[]];d=0
    for t in toks:
        if t[0]==',' and d==0: out.append([]); continue
        if t[0] in '([{': d+=1
        if t[0] in ')]}': d-=1
        out[-1].append(t)
    return [a for a in out if a]
KW={'if','while','for','return','switch','sizeof'}
def calls(toks):
    """outermost calls: list of (name, args)"""
    out=[];i=0
    while i<len(toks):
        t=toks[i][0]
        if re.match(r'^[A-Za-z_]\w*$',t) and t not in KW and i+1<len(toks) and toks[i+1][0]=='(':
            d=0;j=i+1
            while True:
                if toks[j][0]=='(': d+=1
                if toks[j][0]==')':
                    d-=1
                    if d==0: break
                j+=1
            out.append((t,splitargs(toks[i+2:j]),toks[i][1])); i=j+1; continue
        i+=1
    return out
def strip(toks):
    """strip casts and outer parens; returns tokens"""
    toks=list(toks)
    while True:
        if not toks: return toks
        if toks[0][0]=='(':
            d=0
            for j,t in enumerate(toks):
                if t[0]=='(': d+=1
                if t[0]==')':
                    d-=1
                    if d==0: break
            inner=toks[1:j]
            if j==len(toks)-1: toks=inner; continue
            # cast?
            if all(re.match(r'^[A-Za-z_]\w*$',t[0]) or t[0]=='*' for t in inner) and inner and (inner[-1][0]=='*' or inner[0][0].endswith('_t') or inner[0][0] in('int','char','void','const','unsigned','struct','PyObject','size_t','ULONG64','DWORD','LONG','LPWSTR')) and len(toks)>j+1 and toks[j+1][0] not in('->','.','['):
                toks=toks[j+1:]; continue
        return toks
def lpath(toks):
    """canonical path of an lvalue: like x, *x, x->m, (*x)->m ; or None"""
    toks=strip(toks)
    if not toks: return None
    if toks[0][0]=='*':
        p=lpath(toks[1:]); return None if p is None else '*'+p
    # last -> member at depth 0
    d=0;pos=None
    for j,t in enumerate(toks):
        if t[0] in '([': d+=1
        if t[0] in ')]': d-=1
        if d==0 and t[0]=='->': pos=j
    if pos is not None:
        b=lpath(toks[:pos]); 
        rest=toks[pos+1:]
        if b is None or len(rest)!=1: return None
        return b+'->'+rest[0][0]
    if len(toks)==1 and re.match(r'^[A-Za-z_]\w*$',toks[0][0]): return toks[0][0]
    return None
if __name__=='__main__':
    n=0
    for f in sorted(glob.glob('/repo/libfsapfs/*.c')+glob.glob('/repo/fsapfstools/*.c')+glob.glob('/repo/pyfsapfs/*.c')):
        try:
            fs=functions(f)
        except Exception as e:
            print(f,'ERR',e); continue
        n+=len(fs)
    print(n)
