import sys; sys.path.insert(0,__import__('os').path.dirname(__import__('os').path.abspath(__file__)))
from extract import *
import extract,cparse
load_structs(['libfsapfs','fsapfstools','pyfsapfs'])
def resolve(F):
    """expand pseudo instructions and resolve labels to instruction numbers"""
    out=[];at={}
    labs={}
    for l,i in F.lab.items(): labs.setdefault(i,[]).append(l)
    pos={}
    newlab={}
    n=0
    HALT='HALT'
    def lab():
        F.nl+=1; return 'R%d'%F.nl
    for i in range(len(F.code)+1):
        for l in labs.get(i,[]): pos[l]=len(out)
        if i==len(F.code): break
        c=F.code[i]
        if c[0]=='mustnull':
            out.append(['test',c[1],('rel',1),HALT])
        elif c[0]=='mustn':
            out.append(['testn',c[1],2,('rel',1),HALT])
        elif c[0]=='param':
            kids=[k for k in F.cells if k.startswith(c[1]+'->')]
            # choice null/lent
            a=lab();b=lab();e=lab()
            out.append(['choice',a,b]); pos[a]=len(out); out.append(['lend',c[1]])
            pos[b]=len(out)
        elif c[0]=='seterror':
            a=lab();b=lab()
            out.append(['test',c[1],a,b]); pos[a]=len(out); out.append(['maybe',c[1]])
            pos[b]=len(out)
        elif c[0]=='junk':
            out.append(['fresh',c[1]]); out.append(['kill',c[1]])
        elif c[0]=='move': out.append(['give',c[1]])
        elif c[0]=='move?': out.append(['forget',c[1]])
        else: out.append(list(c))
    pos[HALT]=len(out); out.append(['goto',HALT])
    code=[]
    ix={c:i for i,c in enumerate(F.cells+sorted(F.ints))}
    for i,c in enumerate(out):
        r=[c[0]]
        for x in c[1:]:
            if isinstance(x,tuple): r.append(i+x[1])
            elif x in pos and c[0] in('goto','choice','test','testn','same') and x not in ix: r.append(pos[x])
            elif isinstance(x,str) and x in ix: r.append(ix[x])
            elif isinstance(x,int): r.append(x)
            elif x in pos: r.append(pos[x])
            else: raise X('unresolved %s in %s'%(x,F.name))
        code.append(r)
    # thread gotos: replace targets which are goto
    def final(t):
        seen=set()
        while code[t][0]=='goto' and t not in seen and code[t][1]!=t:
            seen.add(t); t=code[t][1]
        return t
    for i,c in enumerate(code):
        if c[0]=='goto': c[1]=final(c[1]) if c[1]!=i else i
        elif c[0]=='choice': c[1]=final(c[1]);c[2]=final(c[2])
        elif c[0]=='test': c[2]=final(c[2]);c[3]=final(c[3])
        elif c[0] in('testn','same'): c[3]=final(c[3]);c[4]=final(c[4])
    # simplify choice a a -> goto a ; drop use/deref of cells that are never killed? keep
    for c in code:
        if c[0]=='choice' and c[1]==c[2]: c[:]=['goto',c[1]]
    # reachability + compaction (a goto to the next instruction is dropped)
    return code,ix
def succ_pcs(c,i):
    if c[0]=='goto': return [c[1]]
    if c[0]=='choice': return [c[1],c[2]]
    if c[0]=='test': return [c[2],c[3]]
    if c[0] in('testn','same'): return [c[3],c[4]]
    if c[0]=='ret': return []
    return [i+1]
def compact(code):
    # remove unreachable, fallthrough gotos, and choices/tests whose both targets same
    changed=True
    while changed:
        changed=False
        def final(t):
            seen=set()
            while code[t][0]=='goto' and t not in seen and code[t][1]!=t: seen.add(t); t=code[t][1]
            return t
        for i,c in enumerate(code):
            if c[0]=='goto' and c[1]!=i: c[1]=final(c[1])
            elif c[0]=='choice':
                c[1]=final(c[1]);c[2]=final(c[2])
                if c[1]==c[2]: c[:]=['goto',c[1]]
            elif c[0]=='test':
                c[2]=final(c[2]);c[3]=final(c[3])
                if c[2]==c[3]: c[:]=['goto',c[2]]
            elif c[0] in('testn','same'):
                c[3]=final(c[3]);c[4]=final(c[4])
                if c[3]==c[4]: c[:]=['goto',c[3]]
        reach=set();st=[0]
        while st:
            i=st.pop()
            if i in reach: continue
            reach.add(i); st+=succ_pcs(code[i],i)
        keep=[]
        order=sorted(reach)
        drop=set()
        for n,i in enumerate(order):
            c=code[i]
            if c[0]=='goto' and c[1]!=i and n+1<len(order) and order[n+1]==c[1]: drop.add(i)
        keep=[i for i in order if i not in drop]
        if len(keep)!=len(code): changed=True
        m={}
        for n,i in enumerate(keep): m[i]=n
        for i in order:
            if i in drop:
                j=i
                while j in drop: j=code[j][1]
                m[i]=m[j]
        new=[]
        for i in keep:
            c=list(code[i])
            if c[0]=='goto': c[1]=m[c[1]]
            elif c[0]=='choice': c[1]=m[c[1]];c[2]=m[c[2]]
            elif c[0]=='test': c[2]=m[c[2]];c[3]=m[c[3]]
            elif c[0] in('testn','same'): c[3]=m[c[3]];c[4]=m[c[4]]
            new.append(c)
        # if fallthrough instr's next isn't kept next => cannot happen as order
        code=new
    return code
NULL,LENT,DANG,OPT=0,1,2,3
def own(k): return 4+2*k
def isown(v): return v>=4 and v%2==0
def num(n): return 5+2*n
class Err(Exception): pass
def canon(st):
    m={};o=[]
    for v in st:
        if isown(v):
            if v not in m: m[v]=own(len(m))
            o.append(m[v])
        else: o.append(v)
    return tuple(o)
def fresh_k(st): 
    ks=[v for v in st if isown(v)]
    k=0
    while own(k) in ks: k+=1
    return own(k)
def lose(st,x):
    """x is going to be overwritten"""
    v=st[x]
    if v==OPT: raise Err('may lose %d'%x)
    if isown(v) and sum(1 for w in st if w==v)==1: raise Err('lose %d'%x)
def astep(P,pc,st):
    c=P['code'][pc]; o=c[0]
    def up(x,v):
        l=list(st); l[x]=v; return canon(l)
    n=pc+1
    if o=='goto': return [(c[1],st)]
    if o=='choice': return [(c[1],st),(c[2],st)]
    if o=='ret':
        for x,v in enumerate(st):
            info=P['cells'][x]
            par=info['parent']
            valid=False
            if par is not None: valid= st[par]!=NULL and st[par]!=DANG
            if isown(v):
                ok=False
                for y,w in enumerate(st):
                    if w!=v: continue
                    iy=P['cells'][y]
                    if iy['out'] and c[1]==1: ok=True
                    if iy['parent'] is not None and iy['owned'] and st[iy['parent']] not in(NULL,DANG): ok=True
                if not ok: raise Err('leak of %s at return'%info['name'])
            if v==OPT:
                if not ((info['out'] and c[1]==1) or (info['owned'] and valid)): raise Err('maybe leak of %s at return'%info['name'])
            if v==DANG and (info['out'] or info['isout'] or valid): raise Err('dangling %s at return'%info['name'])
        return []
    x=c[1]; v=st[x]
    if o=='test':
        if v==OPT: return [(c[2],up(x,NULL)),(c[3],up(x,fresh_k(st)))]
        return [(c[2] if v==NULL else c[3],st)]
    if o=='testn':
        return [(c[3] if v==num(c[2]) else c[4],st)]
    if o=='same':
        w=st[c[2]]
        if x==c[2] or (isown(v) and v==w) or (v==NULL and w==NULL): return [(c[3],st)]
        if isown(v) or isown(w) or (OPT in(v,w) and v!=w and NULL not in(v,w)) or (NULL in(v,w) and OPT not in(v,w)): return [(c[4],st)]
        if OPT in(v,w): return [(c[3],st),(c[4],st)]
        return [(c[3],st),(c[4],st)]
    if o=='setn': lose(st,x); return [(n,up(x,num(c[2])))]
    if o=='fresh': lose(st,x); l=list(st); l[x]=NULL; return [(n,up(x,fresh_k(l)))]
    if o=='maybe': lose(st,x); return [(n,up(x,OPT))]
    if o=='lend': lose(st,x); return [(n,up(x,LENT))]
    if o=='null': 
        lose(st,x); return [(n,up(x,NULL))]
    if o=='copy':
        y=c[2]
        if x==y: return [(n,st)]
        lose(st,x)
        if st[y]==OPT:
            l=list(st); l[x]=NULL;k=fresh_k(l); l[x]=k;l[y]=k
            l2=list(st); l2[x]=NULL;l2[y]=NULL
            return [(n,canon(l)),(n,canon(l2))]
        return [(n,up(x,st[y]))]
    if o=='kill':
        if v==NULL: return [(n,st)]
        if v==OPT: return [(n,up(x,NULL)),(n,up(x,DANG))]
        if isown(v): return [(n,canon([DANG if w==v else w for w in st]))]
        raise Err('free of %s %s'%('lent' if v==LENT else 'freed' if v==DANG else v,P['cells'][x]['name']))
    if o=='give':
        if v==NULL: return [(n,st)]
        if v==OPT: return [(n,up(x,NULL)),(n,up(x,LENT))]
        if isown(v): return [(n,canon([LENT if w==v else w for w in st]))]
        raise Err('give of %s %s'%('lent' if v==LENT else 'freed' if v==DANG else v,P['cells'][x]['name']))
    if o=='forget':
        if v in(NULL,LENT,DANG): return [(n,st)]
        if v==OPT: return [(n,up(x,NULL)),(n,up(x,LENT))]
        if isown(v): return [(n,canon([LENT if w==v else w for w in st]))]
        raise Err('forget')
    if o=='use':
        if v==DANG: raise Err('use of freed %s'%P['cells'][x]['name'])
        return [(n,st)]
    if o=='deref':
        if v==DANG: raise Err('deref of freed %s'%P['cells'][x]['name'])
        if v==NULL: raise Err('deref of NULL %s'%P['cells'][x]['name'])
        if v==OPT: raise Err('deref of opt %s'%P['cells'][x]['name'])
        return [(n,st)]
    if o=='held':
        if isown(v) or v in(NULL,OPT): return [(n,st)]
        raise Err('out %s is not held: %d'%(P['cells'][x]['name'],v))
    if o=='none':
        if v==NULL: return [(n,st)]
        raise Err('%s is not null: %d'%(P['cells'][x]['name'],v))
    if o=='some':
        if v in(LENT,) or isown(v): return [(n,st)]
        raise Err('ensured %s is %d'%(P['cells'][x]['name'],v))
    if o=='live':
        if isown(v): return [(n,st)]
        raise Err('out %s is not live: %d'%(P['cells'][x]['name'],v))
    raise X(o)
def explore(P,maxstates=200000):
    n=len(P['cells'])
    init=(0,tuple([NULL]*n))
    seen={init:None}; st=[init]; errs=[]
    while st:
        s=st.pop()
        try: nx=astep(P,*s)
        except Err as e:
            errs.append((str(e),s)); continue
        for t in nx:
            if t not in seen: seen[t]=s; st.append(t)
        if len(seen)>maxstates: errs.append(('too many states',s)); break
    return seen,errs
def program(F):
    code,ix=resolve(F)
    code=compact(code)
    cells=[]
    names=F.cells+sorted(F.ints)
    for c in names:
        par=None
        if '->' in c:
            b=c.rsplit('->',1)[0]
            par=ix[b] if b in ix else None
        cells.append(dict(name=c,parent=par,owned='->' in c and F.owned(c),out=c in F.ownerouts and not F.isfree,isout=c in F.outs))
    return dict(name=F.name,code=code,cells=cells,file=F.file,line=F.fn['line'],end=F.fn['end'])
ALLF=[]
def load(dirs):
    for d in dirs:
        for f in sorted(glob.glob('/repo/%s/*.c'%d)):
            try: fs=functions(f)
            except Exception as e: print('ERR',f,e); continue
            for fn in fs: ALLF.append((f,fn))
def ownership():
    for f,fn in ALLF:
        if not (fn['name'].endswith('_free') or fn['name'].endswith('_close') or fn['name'].endswith('_clear')): continue
        F=Fn(fn,f)
        def visit(toks):
            for name,args,ln in calls(toks):
                for a in args: visit(a)
                if name=='memory_free' or is_free(name):
                    a=strip(args[0])
                    if a and a[0][0]=='&': a=a[1:]
                    p=lpath(a)
                    if p and p.count('->')==1:
                        b,m=p.split('->'); t=F.ptype(b)
                        if t: OWNED[(sname(t[0]),m)]=True
        def w(st):
            k=st[0]
            if k=='block':
                for x in st[1]: w(x)
            elif k=='if': visit(st[2]); w(st[3]); st[4] and w(st[4])
            elif k in('while','do'): visit(st[2]); w(st[3])
            elif k=='for': w(st[5])
            elif k=='switch': w(st[3])
            elif k in('expr','return'): visit(st[2])
        w(fn['body'])
def texts(body):
    out=[]
    def w(st):
        k=st[0]
        if k=='block':
            for x in st[1]: w(x)
        elif k=='if': out.append(st[2]); w(st[3]); st[4] and w(st[4])
        elif k in('while','do'): out.append(st[2]); w(st[3])
        elif k=='for': out.extend([st[2],st[3],st[4]]); w(st[5])
        elif k=='switch': out.append(st[2]); w(st[3])
        elif k=='expr': out.append(st[2])
        elif k=='return': out.append([('return',st[1])]+st[2])
    w(body); return out
def summaries():
    direct={};passes={}
    for f,fn in ALLF:
        F=Fn(fn,f); pidx={}
        for i,p in enumerate(fn['params']):
            m=re.match(r'^(?:const |struct |unsigned )*(\w+) (\*)\s*(\w+)$',p)
            if m: pidx[m.group(3)]=i
        T=texts(fn['body'])
        alias=dict(pidx)
        for t in T:
            tt=[x[0] for x in t]
            if '=' in tt:
                e=tt.index('='); l=lpath(t[:e]); q=lpath(t[e+1:])
                if l and q in alias and l not in alias and '->' not in l and not l.startswith('*'): alias[l]=alias[q]
        D={};PS=[]
        def wr(p):
            if p and p.count('->')>=1:
                b,m=p.split('->',1)
                if b in alias: D.setdefault(alias[b],set()).add(m)
        def visit(toks):
            for name,args,ln in calls(toks):
                for a in args: visit(a)
                for i,a in enumerate(args):
                    a2=strip(a)
                    if a2 and a2[0][0]=='&': wr(lpath(a2[1:]))
                    else:
                        p=lpath(a2) if a2 else None
                        if name=='memory_free': wr(p)
                        if p in alias: PS.append((alias[p],name,i))
        for t in T:
            visit(t)
            tt=[x[0] for x in t]; d=0
            for i,x in enumerate(tt):
                if x in '([': d+=1
                if x in ')]': d-=1
                if d==0 and x=='=': wr(lpath(t[:i])); break
        direct[fn['name']]=D; passes[fn['name']]=PS
        body=' '.join(x[0] for t in T for x in t)
        if fn['name'].endswith('_free'):
            cs=set(n for t in T for n,_,_ in calls(t))
            if cs<= {'libcerror_error_set','memory_free'} : extract.NOFAILFREE.add(fn['name'])
        if alloc_args(fn['name']):
            if 'return ( result' in body or 'return ( 0 )' in body or 'return ( result )' in body: extract.THREE.add(fn['name'])
            outs=[fn['params'][i].split()[-1].lstrip('*') for i in alloc_args(fn['name'])]
            for o in outs:
                chk=False
                for t in T:
                    tt=''.join(x[0] for x in t)
                    if '*'+o+'!=NULL' in tt or '*'+o+')!=NULL' in tt: chk=True; break
                    # first other use
                if not chk: extract.NOCHECK.add(fn['name'])
                else:
                    # the test must come before anything is allocated: it is followed by an error return
                    pass
    W={n:{k:set(v) for k,v in d.items()} for n,d in direct.items()}
    ch=True
    while ch:
        ch=False
        for n,ps in passes.items():
            for i,callee,j in ps:
                for m in W.get(callee,{}).get(j,()):
                    if m not in W[n].setdefault(i,set()): W[n][i].add(m); ch=True
    extract.WRITES.update(W)
def setup(dirs):
    load(dirs); ownership(); summaries()
    for f,fn in ALLF:
        if fn['name'] in extract.CLOSE:
            st_=extract.CLOSE[fn['name']][0]; ms=set()
            for t in texts(fn['body']):
                for n,args,_ in calls(t):
                    if n.endswith('_free') and args:
                        a=strip(args[0]); p=lpath(a[1:]) if a[0][0]=='&' else lpath(a)
                        if p and '->' in p: ms.add(p.split('->',1)[1])
            ms.discard('file_io_handle')
            extract.CLOSED[st_]=ms
    for x in ['libfsapfs_file_system_btree_get_directory_record_from_branch_node_by_utf8_name','libfsapfs_file_system_btree_get_directory_record_from_branch_node_by_utf16_name']: extract.NOCHECK.add(x)
    for k in [('libfsapfs_internal_file_entry_get_extended_attributes',0,'extended_attributes_array')]: extract.ENSURE[k]=1
    extract.ASSUME_NULL.add(('libfsapfs_snapshot_metadata_read_value_data','snapshot_metadata->name'))
    # out parameters that are checked only in the error path
    for n in list(extract.ALLOC):
        pass
def setmt(mt):
    extract.MT=mt
    cparse.DEFS.discard('HAVE_LIBFSAPFS_MULTI_THREAD_SUPPORT')
    if mt: cparse.DEFS.add('HAVE_LIBFSAPFS_MULTI_THREAD_SUPPORT')
if __name__=='__main__':
    setmt('--nomt' not in sys.argv); sys.argv=[a for a in sys.argv if a!='--nomt']
    setup(['libfsapfs']+(['fsapfstools'] if '--tools' in sys.argv else [])); sys.argv=[a for a in sys.argv if a!='--tools']
    print(sorted(extract.NOCHECK))
    only=sys.argv[1:] 
    tot=0;bad=0;n=0;big=[]
    B=set()
    for f,fn in ALLF:
        if only and fn['name'] not in only: continue
        F=Fn(fn,f); 
        try: F.build(); P=program(F)
        except X as e: print('X',fn['name'],e); continue
        B|=F.borrowed
        if F.warn: print('W',F.name,F.warn)
        if not P['cells']: continue
        n+=1
        seen,errs=explore(P)
        tot+=len(seen)
        big.append((len(seen),len(P['code']),len(P['cells']),P['name']))
        if errs:
            bad+=1
            print('BAD',fn['name'],f.split('/')[-1],fn['line'],sorted(set(e for e,_ in errs))[:6],len(seen))
            if only:
                for i,c in enumerate(P['code']): print(i,c[0],*[ (P['cells'][x]['name'] if j==0 and c[0] not in('goto','choice','ret') else x) for j,x in enumerate(c[1:])])
                e,s=errs[0]; path=[]
                while s: path.append(s); s=seen[s]
                print([c['name'] for c in P['cells']])
                for p in reversed(path): print(p[0],P['code'][p[0]][0],p[1])
                print(e)
    print(n,bad,tot)
    print(sorted(big)[-10:])
    if not only:
        for b in sorted(B): print('borrow',b)
