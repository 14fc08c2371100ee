import sys; sys.path.insert(0,__import__('os').path.dirname(__import__('os').path.abspath(__file__)))
from run import *
import run,json,os,collections
def programs(dirs,mt):
    setmt(mt); run.ALLF.clear()
    for n in ('WRITES','OWNED','CLOSED','ENSURE'): getattr(extract,n).clear()
    extract.NOCHECK.clear() if False else None
    setup(dirs)
    out=[]
    for f,fn in run.ALLF:
        F=Fn(fn,f); F.build(); P=program(F)
        if not P['cells']: continue
        out.append(P)
    return out
# concrete semantics
def cstep(P,s,b):
    pc,env,heap=s; c=P['code'][pc]; o=c[0]; n=pc+1
    def put(x,v,h): 
        e=list(env); e[x]=v; return (n,tuple(e),h)
    new=('a',len(heap))
    if o=='fresh': return put(c[1],new,heap+('live',))
    if o=='maybe': return put(c[1],new,heap+('live',)) if b else put(c[1],None,heap)
    if o=='lend': return put(c[1],new,heap+('lent',))
    if o=='null': return put(c[1],None,heap)
    if o=='copy': return put(c[1],env[c[2]],heap)
    if o in('kill','give'):
        v=env[c[1]]
        if v is None: return (n,env,heap)
        if v[0]=='a' and heap[v[1]]=='live':
            h=list(heap); h[v[1]]='freed' if o=='kill' else 'lent'; return (n,env,tuple(h))
        return 'FAULT'
    if o=='forget':
        v=env[c[1]]
        if v and v[0]=='a' and heap[v[1]]=='live':
            h=list(heap); h[v[1]]='lent'; return (n,env,tuple(h))
        return (n,env,heap)
    if o=='setn': return put(c[1],('n',c[2]),heap)
    if o=='test': return (c[2] if env[c[1]] is None else c[3],env,heap)
    if o=='testn': return (c[3] if env[c[1]]==('n',c[2]) else c[4],env,heap)
    if o=='same': return (c[3] if env[c[1]]==env[c[2]] else c[4],env,heap)
    if o=='choice': return (c[1] if b else c[2],env,heap)
    if o=='goto': return (c[1],env,heap)
    if o=='ret': return None
    return (n,env,heap)
def valid(s,q):
    v=s[1][q]; return v is not None and v[0]=='a' and s[2][v[1]] in('live','lent')
def bad(P,s):
    c=P['code'][s[0]]
    if c[0]!='ret': return None
    ok=c[1]==1
    for a,st in enumerate(s[2]):
        if st!='live': continue
        if not any(v==('a',a) and ((P['cells'][i]['out'] and ok) or (P['cells'][i]['owned'] and P['cells'][i]['parent'] is not None and valid(s,P['cells'][i]['parent']))) for i,v in enumerate(s[1])):
            return ('leak',ok,a)
    for i,v in enumerate(s[1]):
        if v and v[0]=='a' and s[2][v[1]]=='freed':
            I=P['cells'][i]
            if I['out'] or I['isout'] or (I['parent'] is not None and valid(s,I['parent'])): return ('dang',ok,i)
    return None
def witnesses(P,limit=60000):
    """shortest path to each kind of bad return"""
    s0=(0,tuple([None]*len(P['cells'])),())
    seen={s0:None}; q=collections.deque([s0]); found={}
    while q and len(seen)<limit:
        s=q.popleft()
        w=bad(P,s)
        if w and (w[0],w[1]) not in found:
            path=[];t=s
            while seen[t] is not None:
                t,b=seen[t]; path.append(b)
            found[(w[0],w[1])]=(path[::-1],w[2])
        if P['code'][s[0]][0]=='ret': continue
        for b in ((True,False) if P['code'][s[0]][0] in('choice','maybe') else (True,)):
            t=cstep(P,s,b)
            if t=='FAULT': found.setdefault(('fault',True),([],0)); continue
            if t is None or t in seen: continue
            seen[t]=(s,b); q.append(t)
    return found
def fault(P,s):
    c=P['code'][s[0]]; o=c[0]
    v=s[1][c[1]] if len(c)>1 and o in('kill','give','use','deref','live','none') else None
    st=s[2][v[1]] if v and v[0]=='a' else None
    if o in('kill','give'): return v is not None and st!='live'
    if o=='use': return st=='freed'
    if o=='deref': return st not in('live','lent')
    if o=='live': return st!='live'
    if o=='none': return v is not None
    return False
def faultpath(P,limit=200000):
    s0=(0,tuple([None]*len(P['cells'])),()); seen={s0:None}; q=collections.deque([s0])
    while q and len(seen)<limit:
        s=q.popleft()
        if fault(P,s):
            path=[];t=s
            while seen[t] is not None: t,b=seen[t]; path.append(b)
            return path[::-1]
        if P['code'][s[0]][0]=='ret': continue
        for b in ((True,False) if P['code'][s[0]][0] in('choice','maybe') else (True,)):
            t=cstep(P,s,b)
            if t is None or t=='FAULT' or t in seen: continue
            seen[t]=(s,b); q.append(t)
    return None
def leaving(mt):
    keep=set(extract.LEAVE); extract.LEAVE=set()
    try: return [P for P in programs(['libfsapfs'],mt) if P['name'] in {x for x,_ in keep}]
    finally: extract.LEAVE=keep
if __name__=='__main__':
    A=programs(['libfsapfs'],True)
    import copy
    NM={P['name']:explore(P) for P in A}
    bads=[P for P in A if NM[P['name']][1]]
    for P in bads:
        w=witnesses(P)
        print(P['name'],{k:(len(v[0]),v[1],[c['name'] for c in P['cells']][v[1]] if k[0]=='dang' else '') for k,v in w.items()},sorted(set(e for e,_ in NM[P['name']][1])))
    import pickle
    pickle.dump(A,open(__import__('os').path.dirname(__import__('os').path.abspath(__file__))+'/mt.pkl','wb'))
    print(len(A))
