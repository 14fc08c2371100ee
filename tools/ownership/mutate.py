import sys; sys.path.insert(0,__import__('os').path.dirname(__import__('os').path.abspath(__file__)))
from gen import *
import run,extract,copy,json,collections
setmt(True); setup(['libfsapfs'])
safe={}
for f,fn in run.ALLF:
    F=Fn(fn,f); F.build(); P=program(F)
    if not P['cells']: continue
    if not explore(P)[1]: safe[fn['name']]=(f,fn,P)
NOT=set(n for n,(f,fn,P) in safe.items() if not any(P['code'][x[0]]==['ret',1] for x in explore(P)[0]))
print(len(safe))
def toks(t): return ' '.join(x[0] for x in t)
def sites(body):
    """paths to statements with kinds"""
    out=[]
    def w(st,path):
        k=st[0]
        if k=='block':
            for i,x in enumerate(st[1]): w(x,path+[(1,i)])
        elif k=='if':
            t=toks(st[2])
            m=re.match(r'^(\w+_free) \( ',t)
            if m: out.append(('dropfree',path,st[1],t))
            elif re.match(r'^memory_set',t): out.append(('dropset',path,st[1],t))
            w(st[3],path+[(3,)]); st[4] and w(st[4],path+[(4,)])
        elif k in('while','do'): w(st[3],path+[(3,)])
        elif k=='for': w(st[5],path+[(5,)])
        elif k=='switch': w(st[3],path+[(3,)])
        elif k=='expr':
            t=toks(st[2])
            if t.startswith('memory_free ('): out.append(('dropmfree',path,st[1],t))
            elif re.search(r'= NULL$',t): out.append(('dropnull' if not re.match(r'^\w+ [*] ',t) else 'noinit',path,st[1],t))
            elif re.match(r'^\w+_free [(] ',t): out.append(('dropefree',path,st[1],t))
            elif t.startswith('libcerror'): pass
            elif re.match(r'^[\w\*\(\)> -]+ = [\w\*\(\)> -]+$',t): out.append(('dropassign',path,st[1],t))
        elif k=='goto' and st[2]=='on_error': out.append(('return',path,st[1],'goto on_error'))
    w(body,[]); return out
def repl(st,path,new):
    if not path: return new
    p=path[0]
    l=list(st)
    if len(p)==2:
        xs=list(st[1]); xs[p[1]]=repl(xs[p[1]],path[1:],new); l[1]=xs
    else: l[p[0]]=repl(st[p[0]],path[1:],new)
    return tuple(l)
E_=('block',[])
RET=lambda ln:('return',ln,[('(',ln),('-',ln),('1',ln),(')',ln)])
res=collections.Counter(); surv=[];killed=[]
for n,(f,fn,P) in safe.items():
    for kind,path,ln,t in sites(fn['body']):
        new=RET(ln) if kind=='return' else ('expr',ln,[(x,ln) for x in t.split()[:-2]]) if kind=='noinit' else E_
        g=dict(fn); g['body']=repl(fn['body'],path,new)
        try:
            F=Fn(g,f); F.build(); Q=program(F); sn,e=explore(Q)
            if not e and not any(Q['code'][x[0]]==['ret',1] for x in sn) and n not in NOT: e=[('no success',0)]
        except Exception as ex:
            res[kind,'X']+=1; surv.append((kind,n,ln,t,'X '+str(ex)[:60])); continue
        if e: res[kind,'killed']+=1; killed.append((kind,n,f,ln,t,e[0][0]))
        else: res[kind,'same' if Q['code']==P['code'] else 'survived']+=1; surv.append((kind,n,ln,t,'same' if Q['code']==P['code'] else ''))
for k in sorted(res.items()): print(k)
json.dump(dict(surv=surv,killed=killed),open('/tmp/res.json','w'))
