from lk import *
import json
OUT=__import__('os').path.dirname(__import__('os').path.abspath(__file__))+'/../../lean'
def simplify(code,st):
    code=dict(enumerate(code))
    def tgt(i):
        return i[1] if i[0]=='choice' else [i[2]] if i[0] in('r','w') else [i[2],i[3]] if i[0]=='grab' else [i[2]] if i[0]=='release' else []
    def mapt(i,f):
        if i[0]=='choice':
            l=[]
            for x in i[1]:
                y=f(x)
                if y not in l: l.append(y)
            return ('choice',tuple(l))
        if i[0] in('r','w'): return (i[0],i[1],f(i[2]))
        if i[0]=='grab': return ('grab',i[1],f(i[2]),f(i[3]))
        if i[0]=='release': return ('release',i[1],f(i[2]))
        return i
    lines={k:(i[3] if i[0] in('r','w','release') else i[4] if i[0]=='grab' else None) for k,i in code.items()}
    code={k:mapt(i,lambda x:x) for k,i in code.items()}
    while True:
        # flatten choices
        ch=False
        rep={}
        def res(x,seen=()):
            if x in seen: return x
            i=code[x]
            if i[0]=='choice' and len(i[1])==1 and i[1][0]!=x: return res(i[1][0],seen+(x,))
            return x
        new={k:mapt(i,res) for k,i in code.items()}
        # merge nested choices into one when they are choices
        def flat(i):
            if i[0]!='choice': return i
            out=[];seen=set()
            def go(x):
                j=new[x]
                if j[0]=='choice':
                    if x in seen: return
                    seen.add(x)
                    for y in j[1]: go(y)
                elif x not in out: out.append(x)
            for y in i[1]: go(y)
            return ('choice',tuple(sorted(out)))
        new={k:flat(i) for k,i in new.items()}
        st2=res(st)
        # reachable
        R=set();todo=[st2]
        while todo:
            x=todo.pop()
            if x in R: continue
            R.add(x); todo+=tgt(new[x] if new[x][0]!='choice' else ('choice',list(new[x][1])))
        # merge equal
        ids={}; m={}
        for k in sorted(R):
            key=new[k]
            if key in ids: m[k]=ids[key]
            else: ids[key]=k; m[k]=k
        new={k:mapt(new[k],lambda x:m.get(x,x)) for k in R if m[k]==k}
        st2=m[st2]
        if new==code and st2==st: break
        code=new; st=st2
    order=[];todo=[st]
    while todo:
        x=todo.pop(0)
        if x in order: continue
        order.append(x); todo+=list(tgt(code[x]))
    num={k:i for i,k in enumerate(order)}
    return [mapt(code[k],lambda x:num[x]) for k in order],[lines[k] for k in order]
def graphs(kind):
    fns,path=load(kind)
    out=[]
    ex=externs(kind)
    for n,fn in fns.items():
        h,p=handleparam(fn,kind)
        if n not in ex or not h or re.search('_(initialize|free)$',n): continue
        g=G(kind,fns); R=g.new(('ret',)); st=g.build(fn,{h},R)
        out.append((n,fn,simplify(g.code,st)))
    return out
def camel(k): 
    a=k.split('_'); return a[0]+''.join(x.capitalize() for x in a[1:])
def short(n,kind): return re.sub(r'^libfsapfs_','',n)
A=[]
KINDS={k:graphs(k) for k in FILES}
def places(kind):
    pl=[]
    for n,fn,(c,l) in KINDS[kind]:
        for i in c:
            if i[0] in('r','w') and i[1] not in pl: pl.append(i[1])
    return sorted(pl,key=lambda x:(x.lstrip('*'),x))
def written(kind,names=None):
    pl=places(kind); w=set()
    for n,fn,(c,l) in KINDS[kind]:
        if names is None or n in names: w|={i[1] for i in c if i[0]=='w'}
    return [pl.index(x) for x in pl if x in w]
INTRO={'container':'a container','volume':'a volume','file_entry':'a file entry','extended_attribute':'an extended attribute','snapshot':'a snapshot'}
if __name__=='__main__':
    A.append('''import Verif.Model.Access
/-!
# What the functions of libfsapfs.h read and change of a handle

Made from libfsapfs_container.c, libfsapfs_volume.c, libfsapfs_file_entry.c,
libfsapfs_extended_attribute.c and libfsapfs_snapshot.c by tools/ownership/emit77.py.  Functions that are
called for the same handle are part of the graph.  A place is a member of the structure of the handle,
`*m` is what the member m points to; what that points to in turn, and the file IO handle, which
libbfio guards itself, are left out.  `&( handle->m )` as an argument is read and changed; an argument
`handle->m` of a call is read, and what it points to is read or, for the calls in the table CHANGES of
tools/ownership/lk.py, changed: streams that are read or sought, trees and file systems, the caches of
which change, and arrays and buffers that are filled.  `_initialize` and `_free` are left out: no other
thread has the handle then.  The numbers in comments are lines.
-/
namespace Verif.Access
''')
    for kind in FILES:
        pl=places(kind); fs=KINDS[kind]
        N=camel(kind)
        ns=N[0].upper()+N[1:]
        A.append('namespace %s\n'%ns)
        A.append('/-- the places of %s (struct libfsapfs_internal_%s in libfsapfs_%s.h) -/\ndef names : List String :=\n  [%s]\n'%(INTRO[kind],kind,kind,',\n   '.join(', '.join('"%s"'%x for x in pl[i:i+4]) for i in range(0,len(pl),4))))
        for n,fn,(c,l) in fs:
            A.append('/-- `%s`, libfsapfs_%s.c:%d-%d -/'%(n,kind,fn['line'],fn['end']))
            rows=[]
            for i,ln in zip(c,l):
                if i[0]=='choice': rows.append(('.choice [%s]'%', '.join(map(str,i[1])),''))
                elif i[0]=='r': rows.append(('.read %d %d'%(pl.index(i[1]),i[2]),'%s %d'%(i[1],ln)))
                elif i[0]=='w': rows.append(('.write %d %d'%(pl.index(i[1]),i[2]),'%s %d'%(i[1],ln)))
                elif i[0]=='grab': rows.append(('.grab %s %d %d'%(str(i[1]).lower(),i[2],i[3]),'%d'%ln))
                elif i[0]=='release': rows.append(('.release %d'%i[2],'%d'%ln))
                else: rows.append(('.ret',''))
            A.append('def %s : Graph := ['%short(n,kind))
            for k,(a,b) in enumerate(rows):
                A.append('  /- %d -/ %s%s'%(k,a,',' if k<len(rows)-1 else ']')+('  -- '+b if b else ''))
            A.append('')
        A.append('/-- the functions of %s -/\ndef api : List (String × Graph) :=\n  [%s]\n'%(INTRO[kind],',\n   '.join('("%s", %s)'%(n,short(n,kind)) for n,_,_ in fs)))
        A.append('end %s\n'%ns)
    A.append('end Verif.Access')
    open(OUT+'/Verif/Model/AccessOf.lean','w').write('\n'.join(A)+'\n')
    for k in FILES: print(k,len(KINDS[k]),max(len(c) for _,_,(c,l) in KINDS[k]),len(places(k)),written(k))
