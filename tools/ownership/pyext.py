import sys; sys.path.insert(0,__import__('os').path.dirname(__import__('os').path.abspath(__file__)))
from gen import *
import run,extract,cparse,pickle
from cparse import *
EXC='exception'; THR='threads allowed'; DISC='result that is not kept'; GIL='gil_state'
# functions of Python that return a new reference, or NULL with an exception
NEW={'PyUnicode_FromString','PyString_FromString','PyBytes_FromString','PyBytes_FromStringAndSize','PyString_FromStringAndSize',
 'PyLong_FromLong','PyInt_FromLong','PyLong_FromUnsignedLong','PyLong_FromLongLong','PyLong_FromUnsignedLongLong','PyLong_FromSize_t',
 'PyTuple_New','PyObject_New','PyObject_CallMethodObjArgs','PyUnicode_AsUTF8String','PyUnicode_AsWideCharString','PyObject_Repr',
 'PyDateTime_FromDateAndTime','PyUnicode_DecodeUTF8','PyUnicode_DecodeUTF16','PyUnicode_FromWideChar','PyModule_Create','Py_InitModule3','get_item_by_index'}
# arguments that these look at without asking if they are NULL
NONNULL={'PyUnicode_AsUTF8String':[0],'PyBytes_AsString':[0],'PyString_AsString':[0],'PyObject_IsInstance':[0],'PyBytes_AsStringAndSize':[0],
 'PyString_AsStringAndSize':[0],'PyTuple_SetItem':[0],'PyObject_HasAttr':[0,1],'PyObject_HasAttrString':[0],'PyModule_AddObject':[0],
 'Py_TYPE':[0],'PyUnicode_AsUnicode':[0]}
BORROW={'PyBytes_AsString','PyString_AsString','PyUnicode_AsUnicode'}  # borrowed memory, or NULL with an exception
NUMBERS={'PyLong_AsLongLong','PyLong_AsLong','PyLong_AsUnsignedLongLong','PyLong_AsUnsignedLong','PyInt_AsLong','PyInt_AsUnsignedLongMask','PyInt_AsUnsignedLongLongMask'}
RAISE={'PyErr_Format','PyErr_SetNone','pyfsapfs_error_raise','pyfsapfs_error_fetch_and_raise'}
NOGIL={'Py_BEGIN_ALLOW_THREADS','Py_END_ALLOW_THREADS','PyGILState_Ensure','PyGILState_Release'}
NEEDNAME={'libfsapfs_container_open':1,'libfsapfs_container_open_wide':1,'libfsapfs_check_container_signature':0,'libfsapfs_check_container_signature_wide':0}
RET={}    # name -> return type of the functions of pyfsapfs
KEEP='members at the start'
def isapi(n): return (n.startswith(('Py','_Py')) or n.startswith('pyfsapfs_') and not n.startswith('pyfsapfs_file_object_io_handle_') or n=='pyfsapfs_file_object_io_handle_initialize') and n not in NOGIL
def newref(n): return n in NEW or RET.get(n)=='PyObject *'
def hasgil(name): return not name.startswith('pyfsapfs_file_object_io_handle_') or name=='pyfsapfs_file_object_io_handle_initialize'
class PyFn(Fn):
    def __init__(s,fn,file):
        super().__init__(fn,file)
        s.kind='error' if any(p.endswith('**error') for p in fn['params']) else {'PyObject *':'object','void':'void'}.get(fn['ret'].replace('PyMODINIT_FUNC','PyObject *'),'int')
        if s.name.startswith('pyfsapfs_error_'): s.kind={'pyfsapfs_error_fetch':'error'}.get(s.name,'raise')
        s.dealloc=s.kind=='void' and s.isfree
        if s.dealloc: s.isfree=False
        
        for n in('Py_None','Py_True','Py_False'): s.locals[n]=('PyObject',1,False); s.types[n]=('PyObject',1)
        for c in(EXC,THR,DISC,GIL): s.types[c]=('int',1)
    def interesting(s):
        cells=super().interesting()
        def visit(toks):
            for name,args,ln in calls(toks):
                for a in args: visit(a)
                paths=[lpath(strip(a)) for a in args]
                if name in('Py_DecRef','Py_IncRef','PyMem_Free','tp_free') or name.startswith('PyTuple_SetItem') :
                    for p in paths:
                        if p and s.isptr(p): cells.add(p)
                if name in NONNULL or name in BORROW:
                    for i in NONNULL.get(name,[]):
                        if paths[i] and s.isptr(paths[i]): cells.add(paths[i])
                if name in('Py_BEGIN_ALLOW_THREADS','Py_END_ALLOW_THREADS'): cells.add(THR)
                if name=='PyGILState_Ensure': cells.add(GIL)
        for t in run.texts(s.fn['body']): visit(t)
        for p,r in s.asg:
            cs=calls(r)
            if cs and (newref(cs[0][0]) or cs[0][0] in BORROW or cs[0][0]=='PyMem_Malloc') and p and s.isptr(p):
                cells.add(p)
                if cs[0][0] in('PyObject_New','PyMem_Malloc'):
                    t=s.ptype(p)
                    for (st_,m) in sorted(extract.OWNED):
                        if st_==sname(t[0]): cells.add(p+'->'+m)
        if s.dealloc:
            p=s.fn['params'][0].split()[-1].lstrip('*'); cells.add(p)
            for (st_,m) in sorted(extract.OWNED):
                if st_==sname(s.ptype(p)[0]): cells.add(p+'->'+m)
        rets=[lpath(strip(t[1:])) for t in run.texts(s.fn['body']) if t[0][0]=='return' and len(t)>1]
        if s.kind=='object':
            for p in rets:
                if p and p!='NULL' and s.isptr(p): cells.add(p)
        tt=[x[0] for t in run.texts(s.fn['body']) for x in t]
        for i in range(len(tt)-1):
            if tt[i] in s.params and (tt[i+1]=='->' or tt[i+1:i+3]==[')','->'] and tt[i-1]==')'): cells.add(tt[i])
        if s.name in NEWMEM or s.name.endswith('_new'):
            for p,r in s.asg:
                cs=calls(r)
                if cs and cs[0][0] in('PyObject_New','PyMem_Malloc'): s.newcell=p
        # members that a method makes or releases
        for c in list(cells):
            if '->' in c:
                b=c.rsplit('->',1)[0]
                if b not in cells: cells.add(b)
        ch=True
        while ch:
            ch=False
            for p,r in s.asg:
                q=lpath(r)
                if q and s.isptr(p) and s.isptr(q) and q!='NULL':
                    for a,b in((p,q),(q,p)):
                        if a in cells and b not in cells: cells.add(b); ch=True
        cells.add(EXC)
        alltext=' '.join(x[0] for t in run.texts(s.fn['body']) for x in t)
        for n in re.findall(r'(\w+) \(',alltext):
            if newref(n): cells.add(DISC)
        if not hasgil(s.name): cells.add(GIL)
        cells.discard('error') if 'error' not in s.locals else 0
        cells={c for c in cells if not (c.startswith('ob_type'))}
        return cells
    def isptr(s,p):
        if p in(EXC,THR,DISC,GIL): return True
        return super().isptr(p)
    def restores(s,k):
        return k.count('->')==1 and s.owned(k) and not s.dealloc and not s.name.endswith(('_free','_close','_init'))
    def owned(s,c):
        b,m=c.rsplit('->',1); t=s.ptype(b)
        return bool(t) and (sname(t[0]),m) in extract.OWNED
    def uses(s,toks):
        super().uses(toks)
        t=[x[0] for x in toks]; done=set()
        for i in range(1,len(t)-2):
            if t[i] in s.cells and t[i+1:i+3]==[')','->'] and t[i-1]==')' and t[i] not in done: s.emit('deref',t[i]); done.add(t[i])
    def pycheck(s,name):
        if isapi(name):
            if THR in s.cells: s.emit('none',THR)
            if not hasgil(s.name): s.emit('live',GIL)
    def call1(s,name,args,ln):
        outs=super().call1(name,args,ln)
        if name in CLOSES:
            k=lpath(strip(args[0]))+'->file_io_handle'
            outs=[(v,[x for x in e if x[-1]!=k]+([['kill',k],['null',k]] if v==2 else [['kill',k],['null',k],['maybe',k]])) for v,e in outs]
        return outs
    def call2(s,name,args,ln):
        exc=[['lend',EXC]]
        paths=[lpath(strip(a)) for a in args]
        cell=lambda i: paths[i] if i<len(paths) and paths[i] in s.cells else None
        if name=='Py_BEGIN_ALLOW_THREADS':
            s.emit('none',THR); s.emit('fresh',THR); return [(1,[])]
        if name=='Py_END_ALLOW_THREADS':
            s.emit('live',THR); s.emit('kill',THR); s.emit('null',THR); return [(1,[])]
        if name=='PyGILState_Ensure': return [(1,[])]
        if name=='PyGILState_Release':
            s.emit('live',GIL); s.emit('kill',GIL); s.emit('null',GIL); return [(1,[])]
        if name=='tp_free':
            c=cell(0); s.emit('kill',c)
            for k in s.kids(c): s.emit('null',k)
            return [(1,[])]
        if name in('PyMem_Free','PyMem_Malloc'):
            s.pycheck(name)
            if name=='PyMem_Malloc': return [(1,[])]
            return super().call2('memory_free',args,ln)
        if name in NEEDNAME:
            s.uses([t for a in args for t in a+[(',',ln)]])
            for i in range(len(args)):
                if cell(i): s.emit('use',cell(i))
            c=cell(NEEDNAME[name])
            if c:
                a=s.label(); b=s.label(); z=s.label(); r='can be opened'
                s.emit('setn',r,1); s.emit('test',c,a,b); s.place(b); s.emit('setn',r,2); s.place(a)
                # NULL is refused
                return [(1,[['mustn',r]]),(0,[['mustn',r]]),(-1,[])]
        if not (name.startswith(('Py','_Py','pyfsapfs_')) or name in NEW): return super().call2(name,args,ln)
        for a in args:
            for n2,a2,l2 in calls(a): s.callstmt(n2,a2,l2)
        s.uses([t for a in args for t in a+[(',',ln)]])
        s.pycheck(name)
        for i in NONNULL.get(name,[]):
            if cell(i): s.emit('deref',cell(i))
        for i in range(len(args)):
            if cell(i): s.emit('use',cell(i))
        if name in RAISE: return [(1,exc)]
        if name=='PyErr_Clear': return [(1,[['null',EXC]])]
        if name=='pyfsapfs_error_fetch': return [(1,[['null',EXC]])]
        if name=='PyErr_Fetch':
            e=[['null',EXC]]
            for a in args:
                p=lpath(strip(a)[1:])
                if p in s.cells: e.append(['maybe',p])
            return [(1,e)]
        if name=='Py_IncRef':
            c=cell(0)
            if c is None: return [(1,[])]
            a=s.label(); b=s.label()
            s.emit('test',c,a,b); s.place(b); s.emit('fresh',c); s.place(a)
            return [(1,[])]
        if name=='Py_DecRef':
            c=cell(0)
            if c is None: return [(1,[])]
            s.emit('kill',c)
            for k in s.kids(c):
                if s.ownedchain(c,k): s.emit('kill',k)
            for k in s.kids(c): s.emit('null',k)
            return [(1,[])]
        if name=='PyArg_ParseTupleAndKeywords':
            e=[]
            fmt=''.join(x[0] for x in args[2]).strip('"')
            req=fmt.split('|')[0]; n=0
            for i,a in enumerate(args[4:]):
                p=lpath(strip(a)[1:]) if strip(a)[0][0]=='&' else None
                if p in s.cells: e.append(['lend' if i<len(re.sub('#','',req)) else 'param',p])
            return [(1,e),(0,exc)]
        if name=='PyTuple_SetItem':
            c=cell(2)
            return [(0,[['give',c]] if c else [])]
        if name=='PyModule_AddObject':
            c=cell(2)
            return [(0,[['give',c]] if c else []),(-1,exc)]
        if name in('_PyBytes_Resize','_PyString_Resize'):
            p=lpath(strip(args[0])[1:])
            if p in s.cells: s.emit('deref',p); return [(0,[]),(-1,[['kill',p],['null',p]]+exc)]
            return [(0,[]),(-1,exc)]
        if name in('PyObject_HasAttr','PyObject_HasAttrString'): return [(1,[]),(0,[])]
        if name=='PyObject_IsInstance': return [(1,[]),(0,[]),(-1,exc)]
        if name in('PyBytes_AsStringAndSize','PyString_AsStringAndSize','PyType_Ready'):
            e=[]
            for a in args[1:2]:
                a2=strip(a); p=lpath(a2[1:]) if a2 and a2[0][0]=='&' else None
                if p in s.cells: e.append(['lend',p])
            return [(0,e),(-1,exc)]
        if name in NUMBERS: return [(None,[]),(None,exc)]
        if name in BORROW or name in('Py_TYPE','PyErr_Occurred','PyOS_vsnprintf','PyEval_InitThreads'): return [(None,[])]
        if newref(name):
            s.warn.append('discarded '+name)
            mv=[['move',cell(i)] for i in extract.MOVE.get(name,[]) if cell(i)]
            return [(2,[['fresh',DISC]]+mv),(3,exc)]
        r=RET.get(name)
        if r is None: raise X('unknown call '+name)
        if name in ERRFN or not r.startswith('int') or name.startswith('pyfsapfs_datetime') or name.startswith('pyfsapfs_file_object'):
            return super().call2(name,args,ln)
        if r=='int': return [(0,[]),(-1,exc)]
        raise X('call '+name)
    def cond(s,toks,T,F):
        toks=strip(toks)
        t=''.join(x[0] for x in toks)
        if t=='PyErr_Occurred()':
            s.pycheck('PyErr_Occurred'); s.emit('test',EXC,F,T); return
        if t in('ob_type==NULL','ob_type->tp_free==NULL'): s.emit('goto',F); return
        if not s.split(toks,('||',))[1:] and not s.split(toks,('&&',))[1:]:
            cs=calls(toks)
            m=re.match(r'^(\w+)\(.*\)([=!]=)NULL$',t,re.S)
            if m and len(cs)==1 and cs[0][0]==m.group(1) and newref(m.group(1)):
                outs=s.call(*cs[0]); a,b=(T,F) if m.group(2)=='==' else (F,T)
                s.dispatch([(e,b if v==2 else a) for v,e in outs],None); return
        super().cond(toks,T,F)
    def assign(s,p,rhs,ln,decl,lhs=None):
        cs=calls(rhs); sr=strip(rhs)
        if p==GIL and decl: return
        if cs and sr and len(cs)==1 and (sr[0][0]==cs[0][0] or cs[0][0]=='get_item_by_index'):
            n=cs[0][0]
            if p in s.cells and newref(n):
                w=len(s.warn)
                outs=s.call(*cs[0]); del s.warn[w:]
                if lhs: s.uses(lhs)
                s.rebase(p)
                al=[]
                for v,e in outs:
                    if v==2: al.append(([['fresh',p]]+[x for x in e if x!=['fresh',DISC]]+[['junk' if n=='PyObject_New' else 'maybe',k] for k in s.kids(p)],None))
                    else: al.append(([['null',p]]+e,None))
                s.dispatch(al,None); return
            if p in s.cells and n in BORROW:
                s.call(*cs[0])
                q=lpath(strip(cs[0][1][0]))
                if any(q==x and calls(r) and newref(calls(r)[0][0]) for x,r in s.asg): s.emit('lend',p); return
                s.dispatch([([['lend',p]],None),([['null',p],['lend',EXC]],None)],None); return
            if p==GIL and n=='PyGILState_Ensure':
                s.emit('none',GIL); s.emit('fresh',GIL); return
        super().assign(p,rhs,ln,decl,lhs)
    def fin(s,ok):
        if ok and s.newcell:
            for k in s.kids(s.newcell):
                if s.owned(k): s.emit('held' if k.endswith('parent_object') and not s.name.endswith('s_new') else 'live',k)
        if ok and s.name in CLOSES: s.emit('none',CLOSES[s.name])
        if s.kind in('object','int'):
            if ok: s.emit('none',EXC)
            else: s.emit('deref',EXC)
        elif s.kind=='error': s.emit('none',EXC)
        elif s.kind=='raise': s.emit('deref',EXC)
        s.retok(ok)
    def retok(s,ok):
        if not ok:
            for r,ks in sorted(s.restore.items()):
                a=s.label();b=s.label(); s.emit('testn',r+'->'+EMPTY,1,a,b); s.place(b)
                for k in ks:
                    z=s.label(); y=s.label()
                    if (r,k) in s.keepflag:
                        s.emit('testn',s.keepflag[(r,k)],2,y,z); s.place(y); s.emit('live',k); s.place(z)
                s.place(a)
        super().retok(ok)
    def ret(s,toks):
        toks=strip(toks); t=''.join(x[0] for x in toks); p=lpath(toks) if toks else None
        if not toks: s.fin(True); return
        if s.kind=='object':
            if t=='NULL': s.fin(False); return
            if p in s.cells:
                a=s.label();b=s.label(); s.emit('test',p,a,b); s.place(a); s.fin(False); s.place(b); s.emit('move',p); s.fin(True); return
            cs=calls(toks)
            if cs and newref(cs[0][0]):
                w=len(s.warn); outs=s.call(*cs[0]); del s.warn[w:]
                a=s.label();b=s.label(); s.emit('choice',a,b)
                s.place(a)
                for x in outs[0][1]:
                    if x!=['fresh',DISC]: s.emit(*x)
                s.fin(True); s.place(b)
                for x in outs[1][1]: s.emit(*x)
                s.fin(False); return
            raise X('return '+t)
        if s.kind=='int':
            if t in('-1',): s.fin(False); return
            s.uses(toks); s.fin(True); return
        if s.kind=='error':
            if t=='-1': s.fin(False); return
            if re.match(r'^\d+$',t): s.fin(True); return
            s.uses(toks); s.fin(True); return
        raise X('return? '+t)
    def build(s):
        s.keepflag={}; s.newcell=None
        cells=s.interesting()
        s.ints=set(v for v,(t,st_,_) in s.locals.items() if v in('result','read_count','write_count','print_count') and st_==0)
        if 'error' in cells:
            for p,r in s.asg:
                if p in s.locals and s.locals[p][1]==0 and any(''.join(x[0] for x in strip(a))=='&error' for c in calls(r) for a in c[1]): s.ints.add(p)
        s.cells=sorted(cells)
        if any(n in ' '.join(x[0] for t in run.texts(s.fn['body']) for x in t) for n in NEEDNAME): s.ints.add('can be opened')
        s.borrowed=set(); s.restore={}
        
        for n in('Py_None','Py_True','Py_False'):
            if n in s.cells: s.emit('lend',n)
        for c in s.cells:
            if c in s.outs:
                if s.isfree: s.emit('maybe',c)
                elif s.name in extract.NOCHECK and c in s.ownerouts: pass
                elif c in s.ownerouts:
                    s.ints.add(c+ENTRY); a=s.label();b=s.label();e=s.label()
                    s.emit('choice',a,b); s.place(a); s.emit('lend',c); s.emit('setn',c+ENTRY,2); s.emit('goto',e); s.place(b); s.emit('setn',c+ENTRY,1); s.place(e)
                else: s.emit('param',c)
            elif c in s.taken or s.dealloc and c==s.fn['params'][0].split()[-1].lstrip('*'): s.emit('maybe',c)
            elif c in s.params: s.emit('param',c)
        for r in s.cells:
            if '->' not in r and (r in s.params or r in s.outs) and s.kids(r):
                a=s.label();b=s.label()
                s.emit('test',r,a,b); s.place(b)
                ks=[k for k in s.kids(r) if s.restores(k)]
                if ks:
                    s.restore[r]=ks; f=r+'->'+EMPTY; s.ints.add(f); n=s.label(); y=s.label(); z=s.label()
                    s.emit('choice',y,n); s.place(y); s.emit('setn',f,1)
                    s.unknownkids(r,set(ks)); s.emit('goto',a); s.place(n); s.emit('setn',f,2)
                s.unknownkids(r)
                for k in ks:
                    fl=k+' is set'+ENTRY; s.keepflag[(r,k)]=fl; s.ints.add(fl); x=s.label();y=s.label(); z=s.label()
                    s.emit('test',k,x,y); s.place(y); s.emit('setn',fl,2); s.emit('goto',z); s.place(x); s.emit('setn',fl,1); s.place(z)
                s.place(a)
        s.stmt(s.fn['body'])
        s.fin(True)
        return s
ERRFN=set()
NEWMEM={'pyfsapfs_file_object_io_handle_initialize'}
CLOSES={'pyfsapfs_container_close':'pyfsapfs_container->file_io_handle'}
ENTRY=extract.ENTRY; EMPTY=extract.EMPTY
import builtins
_pre=cparse.preprocess
PYV=['3']
def pre(text,defs=cparse.DEFS):
    t=_pre(text,defs)
    t=re.sub(r'\bPy_(BEGIN|END)_ALLOW_THREADS\b',r'Py_\1_ALLOW_THREADS();',t)
    t=t.replace('PyObject_HEAD','').replace(' PYFSAPFS_ATTRIBUTE_UNUSED','')
    t=re.sub(r'\bVARARGS\(\n(\s*)(\w+),',r'\2(\n\1',t)
    t=re.sub(r'\bconst char \*,\n\s*format_string \)',lambda m:'const char *format_string )'+'\n'*m.group(0).count('\n'),t)
    return t
def pyset(v):
    cparse.DOKAN='0'; cparse.PYMAJOR=v
    setmt(True); run.ALLF.clear()
    for n in ('WRITES','OWNED','CLOSED','ENSURE'): getattr(extract,n).clear()
    cparse.preprocess=pre; extract.preprocess=pre
    extract.load_structs(['pyfsapfs'])
    RET.clear(); ERRFN.clear()
    for f in sorted(glob.glob('/repo/pyfsapfs/*.c')):
        for fn in functions(f):
            RET[fn['name']]=fn['ret']
            if any(p.endswith('**error') for p in fn['params']): ERRFN.add(fn['name'])
    for x in('container','volume','snapshot','file_entry','extended_attribute'):
        extract.MOVE['pyfsapfs_%s_new'%x]=[0]
    extract.MOVE['libbfio_handle_initialize']=[1]
    extract.ALLOC.update({'pyfsapfs_file_object_initialize':[0],'pyfsapfs_file_object_io_handle_clone':[0],'libbfio_handle_initialize':[0]})
    if 'PyMem_Malloc' not in extract.ALLOCATORS: extract.ALLOCATORS=extract.ALLOCATORS+('PyMem_Malloc',)
    setup(['libfsapfs','pyfsapfs'])
    extract.MAY.add(('pyfsapfs_file_object_io_handle_clone',0))
    for st,mem in list(extract.STRUCT.items()):
        if st.startswith('pyfsapfs_'):
            for m in('parent_object',): 
                if m in mem: extract.OWNED[(st,m)]=True
    extract.OWNED[('pyfsapfs_file_object_io_handle','file_object')]=True
    out=[]
    run.ALLF[:]=[x for x in run.ALLF if '/pyfsapfs/' in x[0]]
    for f,fn in run.ALLF:
        F=PyFn(fn,f); F.build(); P=program(F); P['key']=fn['name']; P['warn']=F.warn
        if all(c['name'] in(EXC,'result') for c in P['cells']) and False: continue
        out.append(P)
    return out
if __name__=='__main__':
    if len(sys.argv)>1 and sys.argv[1]=='2': A=pyset('2'); del sys.argv[1]
    elif len(sys.argv)>1 and sys.argv[1]=='w': cparse.DEFS.add('HAVE_WIDE_SYSTEM_CHARACTER'); A=pyset('3'); del sys.argv[1]
    else: A=pyset('3')
    only=sys.argv[1:]
    n=0
    for P in A:
        s,e=explore(P)
        if e and (not only): print(P['key'],os.path.basename(P['file']),P['line'],sorted(set(x for x,_ in e)),P['warn'])
        if P['key'] in only: show(P) if 'show' in globals() else print(P)
        n+=len(s)
    print(len(A),n)
