import sys; sys.path.insert(0,__import__('os').path.dirname(__import__('os').path.abspath(__file__)))
from cparse import *
import collections
FILES=['container','volume','file_entry','extended_attribute','snapshot']
# arguments that a function changes what they point to of, others are read
CHANGES={('libbfio_handle_close',0)}
for n in ['libfdata_stream_read_buffer','libfdata_stream_read_buffer_at_offset','libfdata_stream_seek_offset','libfsapfs_checkpoint_map_read_file_io_handle','libfsapfs_compressed_data_header_read_data','libfsapfs_container_key_bag_read_file_io_handle','libfsapfs_volume_key_bag_read_file_io_handle','libfsapfs_encryption_context_set_keys','libfsapfs_file_system_btree_get_attributes','libfsapfs_file_system_btree_get_directory_entries','libfsapfs_file_system_btree_get_file_extents','libfsapfs_file_system_btree_get_inode_by_identifier','libfsapfs_file_system_btree_get_inode_by_utf8_path','libfsapfs_file_system_btree_get_inode_by_utf16_path','libfsapfs_file_system_get_file_entry_by_identifier','libfsapfs_file_system_get_file_entry_by_utf8_path','libfsapfs_file_system_get_file_entry_by_utf16_path','libfsapfs_io_handle_clear','libfsapfs_object_map_btree_get_descriptor_by_object_identifier','libfsapfs_snapshot_metadata_tree_get_snapshots','libuna_utf8_string_copy_from_utf16','memory_copy','memory_set','memory_free']: CHANGES.add((n,0))
CHANGES|={('libfdata_stream_read_buffer_at_offset',2),('libfsapfs_attributes_get_data_stream',4),('libfsapfs_file_system_btree_get_attributes',4),('libfsapfs_file_system_btree_get_directory_entries',4),('libfsapfs_file_system_btree_get_file_extents',4),('libfsapfs_snapshot_metadata_tree_get_snapshots',3)}
def pointers(kind):
    t=open('/repo/libfsapfs/libfsapfs_%s.h'%kind).read()
    t=t[t.index('struct libfsapfs_internal_'+kind):]; t=t[:t.index('\n};')]
    return set(re.findall(r'\*(\w+);',t))
def externs(kind):
    t=open('/repo/libfsapfs/libfsapfs_%s.h'%kind).read()
    return set(re.findall(r'LIBFSAPFS_EXTERN[\s\\]+(?:int|ssize_t|off64_t) (\w+)\(',t))
class G:
    """graph of a function with what it calls for the same handle"""
    def __init__(s,kind,fns):
        s.kind=kind; s.fns=fns; s.code=[]; s.ptr=pointers(kind)
        s.accs=[]
    def new(s,i=None): s.code.append(i); return len(s.code)-1
    # build backwards: every builder gets the label of what follows and gives the label of its start
    def build(s,fn,env,nxt_ok,depth=0):
        """inline fn; env: names of variables that are the handle; all returns go to nxt_ok"""
        assert depth<6,fn['name']
        labels={}
        ctx=dict(fn=fn,h=set(env),ret=nxt_ok,labels=labels,brk=[],cont=[],depth=depth)
        s.collect(fn['body'],ctx)
        return s.block(fn['body'],nxt_ok,ctx)
    def collect(s,st,ctx):
        k=st[0]
        if k=='block':
            for x in st[1]: s.collect(x,ctx)
        elif k=='if': s.collect(st[3],ctx); st[4] and s.collect(st[4],ctx)
        elif k in('while','do'): s.collect(st[3],ctx)
        elif k=='for': s.collect(st[5],ctx)
        elif k=='switch': s.collect(st[3],ctx)
        elif k=='label': ctx['labels'][st[2]]=s.new(('choice',[]))
        elif k=='expr':
            t=[x[0] for x in st[2]]
            if '=' in t:
                i=t.index('='); l=lpath(st[2][:i]); r=lpath(st[2][i+1:])
                if r in ctx['h'] and l and re.match(r'^\w+$',l): ctx['h'].add(l)
    def seq(s,items,nxt): # items: ('r',m,ln)/('w',m,ln)
        for it in reversed(items): nxt=s.new((it[0],it[1],nxt,it[2]))
        return nxt
    def isnew(s,ctx,name): return False
    def accesses(s,toks,ctx):
        """reads and writes of members in an expression, and calls to inline, in order"""
        out=[]
        h=ctx['h']
        cs=calls(toks)
        # find member occurrences
        def occ(ts):
            res=[]
            i=0
            while i<len(ts):
                if ts[i][0]=='->' and i>0:
                    # base
                    b=None
                    if ts[i-1][0] in h: b=ts[i-1][0]; st=i-1
                    elif ts[i-1][0]==')' :
                        d=0;j=i-1
                        while True:
                            if ts[j][0]==')': d+=1
                            if ts[j][0]=='(':
                                d-=1
                                if d==0: break
                            j-=1
                        p=lpath(ts[j+1:i-1])
                        if p in h: b=p; st=j
                    if b: res.append((st,i+1,ts[i+1][0],ts[i+1][1]))
                i+=1
            return res
        t=[x[0] for x in toks]
        eq=next((i for i,x in enumerate(t) if x in('=','+=','-=','|=','&=')),None) if not(t and t[0] in KW) else None
        # only top level
        d=0;eq=None
        for i,x in enumerate(t):
            if x in '([': d+=1
            elif x in ')]': d-=1
            elif d==0 and x in('=','+=','-=','|=','&=','++','--'): eq=i;break
        reads=[];writes=[]
        for (a,b,m,ln) in occ(toks):
            if m=='read_write_lock': continue
            amp=False
            # preceded by & ( possibly with parens )
            j=a-1
            while j>=0 and t[j]=='(' : j-=1
            if j>=0 and t[j]=='&': amp=True
            # assigned?
            k=b+1
            while k<len(t) and t[k]==')': k+=1
            if eq is not None and b<eq and k==eq:
                # direct assignment when the lvalue is exactly that member
                writes.append(('w',m,ln))
                if t[eq]!='=': reads.append(('r',m,ln))
            elif eq is not None and b<eq and b+1<len(t) and t[b+1]=='[':
                reads.append(('r',m,ln)); writes.append(('w','*'+m,ln))
            elif amp: reads.append(('r',m,ln)); writes.append(('w',m,ln))
            else:
                reads.append(('r',m,ln))
                if b+1<len(t) and t[b+1]=='->': # member of what it points to
                    k=b+3
                    while k<len(t) and t[k]==')': k+=1
                    w=eq is not None and k==eq
                    l=m+'->abort' if t[b+2]=='abort' else '*'+m
                    (writes if w else reads).append(('w' if w else 'r',l,ln))
        inl=[]
        def allcalls(cs):
            for (n,args,ln) in cs:
                for a in args:
                    yield from allcalls(calls(a))
                yield (n,args,ln)
        for (n,args,ln) in allcalls(cs):
            for i,a in enumerate(args):
                o=occ(a); q=lpath(a)
                if not o: continue
                m=o[0][2]
                if m in('read_write_lock','file_io_handle') or m not in s.ptr: continue
                if a[0][0]=='&' or strip(a)[0][0]=='&':
                    if n.endswith('_free') and '->' not in [x[0] for x in a[o[0][1]+1:]]: writes.append(('w','*'+m,ln))
                elif q and q.count('->')==1:
                    if n=='libfsapfs_io_handle_clear': writes.append(('w',m+'->abort',ln))
                    if (n,i) in CHANGES: writes.append(('w','*'+m,ln))
                    else: reads.append(('r','*'+m,ln))
            for i,a in enumerate(args):
                q=lpath(a)
                if q in h and n in s.fns:
                    inl.append((n,i,ln))
        return reads,writes,inl
    def expr(s,toks,nxt,ctx):
        t=' '.join(x[0] for x in toks)
        m=re.search(r'libcthreads_read_write_lock_(grab|release)_for_(read|write)',t)
        if m:
            if m.group(1)=='release': return s.new(('release',m.group(2)=='write',nxt,toks[0][1]))
            raise Exception('grab')
        r,w,inl=s.accesses(toks,ctx)
        a=s.seq(w,nxt)
        for (n,i,ln) in reversed(inl):
            g=s.fns[n]
            p=re.search(r'(\w+)$',g['params'][i]).group(1)
            pp=('*' if '**' in g['params'][i].replace(' ','') else '')+p
            a=s.build(g,{p},a,ctx['depth']+1)
        return s.seq(r,a)
    def block(s,st,nxt,ctx):
        k=st[0]
        if k=='block':
            for x in reversed(st[1]): nxt=s.block(x,nxt,ctx)
            return nxt
        if k=='if':
            A=s.block(st[3],nxt,ctx); B=s.block(st[4],nxt,ctx) if st[4] else nxt
            t=' '.join(x[0] for x in st[2])
            m=re.search(r'libcthreads_read_write_lock_grab_for_(read|write)',t)
            if m: return s.new(('grab',m.group(1)=='write',B,A,st[1]))
            c=s.new(('choice',[A,B]))
            return s.expr(st[2],c,ctx)
        if k in('while','do'):
            h=s.new(('choice',[])); 
            ctx2=dict(ctx); ctx2['brk']=ctx['brk']+[nxt]; ctx2['cont']=ctx['cont']+[h]
            b=s.block(st[3],h,ctx2)
            c=s.new(('choice',[b,nxt])); e=s.expr(st[2],c,ctx)
            s.code[h]=('choice',[e]); return h if k=='while' else b
        if k=='for':
            h=s.new(('choice',[])); inc=s.new(('choice',[]))
            ctx2=dict(ctx); ctx2['brk']=ctx['brk']+[nxt]; ctx2['cont']=ctx['cont']+[inc]
            b=s.block(st[5],inc,ctx2)
            s.code[inc]=('choice',[s.expr(st[4],h,ctx)])
            c=s.new(('choice',[b,nxt])); s.code[h]=('choice',[s.expr(st[3],c,ctx)])
            return s.expr(st[2],h,ctx)
        if k=='switch':
            ctx2=dict(ctx); ctx2['brk']=ctx['brk']+[nxt]
            starts=[nxt]; cur=nxt
            for x in reversed(st[3][1]):
                if x[0] in('case','default'): starts.append(cur)
                else: cur=s.block(x,cur,ctx2)
            return s.expr(st[2],s.new(('choice',starts)),ctx)
        if k=='return': return s.expr(st[2],ctx['ret'],ctx)
        if k=='goto': return ctx['labels'][st[2]]
        if k=='label':
            s.code[ctx['labels'][st[2]]]=('choice',[nxt]); return ctx['labels'][st[2]]
        if k=='break': return ctx['brk'][-1]
        if k=='continue': return ctx['cont'][-1]
        if k=='expr': return s.expr(st[2],nxt,ctx)
        raise Exception(k)
def reach(code,start):
    """(pc,mode) pairs"""
    seen={}; todo=[(start,0,None)]
    while todo:
        pc,m,pr=todo.pop(0)
        if (pc,m) in seen: continue
        seen[pc,m]=pr
        i=code[pc]
        me=(pc,m)
        if i[0]=='choice': todo+=[(x,m,me) for x in i[1]]
        elif i[0] in'rw': todo.append((i[2],m,me))
        elif i[0]=='grab': todo+=[(i[2],2 if i[1] else 1,me),(i[3],m,me)]
        elif i[0]=='release': todo.append((i[2],0,me))
    return seen
def load(kind):
    path='/repo/libfsapfs/libfsapfs_%s.c'%kind
    return {f['name']:f for f in functions(path)},path
def handleparam(fn,kind):
    for p in fn['params']:
        n=re.search(r'(\w+)$',p).group(1)
        if re.search(r'libfsapfs_(internal_)?%s_t'%kind,p): return n,p
    return None,None
if __name__=='__main__':
  for kind in FILES:
    fns,path=load(kind)
    res={}
    inner=set()
    for n,fn in fns.items():
        h,p=handleparam(fn,kind)
        if not h or '**' in p.replace(' ',''): continue
        if re.search(r'_(initialize|free)$',n): continue
        g=G(kind,fns); R=g.new(('ret',)); st=g.build(fn,{h},R)
        sn=reach(g.code,st)
        res[n]=(g,st,sn)
    pub=[n for n in res if n in externs(kind)]
    # what is written by api calls
    wr=collections.defaultdict(set)
    acc=collections.defaultdict(set)
    for n in pub:
        g,st,sn=res[n]
        for (pc,m) in sn:
            i=g.code[pc]
            if i[0]=='w': wr[i[1]].add((m,n))
            if i[0] in 'rw': acc[i[1]].add((i[0],m,n,i[3]))
    print('==',kind,len(pub),'written:',sorted(wr))
    for m in sorted(wr):
        bad=[(a,md,n,ln) for (a,md,n,ln) in acc[m] if (a=='w' and md!=2) or (a=='r' and md==0)]
        for b in sorted(bad,key=lambda x:(x[2],x[3])): print('   ',m,b)
    for n in pub:
        g,st,sn=res[n]
        for (pc,m) in sn:
            if g.code[pc][0]=='ret' and m: print('  HOLDS at return',n,m)
            if g.code[pc][0]=='grab' and m: print('  grabs while held',n)
