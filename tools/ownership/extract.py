import sys; sys.path.insert(0,__import__('os').path.dirname(__import__('os').path.abspath(__file__)))
from cparse import *
# ---------- struct member types
STRUCT={}   # struct type -> {member: (type, is_ptr)}
def load_structs(dirs):
    for d in dirs:
        for f in glob.glob('/repo/%s/*.h'%d):
            t=preprocess(open(f).read())
            for m in re.finditer(r'struct\s+(\w+)\s*\{([^{}]*)\}',t):
                mem={}
                for l in m.group(2).split(';'):
                    mm=re.match(r'^\s*((?:const |unsigned |struct )*\w+)\s*(\*+)?\s*(\w+)\s*$',l.strip(),re.S)
                    if mm: mem[mm.group(3)]=(mm.group(1),len(mm.group(2) or ''))
                STRUCT[m.group(1)]=mem
def sname(t):
    t=t.strip()
    return t[:-2] if t.endswith('_t') else t
OWNED={}  # (struct, member)
# ---------- classification of calls
ALLOC_EXTRA={} # name-> list of (argindex)
def alloc_args(name,nargs=0):
    if name in ALLOC: return ALLOC[name]
    if name.endswith('_initialize') : return [0]
    return None
ALLOC={
 'libfsapfs_data_stream_initialize_from_data':[0],
 'libfsapfs_data_stream_initialize_from_file_extents':[0],
 'libfsapfs_data_stream_initialize_from_compressed_data_stream':[0],
 'libfsapfs_attributes_get_data_stream':[6],
 'libfsapfs_directory_record_clone':[0],
 'libfsapfs_file_system_btree_get_inode_by_identifier':[4],
 'libfsapfs_file_system_btree_get_inode_by_utf8_path':[6,7],
 'libfsapfs_file_system_btree_get_inode_by_utf16_path':[6,7],
 'libfsapfs_file_system_btree_get_directory_record_from_branch_node_by_utf8_name':[8],
 'libfsapfs_file_system_btree_get_directory_record_from_branch_node_by_utf16_name':[8],
 'libfsapfs_file_system_btree_get_directory_record_from_leaf_node_by_utf8_name':[6],
 'libfsapfs_file_system_btree_get_directory_record_from_leaf_node_by_utf16_name':[6],
 'libfsapfs_file_system_btree_get_directory_record_by_utf8_name':[6],
 'libfsapfs_file_system_btree_get_directory_record_by_utf16_name':[6],
 'libfsapfs_file_system_get_file_entry_by_identifier':[4],
 'libfsapfs_file_system_get_file_entry_by_utf8_path':[5],
 'libfsapfs_file_system_get_file_entry_by_utf16_path':[5],
 'libfsapfs_object_map_btree_get_descriptor_by_object_identifier':[4],
 'libfsapfs_snapshot_metadata_tree_get_metadata_by_object_identifier':[3],
 'libfsapfs_container_get_volume_by_index':[2],
 'libfsapfs_volume_get_snapshot_by_index':[2],
 'libfsapfs_volume_get_root_directory':[1],
 'libfsapfs_volume_get_file_entry_by_identifier':[2],
 'libfsapfs_volume_get_file_entry_by_utf8_path':[3],
 'libfsapfs_volume_get_file_entry_by_utf16_path':[3],
 'libfsapfs_file_entry_get_parent_file_entry':[1],
 'libfsapfs_file_entry_get_sub_file_entry_by_index':[2],
 'libfsapfs_file_entry_get_sub_file_entry_by_utf8_name':[3],
 'libfsapfs_file_entry_get_sub_file_entry_by_utf16_name':[3],
 'libfsapfs_internal_file_entry_get_sub_file_entry_by_utf8_name':[3],
 'libfsapfs_internal_file_entry_get_sub_file_entry_by_utf16_name':[3],
 'libfsapfs_file_entry_get_extended_attribute_by_index':[2],
 'libfsapfs_file_entry_get_extended_attribute_by_utf8_name':[3],
 'libfsapfs_file_entry_get_extended_attribute_by_utf16_name':[3],
}
ALLOC.update({
 'path_string_copy_from_file_entry_path':[0],
 'path_string_copy_to_file_entry_path':[3],
 'mount_path_string_copy_from_file_entry_path':[0],
 'mount_path_string_copy_to_file_entry_path':[2],
 'bodyfile_path_string_copy_from_file_entry_path':[0],
 'info_handle_get_volume_by_index':[2],
 'mount_handle_get_volume_by_index':[3],
 'mount_handle_get_file_entry_by_path':[2],
 'mount_file_entry_get_parent_file_entry':[1],
 'mount_file_entry_get_sub_file_entry_by_index':[2],
 'mount_file_system_get_file_entry_by_path':[3],
 'mount_file_system_get_filename_from_file_entry':[2],
})
NOCHECK=set()  # alloc functions that overwrite their target
# moves: name -> list of arg index that are handed over on success
MOVE={
 'libcdata_array_append_entry':[2],
 'libfdata_vector_set_element_value_by_index':[4],
 'libfcache_cache_set_value_by_identifier':[4],
 'libfsapfs_file_entry_initialize':[5,6],
 'libfsapfs_file_system_initialize':[3],
 'mount_file_entry_initialize':[4],
 'mount_file_system_set_volume':[1],
}
def moves(name,args):
    if name in('libfdata_stream_initialize','libfdata_vector_initialize','libfdata_list_initialize'):
        t=''.join(x[0] for a in args for x in a)
        if 'FLAG_MANAGED' in t: return [2 if 'vector' in name else 1]
        return []
    return MOVE.get(name,[])
def is_free(name): return name.endswith('_free') and name!='memory_free'
VOIDCALLS={'libcerror_error_set','memory_set','memory_copy','libcnotify_printf','libcerror_error_free'}
ALLOCATORS=('memory_allocate','memory_allocate_structure','memory_allocate_structure_as_value','system_string_allocate','narrow_string_allocate','wide_string_allocate')
class X(Exception): pass
class Fn:
    def __init__(s,fn,file):
        s.fn=fn; s.file=file; s.name=fn['name']
        s.code=[]; s.cells=[]; s.lab={}; s.nl=0; s.brk=[];s.cont=[]
        s.types={}; s.outs=set(); s.params=set(); s.warn=[]
        s.ownerouts=set(); s.mayouts=set()
        s.isfree=s.name.endswith('_free')
        for i,p in enumerate(fn['params']):
            m=re.match(r'^(?:const |struct |unsigned )*(\w+) (\*+)\s*(\w+)$',p)
            if m:
                if m.group(3)=='error': continue
                s.types[m.group(3)]=(m.group(1),len(m.group(2)))
                if len(m.group(2))==1: s.params.add(m.group(3))
                elif len(m.group(2))==2:
                    s.outs.add('*'+m.group(3)); s.types['*'+m.group(3)]=(m.group(1),1)
                    aa=alloc_args(s.name)
                    if aa and i in aa: s.ownerouts.add('*'+m.group(3))
                    if (s.name,i) in MAY: s.mayouts.add('*'+m.group(3))
        s.taken={fn['params'][i].split()[-1].lstrip('*') for i in MOVE.get(s.name,[])}
        s.locals={}
        if s.name in('main','wmain','mount_fuse_destroy'): s.locals.update(GLOBALS); s.types.update({k:v[:2] for k,v in GLOBALS.items()})
        s.scan(fn['body'])
    # ---- discovery
    def decl(s,toks):
        t=[x[0] for x in toks]
        i=0
        while i<len(t) and t[i] in('const','static','struct','unsigned','register'): i+=1
        if i+1<len(t) and re.match(r'^[A-Za-z_]\w*$',t[i]):
            j=i+1
            while j<len(t) and t[j]=='*': j+=1
            if j<len(t) and re.match(r'^[A-Za-z_]\w*$',t[j]) and (j+1==len(t) or t[j+1] in('=','[',',')):
                if t[i] in('return','goto','else'): return None
                return (t[i],j-i-1,t[j],j+1)
        return None
    def ptype(s,path):
        """(type, stars) of a path"""
        if path in s.types: return s.types[path]
        if path.startswith('*'):
            b=s.ptype(path[1:])
            if '->' not in path and b: return (b[0],b[1]-1)
        if '->' in path:
            b,m=path.rsplit('->',1)
            bt=s.ptype(b)
            if bt and sname(bt[0]) in STRUCT: return STRUCT[sname(bt[0])].get(m)
        return None
    def scan(s,st):
        k=st[0]
        if k=='block':
            for x in st[1]: s.scan(x)
        elif k=='if': s.scan(st[3]); st[4] and s.scan(st[4])
        elif k in('while','do'): s.scan(st[3])
        elif k=='for': s.scan(st[5])
        elif k=='switch': s.scan(st[3])
        elif k=='expr':
            d=s.decl(st[2])
            if d:
                s.types[d[2]]=(d[0],d[1]); s.locals[d[2]]=(d[0],d[1],'static' in [x[0] for x in st[2][:2]])
    def interesting(s):
        """cells"""
        cells=set()
        def visit(toks):
            for name,args,ln in calls(toks):
                for a in args: visit(a)
                aa=alloc_args(name) or []
                mv=moves(name,args)
                for i,a in enumerate(args):
                    a2=strip(a)
                    if a2 and a2[0][0]=='&':
                        p=lpath(a2[1:])
                        if p and s.isptr(p) : cells.add(p)
                    elif a2:
                        p=lpath(a2)
                        if p and s.ptype(p) and s.ptype(p)[1]==2 and p!='error': cells.add('*'+p)
                        if name=='memory_free' and p and s.isptr(p): cells.add(p)
                        if i in mv and p and s.isptr(p): cells.add(p)
        asg=[]
        def ex(toks):
            visit(toks)
            t=[x[0] for x in toks]
            d=s.decl(toks)
            if d:
                if d[3]<len(t) and t[d[3]]=='=': asg.append((d[2],toks[d[3]+1:]))
                return
            dd=0
            for i,x in enumerate(t):
                if x in '([': dd+=1
                if x in ')]': dd-=1
                if x=='=' and dd==0:
                    p=lpath(toks[:i])
                    if p: asg.append((p,toks[i+1:]))
                    break
        def w(st):
            k=st[0]
            if k=='block':
                for x in st[1]: w(x)
            elif k=='if': visit(st[2]); w(st[3]); st[4] and w(st[4])
            elif k in('while','do'): visit(st[2]); w(st[3])
            elif k=='for': ex(st[2]);visit(st[3]);visit(st[4]); w(st[5])
            elif k=='switch': visit(st[2]); w(st[3])
            elif k=='expr': ex(st[2])
            elif k=='return': visit(st[2])
        w(s.fn['body'])
        s.asg=asg
        for p,r in asg:
            cs=calls(r)
            if cs and cs[0][0] in ALLOCATORS and s.isptr(p):
                cells.add(p)
                if cs[0][0]=='memory_allocate_structure':
                    T_=sname(cs[0][1][0][0][0])
                    for (st_,m) in sorted(OWNED):
                        if st_==T_: cells.add(p+'->'+m)
        # closure: copies
        ch=True
        while ch:
            ch=False
            for p,r in asg:
                q=lpath(r)
                if q and s.isptr(p) and s.isptr(q) and q!='NULL':
                    for a,b in((p,q),(q,p)):
                        if a in cells and b not in cells: cells.add(b); ch=True
            for c in list(cells):
                if '->' in c:
                    b=c.rsplit('->',1)[0]
                    if b not in cells: cells.add(b); ch=True
        if s.isfree:
            p0='*'+s.fn['params'][0].split()[-1].lstrip('*')
            if p0 in s.outs: cells.add(p0)
            for b in list(cells)+[o for o in s.outs if o in cells]:
                if '->' in b: continue
                t=s.ptype(b)
                if not t or t[1]!=1: continue
                if any(b2!=b and s.ptype(b2) and (p2,q2)==(b2,b) for p2,r2 in asg for b2 in [p2] for q2 in [lpath(r2)]): continue
                if b=='*'+s.fn['params'][0].split()[-1].lstrip('*') or any(p2==b for p2,_ in asg):
                    for (st_,m) in sorted(OWNED):
                        if st_==sname(t[0]): cells.add(b+'->'+m)
                    if sname(t[0]) in CLOSED: cells.add(b+'->file_io_handle')
        cells|=EXTRA_CELLS.get(s.name,set())
        if s.name in CLOSE:
            b=[v for v,t in s.types.items() if sname(t[0])==CLOSE[s.name][0] and t[1]==1]
            if s.name=='libfsapfs_container_close': cells.add(HELD)
            if b: cells.add(b[0])
            for m in CLOSED.get(CLOSE[s.name][0],()): cells.add(b[0]+'->'+m)
        cells|=s.taken
        cnt={}
        for t_ in s.conds():
            tt=[x[0] for x in t_]
            for i in range(len(tt)-4):
                if tt[i+1]=='->' and tt[i+3] in('==','!=') and tt[i+4]=='NULL':
                    p=tt[i]+'->'+tt[i+2]
                    if s.isptr(p) and s.owned(p): cnt[p]=cnt.get(p,0)+1
        for p,n in cnt.items():
            if n>=2 and p.split('->')[0] in set(s.types): cells.add(p); cells.add(p.split('->')[0])
        cnt={}
        def nt(toks):
            t=[x[0] for x in toks]
            for i in range(len(t)-2):
                if t[i] in s.params and t[i+1] in('==','!=') and t[i+2]=='NULL' and (i==0 or t[i-1]!='->'): cnt[t[i]]=cnt.get(t[i],0)+1
        def w2(st):
            k=st[0]
            if k=='block':
                for x in st[1]: w2(x)
            elif k=='if': nt(st[2]); w2(st[3]); st[4] and w2(st[4])
            elif k in('while','do'): nt(st[2]); w2(st[3])
            elif k=='for': w2(st[5])
            elif k=='switch': w2(st[3])
        w2(s.fn['body'])
        for p,n in cnt.items():
            if n>=2: cells.add(p)
        # drop static and multi-level
        cells={c for c in cells if not (c in s.locals and (s.locals[c][2] or s.locals[c][1]!=1))}
        cells={c for c in cells if c not in('error','*error')}
        if 'error' in s.locals and s.locals['error'][1]==1: cells.add('error')
        return cells
    def conds(s):
        out=[]
        def w2(st):
            k=st[0]
            if k=='block':
                for x in st[1]: w2(x)
            elif k=='if': out.append(st[2]); w2(st[3]); st[4] and w2(st[4])
            elif k in('while','do'): out.append(st[2]); w2(st[3])
            elif k=='for': w2(st[5])
            elif k=='switch': w2(st[3])
        w2(s.fn['body']); return out
    def isptr(s,p):
        t=s.ptype(p)
        return bool(t) and t[1]==1
    # ---- code emission
    def emit(s,*ins):
        s.code.append(list(ins))
    def label(s): s.nl+=1; return 'L%d'%s.nl
    def place(s,l): s.lab[l]=len(s.code)
    def kids(s,c): return [d for d in s.cells if d.startswith(c+'->')]
    def owned(s,c):
        if s.name.startswith('mount_handle_') and c.endswith('->file_io_handle'): return s.name in('mount_handle_open','mount_handle_close')
        if c.endswith('file_system->fsapfs_volume'): return s.name=='mount_file_system_set_volume'
        if c.endswith('->file_io_handle'): return s.name in('libfsapfs_container_close','libfsapfs_container_open','libfsapfs_container_open_wide') and c==HELD
        b,m=c.rsplit('->',1); t=s.ptype(b)
        return bool(t) and (sname(t[0]),m) in OWNED
    def ownedchain(s,root,c):
        while c!=root:
            if not s.owned(c): return False
            c=c.rsplit('->',1)[0]
        return True
    def rebase(s,c):
        for k in reversed(s.kids(c)):
            if s.owned(k): s.emit('move?',k)
            s.emit('null',k)
    def restores(s,k):
        return k.count('->')==1 and s.owned(k) and not s.name.endswith(('_free','_close','_initialize')) and (s.name,k.split('->')[1]) not in LEAVE and s.name not in OPENS and s.name not in RELEASES
    def unknownkids(s,c,empty=()):
        for k in s.kids(c):
            if any(k==e or k.startswith(e+'->') for e in empty): continue
            if (s.name,k) in ASSUME_NULL: continue
            if any(n==s.name and s.fn['params'][i].split()[-1].lstrip('*')+'->'+m==k for (n,i,m) in ENSURE): continue
            if s.owned(k): s.emit('maybe',k)
            else: s.emit('lend',k)
    def deref(s,p,ln):
        """evaluate access to members: all proper bases that are cells"""
        pass
    def uses(s,toks):
        """emit deref for each cell followed by ->, in order"""
        i=0
        done=set()
        t=[x[0] for x in toks]
        for i in range(len(t)-1):
            if t[i+1]=='->' and re.match(r'^[A-Za-z_]\w*$',t[i]) and (i==0 or t[i-1]!='->'):
                if t[i] in s.cells and t[i] not in done: s.emit('deref',t[i]); done.add(t[i])
            if t[i+1]=='[' and t[i] in s.cells and (i==0 or t[i-1]!='->') and t[i] not in done: s.emit('deref',t[i]); done.add(t[i])
            if t[i]=='*' and i+3<len(t) and t[i-1:i]==['('] and t[i+2]==')' and t[i+3]=='->' and '*'+t[i+1] in s.cells and '*'+t[i+1] not in done:
                s.emit('deref','*'+t[i+1]); done.add('*'+t[i+1])
    def call(s,name,args,ln):
        outs=s.call1(name,args,ln)
        if 'error' in s.cells and any(''.join(x[0] for x in strip(a))=='&error' for a in args) and not is_free(name) or 'error' in s.cells and is_free(name) and any(''.join(x[0] for x in strip(a))=='&error' for a in args[1:]):
            if name in('libcerror_error_set','libcerror_system_set_error'): outs=[(v,e+[['seterror','error']]) for v,e in outs]
            else: outs=[(v,e+[['seterror','error']] if v in(-1,None) else e) for v,e in outs]
        return outs
    def call1(s,name,args,ln):
        outs=s.call0(name,args,ln)
        for (n,i,m) in ENSURE:
            if n==name:
                p=lpath(args[i])
                if p and p+'->'+m in s.cells: s.emit('none',p+'->'+m)
        if name in CLOSE and s.isfree:
            st_,lock=CLOSE[name]
            e=[]
            base=[c for c in s.cells if '->' not in c and s.ptype(c) and sname(s.ptype(c)[0])==st_][0]
            for k in s.kids(base):
                m=k[len(base)+2:]
                if m in CLOSED[st_]: e.append(['kill',k]); e.append(['null',k])
                if m=='file_io_handle' and lock: e.append(['null',k])
            return [(0,e),(-1,e)]+([(-1,[])] if lock and MT else [])
        if name=='libfsapfs_container_open_file_io_handle' and HELD in s.cells:
            return [(1,[['mustnull',HELD],['copy',HELD,'file_io_handle']]),(-1,[])]
        if name in('memory_free','memory_set','memory_copy') or is_free(name) and False: return outs
        W=WRITES.get(name,{})
        res=[]
        for v,e in outs:
            e2=[]
            for i,a in enumerate(args):
                if i not in W: continue
                p=lpath(a)
                if p is None or p not in s.cells: continue
                for k in s.kids(p):
                    m=k[len(p)+2:]
                    if m in W[i]:
                        for kk in reversed(s.kids(k)):
                            if s.owned(kk): e2.append(['move?',kk])
                            e2.append(['null',kk])
                        if s.owned(k):
                            e2.append(['move?',k]); e2.append(['null',k])
                            if (name,i,m) in ENSURE:
                                if v==1: e2.append(['fresh',k])
                            else: e2.append(['maybe',k])
                        else: e2.append(['lend',k])
                        for kk in s.kids(k): e2.append(['maybe' if s.owned(kk) else 'lend',kk])
            res.append((v,e2+e))
        return res
    def call0(s,name,args,ln):
        if name=='mount_file_system_set_volume' and lpath(args[1])=='NULL' and s.name=='mount_handle_close':
            s.uses(args[0])
            return [(1,[['maybe','fsapfs_volume']]),(-1,[])]
        if name=='fuse_destroy':
            return [(1,[['kill','fsapfsmount_mount_handle'],['null','fsapfsmount_mount_handle']])]
        return s.call2(name,args,ln)
    def call2(s,name,args,ln):
        """emit pre effects, return list of outcomes (ret, [effects]) ; effects are instruction lists"""
        # nested calls first
        for a in args:
            for n2,a2,l2 in calls(a):
                s.callstmt(n2,a2,l2)
        flat=[t for a in args for t in a+[(',',ln)]]
        s.uses(flat)
        aa=alloc_args(name)
        mv=moves(name,args)
        val=[];ref=[]
        for i,a in enumerate(args):
            a2=strip(a)
            if a2 and a2[0][0]=='&':
                p=lpath(a2[1:]); ref.append(p if p in s.cells else None); val.append(None)
            else:
                p=lpath(a2) if a2 else None
                if p and s.ptype(p) and s.ptype(p)[1]==2 and '*'+p in s.cells: ref.append('*'+p); val.append(None)
                else:
                    ref.append(None); val.append(p if p in s.cells else None)
        for v in val:
            if v and name!='memory_free' : s.emit('use',v)
        if name in('memory_free',):
            c=val[0]
            if c is None: return [(1,[])]
            s.emit('kill',c)
            for k in s.kids(c): s.emit('null',k)
            return [(1,[])]
        if is_free(name):
            c=ref[0]
            if c is None:
                return [(1,[]),(-1,[])]
            e=[['kill',c]]
            for k in s.kids(c):
                if s.ownedchain(c,k): e.append(['kill',k])
            for k in s.kids(c): e.append(['null',k])
            e.append(['null',c])
            for x in e: s.emit(*x)
            if name in NOFAILFREE: return [(1,[])]
            return [(1,[]),(-1,[])]
        if name in('libcerror_error_set','libcerror_error_free','libcnotify_printf','libfsapfs_debug_print_data'): return [(1,[])]
        if aa:
            out=[]; cells=[ref[i] for i in aa if i<len(ref)]
            cells=[c for c in cells if c]
            eff=[]
            for c in cells:
                eff.append(['mustnull' if name not in NOCHECK else 'none',c])
                if (name,ref.index(c)) in MAY: eff.append(['maybe',c])
                else: eff.append(['fresh',c])
                for k in s.kids(c): eff.append(['maybe' if s.owned(k) else 'lend',k])
            for i in mv:
                if i<len(val) and val[i]: eff.append(['move',val[i]])
            out.append((1,eff))
            if name in THREE: out.append((0,[]))
            out.append((-1,[]))
            return out
        if mv:
            eff=[['move',val[i]] for i in mv if i<len(val) and val[i]]
            return [(1,eff),(-1,[])]
        if name in PURE1:
            return [(1,[]),(-1,[])]
        if name=='memory_set' or name=='memory_copy':
            eff=[]
            c=val[0] if val else None
            if name=='memory_set' and c:
                for k in s.kids(c): eff.append(['null',k])
            if name=='memory_copy' and c:
                for k in s.kids(c): eff.append(['lend',k])
            return [(1,eff)]
        # borrowing
        eff=[]
        for i,c in enumerate(ref):
            if c and s.isptr(c) and c!='error':
                s.borrowed.add((name,i))
                for k in reversed(s.kids(c)):
                    if s.owned(k): eff.append(['move?',k])
                    eff.append(['null',k])
                eff.append(['lend',c])
                for k in s.kids(c): eff.append(['maybe' if s.owned(k) else 'lend',k])
        if name not in STRICT and any(x[0]=='lend' for x in eff): return [(1,eff),(0,eff),(-1,eff),(0,[]),(-1,[])]
        return [(1,eff),(0,[]),(-1,[])]
    def callstmt(s,name,args,ln):
        outs=s.call(name,args,ln)
        s.dispatch([(e,None) for _,e in outs],None)
    def dispatch(s,alts,end):
        """alts: list of (effects, label or None=fallthrough end)"""
        # merge alternatives without effects & same label
        seen=[];u=[]
        for e,l in alts:
            if (e,l) in seen: continue
            seen.append((e,l)); u.append((e,l))
        alts=u
        done=s.label()
        for i,(e,l) in enumerate(alts):
            nxt=None
            if i<len(alts)-1:
                nxt=s.label(); me=s.label()
                s.emit('choice',me,nxt); s.place(me)
            sk=None
            for x in e: s.emit(*x)
            s.emit('goto',l or done)
            if nxt: s.place(nxt)
        s.place(done)
    # conditions
    def split(s,toks,ops):
        out=[[]];d=0
        for t in toks:
            if t[0] in '([{': d+=1
            if t[0] in ')]}': d-=1
            if d==0 and t[0] in ops: out.append([]); continue
            out[-1].append(t)
        return out
    def cond(s,toks,T,F):
        toks=strip(toks)
        ps=s.split(toks,('||',))
        if len(ps)>1:
            for p in ps[:-1]:
                n=s.label(); s.cond(p,T,n); s.place(n)
            s.cond(ps[-1],T,F); return
        ps=s.split(toks,('&&',))
        if len(ps)>1:
            for p in ps[:-1]:
                n=s.label(); s.cond(p,n,F); s.place(n)
            s.cond(ps[-1],T,F); return
        if toks and toks[0][0]=='!': s.cond(toks[1:],F,T); return
        # comparison
        d=0;op=None
        for i,t in enumerate(toks):
            if t[0] in '([{': d+=1
            if t[0] in ')]}': d-=1
            if d==0 and t[0] in('==','!=','<','>','<=','>='): op=i; break
        if op is not None:
            o=toks[op][0]; l=toks[:op]; r=toks[op+1:]
            rt=''.join(x[0] for x in strip(r))
            lp=lpath(l)
            if rt=='NULL' and o in('==','!='):
                a,b=(T,F) if o=='==' else (F,T)
                # assignment inside? call?
                cs=calls(l)
                if lp in s.cells:
                    s.uses(l); s.emit('test',lp,a,b); return
                if lp and '*'+lp in s.outs and '*'+lp in s.cells:
                    n=s.label(); s.emit('choice',n,b); s.place(n); s.emit('test','*'+lp,a,'HALT'); return
            rp=lpath(r)
            if lp in s.cells and rp in s.cells and o in('==','!='):
                a,b=(T,F) if o=='==' else (F,T)
                s.uses(l); s.uses(r); s.emit('same',lp,rp,a,b); return
            num=None
            mm=re.match(r'^\(?(-?\d+)\)?$',rt)
            if mm: num=int(mm.group(1))
            if num is not None and lp in s.ints:
                vals=[]
                for v in s.intvals(lp):
                    res=s.cmp(v,o,num)
                    vals.append((v,res))
                for v,res in vals:
                    n=s.label(); s.emit('testn',lp,s.enc(v),T if res else F,n); s.place(n)
                s.emit('choice',T,F); return
            cs=calls(l)
            sl=strip(l)
            if num is not None and len(cs)==1 and sl and sl[0][0]==cs[0][0] and sl[-1][0]==')':
                outs=s.call(*cs[0])
                alts=[]
                for v,e in outs:
                    if v is None: alts.append((e,T)); alts.append((e,F))
                    else:
                        alts.append((e,T if s.cmp(v,o,num) else F))
                s.dispatch(alts,None); return
            if rt=='NULL' and len(cs)==1 and cs[0][0] in('memory_set','memory_copy'):
                outs=s.call(*cs[0])
                s.dispatch([(outs[0][1],F if o=='==' else T)],None); return
        # generic
        for c in calls(toks): s.callstmt(*c)
        s.uses(toks)
        s.emit('choice',T,F)
    def cmpb(s,x): return x
    def cmp(s,v,o,n): return {'==':v==n,'!=':v!=n,'<':v<n,'>':v>n,'<=':v<=n,'>=':v>=n}[o]
    def enc(s,v): return v+1   # -1->0, 0->1, 1->2 ...
    def intvals(s,p): return [0,1] if '->' in p else [-1,0,1]
    # statements
    def stmt(s,st):
        k=st[0]
        if k=='block':
            for x in st[1]: s.stmt(x)
        elif k=='if':
            T=s.label();F=s.label();E=s.label()
            s.cond(st[2],T,F); s.place(T); s.stmt(st[3]); 
            if st[4]: s.emit('goto',E)
            s.place(F)
            if st[4]: s.stmt(st[4])
            s.place(E)
        elif k=='while':
            B=s.label();T=s.label();E=s.label()
            s.place(B); s.cond(st[2],T,E); s.place(T)
            s.brk.append(E); s.cont.append(B); s.stmt(st[3]); s.brk.pop(); s.cont.pop()
            s.emit('goto',B); s.place(E)
        elif k=='do':
            B=s.label();C=s.label();E=s.label()
            s.place(B); s.brk.append(E); s.cont.append(C); s.stmt(st[3]); s.brk.pop(); s.cont.pop()
            s.place(C); s.cond(st[2],B,E); s.place(E)
        elif k=='for':
            B=s.label();T=s.label();E=s.label();C=s.label()
            s.expr(st[2],st[1]); s.place(B)
            if st[3]: s.cond(st[3],T,E)
            s.place(T)
            s.brk.append(E); s.cont.append(C); s.stmt(st[5]); s.brk.pop(); s.cont.pop()
            s.place(C); s.expr(st[4],st[1]); s.emit('goto',B); s.place(E)
        elif k=='switch':
            E=s.label(); s.uses(st[2])
            cases=[]
            body=st[3][1]
            labs={}
            hasdef=False
            for i,x in enumerate(body):
                if x[0] in('case','default'): labs[i]=s.label(); hasdef|=x[0]=='default'
            L=list(labs.values())+([] if hasdef else [E])
            for l in L[:-1]:
                n=s.label(); s.emit('choice',l,n); s.place(n)
            s.emit('goto',L[-1])
            s.brk.append(E)
            for i,x in enumerate(body):
                if i in labs: s.place(labs[i])
                else: s.stmt(x)
            s.brk.pop(); s.place(E)
        elif k=='break': s.emit('goto',s.brk[-1])
        elif k=='continue': s.emit('goto',s.cont[-1])
        elif k=='goto': s.emit('goto','@'+st[2])
        elif k=='label': s.place('@'+st[2])
        elif k=='return': s.ret(st[2])
        elif k=='expr': s.expr(st[2],st[1])
    def retok(s,ok):
        if ok and not s.isfree:
            for c in sorted(s.ownerouts):
                if c in s.cells: s.emit('held' if c in s.mayouts else 'live',c)
        for (n,i,m) in ENSURE:
            if n==s.name:
                p=s.fn['params'][i].split()[-1].lstrip('*')
                c=p+'->'+m
                if c in s.cells: s.emit('live' if ok else 'none',c)
        if not ok:
            for r,ks in sorted(s.restore.items()):
                a=s.label();b=s.label(); s.emit('testn',r+'->'+EMPTY,1,a,b); s.place(a)
                for k in ks: s.emit('none',k)
                s.place(b)
            for c in sorted(s.taken): s.emit('held',c); s.emit('move?',c)
            for c in sorted(s.outs if s.name in STRICT else s.ownerouts):
                if c in s.cells and not s.isfree and s.name in NOCHECK: s.emit('none',c)
                elif c in s.cells and not s.isfree:
                    a=s.label();b=s.label(); s.emit('testn',c+ENTRY,1,a,b); s.place(a); s.emit('none',c); s.place(b)
        s.emit('ret',1 if ok else 0)
    def ret(s,toks):
        toks=strip(toks)
        t=''.join(x[0] for x in toks)
        if t=='STATUS_SUCCESS': t='0'
        cs=calls(toks)
        if s.name in RELEASES and t=='0': s.emit('none',RELEASES[s.name])
        if s.name in OPENS and t!='0':
            c=OPENS[s.name]; a=s.label();b=s.label(); s.emit('testn',c+ENTRY,1,a,b); s.place(a); s.emit('none',c); s.place(b)
        if 'EXIT_' in t: s.retok(t=='EXIT_SUCCESS'); return
        zero=0 if s.name.startswith(('mount_fuse_','mount_dokan_')) and 'error' in s.cells else 1
        if zero==0 and re.match(r'^-?\d+$',t): s.retok(int(t)==0); return
        if re.match(r'^-?\d+$',t): s.retok(int(t)==1); return
        if t in s.ints:
            if s.name in CLOSE:
                for c in s.cells:
                    if '->' in c and c.count('->')==1 and (c.split('->')[1] in CLOSED.get(CLOSE[s.name][0],()) or c==HELD): s.emit('none',c)
            a=s.label();b=s.label()
            s.emit('testn',t,s.enc(zero),a,b); s.place(a); s.retok(True); s.place(b); s.retok(False); return
        for c in cs: s.callstmt(*c)
        s.uses(toks)
        if s.ownerouts & set(s.cells):
            s.warn.append('return '+t)
            a=s.label();b=s.label(); s.emit('choice',a,b); s.place(a); s.retok(True); s.place(b); s.retok(False)
        else: s.emit('ret',1)
    def expr(s,toks,ln):
        if not toks: return
        t=[x[0] for x in toks]
        d=s.decl(toks)
        if d:
            if d[3]<len(t) and t[d[3]]=='=': s.assign(d[2],toks[d[3]+1:],ln,True)
            elif d[2] in s.cells: s.emit('junk',d[2]); s.warn.append('not initialised '+d[2])
            return
        dd=0
        for i,x in enumerate(t):
            if x in '([': dd+=1
            if x in ')]': dd-=1
            if dd==0 and x in('=','+=','-=','|=','&=','^=','<<=','>>=','++','--','*='):
                p=lpath(toks[:i])
                if x=='=': s.assign(p,toks[i+1:],ln,False,toks[:i]); return
                s.uses(toks)
                for c in calls(toks): s.callstmt(*c)
                return
        for c in calls(toks): s.callstmt(*c)
        if not calls(toks): s.uses(toks)
    def assign(s,p,rhs,ln,decl,lhs=None):
        rt=''.join(x[0] for x in strip(rhs))
        cs=calls(rhs)
        if p in s.ints:
            if re.match(r'^-?\d+$',rt) and int(rt) in s.intvals(p): s.emit('setn',p,s.enc(int(rt))); return
            if re.match(r'^-E[A-Z0-9]+$',rt) or rt.startswith(('MOUNT_DOKAN_ERROR_','STATUS_')): s.emit('setn',p,s.enc(-1)); return
            sr=strip(rhs)
            if len(cs)==1 and sr[0][0]==cs[0][0]:
                outs=s.call(*cs[0])
                s.dispatch([(e+([['setn',p,s.enc(v)]] if v is not None else []),None) for v,e in outs],None); return
            s.dispatch([([['setn',p,s.enc(v)]],None) for v in s.intvals(p)],None); return
        if p in s.cells:
            if lhs: s.uses(lhs)
            if rt=='NULL':
                if decl: return
                if not ('->' in p): s.rebase(p)
                else: s.rebase(p)
                s.emit('null',p); return
            q=lpath(rhs)
            if q in s.cells:
                s.uses(rhs)
                if s.kids(p): s.rebase(p)
                s.emit('copy',p,q)
                if s.kids(p):
                    # members of what is copied
                    Z=s.label();Y=s.label()
                    s.emit('test',p,Z,Y); s.place(Y)
                    t=s.ptype(p)
                    st_=sname(t[0]) if t else ''
                    if st_ in CLOSED and s.isfree:
                        A=s.label();B=s.label()
                        s.emit('choice',A,B); s.place(A)
                        for k in s.kids(p):
                            m=k[len(p)+2:]
                            if m in CLOSED[st_] or m=='file_io_handle': continue
                            s.emit('maybe' if s.owned(k) else 'lend',k)
                        s.emit('goto',Z); s.place(B)
                    if s.name=='libfsapfs_container_close':
                        A=s.label();B=s.label();C=s.label()
                        for k in s.kids(p):
                            if k!=HELD and s.owned(k): s.emit('maybe',k)
                        s.emit('choice',A,B); s.place(A); s.emit('setn',CREATED,s.enc(1)); s.emit('maybe',HELD); s.emit('goto',Z)
                        s.place(B); s.emit('setn',CREATED,s.enc(0)); s.emit('param',HELD); s.place(Z); return
                    for k in s.kids(p):
                        k2=q+k[len(p):]
                        if (s.name,k) in ASSUME_NULL: continue
                        if k2 in s.cells: s.emit('copy',k,k2)
                        else: s.emit('maybe' if s.owned(k) else 'lend',k)
                    s.place(Z)
                return
            if cs and cs[0][0] in ALLOCATORS:
                s.rebase(p)
                s.dispatch([([['fresh',p]]+[['junk',k] for k in s.kids(p)],None),([['null',p]],None)],None); return
            for c in cs: s.callstmt(*c)
            s.uses(rhs)
            s.rebase(p)
            s.emit('lend',p)
            return
        for c in cs: s.callstmt(*c)
        if lhs: s.uses(lhs)
        s.uses(rhs)
    def build(s):
        cells=s.interesting()
        s.ints=set(v for v,(t,st_,_) in s.locals.items() if v=='result' and st_==0)
        if s.name=='libfsapfs_container_close': s.ints.add(CREATED)
        if 'error' in cells:
            for p,r in s.asg:
                if p in s.locals and s.locals[p][1]==0 and any(''.join(x[0] for x in strip(a))=='&error' for c in calls(r) for a in c[1]): s.ints.add(p)
        s.cells=sorted(cells)
        s.borrowed=set(); s.restore={}
        # prelude
        if s.name=='mount_fuse_destroy': s.emit('maybe','fsapfsmount_mount_handle')
        for c in s.cells:
            if c in s.outs:
                if s.isfree: s.emit('maybe',c)
                elif s.name in NOCHECK and c in s.ownerouts: pass
                else:
                    if c in s.ownerouts or s.name in STRICT:
                        s.ints.add(c+ENTRY); a=s.label();b=s.label();e=s.label()
                        s.emit('choice',a,b); s.place(a); s.emit('lend',c); s.emit('setn',c+ENTRY,2); s.emit('goto',e); s.place(b); s.emit('setn',c+ENTRY,1); s.place(e)
                    else: s.emit('param',c)
            elif c in s.taken: s.emit('maybe',c)
            elif c in s.params: s.emit('param',c)
        for r in s.cells:
            if '->' not in r and (r in s.params or r in s.outs) and s.kids(r):
                a=s.label();b=s.label()
                s.emit('test',r,a,b); s.place(b)
                ks=[k for k in s.kids(r) if s.restores(k)]
                if ks:
                    s.restore[r]=ks; f=r+'->'+EMPTY; s.ints.add(f); n=s.label(); y=s.label(); z=s.label()
                    s.emit('choice',y,n); s.place(y); s.emit('setn',f,1)
                    s.unknownkids(r,set(ks)); s.emit('goto',a); s.place(n); s.emit('setn',f,2)
                s.unknownkids(r)
                s.place(a)
        if s.name in OPENS:
            c=OPENS[s.name]; s.ints.add(c+ENTRY); a=s.label();b=s.label();e=s.label();z=s.label()
            s.emit('test',c.split('->')[0],z,e); s.place(e); s.emit('test',c,a,b); s.place(b); s.emit('setn',c+ENTRY,2); e=s.label(); s.emit('goto',e); s.place(a); s.emit('setn',c+ENTRY,1); s.place(e); s.place(z)
        s.stmt(s.fn['body'])
        s.emit('ret',1)
        s.resolve()
        return s
    def resolve(s):
        # expand pseudo instrs, then thread labels
        pass
MAY={('libfsapfs_directory_record_clone',0),('libfsapfs_attributes_get_data_stream',6),
 ('libfsapfs_file_system_btree_get_inode_by_utf8_path',7),('libfsapfs_file_system_btree_get_inode_by_utf16_path',7)}
MT=True
# callbacks: what is left in the file information after a failure to open is lost, and after closing
OPENS={'mount_fuse_open':'file_info->fh','mount_fuse_opendir':'file_info->fh','mount_dokan_CreateFile':'file_info->Context','mount_dokan_OpenDirectory':'file_info->Context','mount_dokan_ZwCreateFile':'file_info->Context'}
RELEASES={'mount_handle_close':'mount_handle->file_io_handle','mount_fuse_release':'file_info->fh','mount_fuse_releasedir':'file_info->fh','mount_dokan_CloseFile':'file_info->Context'}
GLOBALS={'fsapfsinfo_info_handle':('info_handle_t',1,False),'fsapfsmount_mount_handle':('mount_handle_t',1,False)}
ENTRY=' at the start'
EMPTY='members at the start'
# functions that leave members that they filled when they fail: refuted separately
LEAVE={('libfsapfs_internal_volume_open_read','snapshots'),('libfsapfs_internal_snapshot_open_read','volume_superblock')}
# functions that leave the places for what they find alone if they do not find it: checked
STRICT={'libfsapfs_file_system_btree_get_entry_by_identifier','mount_file_system_get_volume'}
CLOSE={'libfsapfs_container_close':('libfsapfs_internal_container',True),'libfsapfs_internal_volume_close':('libfsapfs_internal_volume',False),'libfsapfs_internal_snapshot_close':('libfsapfs_internal_snapshot',False)}
CLOSED={}  # struct -> members released by close
CREATED='internal_container->file_io_handle_created_in_library'
HELD='internal_container->file_io_handle'
THREE=set()
EXTRA_CELLS={'mount_fuse_releasedir':{'file_info','file_info->fh'},'mount_fuse_release':{'file_info','file_info->fh'},'mount_dokan_CloseFile':{'file_info','file_info->Context'},'mount_fuse_destroy':{'fsapfsmount_mount_handle'},'mount_handle_close':{'mount_handle','mount_handle->file_io_handle'},'mount_file_system_set_volume':{'file_system','file_system->fsapfs_volume'},'libfsapfs_container_open':{HELD,'internal_container'},'libfsapfs_container_open_wide':{HELD,'internal_container'}}
NOFAILFREE=set()
WRITES={}
ENSURE={}
ASSUME_NULL={('mount_handle_open','mount_handle->file_io_handle'),('mount_file_system_set_volume','file_system->fsapfs_volume')}
FLAGS={}
PURE1=set()
