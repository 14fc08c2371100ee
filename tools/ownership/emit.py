import pickle,sys,re,os,collections
sys.path.insert(0,__import__('os').path.dirname(__import__('os').path.abspath(__file__)))
from gen import witnesses,explore
A=pickle.load(open(__import__('os').path.dirname(__import__('os').path.abspath(__file__))+'/mt.pkl','rb'));B=pickle.load(open(__import__('os').path.dirname(__import__('os').path.abspath(__file__))+'/st.pkl','rb'))
OUT=sys.argv[1] if len(sys.argv)>1 else __import__('os').path.dirname(__import__('os').path.abspath(__file__))+'/../../lean'
b={P['name']:P for P in B}
diff=set(P['name'] for P in A if b[P['name']]['code']!=P['code'] or b[P['name']]['cells']!=P['cells'])
def ln(n): return n.replace('libfsapfs_','',1)
def cell(k):
    if k['parent'] is not None: return ('own %d' if k['owned'] else 'part %d')%k['parent']
    if k['out']: return 'out'
    if k['isout']: return 'arg'
    return 'loc'
def wrap(items,ind='    ',width=100):
    lines=[];cur=ind
    for i,x in enumerate(items):
        t=x+(', ' if i+1<len(items) else ']⟩')
        if len(cur)+len(t.rstrip())>width: lines.append(cur.rstrip()); cur=ind
        cur+=t
    lines.append(cur.rstrip()); return '\n'.join(lines)
def ins(c):
    o=c[0]
    if o=='ret': return '.ret '+('true' if c[1]==1 else 'false')
    return '.'+' '.join(map(str,[o]+c[1:]))
def comment(P):
    f=P['file'].replace('/repo/','')
    names=', '.join('%d `%s`'%(i,k['name']) for i,k in enumerate(P['cells']))
    t='`%s` (%s:%d-%d).  Places: %s.'%(P['name'],f,P['line'],P['end'],names)
    out=[];cur='/-- '
    for w in t.split(' '):
        if len(cur)+len(w)+1>100: out.append(cur.rstrip()); cur=''
        cur+=w+' '
    out.append(cur.rstrip()+' -/'); return '\n'.join(out)
def define(P):
    return '%s\ndef %s : Fn :=\n  ⟨[%s],\n%s\n'%(comment(P),ln(P['name']),wrapc(P),'   ['+wrap([ins(c) for c in P['code']])[4:])
def wrapc(P):
    out=[];cur='';ind='    '
    cs=[cell(k) for k in P['cells']]
    lines=[];cur=''
    for i,x in enumerate(cs):
        t=x+(', ' if i+1<len(cs) else '')
        if len(cur)+len(t)+5>100: lines.append(cur.rstrip()); cur=ind
        cur+=t
    lines.append(cur); return '\n'.join(lines).rstrip()
groups=[('Blocks','low level structures',['attribute_values','attributes','bit_stream','btree_entry','btree_footer','btree_node','btree_node_header','buffer_data_handle','checkpoint_map','checkpoint_map_entry','chunk_information_block','compressed_data_handle','compressed_data_header','compression','container_data_handle','container_key_bag','container_reaper','container_superblock','data_block','data_block_data_handle','data_block_vector','data_stream','deflate','directory_record']),
 ('Records','records, keys and streams',['encryption_context','extent_reference_tree','file_extent','file_system_data_handle','fusion_middle_tree','huffman_tree','inode','io_handle','key_bag_entry','key_bag_header','key_encrypted_key','object','object_map','object_map_descriptor','password','snapshot_metadata','space_manager','support','volume_key_bag','volume_superblock']),
 ('Trees','the B-trees',['file_system','file_system_btree','object_map_btree','snapshot_metadata_tree']),
 ('FileEntry','file entries and extended attributes',['extended_attribute','file_entry']),
 ('Volume','containers, volumes and snapshots',['container','snapshot','volume'])]
def stem(P): return os.path.basename(P['file'])[len('libfsapfs_'):-2]
seen=set()
for g,t,fs in groups:
    s='import Verif.Model.Ownership\n\n/-\nWhat the functions of %s do with memory: see Ownership.lean for what the\ninstructions mean and DESIGN.md for how they were made from the source.  The build with threads\n(HAVE_LIBFSAPFS_MULTI_THREAD_SUPPORT).\n-/\n\nnamespace Verif.Owner.Lib\n\n'%t
    for f in fs:
        ps=[P for P in A if stem(P)==f]
        for P in ps: s+=define(P)+'\n'; seen.add(P['name'])
        s+='/-- The functions of libfsapfs/libfsapfs_%s.c. -/\ndef in_%s : List (String × Fn) :=\n  [%s]\n\n'%(f,f,(',\n   ').join('("%s", %s)'%(P['name'],ln(P['name'])) for P in ps))
    s+='end Verif.Owner.Lib\n'
    open(OUT+'/Verif/Model/Owner%s.lean'%g,'w').write(s)
assert seen==set(P['name'] for P in A)
# single threaded build
s='import Verif.Model.OwnerBlocks\nimport Verif.Model.OwnerRecords\nimport Verif.Model.OwnerTrees\nimport Verif.Model.OwnerFileEntry\nimport Verif.Model.OwnerVolume\n\n/-\nThe functions that are different in the build without threads (without\nHAVE_LIBFSAPFS_MULTI_THREAD_SUPPORT).\n-/\n\nnamespace Verif.Owner.Single\n\n'
dfs=[]
for g,t,fs in groups:
    for f in fs:
        ps=[P for P in B if stem(P)==f and P['name'] in diff]
        if not ps: continue
        dfs.append(f)
        for P in ps: s+=define(P)+'\n'
        al=[P for P in B if stem(P)==f]
        s+='/-- The functions of libfsapfs/libfsapfs_%s.c. -/\ndef in_%s : List (String × Fn) :=\n  [%s]\n\n'%(f,f,(',\n   ').join('("%s", %s%s)'%(P['name'],'' if P['name'] in diff else 'Lib.',ln(P['name'])) for P in al))
s+='end Verif.Owner.Single\n\nnamespace Verif.Owner\n\n'
allf=[f for g,t,fs in groups for f in fs]
def lst(fn):
    items=[fn(f) for f in allf]; lines=[];cur='  '
    for i,x in enumerate(items):
        t=x+(' ++ ' if i+1<len(items) else '')
        if len(cur)+len(t)>98: lines.append(cur.rstrip()); cur='    '
        cur+=t
    lines.append(cur); return '\n'.join(lines)
s+='/-- All functions of the library that handle memory, in the build with threads. -/\ndef library : List (String × Fn) :=\n'+lst(lambda f:'Lib.in_'+f)+'\n\n'
s+='/-- The same in the build without threads. -/\ndef librarySingle : List (String × Fn) :=\n'+lst(lambda f:('Single.in_' if f in dfs else 'Lib.in_')+f)+'\n\nend Verif.Owner\n'
open(OUT+'/Verif/Model/OwnerSingle.lean','w').write(s)
# witnesses
W=[]
for tag,L in(('Lib',A),('Single',B)):
    for P in L:
        if tag=='Single' and P['name'] not in diff: continue
        if explore(P)[1]:
            for (k,ok),(path,a) in sorted(witnesses(P).items()):
                W.append((tag,P['name'],k,ok,path,a))
pickle.dump((W,[P['name'] for P in A if explore(P)[1]],[P['name'] for P in B if explore(P)[1]],diff),open(__import__('os').path.dirname(__import__('os').path.abspath(__file__))+'/wit.pkl','wb'))
for w in W: print(w[0],w[1],w[2],w[3],''.join('01'[x] for x in w[4]),w[5])
