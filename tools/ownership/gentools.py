import sys; sys.path.insert(0,__import__('os').path.dirname(__import__('os').path.abspath(__file__)))
from gen import *
import run,extract,cparse,pickle
def toolset(dokan):
    cparse.DOKAN=dokan or '0'
    if dokan: cparse.DEFS.discard('HAVE_LIBFUSE'); cparse.DEFS.add('HAVE_LIBDOKAN')
    else: cparse.DEFS.add('HAVE_LIBFUSE'); cparse.DEFS.discard('HAVE_LIBDOKAN')
    setmt(True); run.ALLF.clear()
    for n in ('WRITES','OWNED','CLOSED','ENSURE'): getattr(extract,n).clear()
    setup(['libfsapfs','fsapfstools'])
    extract.STRUCT['fuse_file_info']={'fh':('mount_file_entry_t',1)}
    extract.STRUCT['DOKAN_FILE_INFO']={'Context':('mount_file_entry_t',1)}
    for x in [('fuse_file_info','fh'),('mount_handle','file_io_handle'),('mount_file_system','fsapfs_volume'),('DOKAN_FILE_INFO','Context')]: extract.OWNED[x]=True
    out=[]
    for f,fn in run.ALLF:
        if '/fsapfstools/' not in f: continue
        F=Fn(fn,f); F.build(); P=program(F)
        if not P['cells'] or all(c['name']=='result' for c in P['cells']): continue
        b=os.path.basename(f)[:-2]
        P['key']=b+'_main' if fn['name']=='main' else fn['name']
        out.append(P)
    return out
if __name__=='__main__':
    A=toolset(None)
    have={P['key']:P for P in A}
    extra=[]
    for v in('700','1000'):
        for P in toolset(v):
            Q=have.get(P['key'])
            if Q:
                if Q['code']==P['code'] and Q['cells']==P['cells']: continue
                P['key']+='_dokan'
                if P['key'] in have:
                    assert have[P['key']]['code']==P['code'],P['key']
                    continue
            have[P['key']]=P; extra.append(P)
    A+=extra
    for P in A:
        s,e=explore(P)
        if e: print(P['key'],{k:(len(v[0]),v[1]) for k,v in witnesses(P).items()},sorted(set(x for x,_ in e)))
    pickle.dump(A,open(__import__('os').path.dirname(__import__('os').path.abspath(__file__))+'/tools.pkl','wb')); print(len(A),[P['key'] for P in extra], sum(len(explore(P)[0]) for P in A))
