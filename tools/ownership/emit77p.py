from emit77 import *
def path(c,goal):
    """choices from the start of a call to a state with goal(pc,mode); lock free"""
    seen={};todo=[(0,0,[])]
    while todo:
        pc,m,p=todo.pop(0)
        if (pc,m) in seen: continue
        seen[pc,m]=1
        if goal(pc,m): return p,m
        i=c[pc]
        if i[0]=='choice': todo+=[(x,m,p+[k]) for k,x in enumerate(i[1])]
        elif i[0] in('r','w'): todo.append((i[2],m,p+[0]))
        elif i[0]=='grab': todo+=[(i[2],2 if i[1] else 1,p+[0]),(i[3],m,p+[1])]
        elif i[0]=='release': todo.append((i[2],0,p+[0]))
    return None
def witness(kind,f1,f2,place,acc2,m1,m2):
    names=[n for n,_,_ in KINDS[kind]]
    g={n:c for n,_,(c,l) in KINDS[kind]}
    L={n:l for n,_,(c,l) in KINDS[kind]}
    c1=g[f1];c2=g[f2]
    p1,a=path(c1,lambda pc,m:c1[pc][0]=='w' and c1[pc][1]==place and m==m1)
    p2,b=path(c2,lambda pc,m:c2[pc][0]==acc2 and c2[pc][1]==place and m==m2)
    # the second first if the first holds the lock for writing
    s1=[(0,names.index(f1))]+[(0,k) for k in p1]; s2=[(1,names.index(f2))]+[(1,k) for k in p2]
    return (s1,s2)
def sch(s1,s2): return '['+', '.join('(%s, %d)'%('true' if b else 'false',k) for b,k in s1+s2)+']'
P='libfsapfs_container_'
W={
'open':witness('container',P+'open',P+'get_size','superblock','r',0,0),
'close':witness('container',P+'close',P+'get_size','superblock','r',2,0),
'index':witness('container',P+'get_volume_by_index',P+'get_volume_by_index','*object_map_btree','w',1,1),
'abort':witness('container',P+'signal_abort',P+'signal_abort','io_handle->abort','w',0,0),
'opens':witness('container',P+'open',P+'open','superblock','w',0,0),
}
for k,v in W.items(): print(k,sch(*v))
def twice(kind):
    sh=[places(kind)[x] for x in written(kind)]
    for n,fn,(c,l) in KINDS[kind]:
        r=path(c,lambda pc,m:m==1 and c[pc][0]=='r' and c[pc][1] in sh)
        if r:
            # number of touching states reachable in mode read
            k=[(pc,c[pc][1]) for (pc) in range(len(c)) if c[pc][0]=='r' and c[pc][1] in sh]
            print(kind,n,k)
for k in ['volume','file_entry','extended_attribute']: twice(k)
def shared(kind): return '['+', '.join(map(str,written(kind)))+']'
# example of atomicity: one thread accesses twice, another starts a call and fails to get the lock in between
def exam(kind,f1,place,f2):
    names=[n for n,_,_ in KINDS[kind]]
    g={n:c for n,_,(c,l) in KINDS[kind]}
    c=g[f1]
    p1,_=path(c,lambda pc,m:m==2 and c[pc][0] in 'rw' and c[pc][1]==place)
    a=[(0,names.index(f1))]+[(0,k) for k in p1]+[(0,0)]
    # continue to the next touch
    sh=[places(kind)[x] for x in written(kind)]
    pc=0
    for _,k in a[1:]:
        i=c[pc]; pc=i[1][k] if i[0]=='choice' else i[2] if i[0] in 'rw' or i[0]=='release' else (i[2] if k==0 else i[3])
    todo=[(pc,[])];seen=set()
    while True:
        q,r=todo.pop(0)
        if q in seen: continue
        seen.add(q); i=c[q]
        if i[0] in 'rw' and i[1] in sh: break
        if i[0]=='choice': todo+=[(x,r+[k]) for k,x in enumerate(i[1])]
        elif i[0] in 'rw': todo.append((i[2],r+[0]))
    c2=g[f2]
    p2,_=path(c2,lambda pc,m:c2[pc][0]=='grab')
    b=[(1,names.index(f2))]+[(1,k) for k in p2]+[(1,1)]
    return sch(a+b,[(0,k) for k in r]+[(0,0)])
def wrap(s,ind=4,w=96):
    out=[];line=' '*ind
    for t in s.split(' '):
        if len(line)+len(t)+1>w: out.append(line.rstrip()); line=' '*ind
        line+=t+' '
    out.append(line.rstrip()); return '\n'.join(out)
T='''import Verif.Model.AccessOf
import Verif.Lemmas.AccessRace

/-!
C77. Several threads that use one handle do not read what another changes at the same time, and each
call sees what the handle stores as if no other call were made meanwhile.

`NoRace`: in no execution of any number of threads, each with any calls one after the other, are two
threads about to access the same place (a member of the handle or what it points to), one of them to
change it.  `Atomic`: what calls change does not change between two accesses of another call.  Both are
about what the handle itself has; what handles of one container share is the subject of C57.

This holds for volumes, file entries, extended attributes and snapshots.  It does not for containers,
which are opened without the lock, which are queried for their superblock before the lock is taken, and
the object map of which is used with the lock for reading.
-/
namespace Verif.Props

open Verif.Access Verif.Spec.Access

/-- the functions of a volume but `libfsapfs_volume_get_snapshot_by_index`, which can keep the lock (C31) -/
def volumeCalls : List Graph :=
  (Volume.api.filter fun f => f.1 != "libfsapfs_volume_get_snapshot_by_index").map (·.2)

/-- the functions of a container that ask for what was read when it was opened -/
def containerQueries : List Graph :=
  [Container.container_is_locked, Container.container_get_size, Container.container_get_identifier,
   Container.container_get_number_of_volumes]

/-- what calls change of a volume -/
def volumePlaces : List Nat := @VP@

/-- what calls change of a file entry -/
def fileEntryPlaces : List Nat := @FP@

/-- what calls change of an extended attribute -/
def attributePlaces : List Nat := @AP@

theorem guarded_volumeCalls : guarded volumePlaces [.none] true volumeCalls = true := by decide +kernel

theorem guarded_fileEntry : guarded fileEntryPlaces [.none] true (FileEntry.api.map (·.2)) = true := by
  decide +kernel

theorem guarded_attribute :
    guarded attributePlaces [.none] true (ExtendedAttribute.api.map (·.2)) = true := by decide +kernel

theorem c77_volume : NoRace (Volume.api.map (·.2)) :=
  noRace_of_guarded (places := volumePlaces) (idle := [.none, .read]) (single := false)
    (by decide +kernel)

theorem c77_file_entry : NoRace (FileEntry.api.map (·.2)) :=
  noRace_of_guarded guarded_fileEntry

theorem c77_extended_attribute : NoRace (ExtendedAttribute.api.map (·.2)) :=
  noRace_of_guarded guarded_attribute

/-- calls change nothing of a snapshot -/
theorem c77_snapshot : NoRace (Snapshot.api.map (·.2)) ∧ Changed (Snapshot.api.map (·.2)) [] :=
  ⟨noRace_of_guarded (places := []) (idle := [.none]) (single := true) (by decide +kernel),
   changed_of_guarded (idle := [.none]) (single := true) (by decide +kernel)⟩

/-- as long as a container is open -/
theorem c77_container_partial : NoRace containerQueries ∧ Changed containerQueries [] :=
  ⟨noRace_of_guarded (places := []) (idle := [.none]) (single := true) (by decide +kernel),
   changed_of_guarded (idle := [.none]) (single := true) (by decide +kernel)⟩

theorem c77_volume_atomic_partial : Atomic volumeCalls volumePlaces ∧ Changed volumeCalls volumePlaces :=
  ⟨atomic_of_guarded guarded_volumeCalls, changed_of_guarded guarded_volumeCalls⟩

theorem c77_file_entry_atomic : Atomic (FileEntry.api.map (·.2)) fileEntryPlaces ∧
    Changed (FileEntry.api.map (·.2)) fileEntryPlaces :=
  ⟨atomic_of_guarded guarded_fileEntry, changed_of_guarded guarded_fileEntry⟩

theorem c77_extended_attribute_atomic : Atomic (ExtendedAttribute.api.map (·.2)) attributePlaces ∧
    Changed (ExtendedAttribute.api.map (·.2)) attributePlaces :=
  ⟨atomic_of_guarded guarded_attribute, changed_of_guarded guarded_attribute⟩

/-- A thread seeks in a file and makes the data stream for it, while another begins to ask for the size
and does not get the lock. -/
example : ∃ es c, Run (FileEntry.api.map (·.2)) initial es c ∧
    (es.filter fun x => x.1 == 0 && x.2.touches fileEntryPlaces).length = 2 ∧
    (es.filter fun x => x.1 == 1).length = @NB@ := by
  have h := @EX@
  obtain ⟨c, hc⟩ := run_of_events h
  exact ⟨_, c, hc, by decide +kernel, by decide +kernel⟩

/-- A container is opened without its lock: a thread that asks for the size meanwhile reads the
superblock while it is set (libfsapfs_container.c:1142 and 1917). -/
theorem c77_open_race : ¬ NoRace (Container.api.map (·.2)) :=
  not_noRace (ks :=
@open@) (by decide +kernel)

/-- Two threads that open one container both set its superblock. -/
theorem c77_open_open_race : ¬ NoRace [Container.container_open] :=
  not_noRace (ks :=
@opens@) (by decide +kernel)

/-- The size of a container is asked for while it is closed: whether there is a superblock is tested
before the lock is taken (libfsapfs_container.c:1917, 2134 and 2219). -/
theorem c77_close_race : ¬ NoRace [Container.container_close, Container.container_get_size] :=
  not_noRace (ks :=
@close@) (by decide +kernel)

/-- Two threads that get a volume both change the cache of the object map, with the lock for reading
(libfsapfs_container.c:2279). -/
theorem c77_volume_by_index_race : ¬ NoRace [Container.container_get_volume_by_index] :=
  not_noRace (ks :=
@index@) (by decide +kernel)

/-- Signals to abort set the flag without the lock (libfsapfs_container.c:264). -/
theorem c77_abort_race : ¬ NoRace [Container.container_signal_abort] :=
  not_noRace (ks :=
@abort@) (by decide +kernel)

end Verif.Props
'''
def fix(w,mp): return tuple([(b,(mp[k] if j==0 and mp is not None else k)) for j,(b,k) in enumerate(s)] for s in w)
names=[n for n,_,_ in KINDS['container']]
ix=lambda n:names.index(P+n)
sub={'VP':shared('volume'),'FP':shared('file_entry'),'AP':shared('extended_attribute'),
 'open':wrap(sch(*W['open'])),'opens':wrap(sch(*fix(W['opens'],{ix('open'):0}))),'close':wrap(sch(*fix(W['close'],{ix('close'):0,ix('get_size'):1}))),
 'index':wrap(sch(*fix(W['index'],{ix('get_volume_by_index'):0}))),'abort':wrap(sch(*fix(W['abort'],{ix('signal_abort'):0})))}
ex=exam('file_entry','libfsapfs_file_entry_seek_offset','data_stream','libfsapfs_file_entry_get_size')
nb=ex.count('(true')
sub['NB']=str(nb); sub['EX']='(rfl : eventsOf (FileEntry.api.map (·.2))\n'+wrap(ex)+' = _)'
for k,v in sub.items(): T=T.replace('@%s@'%k,v)
open(OUT+'/Verif/Props/C77.lean','w').write(T)
