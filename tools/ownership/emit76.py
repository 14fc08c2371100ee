exec(open(__import__('os').path.dirname(__import__('os').path.abspath(__file__))+'/emittools.py').read())
import collections
from gen import fault,cstep
def points(P,limit=200000):
    """first path to each kind of fault"""
    s0=(0,tuple([None]*len(P['cells'])),()); seen={s0:None}; q=collections.deque([s0]); found={}
    while q and len(seen)<limit:
        s=q.popleft(); c=P['code'][s[0]]
        if fault(P,s):
            k=(c[0],c[1])
            # a deref of NULL only
            if not (c[0]=='deref' and s[1][c[1]] is not None) and k not in found:
                path=[];t=s
                while seen[t] is not None: t,b=seen[t]; path.append(b)
                found[k]=path[::-1]
            continue
        if c[0]=='ret': continue
        for b in ((True,False) if c[0] in('choice','maybe') else (True,)):
            t=cstep(P,s,b)
            if t is None or t=='FAULT' or t in seen: continue
            seen[t]=(s,b); q.append(t)
    return found
A,bad,W,no=emit(__import__('os').path.dirname(__import__('os').path.abspath(__file__))+'/python.pkl','Python','OwnerPython','OwnerOfPython','OwnershipKnownPython','python','losingPython','pythonNotOne',
 'What the functions of pyfsapfs do with memory, references to Python objects, exceptions and the lock of\nthe interpreter: see Ownership.lean for what the instructions mean and DESIGN.md for how they were made\nfrom the source.  A reference that a function owns is something that it allocated: Py_DecRef releases\nit.  Besides the pointers there are these places.  `exception` holds something while an exception is\nset.  `threads allowed` does between Py_BEGIN_ALLOW_THREADS and Py_END_ALLOW_THREADS, and `gil_state`\nbetween PyGILState_Ensure and PyGILState_Release.  `result that is not kept` is what a function\nreturned that the code ignores.  The functions whose name here ends in _python2 are of the build for\nPython 2 and those that end in _wide of that for Windows, where they differ.',
 'The functions of pyfsapfs.',('python','pyfsapfs'),mult=3)
PT={P['key']:points(P) for P in bad}
byk={P['key']:P for P in A}
def ci(n,name): return [c['name'] for c in byk[n]['cells']].index(name)
KIND={'deref':('ReadsNull','nullRun_reads','not_safe_of_reads'),'none':('NotEmpty','filledRun_notEmpty','not_safe_of_notEmpty'),'live':('NotHeld','lostRun_notHeld','not_safe_of_notHeld')}
def ptf(n,op,name):
    x=ci(n,name); path=PT[n][(op,x)]
    return '%s Python.%s %d'%(KIND[op][0],n,x),'%s (%s) (by decide +kernel)'%(KIND[op][1],code(path))
def chain2():
    t='forall_nil'
    for P in reversed(bad):
        n=P['key']; it=[x for x in W[n] if x[0][0]!='fault']
        if it:
            (k,ok),(path,a)=it[0]
            h='not_safe_of_%s (ok := %s) (%s)'%('leaks' if k=='leak' else 'dangles','true' if ok else 'false',pf(k,ok,path,a))
        else:
            (op,x),path=[y for y in PT[n].items() if y[0][0] in KIND][0]
            h='%s (x := %d) (%s (%s) (by decide +kernel))'%(KIND[op][2],x,KIND[op][1],code(path))
        t='forall_cons (%s)\n    (%s)'%(h,t)
    return t
def pthm(name,doc,items):
    L=[]
    for it in items:
        if len(it)==1: L+=single('Python',W,it[0])
        else: L.append(ptf(*it))
    if len(L)==1: return '/-- %s -/\ntheorem %s : %s :=\n  %s\n\n'%(doc,name,*L[0])
    return '/-- %s -/\ntheorem %s :\n    %s :=\n  ⟨%s⟩\n\n'%(doc,name,' ∧\n    '.join(x[0] for x in L),',\n   '.join(x[1] for x in L))
s='''import Verif.Lemmas.OwnerOfPython
import Verif.Lemmas.OwnerPoints

/-!
C76. Whatever fails in pyfsapfs, and at whatever point, a function releases each reference and each
handle that it got exactly once, says that it failed by an exception and only then, and uses Python
only while it has the lock of the interpreter.

The property is `Safe` of Spec/Ownership.lean, as in C74 and C75, for each of the %d functions of
pyfsapfs (Model/OwnerPython.lean says what the places mean).  A function that returns NULL or -1 to
Python must have set an exception, and none if it succeeds; one that is called by the library must
leave none.  A call that fails must not take what an object held before, and a new object holds a
reference to each object that it points to.

It does not hold for %d functions: these are listed in Spec/OwnershipKnownPython.lean and each is
refuted here.
-/

namespace Verif.Props

open Verif.Owner Verif.Spec.Owner

/-- All functions but those listed are safe. -/
theorem c76_released_partial : ∀ e ∈ Python.python, e ∉ losingPython → Safe e.2 := python_safe

/-- Those listed are not. -/
theorem c76_losing : ∀ e ∈ losingPython, ¬ Safe e.2 :=
  %s

/-- The functions that are safe are exactly those that are not listed. -/
theorem c76_exactly : ∀ e ∈ Python.python, Safe e.2 ↔ e ∉ losingPython :=
  fun e he => ⟨fun h hm => c76_losing e hm h, c76_released_partial e he⟩

/-- Every function but those listed, which always raise an exception, has an execution that succeeds. -/
theorem c76_returns : ∀ e ∈ Python.python, e.1 ∉ pythonNotOne → Returns e.2 true := python_returns

'''%(len(A),len(bad),chain2())
s+=pthm('c76_reopen_frees','Opening a container that is open with a file object fails, and frees the file object that the container\nreads from and goes on reading from (pyfsapfs_container.c:704-714 and 758-765).',[('pyfsapfs_container_open_file_object','live','pyfsapfs_container->file_io_handle')])
s+=pthm('c76_fetch_leaks','Each exception of a file object, and each other one that is turned into an error or into another\nexception, is lost with its type and its traceback, to which nothing refers then and which are never\nfreed (pyfsapfs_error.c:124-174 and 264-303).',[('pyfsapfs_error_fetch',),('pyfsapfs_error_fetch_and_raise',),('pyfsapfs_error_fetch_python2',),('pyfsapfs_error_fetch_and_raise_python2',)])
s+=pthm('c76_repr_crashes','An exception that cannot be shown, because its own method for that raises one, makes the interpreter\ncrash: the string that is missing is converted (pyfsapfs_error.c:129-134 and 269-274).',[('pyfsapfs_error_fetch','deref','string_object'),('pyfsapfs_error_fetch_and_raise','deref','string_object')])
s+=pthm('c76_read_crashes','Reading more than there is memory for makes the interpreter crash: nothing looks if there is a buffer\n(pyfsapfs_file_entry.c:2787-2792 and 2990-2995, pyfsapfs_extended_attribute.c:742-747 and 945-950).',[(n,'deref','string_object') for n in('pyfsapfs_file_entry_read_buffer','pyfsapfs_file_entry_read_buffer_at_offset','pyfsapfs_extended_attribute_read_buffer','pyfsapfs_extended_attribute_read_buffer_at_offset')])
T3=['pyfsapfs_file_entry_get_device_number','pyfsapfs_file_entry_get_extent_by_index','pyfsapfs_extended_attribute_get_extent_by_index']
s+=pthm('c76_tuple_crashes','Without memory for the tuple the interpreter crashes, and without memory for a number in it the tuple\nis returned as if nothing had failed, with the exception set (pyfsapfs_file_entry.c:1581-1616).',[(n,'deref','tuple_object') for n in T3]+[(n,'none','exception') for n in T3])
s+=pthm('c76_init_leaks','A second call of the method that initializes a container loses the container of the library that it\nhad (pyfsapfs_container.c:267-268).',[('pyfsapfs_container_init',)])
s+=pthm('c76_free_leaks','A container that cannot be closed is never freed, and one that can loses a reference to None\n(pyfsapfs_container.c:328-336).',[('pyfsapfs_container_free',)])
s+=pthm('c76_open_leaks','Opening a container loses a reference to None (pyfsapfs.c:469-475 and 520-526).',[('pyfsapfs_open_new_container',),('pyfsapfs_open_new_container_with_file_object',)])
s+=pthm('c76_clone_without_lock','Copying the handle of a file object changes the count of references without the lock of the\ninterpreter (pyfsapfs_file_object_io_handle.c:283-286).',[('pyfsapfs_file_object_io_handle_clone','live','gil_state')])
s+=pthm('c76_type_check_pending','An exception of the test whether what a file object returned are bytes is left set\n(pyfsapfs_file_object_io_handle.c:506-524).',[('pyfsapfs_file_object_read_buffer','none','exception')])
s+=pthm('c76_name_crashes','Without memory for the name of a method the interpreter crashes\n(pyfsapfs_file_object_io_handle.c:1037-1050 and 1406-1418).',[('pyfsapfs_file_object_get_offset','deref','method_name'),('pyfsapfs_file_object_io_handle_get_size','deref','method_name')])
s+=pthm('c76_module_leaks','If a type cannot be set up the module is lost, and a type that cannot be added to it is not reported\n(pyfsapfs.c:612-749).',[('PyInit_pyfsapfs',),('PyInit_pyfsapfs','none','exception')])
P=byk['pyfsapfs_volume_get_file_entry_by_path']
s+='''/-! Examples. -/

/-- A method that is safe: it is in the list, is not excepted, can succeed, and can fail. -/
example : ("%s", Python.%s) ∈ Python.python ∧
    Safe Python.%s ∧ Returns Python.%s true ∧ Returns Python.%s false := by
  refine ⟨?_, check_safe 20000 (by decide +kernel), ?_, ?_⟩
  · unfold Python.python Python.python1 Python.python2 Python.python3
    repeat first | exact .head _ | apply List.Mem.tail
  · exact retRun_returns (%s) (by decide +kernel)
  · exact retRun_returns (%s) (by decide +kernel)

/-- Returning an object to which the function has no reference. -/
example : ¬ Safe ⟨[loc], [.lend 0, .give 0, .ret true]⟩ :=
  not_safe_of_faults (faultRun_faults (bits 1 1) (by decide +kernel))

/-- Returning NULL without an exception. -/
example : ¬ Safe ⟨[loc], [.deref 0, .ret false]⟩ :=
  not_safe_of_reads (x := 0) (nullRun_reads (bits 0 0) (by decide +kernel))

/-- Returning while the threads are still allowed to run. -/
example : ¬ Safe ⟨[loc], [.fresh 0, .ret true]⟩ :=
  not_safe_of_leaks (ok := true) (leakRun_leaks (bits 1 1) 0 (by decide +kernel))

end Verif.Props
'''%((P['key'],)*5+(code(pathto(P,True)),code(pathto(P,False))))
open(OUT+'/Verif/Props/C76.lean','w').write(s)
print(len(A),len(bad),no)
