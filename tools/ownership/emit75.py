exec(open(__import__('os').path.dirname(__import__('os').path.abspath(__file__))+'/emittools.py').read())
A,bad,W,no=emit(__import__('os').path.dirname(__import__('os').path.abspath(__file__))+'/tools.pkl','Tools','OwnerTools','OwnerOfTools','OwnershipKnownTools','tools','losingTools','toolsNotOne',
 'What the functions of fsapfsinfo and fsapfsmount do with memory: see Ownership.lean for what the\ninstructions mean and DESIGN.md for how they were made from the source.  The error that a program or a\ncallback of the file system makes is one of the places: `error`.  The functions of mount_dokan.c and\nthose whose name here ends in _dokan are of the build with Dokan, the others of that with FUSE.',
 'The functions of fsapfstools that handle memory.',('tools','fsapfstools'))
s='''import Verif.Lemmas.OwnerOfTools

/-!
C75. Whatever fails in fsapfsinfo and fsapfsmount, and at whatever point, they release or keep what
they allocated, also the errors that are reported, and free nothing twice and use nothing freed.

The property is `Safe` of Spec/Ownership.lean, as in C74, for each of the %d functions of fsapfstools
that handle memory (Model/OwnerTools.lean).  What a callback leaves behind in the information about
the open file is released by the callback for closing it, and must be empty after a failure to open
it, for which the file system does not call the one for closing.

It does not hold for %d functions: these are listed in Spec/OwnershipKnownTools.lean and each is
refuted here.
-/

namespace Verif.Props

open Verif.Owner Verif.Spec.Owner

/-- All functions but those listed are safe. -/
theorem c75_released_partial : ∀ e ∈ Tools.tools, e ∉ losingTools → Safe e.2 := tools_safe

/-- Those listed are not. -/
theorem c75_losing : ∀ e ∈ losingTools, ¬ Safe e.2 :=
  %s

/-- The functions that are safe are exactly those that are not listed. -/
theorem c75_exactly : ∀ e ∈ Tools.tools, Safe e.2 ↔ e ∉ losingTools :=
  fun e he => ⟨fun h hm => c75_losing e hm h, c75_released_partial e he⟩

/-- Every function but the one listed, which returns 0, has an execution that succeeds. -/
theorem c75_returns : ∀ e ∈ Tools.tools, e.1 ∉ toolsNotOne → Returns e.2 true := tools_returns

'''%(len(A),len(bad),chain(bad,W))
s+=thm('c75_getxattr_leaks','A program that asks for the value of an extended attribute with a buffer that is too small for it, or\nthat cannot be read: the extended attribute is lost (mount_fuse.c:842-856).','Tools',W,['mount_fuse_getxattr'])
s+=thm('c75_releasedir_leaks','Closing a directory loses its file entry (mount_fuse.c:1578-1581).','Tools',W,['mount_fuse_releasedir'])
s+=thm('c75_open_leaks','Mounting a volume loses the container, which nothing can free or close then\n(mount_handle.c:738-740).','Tools',W,['mount_handle_open'])
s+=thm('c75_snapshot_name_leaks','If the name of a snapshot cannot be retrieved the memory for it is lost (info_handle.c:4177-4214 and the\nend of the function).','Tools',W,['info_handle_volume_fprint'])
s+=thm('c75_main_dokan_leaks','On Windows fsapfsmount does not free the mount handle when the volume is unmounted.','Tools',W,['fsapfsmount_main_dokan'])
P=[P for P in A if P['key']=='mount_fuse_open'][0]
s+='''/-! Examples. -/

/-- A callback that is safe: it is in the list, is not excepted, can succeed, and can fail. -/
example : ("mount_fuse_open", Tools.mount_fuse_open) ∈ Tools.tools ∧ Safe Tools.mount_fuse_open ∧
    Returns Tools.mount_fuse_open true ∧ Returns Tools.mount_fuse_open false := by
  refine ⟨?_, check_safe 20000 (by decide +kernel), ?_, ?_⟩
  · unfold Tools.tools
    repeat first | exact .head _ | apply List.Mem.tail
  · exact retRun_returns (%s) (by decide +kernel)
  · exact retRun_returns (%s) (by decide +kernel)

/-- An error that is made and not freed is lost: a callback that returns after a failed call. -/
example : ¬ Safe ⟨[loc], [.choice 1 3, .fresh 0, .ret false, .ret true]⟩ :=
  not_safe_of_leaks (ok := false) (leakRun_leaks (bits 2 3) 0 (by decide +kernel))

/-- A callback that leaves something in the information about the file when it fails. -/
example : ¬ Safe ⟨[loc, own 0], [.lend 0, .fresh 1, .none 1, .ret false]⟩ := by
  intro h
  have hr : Reach ⟨[loc, own 0], [.lend 0, .fresh 1, .none 1, .ret false]⟩ _ :=
    crun_reach (bs := [true, true])
      (s := cstart ⟨[loc, own 0], [.lend 0, .fresh 1, .none 1, .ret false]⟩)
      (by rw [cstart_st]; exact .start) rfl
  exact (h _ hr).1 (by show _ ≠ _; exact nofun)

end Verif.Props
'''%(code(pathto(P,True)),code(pathto(P,False)))
open(OUT+'/Verif/Props/C75.lean','w').write(s)
print(len(A),[P['key'] for P in bad],no)
