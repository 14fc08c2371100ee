import Verif.Lemmas.OwnerOfPython
import Verif.Lemmas.OwnerPoints

/-!
C76. Whatever fails in pyfsapfs, and at whatever point, a function releases each reference and each
handle that it got exactly once, says that it failed by an exception and only then, and uses Python
only while it has the lock of the interpreter.

The property is `Safe` of Spec/Ownership.lean, as in C74 and C75, for each of the 150 functions of
pyfsapfs (Model/OwnerPython.lean says what the places mean).  A function that returns NULL or -1 to
Python must have set an exception, and none if it succeeds; one that is called by the library must
leave none.  A call that fails must not take what an object held before, and a new object holds a
reference to each object that it points to.

It does not hold for 25 functions: these are listed in Spec/OwnershipKnownPython.lean and each is
refuted here.
-/

namespace Verif.Props

open Verif.Owner Verif.Spec.Owner

/-- All functions but those listed are safe. -/
theorem c76_released_partial : ∀ e ∈ Python.python, e ∉ losingPython → Safe e.2 := python_safe

/-- Those listed are not. -/
theorem c76_losing : ∀ e ∈ losingPython, ¬ Safe e.2 :=
  forall_cons (not_safe_of_leaks (ok := true) (leakRun_leaks (bits 28 268435455) 5 (by decide +kernel)))
    (forall_cons (not_safe_of_leaks (ok := true) (leakRun_leaks (bits 31 2147483647) 6 (by decide +kernel)))
    (forall_cons (not_safe_of_leaks (ok := false) (leakRun_leaks (bits 13 8127) 0 (by decide +kernel)))
    (forall_cons (not_safe_of_leaks (ok := false) (leakRun_leaks (bits 17 130559) 1 (by decide +kernel)))
    (forall_cons (not_safe_of_leaks (ok := true) (leakRun_leaks (bits 18 253951) 0 (by decide +kernel)))
    (forall_cons (not_safe_of_notHeld (x := 6) (lostRun_notHeld (bits 53 9007199254708207) (by decide +kernel)))
    (forall_cons (not_safe_of_leaks (ok := true) (leakRun_leaks (bits 23 8372221) 0 (by decide +kernel)))
    (forall_cons (not_safe_of_leaks (ok := true) (leakRun_leaks (bits 23 8372221) 0 (by decide +kernel)))
    (forall_cons (not_safe_of_reads (x := 6) (nullRun_reads (bits 35 31205621631) (by decide +kernel)))
    (forall_cons (not_safe_of_reads (x := 6) (nullRun_reads (bits 35 31172067327) (by decide +kernel)))
    (forall_cons (not_safe_of_reads (x := 6) (nullRun_reads (bits 25 33423359) (by decide +kernel)))
    (forall_cons (not_safe_of_reads (x := 7) (nullRun_reads (bits 29 534773759) (by decide +kernel)))
    (forall_cons (not_safe_of_reads (x := 6) (nullRun_reads (bits 35 31205621631) (by decide +kernel)))
    (forall_cons (not_safe_of_reads (x := 6) (nullRun_reads (bits 35 31172067327) (by decide +kernel)))
    (forall_cons (not_safe_of_reads (x := 6) (nullRun_reads (bits 25 33423359) (by decide +kernel)))
    (forall_cons (not_safe_of_notHeld (x := 2) (lostRun_notHeld (bits 8 238) (by decide +kernel)))
    (forall_cons (not_safe_of_notEmpty (x := 1) (filledRun_notEmpty (bits 32 4282383779) (by decide +kernel)))
    (forall_cons (not_safe_of_reads (x := 2) (nullRun_reads (bits 10 975) (by decide +kernel)))
    (forall_cons (not_safe_of_reads (x := 4) (nullRun_reads (bits 24 16711671) (by decide +kernel)))
    (forall_cons (not_safe_of_leaks (ok := true) (leakRun_leaks (bits 20 1048573) 0 (by decide +kernel)))
    (forall_cons (not_safe_of_leaks (ok := true) (leakRun_leaks (bits 22 4194301) 0 (by decide +kernel)))
    (forall_cons (not_safe_of_reads (x := 6) (nullRun_reads (bits 35 31205621631) (by decide +kernel)))
    (forall_cons (not_safe_of_reads (x := 6) (nullRun_reads (bits 38 249376538623) (by decide +kernel)))
    (forall_cons (not_safe_of_reads (x := 6) (nullRun_reads (bits 35 31205621631) (by decide +kernel)))
    (forall_cons (not_safe_of_reads (x := 6) (nullRun_reads (bits 38 249376538623) (by decide +kernel)))
    (forall_nil)))))))))))))))))))))))))

/-- The functions that are safe are exactly those that are not listed. -/
theorem c76_exactly : ∀ e ∈ Python.python, Safe e.2 ↔ e ∉ losingPython :=
  fun e he => ⟨fun h hm => c76_losing e hm h, c76_released_partial e he⟩

/-- Every function but those listed, which always raise an exception, has an execution that succeeds. -/
theorem c76_returns : ∀ e ∈ Python.python, e.1 ∉ pythonNotOne → Returns e.2 true := python_returns

/-- Opening a container that is open with a file object fails, and frees the file object that the container
reads from and goes on reading from (pyfsapfs_container.c:704-714 and 758-765). -/
theorem c76_reopen_frees : NotHeld Python.pyfsapfs_container_open_file_object 6 :=
  lostRun_notHeld (bits 53 9007199254708207) (by decide +kernel)

/-- Each exception of a file object, and each other one that is turned into an error or into another
exception, is lost with its type and its traceback, to which nothing refers then and which are never
freed (pyfsapfs_error.c:124-174 and 264-303). -/
theorem c76_fetch_leaks :
    Leaks Python.pyfsapfs_error_fetch true ∧
    Leaks Python.pyfsapfs_error_fetch_and_raise true ∧
    Leaks Python.pyfsapfs_error_fetch_python2 true ∧
    Leaks Python.pyfsapfs_error_fetch_and_raise_python2 true :=
  ⟨leakRun_leaks (bits 23 8372221) 0 (by decide +kernel),
   leakRun_leaks (bits 23 8372221) 0 (by decide +kernel),
   leakRun_leaks (bits 20 1048573) 0 (by decide +kernel),
   leakRun_leaks (bits 22 4194301) 0 (by decide +kernel)⟩

/-- An exception that cannot be shown, because its own method for that raises one, makes the interpreter
crash: the string that is missing is converted (pyfsapfs_error.c:129-134 and 269-274). -/
theorem c76_repr_crashes :
    ReadsNull Python.pyfsapfs_error_fetch 6 ∧
    ReadsNull Python.pyfsapfs_error_fetch_and_raise 6 :=
  ⟨nullRun_reads (bits 12 3581) (by decide +kernel),
   nullRun_reads (bits 12 3581) (by decide +kernel)⟩

/-- Reading more than there is memory for makes the interpreter crash: nothing looks if there is a buffer
(pyfsapfs_file_entry.c:2787-2792 and 2990-2995, pyfsapfs_extended_attribute.c:742-747 and 945-950). -/
theorem c76_read_crashes :
    ReadsNull Python.pyfsapfs_file_entry_read_buffer 6 ∧
    ReadsNull Python.pyfsapfs_file_entry_read_buffer_at_offset 6 ∧
    ReadsNull Python.pyfsapfs_extended_attribute_read_buffer 6 ∧
    ReadsNull Python.pyfsapfs_extended_attribute_read_buffer_at_offset 6 :=
  ⟨nullRun_reads (bits 35 31205621631) (by decide +kernel),
   nullRun_reads (bits 35 31172067327) (by decide +kernel),
   nullRun_reads (bits 35 31205621631) (by decide +kernel),
   nullRun_reads (bits 35 31172067327) (by decide +kernel)⟩

/-- Without memory for the tuple the interpreter crashes, and without memory for a number in it the tuple
is returned as if nothing had failed, with the exception set (pyfsapfs_file_entry.c:1581-1616). -/
theorem c76_tuple_crashes :
    ReadsNull Python.pyfsapfs_file_entry_get_device_number 7 ∧
    ReadsNull Python.pyfsapfs_file_entry_get_extent_by_index 6 ∧
    ReadsNull Python.pyfsapfs_extended_attribute_get_extent_by_index 6 ∧
    NotEmpty Python.pyfsapfs_file_entry_get_device_number 2 ∧
    NotEmpty Python.pyfsapfs_file_entry_get_extent_by_index 1 ∧
    NotEmpty Python.pyfsapfs_extended_attribute_get_extent_by_index 1 :=
  ⟨nullRun_reads (bits 29 534773759) (by decide +kernel),
   nullRun_reads (bits 25 33423359) (by decide +kernel),
   nullRun_reads (bits 25 33423359) (by decide +kernel),
   filledRun_notEmpty (bits 44 17575006175231) (by decide +kernel),
   filledRun_notEmpty (bits 49 562400197607423) (by decide +kernel),
   filledRun_notEmpty (bits 49 562400197607423) (by decide +kernel)⟩

/-- A second call of the method that initializes a container loses the container of the library that it
had (pyfsapfs_container.c:267-268). -/
theorem c76_init_leaks :
    Leaks Python.pyfsapfs_container_init false ∧
    Leaks Python.pyfsapfs_container_init true :=
  ⟨leakRun_leaks (bits 17 130559) 1 (by decide +kernel),
   leakRun_leaks (bits 14 16383) 1 (by decide +kernel)⟩

/-- A container that cannot be closed is never freed, and one that can loses a reference to None
(pyfsapfs_container.c:328-336). -/
theorem c76_free_leaks : Leaks Python.pyfsapfs_container_free true :=
  leakRun_leaks (bits 18 253951) 0 (by decide +kernel)

/-- Opening a container loses a reference to None (pyfsapfs.c:469-475 and 520-526). -/
theorem c76_open_leaks :
    Leaks Python.pyfsapfs_open_new_container true ∧
    Leaks Python.pyfsapfs_open_new_container_with_file_object true :=
  ⟨leakRun_leaks (bits 28 268435455) 5 (by decide +kernel),
   leakRun_leaks (bits 31 2147483647) 6 (by decide +kernel)⟩

/-- Copying the handle of a file object changes the count of references without the lock of the
interpreter (pyfsapfs_file_object_io_handle.c:283-286). -/
theorem c76_clone_without_lock : NotHeld Python.pyfsapfs_file_object_io_handle_clone 2 :=
  lostRun_notHeld (bits 8 238) (by decide +kernel)

/-- An exception of the test whether what a file object returned are bytes is left set
(pyfsapfs_file_object_io_handle.c:506-524). -/
theorem c76_type_check_pending : NotEmpty Python.pyfsapfs_file_object_read_buffer 1 :=
  filledRun_notEmpty (bits 32 4282383779) (by decide +kernel)

/-- Without memory for the name of a method the interpreter crashes
(pyfsapfs_file_object_io_handle.c:1037-1050 and 1406-1418). -/
theorem c76_name_crashes :
    ReadsNull Python.pyfsapfs_file_object_get_offset 2 ∧
    ReadsNull Python.pyfsapfs_file_object_io_handle_get_size 4 :=
  ⟨nullRun_reads (bits 10 975) (by decide +kernel),
   nullRun_reads (bits 24 16711671) (by decide +kernel)⟩

/-- If a type cannot be set up the module is lost, and a type that cannot be added to it is not reported
(pyfsapfs.c:612-749). -/
theorem c76_module_leaks :
    Leaks Python.PyInit_pyfsapfs false ∧
    NotEmpty Python.PyInit_pyfsapfs 0 :=
  ⟨leakRun_leaks (bits 13 8127) 0 (by decide +kernel),
   filledRun_notEmpty (bits 40 1090921693183) (by decide +kernel)⟩

/-! Examples. -/

/-- A method that is safe: it is in the list, is not excepted, can succeed, and can fail. -/
example : ("pyfsapfs_volume_get_file_entry_by_path", Python.pyfsapfs_volume_get_file_entry_by_path) ∈ Python.python ∧
    Safe Python.pyfsapfs_volume_get_file_entry_by_path ∧ Returns Python.pyfsapfs_volume_get_file_entry_by_path true ∧ Returns Python.pyfsapfs_volume_get_file_entry_by_path false := by
  refine ⟨?_, check_safe 20000 (by decide +kernel), ?_, ?_⟩
  · unfold Python.python Python.python1 Python.python2 Python.python3
    repeat first | exact .head _ | apply List.Mem.tail
  · exact retRun_returns (bits 32 4294950911) (by decide +kernel)
  · exact retRun_returns (bits 7 125) (by decide +kernel)

/-- Returning an object to which the function has no reference. -/
example : ¬ Safe ⟨[loc], [.lend 0, .give 0, .ret true]⟩ :=
  not_safe_of_faults (faultRun_faults (bits 1 1) (by decide +kernel))

/-- Returning NULL without an exception. -/
example : ¬ Safe ⟨[loc], [.deref 0, .ret false]⟩ :=
  not_safe_of_reads (x := 0) (nullRun_reads (bits 0 0) (by decide +kernel))

/-- Returning while the threads are still allowed to run. -/
example : ¬ Safe ⟨[loc], [.fresh 0, .ret true]⟩ :=
  not_safe_of_leaks (ok := true) (leakRun_leaks (bits 1 1) 0 (by decide +kernel))

end Verif.Props
