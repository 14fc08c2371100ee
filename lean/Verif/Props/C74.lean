import Verif.Lemmas.OwnerAll
import Verif.Model.OwnerLeaving

/-!
C74. Whatever fails in a call, and at whatever point, what it allocated is released or returned, and
nothing is freed twice or used after it was freed.

The property is `Safe` of Spec/Ownership.lean, for each of the 271 functions of the library that
handle memory (Model/Owner*.lean): in every execution, in which each allocation, each call and each
condition on other data can go either way, no step frees what is not allocated or what belongs to
another structure, or looks at freed memory, and at each return everything that is allocated is kept
by the place in which the object is returned or by a structure that is still there, and no pointer to
freed memory is left for the caller.

It does not hold for 22 functions in the build with threads and 8 in the build without: these are
listed in Spec/OwnershipKnown.lean and each is refuted here.
-/

namespace Verif.Props

open Verif.Owner Verif.Spec.Owner

/-- All functions but those listed are safe, in the build with threads. -/
theorem c74_released_partial : ∀ e ∈ library, e ∉ losing → Safe e.2 := library_safe

/-- All functions but those listed are safe, in the build without threads. -/
theorem c74_released_single_partial : ∀ e ∈ librarySingle, e ∉ losingSingle → Safe e.2 :=
  librarySingle_safe

/-- Those listed are not. -/
theorem c74_losing : ∀ e ∈ losing, ¬ Safe e.2 :=
  forall_cons (not_safe_of_leaks (ok := false) (leakRun_leaks (bits 72 4722078252493493501946) 10 (by decide +kernel)))
    (forall_cons (not_safe_of_leaks (ok := false) (leakRun_leaks (bits 58 288230169984892923) 1 (by decide +kernel)))
    (forall_cons (not_safe_of_dangles (ok := false) (dangRun_dangles (bits 21 1965966) 2 (by decide +kernel)))
    (forall_cons (not_safe_of_dangles (ok := false) (dangRun_dangles (bits 21 1965966) 2 (by decide +kernel)))
    (forall_cons (not_safe_of_leaks (ok := false) (leakRun_leaks (bits 24 14679938) 1 (by decide +kernel)))
    (forall_cons (not_safe_of_leaks (ok := false) (leakRun_leaks (bits 23 7340006) 1 (by decide +kernel)))
    (forall_cons (not_safe_of_leaks (ok := false) (leakRun_leaks (bits 37 120259084150) 3 (by decide +kernel)))
    (forall_cons (not_safe_of_leaks (ok := false) (leakRun_leaks (bits 25 29360102) 1 (by decide +kernel)))
    (forall_cons (not_safe_of_leaks (ok := false) (leakRun_leaks (bits 25 29360102) 1 (by decide +kernel)))
    (forall_cons (not_safe_of_leaks (ok := false) (leakRun_leaks (bits 30 1006628567) 1 (by decide +kernel)))
    (forall_cons (not_safe_of_leaks (ok := false) (leakRun_leaks (bits 25 33544151) 1 (by decide +kernel)))
    (forall_cons (not_safe_of_leaks (ok := false) (leakRun_leaks (bits 37 137405399030) 3 (by decide +kernel)))
    (forall_cons (not_safe_of_leaks (ok := false) (leakRun_leaks (bits 63 9223231298905045530) 1 (by decide +kernel)))
    (forall_cons (not_safe_of_leaks (ok := false) (leakRun_leaks (bits 63 9223231298905045530) 1 (by decide +kernel)))
    (forall_cons (not_safe_of_leaks (ok := false) (leakRun_leaks (bits 37 137405399030) 3 (by decide +kernel)))
    (forall_cons (not_safe_of_leaks (ok := false) (leakRun_leaks (bits 26 66582523) 3 (by decide +kernel)))
    (forall_cons (not_safe_of_leaks (ok := false) (leakRun_leaks (bits 37 137405399030) 3 (by decide +kernel)))
    (forall_cons (not_safe_of_leaks (ok := false) (leakRun_leaks (bits 18 196585) 0 (by decide +kernel)))
    (forall_cons (not_safe_of_leaks (ok := false) (leakRun_leaks (bits 18 196585) 0 (by decide +kernel)))
    (forall_cons (not_safe_of_leaks (ok := false) (leakRun_leaks (bits 23 7339718) 0 (by decide +kernel)))
    (forall_cons (not_safe_of_leaks (ok := false) (leakRun_leaks (bits 23 7339718) 0 (by decide +kernel)))
    (forall_cons (not_safe_of_leaks (ok := false) (leakRun_leaks (bits 20 917490) 1 (by decide +kernel)))
    (forall_nil))))))))))))))))))))))

/-- Those listed are not. -/
theorem c74_losing_single : ∀ e ∈ losingSingle, ¬ Safe e.2 :=
  forall_cons (not_safe_of_leaks (ok := false) (leakRun_leaks (bits 30 1006628567) 1 (by decide +kernel)))
    (forall_cons (not_safe_of_leaks (ok := false) (leakRun_leaks (bits 25 33544151) 1 (by decide +kernel)))
    (forall_cons (not_safe_of_leaks (ok := false) (leakRun_leaks (bits 37 137405399030) 3 (by decide +kernel)))
    (forall_cons (not_safe_of_leaks (ok := false) (leakRun_leaks (bits 63 9223231298905045530) 1 (by decide +kernel)))
    (forall_cons (not_safe_of_leaks (ok := false) (leakRun_leaks (bits 63 9223231298905045530) 1 (by decide +kernel)))
    (forall_cons (not_safe_of_leaks (ok := false) (leakRun_leaks (bits 37 137405399030) 3 (by decide +kernel)))
    (forall_cons (not_safe_of_leaks (ok := true) (leakRun_leaks (bits 17 130555) 2 (by decide +kernel)))
    (forall_cons (not_safe_of_leaks (ok := false) (leakRun_leaks (bits 37 137405399030) 3 (by decide +kernel)))
    (forall_nil))))))))

/-- The functions that are safe are exactly those that are not listed. -/
theorem c74_exactly : (∀ e ∈ library, Safe e.2 ↔ e ∉ losing) ∧
    (∀ e ∈ librarySingle, Safe e.2 ↔ e ∉ losingSingle) :=
  ⟨fun e he => ⟨fun h hm => c74_losing e hm h, c74_released_partial e he⟩,
   fun e he => ⟨fun h hm => c74_losing_single e hm h, c74_released_single_partial e he⟩⟩

/-- Every function but those that never return 1 has an execution that does: that nothing is lost is
not said of nothing. -/
theorem c74_returns : (∀ e ∈ library, e.1 ∉ notOne → Returns e.2 true) ∧
    (∀ e ∈ librarySingle, e.1 ∉ notOne → Returns e.2 true) :=
  ⟨library_returns, librarySingle_returns⟩

/-- Opening the data of a compressed file loses the stream of the compressed data, whether it succeeds or
not (libfsapfs_file_entry.c:4282-4515: the handle of which it becomes a member does not free it,
libfsapfs_compressed_data_handle.c:191-231). -/
theorem c74_data_stream_leaks :
    Leaks Lib.internal_file_entry_get_data_stream false ∧
    Leaks Lib.internal_file_entry_get_data_stream true :=
  ⟨leakRun_leaks (bits 30 1006628567) 1 (by decide +kernel),
   leakRun_leaks (bits 30 1073737471) 1 (by decide +kernel)⟩

/-- The size of a compressed file with a short header: the stream is lost
(libfsapfs_file_entry.c:4994). -/
theorem c74_data_size_leaks : Leaks Lib.internal_file_entry_get_data_size false :=
  leakRun_leaks (bits 25 33544151) 1 (by decide +kernel)

/-- If the second cache of a tree cannot be allocated the first is lost. -/
theorem c74_btree_initialize_leaks :
    Leaks Lib.file_system_btree_initialize false ∧
    Leaks Lib.object_map_btree_initialize false ∧
    Leaks Lib.snapshot_metadata_tree_initialize false :=
  ⟨leakRun_leaks (bits 37 137405399030) 3 (by decide +kernel),
   leakRun_leaks (bits 37 137405399030) 3 (by decide +kernel),
   leakRun_leaks (bits 37 137405399030) 3 (by decide +kernel)⟩

/-- A path with an empty component, such as /a//b: the directory record is lost
(libfsapfs_file_system_btree.c:5849-5852, 6566-6569). -/
theorem c74_path_leaks :
    Leaks Lib.file_system_btree_get_inode_by_utf8_path false ∧
    Leaks Lib.file_system_btree_get_inode_by_utf16_path false :=
  ⟨leakRun_leaks (bits 63 9223231298905045530) 1 (by decide +kernel),
   leakRun_leaks (bits 63 9223231298905045530) 1 (by decide +kernel)⟩

/-- Freeing a snapshot loses its volume superblock, and succeeds (libfsapfs_snapshot.c:170-213). -/
theorem c74_snapshot_free_leaks :
    Leaks Lib.snapshot_free false ∧
    Leaks Lib.snapshot_free true ∧
    Leaks Single.snapshot_free true :=
  ⟨leakRun_leaks (bits 26 66582523) 3 (by decide +kernel),
   leakRun_leaks (bits 25 33552379) 3 (by decide +kernel),
   leakRun_leaks (bits 17 130555) 2 (by decide +kernel)⟩

/-- If the lock cannot be made the IO handle is lost (libfsapfs_container.c:109-150). -/
theorem c74_container_initialize_leaks : Leaks Lib.container_initialize false :=
  leakRun_leaks (bits 72 4722078252493493501946) 10 (by decide +kernel)

/-- If the lock cannot be grabbed to close the container, what it read is lost, though the container is
freed (libfsapfs_container.c:155-228). -/
theorem c74_container_free_leaks : Leaks Lib.container_free false :=
  leakRun_leaks (bits 58 288230169984892923) 1 (by decide +kernel)

/-- If the lock cannot be grabbed or released after opening, the container that the caller has refers to a file IO
handle that was freed. -/
theorem c74_container_open_dangles :
    Dangles Lib.container_open false ∧
    Dangles Lib.container_open_wide false :=
  ⟨dangRun_dangles (bits 21 1965966) 2 (by decide +kernel),
   dangRun_dangles (bits 21 1965966) 2 (by decide +kernel)⟩

/-- If the lock cannot be released the call fails, though it has put the object where the caller, who
must not look at it after a failure, would have found it. -/
theorem c74_release_leaks :
    Leaks Lib.container_get_volume_by_index false ∧
    Leaks Lib.file_entry_get_parent_file_entry false ∧
    Leaks Lib.file_entry_get_extended_attribute_by_index false ∧
    Leaks Lib.file_entry_get_extended_attribute_by_utf8_name false ∧
    Leaks Lib.file_entry_get_extended_attribute_by_utf16_name false ∧
    Leaks Lib.volume_get_root_directory false ∧
    Leaks Lib.volume_get_file_entry_by_identifier false ∧
    Leaks Lib.volume_get_file_entry_by_utf8_path false ∧
    Leaks Lib.volume_get_file_entry_by_utf16_path false ∧
    Leaks Lib.volume_get_snapshot_by_index false :=
  ⟨leakRun_leaks (bits 24 14679938) 1 (by decide +kernel),
   leakRun_leaks (bits 23 7340006) 1 (by decide +kernel),
   leakRun_leaks (bits 37 120259084150) 3 (by decide +kernel),
   leakRun_leaks (bits 25 29360102) 1 (by decide +kernel),
   leakRun_leaks (bits 25 29360102) 1 (by decide +kernel),
   leakRun_leaks (bits 18 196585) 0 (by decide +kernel),
   leakRun_leaks (bits 18 196585) 0 (by decide +kernel),
   leakRun_leaks (bits 23 7339718) 0 (by decide +kernel),
   leakRun_leaks (bits 23 7339718) 0 (by decide +kernel),
   leakRun_leaks (bits 20 917490) 1 (by decide +kernel)⟩

/-- Without threads these are safe. -/
theorem c74_single_safe : Safe Single.container_initialize ∧ Safe Single.container_free ∧
    Safe Single.container_open ∧ Safe Single.container_open_wide ∧
    Safe Single.volume_get_root_directory ∧ Safe Single.file_entry_get_parent_file_entry :=
  ⟨check_safe 20000 (by decide +kernel), check_safe 20000 (by decide +kernel),
   check_safe 20000 (by decide +kernel), check_safe 20000 (by decide +kernel),
   check_safe 20000 (by decide +kernel), check_safe 20000 (by decide +kernel)⟩

/-- After a failure all functions have emptied the members that were empty before (the instructions
`.none` in front of `.ret false`), except for two: if a volume that has no tree of
snapshots, or of which that cannot be made, cannot be opened the array of snapshots is left
(libfsapfs_volume.c:694-716, 839-845), and if a snapshot cannot be opened its superblock
(libfsapfs_snapshot.c:299-300). -/
theorem c74_open_leaves :
    Faults Leaving.internal_snapshot_open_read ∧
    Faults Leaving.internal_volume_open_read :=
  ⟨faultRun_faults (bits 19 392959) (by decide +kernel),
   faultRun_faults (bits 113 10384593717031285740031400732522495) (by decide +kernel)⟩

/-! Examples. -/

/-- The part of a function that allocates a structure and then one of its members, and frees the
structure if that fails.  It returns in both ways, and is safe. -/
example : Safe ⟨[loc, own 0, out], [.fresh 0, .null 1, .choice 3 6, .fresh 1, .copy 2 0, .ret true,
      .kill 0, .null 1, .ret false]⟩ ∧
    Returns ⟨[loc, own 0, out], [.fresh 0, .null 1, .choice 3 6, .fresh 1, .copy 2 0, .ret true,
      .kill 0, .null 1, .ret false]⟩ true :=
  ⟨check_safe 100 (by decide +kernel), retRun_returns (bits 5 31) (by decide +kernel)⟩

/-- The same without the `memory_free` in the error path is not. -/
example : ¬ Safe ⟨[loc, own 0, out], [.fresh 0, .null 1, .choice 3 6, .fresh 1, .copy 2 0, .ret true,
      .null 1, .ret false]⟩ :=
  not_safe_of_leaks (ok := false) (leakRun_leaks (bits 4 3) 0 (by decide +kernel))

/-- Nor is it if it frees the structure twice. -/
example : ¬ Safe ⟨[loc], [.fresh 0, .kill 0, .kill 0, .ret false]⟩ := by
  intro h
  have hr : Reach ⟨[loc], [.fresh 0, .kill 0, .kill 0, .ret false]⟩ _ :=
    crun_reach (bs := [true, true]) (s := cstart ⟨[loc], [.fresh 0, .kill 0, .kill 0, .ret false]⟩) (by rw [cstart_st]; exact .start) rfl
  refine (h _ hr).1 ?_
  show ¬ _
  rintro (c | ⟨a, ea, ha⟩)
  · cases c
  · cases ea; cases ha

/-- A function of the library that is safe: it is in the list, is not excepted, can succeed, and can
fail after it allocated. -/
example : ("libfsapfs_btree_node_initialize", Lib.btree_node_initialize) ∈ library ∧
    Safe Lib.btree_node_initialize ∧ Returns Lib.btree_node_initialize true ∧
    Returns Lib.btree_node_initialize false := by
  refine ⟨?_, check_safe 20000 (by decide +kernel), ?_, ?_⟩
  · unfold library
    iterate 47 apply List.mem_append_left
    exact List.mem_append_right _ (.head _)
  · exact retRun_returns (bits 30 1073741814) (by decide +kernel)
  · exact retRun_returns (bits 41 2198956146678) (by decide +kernel)

end Verif.Props
