import Verif.Model.AccessOf
import Verif.Lemmas.AccessRace

/-!
C77. Several threads that use one handle do not read what another changes at the same time, and each
call sees what the handle stores as if no other call were made meanwhile.

`NoRace`: in no execution of any number of threads, each with any calls one after the other, are two
threads about to access the same place (a member of the handle or what it points to), one of them to
change it.  `Atomic`: what calls change does not change between two accesses of another call.  Both are
about what the handle itself has; what handles of one container share is the subject of C57.

This holds for volumes, file entries, extended attributes and snapshots.  It does not for containers,
which are opened without the lock, which are queried for their superblock before the lock is taken, and
the object map of which is used with the lock for reading.
-/
namespace Verif.Props

open Verif.Access Verif.Spec.Access

/-- the functions of a volume but `libfsapfs_volume_get_snapshot_by_index`, which can keep the lock (C31) -/
def volumeCalls : List Graph :=
  (Volume.api.filter fun f => f.1 != "libfsapfs_volume_get_snapshot_by_index").map (·.2)

/-- the functions of a container that ask for what was read when it was opened -/
def containerQueries : List Graph :=
  [Container.container_is_locked, Container.container_get_size, Container.container_get_identifier,
   Container.container_get_number_of_volumes]

/-- what calls change of a volume -/
def volumePlaces : List Nat := [2, 5, 6, 11, 14, 16, 17, 18, 23, 24, 25]

/-- what calls change of a file entry -/
def fileEntryPlaces : List Nat := [1, 2, 3, 4, 5, 6, 7, 8, 13, 14, 15, 16, 18, 25, 27, 28, 29, 30]

/-- what calls change of an extended attribute -/
def attributePlaces : List Nat := [2, 3, 7]

theorem guarded_volumeCalls : guarded volumePlaces [.none] true volumeCalls = true := by decide +kernel

theorem guarded_fileEntry : guarded fileEntryPlaces [.none] true (FileEntry.api.map (·.2)) = true := by
  decide +kernel

theorem guarded_attribute :
    guarded attributePlaces [.none] true (ExtendedAttribute.api.map (·.2)) = true := by decide +kernel

theorem c77_volume : NoRace (Volume.api.map (·.2)) :=
  noRace_of_guarded (places := volumePlaces) (idle := [.none, .read]) (single := false)
    (by decide +kernel)

theorem c77_file_entry : NoRace (FileEntry.api.map (·.2)) :=
  noRace_of_guarded guarded_fileEntry

theorem c77_extended_attribute : NoRace (ExtendedAttribute.api.map (·.2)) :=
  noRace_of_guarded guarded_attribute

/-- calls change nothing of a snapshot -/
theorem c77_snapshot : NoRace (Snapshot.api.map (·.2)) ∧ Changed (Snapshot.api.map (·.2)) [] :=
  ⟨noRace_of_guarded (places := []) (idle := [.none]) (single := true) (by decide +kernel),
   changed_of_guarded (idle := [.none]) (single := true) (by decide +kernel)⟩

/-- as long as a container is open -/
theorem c77_container_partial : NoRace containerQueries ∧ Changed containerQueries [] :=
  ⟨noRace_of_guarded (places := []) (idle := [.none]) (single := true) (by decide +kernel),
   changed_of_guarded (idle := [.none]) (single := true) (by decide +kernel)⟩

theorem c77_volume_atomic_partial : Atomic volumeCalls volumePlaces ∧ Changed volumeCalls volumePlaces :=
  ⟨atomic_of_guarded guarded_volumeCalls, changed_of_guarded guarded_volumeCalls⟩

theorem c77_file_entry_atomic : Atomic (FileEntry.api.map (·.2)) fileEntryPlaces ∧
    Changed (FileEntry.api.map (·.2)) fileEntryPlaces :=
  ⟨atomic_of_guarded guarded_fileEntry, changed_of_guarded guarded_fileEntry⟩

theorem c77_extended_attribute_atomic : Atomic (ExtendedAttribute.api.map (·.2)) attributePlaces ∧
    Changed (ExtendedAttribute.api.map (·.2)) attributePlaces :=
  ⟨atomic_of_guarded guarded_attribute, changed_of_guarded guarded_attribute⟩

/-- A thread seeks in a file and makes the data stream for it, while another begins to ask for the size
and does not get the lock. -/
example : ∃ es c, Run (FileEntry.api.map (·.2)) initial es c ∧
    (es.filter fun x => x.1 == 0 && x.2.touches fileEntryPlaces).length = 2 ∧
    (es.filter fun x => x.1 == 1).length = 3 := by
  have h := (rfl : eventsOf (FileEntry.api.map (·.2))
    [(false, 34), (false, 1), (false, 0), (false, 0), (true, 36), (true, 1), (true, 1), (false,
    1), (false, 0)] = _)
  obtain ⟨c, hc⟩ := run_of_events h
  exact ⟨_, c, hc, by decide +kernel, by decide +kernel⟩

/-- A container is opened without its lock: a thread that asks for the size meanwhile reads the
superblock while it is set (libfsapfs_container.c:1142 and 1917). -/
theorem c77_open_race : ¬ NoRace (Container.api.map (·.2)) :=
  not_noRace (ks :=
    [(false, 1), (false, 2), (false, 0), (false, 3), (false, 0), (false, 3), (false, 0),
    (false, 3), (false, 0), (false, 3), (false, 0), (false, 3), (false, 0), (false, 3), (false,
    0), (false, 3), (false, 0), (false, 3), (false, 0), (true, 5), (true, 1), (true, 0), (true,
    1)]) (by decide +kernel)

/-- Two threads that open one container both set its superblock. -/
theorem c77_open_open_race : ¬ NoRace [Container.container_open] :=
  not_noRace (ks :=
    [(false, 0), (false, 2), (false, 0), (false, 3), (false, 0), (false, 3), (false, 0),
    (false, 3), (false, 0), (false, 3), (false, 0), (false, 3), (false, 0), (false, 3), (false,
    0), (false, 3), (false, 0), (false, 3), (false, 0), (true, 0), (true, 2), (true, 0), (true,
    3), (true, 0), (true, 3), (true, 0), (true, 3), (true, 0), (true, 3), (true, 0), (true, 3),
    (true, 0), (true, 3), (true, 0), (true, 3), (true, 0), (true, 3), (true, 0)]) (by decide +kernel)

/-- The size of a container is asked for while it is closed: whether there is a superblock is tested
before the lock is taken (libfsapfs_container.c:1917, 2134 and 2219). -/
theorem c77_close_race : ¬ NoRace [Container.container_close, Container.container_get_size] :=
  not_noRace (ks :=
    [(false, 0), (false, 1), (false, 0), (false, 1), (false, 0), (false, 0), (false, 0),
    (false, 0), (false, 0), (false, 0), (false, 0), (false, 0), (false, 0), (false, 0), (false,
    1), (false, 0), (true, 1), (true, 1), (true, 0), (true, 1)]) (by decide +kernel)

/-- Two threads that get a volume both change the cache of the object map, with the lock for reading
(libfsapfs_container.c:2279). -/
theorem c77_volume_by_index_race : ¬ NoRace [Container.container_get_volume_by_index] :=
  not_noRace (ks :=
    [(false, 0), (false, 1), (false, 0), (false, 1), (false, 0), (false, 0), (false, 1),
    (false, 0), (false, 0), (false, 0), (false, 0), (false, 0), (false, 0), (false, 0), (true,
    0), (true, 1), (true, 0), (true, 1), (true, 0), (true, 0), (true, 1), (true, 0), (true, 0),
    (true, 0), (true, 0), (true, 0), (true, 0), (true, 0)]) (by decide +kernel)

/-- Signals to abort set the flag without the lock (libfsapfs_container.c:264). -/
theorem c77_abort_race : ¬ NoRace [Container.container_signal_abort] :=
  not_noRace (ks :=
    [(false, 0), (false, 1), (false, 0), (false, 1), (false, 0), (true, 0), (true, 1), (true,
    0), (true, 1), (true, 0)]) (by decide +kernel)

end Verif.Props
