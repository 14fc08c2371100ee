import Verif.Model.Base
/-!
# Model of handles that point to memory of other handles

libfsapfs_container.c, libfsapfs_volume.c, libfsapfs_snapshot.c, libfsapfs_file_entry.c, libfsapfs_extended_attribute.c, pyfsapfs/pyfsapfs_container.c, pyfsapfs_volume.c, pyfsapfs_file_entry.c, pyfsapfs_extended_attribute.c and
the sequence objects pyfsapfs_volumes.c, pyfsapfs_file_entries.c, pyfsapfs_extended_attributes.c: which memory a handle points to, what the functions access and what is freed.

Simplified: an object and what only it owns are one allocation, freed with it. What the functions compute is not modelled, nor that closing a container sets the values of its IO handle to 0 (libfsapfs_container.c 893); a function
that uses a value in freed memory has undefined behaviour. A history is that of one thread. In Python, that `__init__` is called again is not modelled. A call with a handle that is `NULL`, or for a result whose pointer is not `NULL`, returns an error without effect; after a handle is freed, its
pointer is `NULL`.
-/
namespace Verif.Handles

abbrev Addr := Nat

/-- allocated addresses; `superblocks`: the number of volume superblocks that were allocated for snapshots. They are not freed, `libfsapfs_snapshot_free` in libfsapfs_snapshot.c 170-213 does not free `volume_superblock` and nothing calls
`libfsapfs_internal_snapshot_close` 306-355, and not accessed after the snapshot is opened, so they have no address here. -/
structure Memory where
  live : List Addr
  next : Addr
  superblocks : Nat

/-- access to memory; `none` is undefined behaviour -/
def Memory.access (m : Memory) (l : List Addr) : Option Unit := if ∀ a ∈ l, a ∈ m.live then some () else none

/-- `memory_free`; freeing what is not allocated is undefined behaviour -/
def Memory.release (m : Memory) (l : List Addr) : Option Memory := do
  m.access l
  return { m with live := m.live.filter (· ∉ l) }

def Memory.alloc (m : Memory) : Memory := { m with live := m.next :: m.live, next := m.next + 1 }

/-- what opening a container sets and closing it frees: the file IO handle, if it was created in the library, and the key bag, libfsapfs_container.c 857-998 -/
structure Session where
  file : Addr
  created : Bool
  bag : Option Addr
deriving DecidableEq

/-- a handle: the first address is that of the handle and of what only it owns, the others are those it points to -/
inductive Handle where
  /-- libfsapfs_container.h; the IO handle is created in `libfsapfs_container_initialize`, libfsapfs_container.c 111, and freed in `libfsapfs_container_free` 211 -/
  | container (self io : Addr) (session : Option Session)
  /-- `libfsapfs_volume_initialize`, libfsapfs_volume.c 143-145, from libfsapfs_container.c 2309 -/
  | volume (self io file : Addr) (bag : Option Addr)
  /-- `libfsapfs_snapshot_initialize`, libfsapfs_snapshot.c 135-137, from libfsapfs_volume.c 3505: the snapshot metadata is in an array of the volume, freed in libfsapfs_volume.c 1033-1049; the IO handle and the file IO handle are only used while
  the snapshot is opened -/
  | snapshot (self volume : Addr)
  /-- `libfsapfs_file_entry_initialize`, libfsapfs_file_entry.c 121-127, from libfsapfs_file_system.c 269, 376 and 491: the file system tree and the encryption context are those of the volume, freed in libfsapfs_volume.c 1066-1110 -/
  | entry (self io file volume : Addr)
  /-- `libfsapfs_extended_attribute_initialize`, libfsapfs_extended_attribute.c 124-129, from libfsapfs_file_entry.c 2805, 3295 and 3418: the attribute values are in an array of the file entry, freed in libfsapfs_file_entry.c 234-250 -/
  | attribute (self io file volume entry : Addr)
deriving DecidableEq

def Session.owned (s : Session) : List Addr := (if s.created then [s.file] else []) ++ s.bag.toList

/-- what is freed when the handle is freed -/
def Handle.owned : Handle → List Addr
  | .container self io none => [self, io]
  | .container self io (some s) => self :: io :: s.owned
  | .volume self .. => [self]
  | .snapshot self _ => [self]
  | .entry self .. => [self]
  | .attribute self .. => [self]

/-- functions of handles, by what they access -/
inductive Fn where
  /-- values that were read when the handle was created: for a volume its name, size and feature flags, for a file entry its inode, for an extended attribute its name and size, for a snapshot its name -/
  | values
  /-- `libfsapfs_volume_unlock`, libfsapfs_volume.c 1117-1242 -/
  | unlock
  /-- what reads the image: file entries of a volume, contents, sub file entries, parent and extended attributes of a file entry, contents of an extended attribute -/
  | files
deriving DecidableEq

/-- what a function accesses. A container that is not open returns an error, for instance libfsapfs_container.c 2276-2286. -/
def Handle.uses : Handle → Fn → List Addr
  | .container self io none, _ => [self, io]
  | .container self io (some s), _ => self :: io :: s.file :: s.bag.toList
  | .volume self _ _ _, .values => [self]
  /- libfsapfs_volume.c 1155 and 1178 -/
  | .volume self _ _ bag, .unlock => self :: bag.toList
  /- libfsapfs_volume.c 2689, 2850, 2895, 3037, 3169, 3301 -/
  | .volume self io file _, .files => [self, io, file]
  /- libfsapfs_snapshot.c 398, 472, 546, 620 -/
  | .snapshot self v, _ => [self, v]
  | .entry self _ _ _, .values => [self]
  | .entry self io file v, _ => [self, io, file, v]
  /- libfsapfs_extended_attribute.c 390, 464, 538, 612, 1140 -/
  | .attribute self _ _ _ e, .values => [self, e]
  /- libfsapfs_extended_attribute.c 676, 757, 855 -/
  | .attribute self io file v e, _ => [self, io, file, v, e]

/-- what can be obtained from a handle -/
inductive Want where
  | volume | snapshot | entry | attribute
deriving DecidableEq

/-- the handle that is obtained, with the memory at `self`; `none`: there is no such function or the container is not open. `libfsapfs_container_get_volume_by_index`, `libfsapfs_volume_get_snapshot_by_index`,
`libfsapfs_volume_get_root_directory` and the other functions for file entries, `libfsapfs_file_entry_get_sub_file_entry_by_index`, `…_get_parent_file_entry` (libfsapfs_file_entry.c 586, 3785, 3955, 4123),
`libfsapfs_file_entry_get_extended_attribute_by_index`. -/
def Handle.derive (self : Addr) : Handle → Want → Option Handle
  | .container _ io (some s), .volume => some (.volume self io s.file s.bag)
  | .volume v _ _ _, .snapshot => some (.snapshot self v)
  | .volume v io file _, .entry => some (.entry self io file v)
  | .entry _ io file v, .entry => some (.entry self io file v)
  | .entry e io file v, .attribute => some (.attribute self io file v e)
  | _, _ => none

/-! functions of the library -/

/-- `libfsapfs_container_initialize`, libfsapfs_container.c 54-150 -/
def initialize_ (m : Memory) : Handle × Memory := (.container m.next (m.next + 1) none, m.alloc.alloc)

/-- `libfsapfs_container_open`, libfsapfs_container.c 269-437, for `none`, which creates a file IO handle; `libfsapfs_container_open_file_io_handle` 633-784, for the address of a file IO handle of the caller. `encrypted`: the container has a
key bag, 1752. -/
def open_ (h : Handle) (given : Option Addr) (encrypted : Bool) (m : Memory) : Option (Handle × Memory) :=
  match h with
  | .container self io none => do
    m.access (self :: io :: given.toList)
    let (file, m) := match given with
      | some f => (f, m)
      | none => (m.next, m.alloc)
    let (bag, m) := if encrypted then (some m.next, m.alloc) else (none, m)
    return (.container self io (some { file := file, created := given.isNone, bag := bag }), m)
  | _ => do
    m.access (h.uses .values)
    return (h, m)

/-- `libfsapfs_container_close`, libfsapfs_container.c 789-1015; there is no such function for other handles -/
def close (h : Handle) (m : Memory) : Option (Handle × Memory) :=
  match h with
  | .container self io (some s) => do
    m.access [self, io, s.file]
    let m ← m.release s.owned
    return (.container self io none, m)
  | _ => do
    m.access (h.uses .values)
    return (h, m)

/-- `libfsapfs_container_free`, libfsapfs_container.c 155-228, `libfsapfs_volume_free` and `libfsapfs_internal_volume_close`, libfsapfs_volume.c 179-238 and 896-1112, `libfsapfs_snapshot_free`, `libfsapfs_file_entry_free`,
libfsapfs_file_entry.c 161-326, `libfsapfs_extended_attribute_free`, libfsapfs_extended_attribute.c 162-221: what the handle points to and does not own is not accessed, apart from the file IO handle of a container -/
def free (h : Handle) (m : Memory) : Option Memory := do
  match h with
  | .container _ _ (some s) => m.access [s.file]
  | _ => pure ()
  m.release h.owned

/-- the volume superblock of a snapshot, `libfsapfs_internal_snapshot_open_read`, libfsapfs_snapshot.c 218-301, from libfsapfs_volume.c 3523 -/
def openSnapshot (w : Want) (m : Memory) : Memory :=
  match w with
  | .snapshot => { m with superblocks := m.superblocks + 1 }
  | _ => m

/-- a function for a handle; the library can fail, also for reasons other than those in `Handle.derive`. That of a snapshot fails here when the superblock is read, libfsapfs_snapshot.c 279 and libfsapfs_volume.c 3557-3562; failing before
that has the effect of `Call.call`. -/
def get (h : Handle) (w : Want) (succeeds : Bool) (m : Memory) : Option (Option Handle × Memory) := do
  m.access (h.uses .files)
  match h.derive m.next w with
  | none => return (none, m)
  | some d => if succeeds then return (some d, openSnapshot w m.alloc) else return (none, openSnapshot w m)

/-! histories of calls of a C program -/

/-- a call; handles are named by the variable that has the pointer -/
inductive Call where
  | initialize_ (n : Nat)
  | open_ (n : Nat) (given : Option Addr) (encrypted succeeds : Bool)
  | close (n : Nat)
  | free (n : Nat)
  | get (n : Nat) (w : Want) (result : Nat) (succeeds : Bool)
  | call (n : Nat) (f : Fn)

structure State where
  handles : List (Nat × Handle)
  memory : Memory

def State.find (s : State) (n : Nat) : Option Handle := (s.handles.find? (fun p => p.1 = n)).map (·.2)
def State.set (s : State) (n : Nat) (h : Handle) (m : Memory) : State := { handles := s.handles.map (fun p => if p.1 = n then (n, h) else p), memory := m }

/-- `none` is undefined behaviour. A file IO handle of the caller is not freed by the library. If opening fails, what was allocated is freed again, see Verif/Model/Lifecycle.lean. -/
def step (s : State) : Call → Option State
  | .initialize_ n =>
    match s.find n with
    | some _ => some s
    | none => some { handles := (n, (initialize_ s.memory).1) :: s.handles, memory := (initialize_ s.memory).2 }
  | .open_ n given encrypted succeeds =>
    match s.find n with
    | none => some s
    | some h => do
      let (h', m) ← open_ h given encrypted s.memory
      if succeeds then return s.set n h' m else return s
  | .close n =>
    match s.find n with
    | none => some s
    | some h => do
      let (h, m) ← close h s.memory
      return s.set n h m
  | .free n =>
    match s.find n with
    | none => some s
    | some h => do
      let m ← free h s.memory
      return { handles := s.handles.filter (fun p => p.1 ≠ n), memory := m }
  | .get n w result succeeds =>
    match s.find n, s.find result with
    | some h, none => do
      let (r, m) ← get h w succeeds s.memory
      match r with
      | none => return { s with memory := m }
      | some d => return { handles := (result, d) :: s.handles, memory := m }
    | _, _ => some s
  | .call n f =>
    match s.find n with
    | none => some s
    | some h => do
      s.memory.access (h.uses f)
      return s

def run (s : State) : List Call → Option State
  | [] => some s
  | c :: cs => do run (← step s c) cs

/-- before the first call; `files` are file IO handles of the program -/
def start (files : List Addr) : State := { handles := [], memory := { live := files, next := files.foldr Nat.max 0 + 1, superblocks := 0 } }

/-! Python -/

/-- a Python object: references to it, the handle, which sequence objects do not have, and the object it refers to: `parent_object` -/
structure Object where
  id : Nat
  references : Nat
  handle : Option Handle
  parent : Option Nat

structure Heap where
  objects : List Object
  /-- the objects that variables of the program refer to -/
  held : List Nat
  memory : Memory
  /-- identifier of the next object -/
  next : Nat
  /-- the containers that were opened with a file object: their `file_io_handle`, pyfsapfs_container.h, is not `NULL`. Identifiers are not used again, so those of containers that were freed can stay. -/
  byObject : List Nat

def Heap.find (s : Heap) (o : Nat) : Option Object := s.objects.find? (fun p => p.id = o)

/-- `Py_IncRef` -/
def Heap.retain (s : Heap) (o : Nat) : Heap :=
  { s with objects := s.objects.map (fun p => if p.id = o then { p with references := p.references + 1 } else p) }

/-- the objects other than one that is freed -/
def Heap.without (s : Heap) (o : Nat) (m : Memory) : Heap := { s with objects := s.objects.filter (fun q => q.id ≠ o), memory := m }

/-- the handle of an object, if it has one, is freed -/
def freeOf (h : Option Handle) (m : Memory) : Option Memory :=
  match h with
  | none => some m
  | some h => free h m

/-- `Py_DecRef` and, if there is no reference left, `pyfsapfs_container_free`, pyfsapfs_container.c 284-361, `pyfsapfs_volume_free`, pyfsapfs_volume.c 349-418, `pyfsapfs_file_entry_free`, `pyfsapfs_extended_attribute_free` and, of sequence objects,
`pyfsapfs_file_entries_free`, pyfsapfs_file_entries.c 250-297: the handle is freed, then the reference to the parent is released -/
def Heap.drop (s : Heap) (o : Option Nat) : Option Heap :=
  match o with
  | none => some s
  | some o =>
    match _h : s.find o with
    | none => none
    | some p =>
      if p.references > 1 then some { s with objects := s.objects.map (fun q => if q.id = o then { q with references := q.references - 1 } else q) }
      else do
        let m ← freeOf p.handle s.memory
        Heap.drop (s.without o m) p.parent
termination_by s.objects.length
decreasing_by
  unfold Heap.find at _h
  have hm := List.mem_of_find?_eq_some _h
  have hp := List.find?_some _h
  simp only [decide_eq_true_eq] at hp
  have := List.length_filter_lt_length_iff_exists (p := fun q : Object => decide (q.id ≠ o)) (l := s.objects)
  exact this.2 ⟨p, hm, by simp [hp]⟩

def Heap.new (s : Heap) (h : Option Handle) (parent : Option Nat) (m : Memory) : Heap :=
  { objects := { id := s.next, references := 1, handle := h, parent := parent } :: (match parent with | none => s.objects | some o => (s.retain o).objects), held := s.next :: s.held, memory := m,
    next := s.next + 1, byObject := s.byObject }

/-- what a Python program does; objects are named by their number -/
inductive Action where
  /-- `pyfsapfs.container()` -/
  | container
  /-- `open`, pyfsapfs_container.c 415-627 -/
  | open_ (o : Nat) (encrypted succeeds : Bool)
  /-- `open_file_object`, pyfsapfs_container.c 632-766 -/
  | openFile (o : Nat) (encrypted succeeds : Bool)
  | close (o : Nat)
  | get (o : Nat) (w : Want) (succeeds : Bool)
  /-- properties that are sequences: `volumes`, `sub_file_entries`, `extended_attributes` -/
  | sequence (o : Nat)
  /-- an item of a sequence: `sequence_object->get_item_by_index( sequence_object->parent_object, … )`, pyfsapfs_file_entries.c 362-364 and 442-444 -/
  | item (o : Nat) (w : Want) (succeeds : Bool)
  | call (o : Nat) (f : Fn)
  /-- another variable refers to the object -/
  | copy (o : Nat)
  /-- a variable no longer refers to the object -/
  | drop (o : Nat)

/-- the parent of the object that is made for a handle: pyfsapfs_container.c 1115, pyfsapfs_volume.c 1034, 1112 and 1206, pyfsapfs_file_entry.c 2024 and 2286, for sub file entries the parent of the file entry 2413 and 2599 -/
def parentFor (p : Object) (h : Handle) : Want → Option Nat
  | .entry =>
    match h with
    | .entry .. => p.parent
    | _ => some p.id
  | _ => some p.id

/-- a method for a handle; there is none for snapshots -/
def Heap.derive (s : Heap) (p : Object) (w : Want) (succeeds : Bool) : Option Heap :=
  match p.handle with
  | none => some s
  | some h => if w = .snapshot then some s else do
    let (r, m) ← get h w succeeds s.memory
    match r with
    | none => return { s with memory := m }
    | some d => return s.new (some d) (parentFor p h w) m

def Heap.setHandle (s : Heap) (o : Nat) (h : Handle) (m : Memory) : Heap := { s with objects := s.objects.map (fun p => if p.id = o then { p with handle := some h } else p), memory := m }

/-- the object that an action is for -/
def Action.object : Action → Option Nat
  | .container => none
  | .open_ o _ _ => some o
  | .openFile o _ _ => some o
  | .close o => some o
  | .get o _ _ => some o
  | .sequence o => some o
  | .item o _ _ => some o
  | .call o _ => some o
  | .copy o => some o
  | .drop o => some o

/-- `open_file_object` of a container, pyfsapfs_container.c 704-765, for a file object that can be read. If there is a file IO handle of an earlier call, the method fails and frees it (704-713, 759-764), though the container that is
open uses it. Otherwise it makes one, that closing frees, as it frees one that the library made (792-833); if the container does not open, for instance since it is open, that one is freed. -/
def Heap.openObject (s : Heap) (o : Nat) (h : Handle) (encrypted succeeds : Bool) : Option Heap :=
  if o ∈ s.byObject then
    match h with
    | .container _ _ (some u) => do
      let m ← s.memory.release [u.file]
      return { s with memory := m, byObject := s.byObject.filter (· ≠ o) }
    | _ => some s
  else
    match h with
    | .container _ _ none => do
      let (h', m) ← open_ h none encrypted s.memory
      if succeeds then return { s.setHandle o h' m with byObject := o :: s.byObject } else return s
    | _ => do
      s.memory.access (h.uses .values)
      return s

/-- one action for an object that the program refers to; `none` is undefined behaviour. Methods of one kind of objects for another kind raise an exception. -/
def Heap.perform (s : Heap) : Action → Option Heap
  | .container => some (s.new (some (initialize_ s.memory).1) none (initialize_ s.memory).2)
  | .open_ o encrypted succeeds =>
    match s.find o with
    | none => none
    | some p =>
      match p.handle with
      | none => some s
      | some h => do
        let (h', m) ← open_ h none encrypted s.memory
        if succeeds then return s.setHandle o h' m else return s
  | .openFile o encrypted succeeds =>
    match s.find o with
    | none => none
    | some p =>
      match p.handle with
      | none => some s
      | some h => s.openObject o h encrypted succeeds
  | .close o =>
    match s.find o with
    | none => none
    | some p =>
      match p.handle with
      | none => some s
      | some h => do
        let (h, m) ← close h s.memory
        return { s.setHandle o h m with byObject := s.byObject.filter (· ≠ o) }
  | .get o w succeeds =>
    match s.find o with
    | none => none
    | some p => s.derive p w succeeds
  | .sequence o =>
    match s.find o with
    | none => none
    | some p =>
      match p.handle with
      | none => some s
      | some h => do
        s.memory.access (h.uses .files)
        return s.new none (some o) s.memory
  | .item o w succeeds =>
    match s.find o with
    | none => none
    | some p =>
      match p.handle, p.parent with
      | none, some q =>
        match s.find q with
        | none => none
        | some p => s.derive p w succeeds
      | _, _ => some s
  | .call o f =>
    match s.find o with
    | none => none
    | some p =>
      match p.handle with
      | none => some s
      | some h => do
        s.memory.access (h.uses f)
        return s
  | .copy o => some { s.retain o with held := o :: s.held }
  | .drop o => ({ s with held := s.held.erase o }).drop (some o)

def Heap.act (s : Heap) (a : Action) : Option Heap :=
  if ∀ o ∈ a.object, o ∈ s.held then s.perform a else some s

def Heap.run (s : Heap) : List Action → Option Heap
  | [] => some s
  | a :: as => do Heap.run (← s.act a) as

def Heap.empty : Heap := { objects := [], held := [], memory := { live := [], next := 0, superblocks := 0 }, next := 0, byObject := [] }

end Verif.Handles
