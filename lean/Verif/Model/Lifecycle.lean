import Verif.Model.Base
/-!
# Model of opening and closing of containers: memory and file IO handles

The functions of libfsapfs_container.c that change or use the state of the handle. What is read is arbitrary (`Info`), every call of another module can fail, what is kept is the memory that is
owned by the handle or by local variables, the file IO handle and its ownership. Debug output, profiling and Fusion drives (refused without debug output, 1174-1186) are not modelled.

Simplified: checks of arguments for `NULL` are left out, the history is that of one thread (locks are the subject of `Model/Locks.lean`), an object and what it owns are one allocation.
-/
namespace Verif.Life

/-- what the library reads when a container is opened: size, number of volumes, identifier, container is locked -/
structure Info where
  size : Nat
  volumes : Nat
  identifier : Nat
  locked : Bool
deriving DecidableEq, Repr

/-- pointers: fields of the handle (libfsapfs_container.h) and local variables of `libfsapfs_internal_container_open_read` (libfsapfs_container.c 1026-1030).
`vectorData` is the data handle that is managed by the data block vector. -/
inductive Slot where
  | superblock | fusion | map | vector | vectorData | btree | keyBag
  | backup | object | objectMap | dataHandle
deriving DecidableEq, Repr

def Slot.all : List Slot := [superblock, fusion, map, vector, vectorData, btree, keyBag, backup, object, objectMap, dataHandle]

/-- memory: pointers, allocated addresses, what is at an address; `size` is the container size of the IO handle -/
structure Heap where
  ptr : Slot → Option Nat
  live : List Nat
  next : Nat
  content : Nat → Info
  size : Nat

def Heap.set (h : Heap) (x : Slot) (p : Option Nat) : Heap := { h with ptr := fun y => if y = x then p else h.ptr y }

inductive Stmt where
  | skip
  | seq (a b : Stmt)
  | branch (a b : Stmt)
  /-- any number of times -/
  | loop (a : Stmt)
  /-- `goto on_error` -/
  | goto
  /-- `…_initialize( &x )`: fails if the pointer is set -/
  | alloc (x : Slot)
  /-- `…_read_file_io_handle( x, … )`: uses the object, changes what is in it -/
  | read (x : Slot)
  /-- the object is used -/
  | use (x : Slot)
  /-- `if( x != NULL ) { …_free( &x ) }`; the pointer is set to `NULL` also if an error is returned -/
  | free (x : Slot)
  | swap (x y : Slot)
  /-- `y = x; x = NULL` -/
  | move (x y : Slot)
  /-- `io_handle->container_size = …` from the superblock -/
  | setSize
deriving DecidableEq, Repr

inductive Out where
  | next | goto | ub
deriving DecidableEq, Repr

/-- executions of a statement -/
inductive Exec : Stmt → Heap → Heap → Out → Prop where
  | skip {h} : Exec .skip h h .next
  | seq {a b h h' h'' o} : Exec a h h' .next → Exec b h' h'' o → Exec (.seq a b) h h'' o
  | leave {a b h h' o} : Exec a h h' o → o ≠ .next → Exec (.seq a b) h h' o
  | left {a b h h' o} : Exec a h h' o → Exec (.branch a b) h h' o
  | right {a b h h' o} : Exec b h h' o → Exec (.branch a b) h h' o
  | done {a h} : Exec (.loop a) h h .next
  | again {a h h' h'' o} : Exec a h h' .next → Exec (.loop a) h' h'' o → Exec (.loop a) h h'' o
  | loopLeave {a h h' o} : Exec a h h' o → o ≠ .next → Exec (.loop a) h h' o
  | goto {h} : Exec .goto h h .goto
  | alloc {x h i} : h.ptr x = none →
      Exec (.alloc x) h { h.set x (some h.next) with live := h.next :: h.live, next := h.next + 1, content := fun a => if a = h.next then i else h.content a } .next
  | allocFailed {x h} : Exec (.alloc x) h h .goto
  | read {x h p i} : h.ptr x = some p → p ∈ h.live → Exec (.read x) h { h with content := fun a => if a = p then i else h.content a } .next
  | readFailed {x h p i} : h.ptr x = some p → p ∈ h.live → Exec (.read x) h { h with content := fun a => if a = p then i else h.content a } .goto
  | readUb {x h} : (∀ p, h.ptr x = some p → p ∉ h.live) → Exec (.read x) h h .ub
  | use {x h p} : h.ptr x = some p → p ∈ h.live → Exec (.use x) h h .next
  | useUb {x h} : (∀ p, h.ptr x = some p → p ∉ h.live) → Exec (.use x) h h .ub
  | freeNull {x h} : h.ptr x = none → Exec (.free x) h h .next
  | free {x h p} : h.ptr x = some p → p ∈ h.live → Exec (.free x) h { h.set x none with live := h.live.erase p } .next
  | freeUb {x h p} : h.ptr x = some p → p ∉ h.live → Exec (.free x) h h .ub
  | swap {x y h} : Exec (.swap x y) h ((h.set x (h.ptr y)).set y (h.ptr x)) .next
  | move {x y h} : Exec (.move x y) h ((h.set y (h.ptr x)).set x none) .next
  | setSize {h p} : h.ptr .superblock = some p → p ∈ h.live → Exec .setSize h { h with size := (h.content p).size } .next
  | setSizeUb {h} : (∀ p, h.ptr .superblock = some p → p ∉ h.live) → Exec .setSize h h .ub

def seqs : List Stmt → Stmt
  | [] => .skip
  | [s] => s
  | s :: ss => .seq s (seqs ss)

/-- a call that can fail: `if( … != 1 ) { …; goto on_error; }` -/
def step : Stmt := .branch .goto .skip

/-- one block of the checkpoint descriptor area: libfsapfs_container.c 1213-1353 -/
def scanBlock : Stmt := seqs [
  .read .object,                                   -- 1213
  .branch .skip (.branch                           -- 1230: other types
    (.use .superblock)                             -- 1284-1288: checkpoint map
    (seqs [                                        -- 1291-1348: superblock
      .alloc .backup,                              -- 1299
      .read .backup,                               -- 1312
      .use .superblock,                            -- 1329
      .branch (.swap .superblock .backup) .skip,   -- 1331-1333
      .free .backup,                               -- 1335
      step]))]

/-- body of `libfsapfs_internal_container_open_read`: libfsapfs_container.c 1141-1793 -/
def openReadBody : Stmt := seqs [
  .alloc .superblock,                              -- 1141
  .read .superblock,                               -- 1154
  .setSize,                                        -- 1171-1172
  step,                                            -- 1175
  .alloc .object,                                  -- 1194
  .use .superblock,                                -- 1207
  .loop scanBlock,                                 -- 1209-1354
  .free .object, step,                             -- 1355
  step,                                            -- 1368
  .alloc .map,                                     -- 1386
  .read .map,                                      -- 1401
  .alloc .dataHandle,                              -- 1596
  .alloc .vector,                                  -- 1610
  .move .dataHandle .vectorData,                   -- 1630-1631
  .use .vector, step,                              -- 1633
  .use .superblock, step,                          -- 1652
  .alloc .objectMap,                               -- 1672
  .read .objectMap,                                -- 1685
  .use .objectMap, step,                           -- 1702
  .alloc .btree,                                   -- 1720
  .free .objectMap, step,                          -- 1736
  .use .superblock,                                -- 1749
  .branch (seqs [.alloc .keyBag, .read .keyBag]) .skip]  -- 1752-1792

/-- what follows `on_error:` in `libfsapfs_internal_container_open_read`: libfsapfs_container.c 1797-1878. The data block vector frees its data handle. -/
def openReadHandler : Stmt := seqs [
  .free .keyBag, .free .btree, .free .objectMap, .free .vectorData, .free .vector, .free .dataHandle, .free .map, .free .backup, .free .fusion, .free .object, .free .superblock]

/-- the objects that `libfsapfs_container_close` frees: libfsapfs_container.c 906-998 -/
def closeFrees : Stmt := seqs [
  .free .superblock, .free .fusion, .free .map, .free .vectorData, .free .vector, .free .btree, .free .keyBag]

/-- the fields that must not be set: libfsapfs_container.c 1068-1133 -/
def unset (h : Heap) : Bool := [Slot.superblock, .fusion, .map, .vector, .btree, .keyBag].all (fun x => h.ptr x == none)

/-- `libfsapfs_internal_container_open_read`, libfsapfs_container.c 1020-1880: `some true` if successful, `some false` on error, `none` if memory is not used properly -/
inductive OpenRead : Heap → Heap → Option Bool → Prop where
  | refused {h} : unset h = false → OpenRead h h (some false)
  | ok {h h'} : unset h = true → Exec openReadBody h h' .next → OpenRead h h' (some true)
  | failed {h h' h''} : unset h = true → Exec openReadBody h h' .goto → Exec openReadHandler h' h'' .next → OpenRead h h'' (some false)
  | ub {h h'} : unset h = true → Exec openReadBody h h' .ub → OpenRead h h' none
  | handlerUb {h h' h''} : unset h = true → Exec openReadBody h h' .goto → Exec openReadHandler h' h'' .ub → OpenRead h h'' none

/-- file IO handles -/
inductive Io where
  | closed | opened | freed
deriving DecidableEq, Repr

/-- A container handle and the file IO handles of the process: `file_io_handle`, `file_io_handle_opened_in_library`, `file_io_handle_created_in_library`. Handles from `nextIo` on do not exist. -/
structure St where
  heap : Heap
  fileIo : Option Nat
  openedInLibrary : Bool
  createdInLibrary : Bool
  io : Nat → Io
  nextIo : Nat

def St.setIo (s : St) (k : Nat) (v : Io) : St := { s with io := fun n => if n = k then v else s.io n }

/-- faults that are not failures to read: a lock cannot be grabbed, a file IO handle cannot be closed -/
structure Faults where
  locks : Bool
  closes : Bool

/-- outcome of a call -/
inductive Outcome (α : Type) where
  | ok (a : α)
  | fail
  | ub
deriving DecidableEq, Repr

/-- calls of the API and their outcomes -/
inductive Event where
  /-- `libfsapfs_container_open_file_io_handle` with a handle of the caller -/
  | openHandle (k : Nat) (r : Outcome Unit)
  /-- `libfsapfs_container_open`, `libfsapfs_container_open_wide` -/
  | openPath (r : Outcome Unit)
  | close (r : Outcome Unit)
  | getSize (r : Outcome Nat)
  | getNumberOfVolumes (r : Outcome Nat)
  | getIdentifier (r : Outcome Nat)
  | isLocked (r : Outcome Bool)
  | getVolume (index : Int) (r : Outcome Unit)
  /-- the caller opens or closes a handle of its own that is not in use by the container -/
  | caller (k : Nat) (v : Io)
deriving DecidableEq, Repr

/-- `libbfio_handle_close`: on failure the handle can remain open -/
inductive CloseIo (f : Faults) (k : Nat) : St → St → Bool → Prop where
  | ok {s} : CloseIo f k s (s.setIo k .closed) true
  | failed {s} : f.closes = true → CloseIo f k s s false

/-- `libfsapfs_container_open_file_io_handle`, libfsapfs_container.c 616-784 -/
inductive OpenHandle (f : Faults) (k : Nat) : St → St → Outcome Unit → Prop where
  /-- 641 -/
  | refused {s} : s.fileIo ≠ none → OpenHandle f k s s .fail
  | ubFreed {s} : s.fileIo = none → s.io k = .freed → OpenHandle f k s s .ub
  /-- 690-707: status not known or handle cannot be opened; also unsupported access flags, 663-675 -/
  | notOpened {s} : s.fileIo = none → s.io k ≠ .freed → OpenHandle f k s s .fail
  | ub {s h} : s.fileIo = none → s.io k ≠ .freed → OpenRead s.heap h none → OpenHandle f k s { s with heap := h } .ub
  /-- 723, the handle was open: on_error leaves it open -/
  | readFailed {s h} : s.fileIo = none → s.io k = .opened → OpenRead s.heap h (some false) → OpenHandle f k s { s with heap := h } .fail
  /-- 723, the handle was opened by the library: on_error closes it, 777-782 -/
  | readFailedClose {s h u b} : s.fileIo = none → s.io k = .closed → OpenRead s.heap h (some false) → CloseIo f k ({ s with heap := h }.setIo k .opened) u b → OpenHandle f k s u .fail
  /-- 739 -/
  | lockFailed {s h} : f.locks = true → s.fileIo = none → s.io k = .opened → OpenRead s.heap h (some true) → OpenHandle f k s { s with heap := h } .fail
  | lockFailedClose {s h u b} : f.locks = true → s.fileIo = none → s.io k = .closed → OpenRead s.heap h (some true) → CloseIo f k ({ s with heap := h }.setIo k .opened) u b → OpenHandle f k s u .fail
  /-- 753-774 -/
  | ok {s h} : s.fileIo = none → s.io k ≠ .freed → OpenRead s.heap h (some true) →
      OpenHandle f k s { s.setIo k .opened with heap := h, fileIo := some k, openedInLibrary := decide (s.io k = .closed) } (.ok ())

/-- `libfsapfs_container_open`, libfsapfs_container.c 272-437; `libfsapfs_container_open_wide`, 444-609 -/
inductive OpenPath (f : Faults) : St → St → Outcome Unit → Prop where
  /-- 307-330: unsupported access flags, no handle -/
  | refused {s} : OpenPath f s s .fail
  /-- 362: name not set, the handle is freed -/
  | nameFailed {s} : OpenPath f s { s.setIo s.nextIo .freed with nextIo := s.nextIo + 1 } .fail
  /-- 377, 432: the handle is freed, `libbfio_handle_free` closes it -/
  | failed {s u} : OpenHandle f s.nextIo { s.setIo s.nextIo .closed with nextIo := s.nextIo + 1 } u .fail → OpenPath f s (u.setIo s.nextIo .freed) .fail
  | ub {s u} : OpenHandle f s.nextIo { s.setIo s.nextIo .closed with nextIo := s.nextIo + 1 } u .ub → OpenPath f s u .ub
  /-- 394, 432: the handle is freed though the container refers to it -/
  | lockFailed {s u} : f.locks = true → OpenHandle f s.nextIo { s.setIo s.nextIo .closed with nextIo := s.nextIo + 1 } u (.ok ()) → OpenPath f s (u.setIo s.nextIo .freed) .fail
  /-- 408 -/
  | ok {s u} : OpenHandle f s.nextIo { s.setIo s.nextIo .closed with nextIo := s.nextIo + 1 } u (.ok ()) → OpenPath f s { u with createdInLibrary := true } (.ok ())

/-- what `libfsapfs_container_close` does with the file IO handle, libfsapfs_container.c 857-891 -/
inductive CloseFile (f : Faults) (k : Nat) : St → St → Outcome Unit → Prop where
  | ub {s} : s.io k = .freed → (s.openedInLibrary || s.createdInLibrary) = true → CloseFile f k s s .ub
  | keep {s} : s.openedInLibrary = false → s.createdInLibrary = false → CloseFile f k s { s with fileIo := none } (.ok ())
  | closed {s u b} : s.io k ≠ .freed → s.openedInLibrary = true → s.createdInLibrary = false → CloseIo f k s u b →
      CloseFile f k s { u with openedInLibrary := false, fileIo := none } (if b then .ok () else .fail)
  | closedFreed {s u b} : s.io k ≠ .freed → s.openedInLibrary = true → s.createdInLibrary = true → CloseIo f k s u b →
      CloseFile f k s { u.setIo k .freed with openedInLibrary := false, createdInLibrary := false, fileIo := none } (if b then .ok () else .fail)
  | freed {s} : s.io k ≠ .freed → s.openedInLibrary = false → s.createdInLibrary = true →
      CloseFile f k s { s.setIo k .freed with createdInLibrary := false, fileIo := none } (.ok ())

/-- `libfsapfs_container_close`, libfsapfs_container.c 789-1015 -/
inductive Close (f : Faults) : St → St → Outcome Unit → Prop where
  /-- 810 -/
  | refused {s} : s.fileIo = none → Close f s s .fail
  /-- 822 -/
  | lockFailed {s} : f.locks = true → s.fileIo ≠ none → Close f s s .fail
  | fileUb {s k u} : s.fileIo = some k → CloseFile f k s u .ub → Close f s u .ub
  | ub {s k u r h} : s.fileIo = some k → CloseFile f k s u r → r ≠ .ub → Exec closeFrees { u.heap with size := 0 } h .ub → Close f s { u with heap := h } .ub
  /-- 857-998; freeing can report an error, then everything is freed nevertheless -/
  | done {s k u r h} : s.fileIo = some k → CloseFile f k s u r → r ≠ .ub → Exec closeFrees { u.heap with size := 0 } h .next → Close f s { u with heap := h } r
  | doneError {s k u r h} : s.fileIo = some k → CloseFile f k s u r → r ≠ .ub → Exec closeFrees { u.heap with size := 0 } h .next → Close f s { u with heap := h } .fail

/-- value of a field of the superblock: refused if there is none -/
def fromSuperblock {α : Type} (s : St) (g : Info → α) : Outcome α :=
  match s.heap.ptr .superblock with
  | none => .fail
  | some p => if p ∈ s.heap.live then .ok (g (s.heap.content p)) else .ub

/-- `libfsapfs_container_get_size`, libfsapfs_container.c 1885-1972: the size is that of the IO handle -/
def getSize (s : St) : Outcome Nat :=
  match s.heap.ptr .superblock with
  | none => .fail
  | some _ => .ok s.heap.size

/-- `libfsapfs_container_get_number_of_volumes`, libfsapfs_container.c 2113-2189 -/
def getNumberOfVolumes (s : St) : Outcome Nat := fromSuperblock s Info.volumes

/-- `libfsapfs_container_get_identifier`, libfsapfs_container.c 1978-2047; `libfsapfs_container_superblock_get_container_identifier` refuses `NULL` -/
def getIdentifier (s : St) : Outcome Nat := fromSuperblock s Info.identifier

/-- `libfsapfs_container_is_locked`, libfsapfs_container.c 2052-2108 -/
def isLocked (s : St) : Outcome Bool :=
  match s.heap.ptr .keyBag with
  | none => .ok false
  | some p => if p ∈ s.heap.live then .ok (s.heap.content p).locked else .ub

/-- the memory that `libfsapfs_container_get_volume_by_index` uses is valid: B-tree, data block vector, file IO handle -/
def volumeUsable (s : St) : Bool :=
  (match s.heap.ptr .btree with | none => false | some p => decide (p ∈ s.heap.live)) &&
  (match s.heap.ptr .vector with | none => false | some p => decide (p ∈ s.heap.live)) &&
  (match s.heap.ptr .vectorData with | none => false | some p => decide (p ∈ s.heap.live)) &&
  (match s.fileIo with | none => false | some k => decide (s.io k ≠ .freed))

/-- `libfsapfs_container_get_volume_by_index`, libfsapfs_container.c 2195-2392: reading the volume can fail (`b` is `false`), the volume belongs to the caller -/
def getVolume (s : St) (index : Int) (b : Bool) : Outcome Unit :=
  match getNumberOfVolumes s with
  | .fail => .fail
  | .ub => .ub
  | .ok n =>
    if index < 0 ∨ index ≥ n then .fail
    else if volumeUsable s then (if b then .ok () else .fail) else .ub

/-- one call; the caller does not pass or use a file IO handle that was freed, and does not open or close the one the container uses.
Simplified: a query does not fail because the lock cannot be grabbed, it changes nothing. -/
inductive Call (f : Faults) : St → Event → St → Prop where
  | openHandle {s k u r} : k < s.nextIo → s.io k ≠ .freed → OpenHandle f k s u r → Call f s (.openHandle k r) u
  | openPath {s u r} : OpenPath f s u r → Call f s (.openPath r) u
  | close {s u r} : Close f s u r → Call f s (.close r) u
  | getSize {s} : Call f s (.getSize (getSize s)) s
  | getNumberOfVolumes {s} : Call f s (.getNumberOfVolumes (getNumberOfVolumes s)) s
  | getIdentifier {s} : Call f s (.getIdentifier (getIdentifier s)) s
  | isLocked {s} : Call f s (.isLocked (isLocked s)) s
  | getVolume {s i b} : Call f s (.getVolume i (getVolume s i b)) s
  | caller {s k v} : k < s.nextIo → s.fileIo ≠ some k → s.io k ≠ .freed → v ≠ .freed → Call f s (.caller k v) (s.setIo k v)

inductive Calls (f : Faults) : St → List Event → St → Prop where
  | nil {s} : Calls f s [] s
  | snoc {s es u e v} : Calls f s es u → Call f u e v → Calls f s (es ++ [e]) v

/-- `libfsapfs_container_initialize`, libfsapfs_container.c 48-150, in a process with the file IO handles `io` -/
def initial (io : Nat → Io) (nextIo : Nat) (size : Nat) (content : Nat → Info) : St where
  heap := { ptr := fun _ => none, live := [], next := 0, content := content, size := size }
  fileIo := none
  openedInLibrary := false
  createdInLibrary := false
  io := io
  nextIo := nextIo

end Verif.Life
