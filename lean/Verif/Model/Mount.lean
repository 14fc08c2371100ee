import Verif.Model.Hierarchy
import Verif.Spec.Fuse
/-!
# Model of fsapfsmount: mount_handle.c, mount_file_system.c, mount_file_entry.c and mount_fuse.c of fsapfstools

System characters are bytes, so that paths and names are C strings in UTF-8. `SIZEOF_OFF_T` is 8 and `STAT_HAVE_NSEC` is defined. FUSE passes pointers that are not NULL and a `file_info` whose
`fh` is NULL in `open` and `opendir`; `filler` accepts every name. Owner and group of a file are those of the process (mount_fuse.c 113-118), they are left out, as are allocation failures.
libfdata keeps the position of a data stream, reading at an offset is seeking and reading.
-/
namespace Verif
open Res
namespace Mount
open FileRead (Files FileNode NodeResult Reader)
open PathString (cString copyFrom mountCopyTo ssizeMax)
open Spec.Fuse (Errno Reply Stat Value Request Answer)

/-- `INT_MAX` -/
def intMax : Nat := 2 ^ 31 - 1

/-- a volume that is mounted, and the external libraries: libuna for characters and for names, comparison of attribute names, decompression, the prior content of segment data -/
structure Mounted where
  files : Files
  text : PathString.Codec
  una : Bytes → Res Bytes
  compare : Bytes → Bytes → Res Bool
  unpack : Codec
  junk : Bytes

/-- `mount_file_entry_t` with the file entry of libfsapfs that it has -/
structure Handle where
  name : Bytes
  node : FileNode
  entry : FileEntry.Entry
  reader : Option Reader := none

/-- a new file entry -/
def Handle.new (name : Bytes) (node : FileNode) : Handle := { name, node, entry := FileRead.entryOf node.inode }

/-- the result of a function that is needed, with the error for its failure -/
def reply {α : Type} (e : Errno) : Res α → Reply α
  | .ok a => .value a
  | .err => .fails e
  | .ub => .ub

/-- the loop that looks for the separator, mount_handle.c 1104-1113 -/
def lastSlash (path : Bytes) : Nat → Nat
  | 0 => 0
  | n + 1 => if path[n + 1]? = some 0x2f then n + 1 else lastSlash path n

/-- the length of a path without the separator at its end, mount_handle.c 1085-1103 -/
def pathLength (path : Bytes) : Nat := if 2 ≤ path.length ∧ path[path.length - 1]? = some 0x2f then path.length - 1 else path.length

/-- `path_length - ( path_index + 1 )` as size_t, mount_handle.c 1124 -/
def nameLength (path : Bytes) : Nat := (pathLength path + 2 ^ 64 - (lastSlash path (pathLength path) + 1)) % 2 ^ 64

/-- `mount_file_system_get_file_entry_by_path`, mount_file_system.c 372-466 -/
def nodeAt (m : Mounted) (path : Bytes) : Res (Option FileNode) := do
  let p ← mountCopyTo m.text path
  let r ← FileRead.byPath m.text.decoder m.text.decoder 0x2f m.files (cString p)
  return r.map fun r => { inode := r.1, record := r.2 }

/-- `mount_handle_get_file_entry_by_path`, mount_handle.c 1049-1174, with the check of `mount_file_entry_initialize`, mount_file_entry.c 93; `none` is `return( 0 )` -/
def fileAt (m : Mounted) (path : Bytes) : Res (Option Handle) := do
  let path := cString path
  require (path.length ≠ 0)
  let n ← nodeAt m (path.take (pathLength path))
  match n with
  | none => return none
  | some n =>
    require (nameLength path ≤ ssizeMax - 1)
    return some (.new ((path.drop (lastSlash path (pathLength path) + 1)).take (nameLength path)) n)

/-- `mount_file_system_get_filename_from_file_entry`, mount_file_system.c 471-594 -/
def nameOf (m : Mounted) (n : FileNode) : Res Bytes := do
  let s ← FileRead.nodeName m.una n
  copyFrom m.text .mount s

/-- uint64_t to int64_t -/
def signed64 (n : Nat) : Int := if n < 2 ^ 63 then n else n - 2 ^ 64

/-- seconds and nanoseconds, mount_fuse.c 141-148: `/` and `%` of signed integers -/
def timePair (t : Int) : Int × Int := (t.tdiv 1000000000, t.tmod 1000000000)

/-- `mount_fuse_set_stat_info`, mount_fuse.c 65-153 -/
def setStat (size mode : Nat) (access change modification : Int) : Res Stat := do
  require (size ≤ 2 ^ 63 - 1)
  return { size, mode, links := if mode / 0x4000 % 2 ≠ 0 then 2 else 1, access := timePair access, change := timePair change, modification := timePair modification }

/-- `mount_file_entry_get_file_mode`, mount_file_entry.c 637-687 -/
def fileMode (mode : Nat) : Nat := if mode / 0x1000 % 16 = 0xe then 0x8000 + mode % 0x1000 else mode

def Handle.env (m : Mounted) (h : Handle) : FileEntry.Env := FileRead.env m.files m.compare h.node.inode

/-- stat info of a file entry, mount_fuse.c 1698-1797, and as in 184-288: size, mode and times of `mount_file_entry_get_size`, mount_file_entry.c 1072-1105, `mount_file_entry_get_access_time`, 438-498,
`mount_file_entry_get_modification_time`, 505-565, and `mount_file_entry_get_inode_change_time`, 572-632 -/
def statOf (m : Mounted) (h : Handle) : Res Stat × Handle :=
  match FileEntry.getSize (h.env m) h.entry with
  | (.ok size, e) => (setStat size (fileMode h.node.inode.mode) (signed64 h.node.inode.access) (signed64 h.node.inode.change) (signed64 h.node.inode.modification), { h with entry := e })
  | (.err, e) => (err, { h with entry := e })
  | (.ub, e) => (ub, { h with entry := e })

/-- `mount_fuse_getattr`, mount_fuse.c 1599-1830 -/
def getattr (m : Mounted) (path : Bytes) : Reply Stat :=
  match fileAt m path with
  | .ok (some h) => reply .eio (statOf m h).1
  | .ok none => .fails .enoent
  | .err => .fails .enoent
  | .ub => .ub

/-- `mount_fuse_open`, mount_fuse.c 319-417; `O_ACCMODE` is 3 and `O_RDONLY` 0 -/
def openFile (m : Mounted) (path : Bytes) (flags : Nat) : Reply Handle :=
  if flags % 4 ≠ 0 then .fails .eacces
  else
    match fileAt m path with
    | .ok (some h) => .value h
    | .ok none => .fails .enoent
    | .err => .fails .enoent
    | .ub => .ub

/-- `mount_fuse_opendir`, mount_fuse.c 1105-1190 -/
def openDirectory (m : Mounted) (path : Bytes) : Reply Handle := openFile m path 0

/-- the data stream of a file entry, libfsapfs_file_entry.c 4659-4675 -/
def ready (m : Mounted) (h : Handle) : Res Reader × Handle :=
  match h.reader with
  | some r => (ok r, h)
  | none =>
    let e := (FileEntry.openStream (h.env m) h.entry).2
    match FileRead.openFile m.files m.compare m.junk h.node.inode h.entry with
    | .ok r => (ok r, { h with entry := e, reader := some r })
    | .err => (err, { h with entry := e })
    | .ub => (ub, { h with entry := e })

/-- `libfsapfs_file_entry_read_buffer_at_offset`, libfsapfs_file_entry.c 4617-4711, and `mount_file_entry_read_buffer_at_offset`, mount_file_entry.c 1025-1067 -/
def readAt (m : Mounted) (h : Handle) (size : Nat) (offset : Int) : Res Bytes × Handle :=
  match ready m h with
  | (.ok r, h) =>
    match FileRead.step m.unpack (.seek offset) r with
    | (.ok _, r) =>
      let s := FileRead.step m.unpack (.read size) r
      (s.1, { h with reader := some s.2 })
    | (.err, r) => (err, { h with reader := some r })
    | (.ub, r) => (ub, { h with reader := some r })
  | (.err, h) => (err, h)
  | (.ub, h) => (ub, h)

/-- `mount_fuse_read`, mount_fuse.c 422-526 -/
def read (m : Mounted) (h : Handle) (size : Nat) (offset : Int) : Reply Bytes × Handle :=
  if size > intMax then (.fails .einval, h)
  else
    match readAt m h size offset with
    | (r, h) => (reply .eio r, h)

/-- the entry for the parent directory, mount_fuse.c 1312-1348, with `mount_file_entry_get_parent_file_entry`, mount_file_entry.c 248-364: the root directory has none, then `mount_fuse_filldir`, mount_fuse.c
158-314, fills in zeros -/
def parentStat (m : Mounted) (h : Handle) : Res Stat :=
  match FileRead.parentNode (FileRead.lookups m.files) h.node with
  | .ok (.node p) => do
    let name ← nameOf m p
    (statOf m (.new name p)).1
  | .ok _ => setStat 0 0 0 0 0
  | .err => err
  | .ub => ub

/-- a sub file entry, mount_fuse.c 1384-1492, with `mount_file_entry_get_sub_file_entry_by_index`, mount_file_entry.c 905-1020, and `mount_file_entry_get_name`, 731-811: what `filler` gets -/
def subFilled (m : Mounted) (s : FileNode) : Res (Bytes × Stat) := do
  let name ← nameOf m s
  let stat ← (statOf m (.new name s)).1
  return (cString name, stat)

/-- the loop over sub file entries, mount_fuse.c 1380-1493: `left` of them from `index` on -/
def fillSubs (m : Mounted) : Nat → Nat → FileNode → Res (List (Bytes × Stat)) × FileNode
  | 0, _, n => (ok [], n)
  | left + 1, index, n =>
    match FileRead.call (FileRead.lookups m.files) (.sub index) n with
    | (.ok (.node s), n) =>
      match subFilled m s with
      | .ok f =>
        match fillSubs m left (index + 1) n with
        | (.ok fs, n) => (ok (f :: fs), n)
        | (.err, n) => (err, n)
        | (.ub, n) => (ub, n)
      | .err => (err, n)
      | .ub => (ub, n)
    | (.ok _, n) => (err, n)
    | (.err, n) => (err, n)
    | (.ub, n) => (ub, n)

/-- the number of sub file entries and the loop, mount_fuse.c 1364-1493 -/
def fillAll (m : Mounted) (n : FileNode) : Res (List (Bytes × Stat)) × FileNode :=
  match FileRead.call (FileRead.lookups m.files) .number n with
  | (.ok (.number count), n) => fillSubs m count 0 n
  | (.ok _, n) => (err, n)
  | (.err, n) => (err, n)
  | (.ub, n) => (ub, n)

/-- `mount_fuse_readdir`, mount_fuse.c 1196-1530: names and stat info. FUSE drops what was filled in if the function fails. -/
def readDirectory (m : Mounted) (h : Handle) : Reply (List (Bytes × Stat)) × Handle :=
  match statOf m h with
  | (.ok dot, h) =>
    match parentStat m h with
    | .ok dotdot =>
      match fillAll m h.node with
      | (.ok fs, n) => (.value (([0x2e], dot) :: ([0x2e, 0x2e], dotdot) :: fs), { h with node := n })
      | (.err, n) => (.fails .eio, { h with node := n })
      | (.ub, n) => (.ub, { h with node := n })
    | .err => (.fails .eio, h)
    | .ub => (.ub, h)
  | (.err, h) => (.fails .eio, h)
  | (.ub, h) => (.ub, h)

/-- `mount_fuse_readlink`, mount_fuse.c 1835-1940, `mount_file_entry_get_symbolic_link_target`, mount_file_entry.c 817-862, and `libfsapfs_file_entry_get_utf8_symbolic_link_target`,
libfsapfs_file_entry.c 2306-2402: libuna refuses a string that is too small -/
def readlink (m : Mounted) (path : Bytes) (size : Nat) : Reply Bytes :=
  match fileAt m path with
  | .ok (some h) =>
    reply .eio (do
      let t ← (FileEntry.symlinkTarget (h.env m) h.entry).1
      match t with
      | none => err
      | some t =>
        let s ← m.una t
        require (s.length + 1 ≤ size)
        return s)
  | .ok none => .fails .enoent
  | .err => .fails .enoent
  | .ub => .ub

/-- `libfsapfs_extended_attribute_read_buffer_at_offset`, libfsapfs_extended_attribute.c 798-892, at offset 0 -/
def attributeBytes (m : Mounted) (h : Handle) (a : Records.Attribute) (size : Nat) : Res Bytes := do
  let c ← FileEntry.content (h.env m) a
  return (c.getD []).take size

/-- an extended attribute that was found, mount_fuse.c 732-820: the reply, and the number of extended attributes that are not freed, because they are not in `on_error` -/
def attributeValue (m : Mounted) (h : Handle) (a : Records.Attribute) (size : Nat) : Reply Value × Nat :=
  if a.size > intMax then (.fails .e2big, 1)
  else if size = 0 then (.value (.needs a.size), 0)
  else if size < a.size then (.fails .erange, 1)
  else
    match attributeBytes m h a size with
    | .ok b => (.value (.bytes b), 0)
    | .err => (.fails .eio, 1)
    | .ub => (.ub, 1)

/-- `mount_fuse_getxattr`, mount_fuse.c 609-857; the name ends at the first zero (709) -/
def getxattr (m : Mounted) (path name : Bytes) (size : Nat) : Reply Value × Nat :=
  if size > intMax then (.fails .einval, 0)
  else
    match fileAt m path with
    | .ok (some h) =>
      match (FileEntry.attributeByName (h.env m) (cString name) h.entry).1 with
      | .ok (some a) => attributeValue m h a size
      | .ok none => (.fails .enodata, 0)
      | .err => (.fails .eio, 0)
      | .ub => (.ub, 0)
    | .ok none => (.fails .enoent, 0)
    | .err => (.fails .enoent, 0)
    | .ub => (.ub, 0)

/-- the loop over extended attributes, mount_fuse.c 970-1061, with `libfsapfs_file_entry_get_extended_attribute_by_index`, libfsapfs_file_entry.c 2708-2842: `list` is what has been written -/
def listNames (m : Mounted) (size : Nat) : List Records.Attribute → Bytes → Res Bytes
  | [], list => ok list
  | a :: as, list => do
    let name ← m.una a.name
    require (¬ (size > 0 ∧ name.length + 1 > size - list.length))
    listNames m size as (list ++ (name ++ [0]))

/-- `mount_fuse_listxattr`, mount_fuse.c 862-1100. The result is an int, the sizes of all names together are less than 2^31. -/
def listxattr (m : Mounted) (path : Bytes) (size : Nat) : Reply Value :=
  if size > intMax then .fails .einval
  else
    match fileAt m path with
    | .ok (some h) =>
      reply .eio (do
        let count ← (FileEntry.numberOfAttributes (h.env m) h.entry).1
        let as ← match (FileEntry.numberOfAttributes (h.env m) h.entry).2.attributes with
          | none => err
          | some as => ok (as.take count)
        let list ← listNames m size as []
        return if size = 0 then .needs list.length else .bytes list)
    | .ok none => .fails .enoent
    | .err => .fails .enoent
    | .ub => .ub

/-! Sessions: what the kernel asks in a row -/

def mapReply {α β : Type} (f : α → β) : Reply α → Reply β
  | .value a => .value (f a)
  | .fails e => .fails e
  | .ub => .ub

/-- Open files and directories by number, `none` if released; and how many file entries and extended attributes are allocated that nothing refers to. -/
structure Session where
  handles : List (Option Handle) := []
  lost : Nat := 0

def Session.get (s : Session) (n : Nat) : Option Handle := (s.handles[n]?).join

def Session.set (s : Session) (n : Nat) (h : Option Handle) : Session := { s with handles := s.handles.set n h }

def Session.add (s : Session) : Reply Handle → Reply Answer × Session
  | .value h => (.value (.handle s.handles.length), { s with handles := s.handles ++ [some h] })
  | .fails e => (.fails e, s)
  | .ub => (.ub, s)

/-- An answer to a request. A handle that is not open is one without `fh`, mount_fuse.c 482 and 1264. `mount_fuse_release`, mount_fuse.c 531-603, frees the file entry, `mount_fuse_releasedir`, 1535-1593, does not. -/
def serve (m : Mounted) (s : Session) : Request → Reply Answer × Session
  | .getattr path => (mapReply .stat (getattr m path), s)
  | .open_ path flags => s.add (openFile m path flags)
  | .read n size offset =>
    match s.get n with
    | none => (.fails .einval, s)
    | some h => (mapReply .bytes (read m h size offset).1, s.set n (some (read m h size offset).2))
  | .release n => (.value .done, s.set n none)
  | .opendir path => s.add (openDirectory m path)
  | .readdir n =>
    match s.get n with
    | none => (.fails .einval, s)
    | some h => (mapReply .names (readDirectory m h).1, s.set n (some (readDirectory m h).2))
  | .releasedir n =>
    match s.get n with
    | none => (.value .done, s)
    | some _ => (.value .done, { s.set n none with lost := s.lost + 1 })
  | .readlink path size => (mapReply .bytes (readlink m path size), s)
  | .getxattr path name size => (mapReply .value (getxattr m path name size).1, { s with lost := s.lost + (getxattr m path name size).2 })
  | .listxattr path size => (mapReply .value (listxattr m path size), s)

/-- requests in a row -/
def serveAll (m : Mounted) : List Request → Session → List (Reply Answer) × Session
  | [], s => ([], s)
  | r :: rs, s => ((serve m s r).1 :: (serveAll m rs (serve m s r).2).1, (serveAll m rs (serve m s r).2).2)

end Mount
end Verif
