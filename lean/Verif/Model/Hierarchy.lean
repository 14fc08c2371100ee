import Verif.Model.FileRead
import Verif.Model.PathString
/-!
# Model of parent and sub file entries in libfsapfs_file_entry.c and of the hierarchy that fsapfstools/info_handle.c prints

What a file entry gets from the file system B-tree is `Lookups`, which may be different in each call, because reading may fail. Strings of libuna are an argument:
`una` is what `libuna_utf8_string_size_from_utf8_stream` and `libuna_utf8_string_copy_from_utf8_stream` make of a stored name. Allocation failures are left out, system characters are bytes.
-/
namespace Verif
open Res
namespace FileRead
open PathString (copyFrom)

/-- `libfsapfs_file_system_btree_get_directory_entries` and `libfsapfs_file_system_btree_get_inode_by_identifier` with the transaction identifier of the file entry -/
structure Lookups where
  directory : Nat → Res (List Records.DirectoryRecord)
  inode : Nat → Res (Option Records.Inode)

def lookups (f : Files) : Lookups := { directory := FsTree.directoryRecords f.tree f.xid, inode := FsTree.inodeByIdentifier f.tree f.xid }

/-- the fields of `libfsapfs_internal_file_entry_t` for names and directories; `children` is `directory_entries` -/
structure FileNode where
  inode : Records.Inode
  record : Option Records.DirectoryRecord
  children : Option (List Records.DirectoryRecord) := none

/-- calls on a file entry -/
inductive NodeCall where
  | number
  | sub (index : Int)
  | parent

/-- what they return: a number, a new file entry, or 0 -/
inductive NodeResult where
  | number (n : Nat)
  | node (n : FileNode)
  | none

/-- `libfsapfs_internal_file_entry_get_directory_entries`, libfsapfs_file_entry.c 3459-3547, unless the entries are set (3589, 3706). The array is freed if the listing fails. -/
def determine (l : Lookups) (n : FileNode) : Res (List Records.DirectoryRecord) × FileNode :=
  match n.children with
  | some c => (ok c, n)
  | none =>
    match l.directory n.inode.identifier with
    | .ok c => (ok c, { n with children := some c })
    | .err => (err, n)
    | .ub => (ub, n)

/-- `libcdata_array_get_entry_by_index` -/
def elementAt {α : Type} (l : List α) (index : Int) : Res α :=
  if index < 0 then err
  else
    match l[index.toNat]? with
    | none => err
    | some x => ok x

/-- the file entry of a directory record, libfsapfs_file_entry.c 3738-3806: an inode that is not found is an error -/
def subNode (l : Lookups) (r : Records.DirectoryRecord) : Res FileNode :=
  match l.inode r.identifier with
  | .ok (some i) => ok { inode := i, record := some r }
  | .ok Option.none => err
  | .err => err
  | .ub => ub

/-- `libfsapfs_file_entry_get_parent_file_entry`, libfsapfs_file_entry.c 477-639 -/
def parentNode (l : Lookups) (n : FileNode) : Res NodeResult :=
  if n.inode.identifier > 2 then
    match l.inode n.inode.parent with
    | .ok (some i) => ok (.node { inode := i, record := none })
    | .ok Option.none => err
    | .err => err
    | .ub => ub
  else ok .none

/-- `libfsapfs_file_entry_get_number_of_sub_file_entries`, libfsapfs_file_entry.c 3552-3638, `libfsapfs_file_entry_get_sub_file_entry_by_index`, 3643-3848, and
`libfsapfs_file_entry_get_parent_file_entry` -/
def call (l : Lookups) : NodeCall → FileNode → Res NodeResult × FileNode
  | .number, n =>
    match determine l n with
    | (.ok c, n) => (ok (.number c.length), n)
    | (.err, n) => (err, n)
    | (.ub, n) => (ub, n)
  | .sub index, n =>
    match determine l n with
    | (.ok c, n) => (do let r ← elementAt c index; let s ← subNode l r; return .node s, n)
    | (.err, n) => (err, n)
    | (.ub, n) => (ub, n)
  | .parent, n => (parentNode l n, n)

/-- calls in a row -/
def calls : List (Lookups × NodeCall) → FileNode → List (Res NodeResult)
  | [], _ => []
  | (l, c) :: cs, n => (call l c n).1 :: calls cs (call l c n).2

/-- `libfsapfs_file_entry_get_utf8_name_size`, libfsapfs_file_entry.c 1465-1552, and `libfsapfs_file_entry_get_utf8_name`, 1559-1649: the name in the directory record, otherwise
that of the inode. libuna refuses the pointer of an inode without name. -/
def nodeName (una : Bytes → Res Bytes) (n : FileNode) : Res Bytes :=
  match n.record with
  | some r => una r.name
  | none =>
    match n.inode.name with
    | none => err
    | some b => una b

/-- what has been printed and whether it went on -/
abbrev Out := Bytes × Res Unit

def Out.andThen (a : Out) (b : Out) : Out :=
  match a.2 with
  | .ok _ => (a.1 ++ b.1, b.2)
  | .err => a
  | .ub => a

/-- `info_handle_name_value_fprint`, info_handle.c 1246-1300 -/
def printName (k : PathString.Codec) (s : Bytes) : Out :=
  match copyFrom k .info s with
  | .ok b => (b, ok ())
  | .err => ([], err)
  | .ub => ([], ub)

/-- a result that is needed to go on -/
def Out.need {α : Type} (r : Res α) (f : α → Out) : Out :=
  match r with
  | .ok a => f a
  | .err => ([], err)
  | .ub => ([], ub)

/-- the loop over the sub file entries, info_handle.c 2884-2935: each is obtained, printed and freed before the next one -/
def each (f : Records.DirectoryRecord → Out) : List Records.DirectoryRecord → Out
  | [] => ([], ok ())
  | r :: rs => (f r).andThen (each f rs)

/-- `info_handle_file_system_hierarchy_fprint_file_entry`, info_handle.c 2628-2970, without bodyfile. `depth` is how many calls of the function fit on the stack; there is no test of it. The length of the
path is `system_string_length` (2697). The number of sub file entries and the sub file entries are those of a new file entry, so they are listed once. -/
def hierarchy (k : PathString.Codec) (una : Bytes → Res Bytes) (l : Lookups) : Nat → Bytes → FileNode → Out
  | 0, _, _ => ([], ub)
  | depth + 1, path, n =>
    Out.need (l.directory n.inode.identifier) fun children =>
    Out.need (nodeName una n) fun name =>
    let path := path.takeWhile (· ≠ 0)
    (printName k path).andThen <|
    (if n.inode.identifier ≠ 2 then printName k name else ([], ok ())).andThen <|
    Out.andThen ([0x0a], ok ()) <|
    each (fun r => Out.need (subNode l r) fun s => hierarchy k una l depth (if n.inode.identifier ≠ 2 then path ++ name ++ [0x2f] else path) s) children

/-- a UUID in lower case with braces: `libfguid_identifier_copy_to_utf8_string` of bytes in big-endian order -/
def uuidText (u : Bytes) : Bytes :=
  let h (a n : Nat) : Bytes := ((u.drop a).take n).flatMap fun b => PathString.hex 2 b.toNat
  0x7b :: (h 0 4 ++ [0x2d] ++ h 4 2 ++ [0x2d] ++ h 6 2 ++ [0x2d] ++ h 8 2 ++ [0x2d] ++ h 10 6) ++ [0x7d]

/-- a volume of `info_handle_get_volume_by_index`, info_handle.c 916-1070: its identifier and its files, or the failure to get its file system -/
structure PrintedVolume where
  uuid : Bytes
  files : Res Lookups

/-- one volume, info_handle.c 3063-3196: the path of the root directory is the UUID between separators; a volume without root directory is skipped -/
def printVolume (k : PathString.Codec) (una : Bytes → Res Bytes) (depth : Nat) (v : PrintedVolume) : Out :=
  Out.need v.files fun l =>
  Out.need (l.inode 2) fun root =>
  match root with
  | some i => hierarchy k una l depth (0x2f :: uuidText v.uuid ++ [0x2f]) { inode := i, record := none }
  | none => ([], ok ())

/-- the loop over the volumes, info_handle.c 3037-3210: `selected` is `file_system_index`, `index` is `volume_index` -/
def printVolumes (k : PathString.Codec) (una : Bytes → Res Bytes) (depth selected : Nat) : Nat → List (Res PrintedVolume) → Out
  | _, [] => ([], ok ())
  | index, v :: vs =>
    if selected ≠ 0 ∧ selected ≠ index + 1 then printVolumes k una depth selected (index + 1) vs
    else (Out.need v (printVolume k una depth)).andThen (printVolumes k una depth selected (index + 1) vs)

/-- `info_handle_file_system_hierarchy_fprint`, info_handle.c 2975-3240, without bodyfile -/
def printHierarchy (k : PathString.Codec) (una : Bytes → Res Bytes) (depth selected : Nat) (vs : List (Res PrintedVolume)) : Out :=
  Out.andThen ("Apple File System (APFS) information:\n\nFile system hierarchy:\n".toUTF8.toList, ok ()) <|
  if selected > vs.length then ([], err)
  else (printVolumes k una depth selected 0 vs).andThen ([0x0a], ok ())

end FileRead
end Verif
