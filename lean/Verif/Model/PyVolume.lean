import Verif.Model.Mount
import Verif.Spec.PyVolume
/-!
# Model of file entries of a volume in Python

pyfsapfs/pyfsapfs_volume.c and pyfsapfs/pyfsapfs_file_entry.c. An object keeps the volume alive, objects that are freed are not used. CPython is not modelled but by what it does with arguments and
results: format "s" of `PyArg_ParseTupleAndKeywords` gives the UTF-8 of a string, it refuses surrogates and end-of-string characters; format "K" gives an integer modulo 2^64; `PyUnicode_DecodeUTF8` is
`decode`. Failing allocations are not modelled.
-/
namespace Verif
open Res
namespace PyVolume
open FileRead (FileNode)
open Mount (Mounted signed64)
open Spec.Py (Field Ask Reply)

/-- `pyfsapfs_file_entry_t` with the file entry of libfsapfs -/
structure Obj where
  node : FileNode
  entry : FileEntry.Entry

/-- `pyfsapfs_file_entry_new`, pyfsapfs_file_entry.c 525-573, of a new file entry -/
def Obj.new (node : FileNode) : Obj := { node, entry := FileRead.entryOf node.inode }

def Obj.env (m : Mounted) (o : Obj) : FileEntry.Env := FileRead.env m.files m.compare o.node.inode

/-- format "s" -/
def argument (s : List Nat) : Option Bytes := if ∀ c ∈ s, Spec.Scalar c ∧ c ≠ 0 then some (Spec.Utf8.encode s) else none

/-- an object, `None` for `return( 0 )` or an exception for an error: pyfsapfs_volume.c 1092-1125, 1186-1219 and pyfsapfs_file_entry.c 2579-2612 -/
def returned (os : List Obj) : Res (Option FileNode) → Reply × List Obj
  | .ok (some n) => (.object, os ++ [.new n])
  | .ok none => (.nothing, os)
  | .err => (.raises, os)
  | .ub => (.ub, os)

/-- `pyfsapfs_volume_get_root_directory`, pyfsapfs_volume.c 1062-1135, and `libfsapfs_volume_get_root_directory`, libfsapfs_volume.c 2623-2725 -/
def root (m : Mounted) : Res (Option FileNode) := do
  let i ← FileRead.byIdentifier m.files 2
  return i.map fun i => { inode := i, record := none }

/-- `pyfsapfs_volume_get_file_entry_by_identifier`, pyfsapfs_volume.c 972-1057, and `libfsapfs_volume_get_file_entry_by_identifier`, libfsapfs_volume.c 2970-3073: any result but 1 is an exception,
so that 1027-1033 are not reached -/
def byIdentifier (m : Mounted) (i : Int) : Res (Option FileNode) := do
  let i ← FileRead.byIdentifier m.files (i % 2 ^ 64).toNat
  match i with
  | none => err
  | some i => return some { inode := i, record := none }

/-- `pyfsapfs_volume_get_file_entry_by_path`, pyfsapfs_volume.c 1140-1229: `narrow_string_length` is the length of the UTF-8, there is no end-of-string character in it. `start` is 2;
in `pyfsapfs_file_entry_get_sub_file_entry_by_name`, pyfsapfs_file_entry.c 2533-2622, with `libfsapfs_file_entry_get_sub_file_entry_by_utf8_name`, libfsapfs_file_entry.c 3853-4014, it is the identifier of
the inode. -/
def byPath (m : Mounted) (start : Nat) (s : List Nat) : Res (Option FileNode) :=
  match argument s with
  | none => err
  | some b => do
    let r ← NameLookup.lookupPath m.text.decoder m.text.decoder 0x2f m.files.folding m.files.tree m.files.xid start b
    return r.map fun r => { inode := r.1, record := r.2 }

/-- the getters of pyfsapfs_file_entry.c that return integers: `get_identifier`, `get_parent_identifier`, the five `get_..._time_as_integer`, 862-1367, `get_number_of_links`, `get_owner_identifier`,
`get_group_identifier` 1372-1523 and `get_file_mode`, 1635-1686. They return what libfsapfs_inode.c 878-1172, 1286-1400 and libfsapfs_directory_record.c return; without directory record there is no
added time, libfsapfs_file_entry.c 974-991. -/
def field (n : FileNode) : Field → Reply
  | .identifier => .int n.inode.identifier
  | .parent => .int n.inode.parent
  | .created => .int (signed64 n.inode.creation)
  | .modified => .int (signed64 n.inode.modification)
  | .changed => .int (signed64 n.inode.change)
  | .accessed => .int (signed64 n.inode.access)
  | .added => match n.record with | some r => .int (signed64 r.added) | none => .nothing
  | .links => .int n.inode.links
  | .owner => .int n.inode.owner
  | .group => .int n.inode.group
  | .mode => .int n.inode.mode

/-- a UTF-8 string that is decoded, pyfsapfs_file_entry.c 1778-1795 and 1896-1913 -/
def text (decode : Bytes → Option (List Nat)) (b : Bytes) : Reply :=
  match decode b with
  | some s => .text s
  | none => .raises

/-- `pyfsapfs_file_entry_get_name`, pyfsapfs_file_entry.c 1691-1807 -/
def name (m : Mounted) (decode : Bytes → Option (List Nat)) (n : FileNode) : Reply :=
  match FileRead.nodeName m.una n with
  | .ok b => text decode b
  | .err => .raises
  | .ub => .ub

/-- `pyfsapfs_file_entry_get_symbolic_link_target`, pyfsapfs_file_entry.c 1812-1920, of what `libfsapfs_file_entry_get_utf8_symbolic_link_target` returns -/
def target (m : Mounted) (decode : Bytes → Option (List Nat)) : Res (Option Bytes) → Reply
  | .ok (some t) =>
    match m.una t with
    | .ok b => text decode b
    | .err => .raises
    | .ub => .ub
  | .ok none => .nothing
  | .err => .raises
  | .ub => .ub

/-- a call of an object: the answer and the file entry after it. `get_size`, pyfsapfs_file_entry.c 3177-3224; `has_extended_attribute_by_name`, 2144-2213, and
`libfsapfs_file_entry_has_extended_attribute_by_utf8_name`, libfsapfs_file_entry.c 3057-3130. -/
def call (m : Mounted) (decode : Bytes → Option (List Nat)) (o : Obj) : Ask → Reply × FileEntry.Entry
  | .field _ f => (field o.node f, o.entry)
  | .name _ => (name m decode o.node, o.entry)
  | .target _ => (target m decode (FileEntry.symlinkTarget (o.env m) o.entry).1, (FileEntry.symlinkTarget (o.env m) o.entry).2)
  | .size _ =>
    (match (FileEntry.getSize (o.env m) o.entry).1 with
      | .ok n => .int n
      | .err => .raises
      | .ub => .ub, (FileEntry.getSize (o.env m) o.entry).2)
  | .has _ name =>
    match argument name with
    | none => (.raises, o.entry)
    | some b =>
      (match (FileEntry.attributeByName (o.env m) b o.entry).1 with
        | .ok a => .bool a.isSome
        | .err => .raises
        | .ub => .ub, (FileEntry.attributeByName (o.env m) b o.entry).2)
  | _ => (.raises, o.entry)

/-- a call of the object with a number; a program has no objects but those it was given -/
def callAt (m : Mounted) (decode : Bytes → Option (List Nat)) (k : Nat) (a : Ask) (os : List Obj) : Reply × List Obj :=
  match os[k]? with
  | none => (.raises, os)
  | some o => ((call m decode o a).1, os.set k { o with entry := (call m decode o a).2 })

/-- a request -/
def ask (m : Mounted) (decode : Bytes → Option (List Nat)) (os : List Obj) : Ask → Reply × List Obj
  | .root => returned os (root m)
  | .path s => returned os (byPath m 2 s)
  | .identifier i => returned os (byIdentifier m i)
  | .sub k s =>
    match os[k]? with
    | none => (.raises, os)
    | some o => returned os (byPath m o.node.inode.identifier s)
  | .field k f => callAt m decode k (.field k f) os
  | .name k => callAt m decode k (.name k) os
  | .target k => callAt m decode k (.target k) os
  | .size k => callAt m decode k (.size k) os
  | .has k n => callAt m decode k (.has k n) os

/-- requests in a row -/
def asks (m : Mounted) (decode : Bytes → Option (List Nat)) : List Ask → List Obj → List (Ask × Reply)
  | [], _ => []
  | a :: as, os => (a, (ask m decode os a).1) :: asks m decode as (ask m decode os a).2

end PyVolume
end Verif
