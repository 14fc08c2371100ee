import Verif.Model.FileRead
import Verif.Spec.Value
/-!
# Model of reading extended attributes, libfsapfs_extended_attribute.c

Handles to an extended attribute share its values, and with them the extents of its data stream, but each has a data stream of its own. Of libfdata, which is not in the repository, it is assumed that a
stream keeps a position, seeks from the start, the position or the end, refuses positions before the start, reads no more than its size and leaves the position if reading fails; that 64-bit numbers
overflow when it adds offsets is not modelled. Locks are in `Verif.Model.Locks`.
-/
namespace Verif
open Res
namespace AttributeRead
open DataStream (Extent)
open Records (Attribute)
open Spec (ValueOp ValueAnswer ValueAction seekTo)

/-- `libfsapfs_file_entry_get_extended_attribute_by_index`, libfsapfs_file_entry.c 2708-2842: libcdata refuses indices out of range -/
def attributeByIndex (env : FileEntry.Env) (index : Int) (e : FileEntry.Entry) : Res Attribute × FileEntry.Entry :=
  match FileEntry.needAttributes env e with
  | (.ub, e) => (ub, e)
  | (.err, e) => (err, e)
  | (.ok (), e) =>
    match e.attributes with
    | none => (ub, e)
    | some as =>
      if index < 0 then (err, e)
      else match as[index.toNat]? with
        | none => (err, e)
        | some a => (ok a, e)

/-- what is outside of the extended attribute during a call: allocations, what the B-tree answers and reading from the storage -/
structure Env where
  alloc : Res Unit
  btree : Res (List Extent)
  disk : Nat → Nat → Res Bytes

/-- the data handle of a data stream -/
inductive Source where
  | extents (h : DataStream.Handle)
  | buffer (data : Bytes)

/-- `libfdata_stream_t` of `libfsapfs_data_stream_initialize_from_file_extents`, libfsapfs_data_stream.c 141-253, or `libfsapfs_data_stream_initialize_from_data`, 40-136 -/
structure Stream where
  source : Source
  size : Nat
  pos : Nat

/-- a handle, `libfsapfs_internal_extended_attribute_t`: its `data_stream` -/
abbrev Handle := Option Stream

/-- `value_data_file_extents` of the attribute values, and the handles; those that were freed are NULL -/
structure State where
  extents : Option (List Extent) := none
  handles : List (Option Handle) := []

/-- `libfsapfs_attributes_get_file_extents`, libfsapfs_attributes.c 40-116, if there are none, 138-157 -/
def getExtents (env : Env) : Option (List Extent) → Res (List Extent) × Option (List Extent)
  | some es => (ok es, some es)
  | none =>
    match env.alloc, env.btree with
    | .ok (), .ok es => (ok es, some es)
    | .ub, _ | .ok (), .ub => (ub, none)
    | .err, _ | .ok (), .err => (err, none)

/-- `libfsapfs_buffer_data_handle_initialize`, libfsapfs_buffer_data_handle.c 36-121, of `value_data` and its size -/
def bufferOf (a : Attribute) : Res Bytes :=
  match a.data with
  | none => do
    require (a.size = 0)
    return []
  | some d => do
    require (a.size ≤ 2 ^ 63 - 1)
    if a.size ≤ d.length then return d.take a.size else ub

/-- `libfsapfs_attributes_get_data_stream`, libfsapfs_attributes.c 121-203: no stream if neither flag is set. Extents are kept if the stream cannot be made. -/
def getStream (f : FileRead.Files) (a : Attribute) (env : Env) (extents : Option (List Extent)) : Res Handle × Option (List Extent) :=
  if a.flags % 2 ≠ 0 then
    match getExtents env extents with
    | (.ok es, extents) =>
      (do
        let h ← DataStream.initHandle f.disk 4096 512 f.xts es false
        env.alloc
        return some { source := .extents h, size := a.size, pos := 0 }, extents)
    | (.err, extents) => (err, extents)
    | (.ub, extents) => (ub, extents)
  else if a.flags / 2 % 2 ≠ 0 then
    (do
      let d ← bufferOf a
      env.alloc
      return some { source := .buffer d, size := a.size, pos := 0 }, extents)
  else (ok none, extents)

/-- a segment of a stream is read: libfdata seeks and reads with the functions of the data handle. For extents these are in libfsapfs_data_block_data_handle.c 279-499, for a buffer in
libfsapfs_buffer_data_handle.c 167-323. -/
def readSource (env : Env) (s : Stream) (off n : Nat) : Res Bytes :=
  match s.source with
  | .extents h => DataStream.streamRead { h with disk := env.disk } s.size off n
  | .buffer d =>
    if off ≥ s.size then ok []
    else do
      let (_, cur) ← DataStream.bufferStep d 0 (.seek 0 off)
      match ← DataStream.bufferStep d cur (.read 0 (min n (s.size - off))) with
      | (.data d, _) => return d
      | _ => err

/-- `libfdata_stream_read_buffer`; sizes of more than SSIZE_MAX are refused -/
def readStream (env : Env) (s : Stream) (n : Nat) : Res ValueAnswer × Stream :=
  if ¬ n < 2 ^ 63 then (err, s)
  else
    match readSource env s s.pos n with
    | .ok d => (ok (.bytes d), { s with pos := s.pos + d.length })
    | .err => (err, s)
    | .ub => (ub, s)

/-- `libfdata_stream_seek_offset` -/
def seekStream (s : Stream) (offset : Int) (whence : Nat) : Res Nat × Stream :=
  let offset := if whence = 1 then offset + s.pos else if whence = 2 then offset + s.size else offset
  if whence > 2 ∨ offset < 0 then (err, s) else (ok offset.toNat, { s with pos := offset.toNat })

/-- The functions of a data stream: `libfsapfs_extended_attribute_read_buffer`, libfsapfs_extended_attribute.c 752-773, `..._read_buffer_at_offset` 850-872, which seeks and reads, `..._seek_offset` 950-967
and `..._get_offset` 1043-1058. -/
def streamStep (env : Env) (o : ValueOp) (s : Stream) : Res ValueAnswer × Stream :=
  match o with
  | .read n => readStream env s n
  | .readAt n offset =>
    match seekStream s offset 0 with
    | (.ok _, s) => readStream env s n
    | (.err, s) => (err, s)
    | (.ub, s) => (ub, s)
  | .seek offset whence =>
    match seekStream s offset whence with
    | (.ok p, s) => (ok (.position p), s)
    | (.err, s) => (err, s)
    | (.ub, s) => (ub, s)
  | .offset => (ok (.position s.pos), s)
  | .size => (ok (.size s.size), s)

/-- what the functions return if there is no data stream and that is no error: no bytes, the offset that was given, and success with the offset not set -/
def noStream : ValueOp → ValueAnswer
  | .read _ | .readAt _ _ => .bytes []
  | .seek offset _ => .position offset
  | .offset => .unset
  | .size => .size 0

/-- `libfsapfs_extended_attribute_read_buffer`, libfsapfs_extended_attribute.c 701-793, `libfsapfs_extended_attribute_read_buffer_at_offset`, 798-892, `libfsapfs_extended_attribute_seek_offset`, 897-986,
`libfsapfs_extended_attribute_get_offset`, 991-1077, and `libfsapfs_extended_attribute_get_size`, 1082-1158 -/
def call (f : FileRead.Files) (a : Attribute) (env : Env) (o : ValueOp) (extents : Option (List Extent)) (h : Handle) : Res ValueAnswer × Option (List Extent) × Handle :=
  if o = .size then (ok (.size a.size), extents, h)
  else
    match h with
    | some s => ((streamStep env o s).1, extents, some (streamStep env o s).2)
    | none =>
      match getStream f a env extents with
      | (.ok (some s), extents) => ((streamStep env o s).1, extents, some (streamStep env o s).2)
      | (.ok none, extents) => (ok (noStream o), extents, none)
      | (.err, extents) => (err, extents, none)
      | (.ub, extents) => (ub, extents, none)

/-- Getting another handle from the file entry, `libfsapfs_extended_attribute_initialize`, libfsapfs_extended_attribute.c 46-157, freeing one, `libfsapfs_extended_attribute_free`, 162-221, and calls. A
handle that is NULL is refused, or nothing to free. The file entry itself, libfsapfs_file_entry.c 4963-4983, and the functions for extents, libfsapfs_extended_attribute.c 1163-1412, get the extents of the
value as well. -/
def act (f : FileRead.Files) (a : Attribute) (env : Env) (s : State) : ValueAction → Res ValueAnswer × State
  | .another =>
    match env.alloc with
    | .ok () => (ok .done, { s with handles := s.handles ++ [some none] })
    | .err => (err, s)
    | .ub => (ub, s)
  | .free k => (ok .done, { s with handles := s.handles.set k none })
  | .other => (ok .done, { s with extents := if a.flags % 2 ≠ 0 then (getExtents env s.extents).2 else s.extents })
  | .ask k o =>
    match s.handles[k]?.join with
    | none => (err, s)
    | some h => ((call f a env o s.extents h).1, { extents := (call f a env o s.extents h).2.1, handles := s.handles.set k (some (call f a env o s.extents h).2.2) })

/-- in a row -/
def acts (f : FileRead.Files) (a : Attribute) : List (ValueAction × Env) → State → List (Res ValueAnswer)
  | [], _ => []
  | (x, env) :: l, s => (act f a env s x).1 :: acts f a l (act f a env s x).2

end AttributeRead
end Verif
