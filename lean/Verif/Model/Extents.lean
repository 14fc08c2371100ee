import Verif.Model.FileRead
import Verif.Spec.Extents
/-!
# Model of the functions for extents in libfsapfs_file_entry.c and libfsapfs_extended_attribute.c

Each call has what the file system B-tree answers to it, as reading may fail. Locks are in `Verif.Model.Locks`.
-/
namespace Verif
open Res
namespace Extents
open DataStream (Extent toInt64)
open Spec (Piece ExtentAsk ExtentAnswer)

/-- libfsapfs_file_entry.c 5422-5424, libfsapfs_extended_attribute.c 1391-1393: a product of unsigned 64-bit numbers in a signed one; `block_size` is 4096 -/
def piece (e : Extent) : Piece := { offset := toInt64 (e.physical * 4096 % 2 ^ 64), size := e.size, flags := 0 }

/-- `libcdata_array_get_number_of_entries` and `libcdata_array_get_entry_by_index` of an array of extents; libcdata refuses indices out of range -/
def entries (es : List Extent) : ExtentAsk → Res ExtentAnswer
  | .number => ok (.number es.length)
  | .extent i => do
    require (¬ (i < 0 ∨ (es.length : Int) ≤ i))
    match es[i.toNat]? with
    | none => err
    | some e => return .piece (piece e)

/-- `libfsapfs_file_entry_get_number_of_extents`, libfsapfs_file_entry.c 5198-5284, and `libfsapfs_file_entry_get_extent_by_index`, 5289-5443, with
`libfsapfs_internal_file_entry_get_file_extents`, 4189-4277: `btree` is what is read if there is no array -/
def entryCall (btree : Res (List Extent)) (a : ExtentAsk) : Option (List Extent) → Res ExtentAnswer × Option (List Extent)
  | some es => (entries es a, some es)
  | none =>
    match btree with
    | .ok es => (entries es a, some es)
    | .err => (err, none)
    | .ub => (ub, none)

/-- calls in a row -/
def entryCalls : List (ExtentAsk × Res (List Extent)) → Option (List Extent) → List (Res ExtentAnswer)
  | [], _ => []
  | (a, btree) :: l, s => (entryCall btree a s).1 :: entryCalls l (entryCall btree a s).2

/-- attribute values and extended attribute: `value_data_file_extents`, and whether there is a data stream -/
structure Attr where
  extents : Option (List Extent) := none
  stream : Bool := false
deriving DecidableEq

/-- `libfsapfs_internal_extended_attribute_get_data_stream`, libfsapfs_extended_attribute.c 648-696, with `libfsapfs_attributes_get_data_stream` and
`libfsapfs_attributes_get_file_extents`, libfsapfs_attributes.c 40-203. The extents are kept if the stream cannot be made. A stream of a value that is in the record is made of `data`. -/
def attrStream (flags : Nat) (btree : Res (List Extent)) (make : List Extent → Res Unit) (data : Res Unit) (s : Attr) : Res Unit × Attr :=
  if flags % 2 ≠ 0 then
    match s.extents, btree with
    | some es, _ | none, .ok es =>
      match make es with
      | .ok () => (ok (), { extents := some es, stream := true })
      | .err => (err, { s with extents := some es })
      | .ub => (ub, { s with extents := some es })
    | none, .err => (err, s)
    | none, .ub => (ub, s)
  else if flags / 2 % 2 ≠ 0 then
    match data with
    | .ok () => (ok (), { s with stream := true })
    | .err => (err, s)
    | .ub => (ub, s)
  else (ok (), s)

/-- `libfsapfs_attribute_values_get_number_of_extents`, libfsapfs_attribute_values.c 846-897, and `libfsapfs_attribute_values_get_extent_by_index`, 902-938: libcdata refuses an array that is NULL -/
def attrEntries : Option (List Extent) → ExtentAsk → Res ExtentAnswer
  | some es, a => entries es a
  | none, .number => ok (.number 0)
  | none, .extent _ => err

/-- `libfsapfs_extended_attribute_get_number_of_extents`, libfsapfs_extended_attribute.c 1163-1251, and `libfsapfs_extended_attribute_get_extent_by_index`, 1256-1412 -/
def attrCall (flags : Nat) (btree : Res (List Extent)) (make : List Extent → Res Unit) (data : Res Unit) (a : ExtentAsk) (s : Attr) : Res ExtentAnswer × Attr :=
  if s.stream then (attrEntries s.extents a, s)
  else
    match attrStream flags btree make data s with
    | (.ok (), s) => (attrEntries s.extents a, s)
    | (.err, s) => (err, s)
    | (.ub, s) => (ub, s)

/-- calls in a row -/
def attrCalls (flags : Nat) (make : List Extent → Res Unit) : List (ExtentAsk × Res (List Extent) × Res Unit) → Attr → List (Res ExtentAnswer)
  | [], _ => []
  | (a, btree, data) :: l, s => (attrCall flags btree make data a s).1 :: attrCalls flags make l (attrCall flags btree make data a s).2

/-- what the B-tree of a volume answers for a data stream -/
def btree (f : FileRead.Files) (identifier : Nat) : Res (List Extent) := FsTree.fileExtents f.tree f.xid identifier

/-- `libfsapfs_data_stream_initialize_from_file_extents` for an attribute, libfsapfs_attributes.c 165-183: not sparse -/
def make (f : FileRead.Files) (es : List Extent) : Res Unit := do
  let _ ← DataStream.initHandle f.disk 4096 512 f.xts es false
  return ()

end Extents
end Verif
