import Verif.Model.Records
import Verif.Model.Compression
/-!
# Model of libfsapfs_file_entry.c: attributes, data size, data stream and symbolic link target of a file entry

A file entry reads its extended attributes on demand and keeps them, pointers to three of them, the header of compressed data, the size and
the data stream. Each function returns its result and the entry as it leaves it, also on errors. What the storage and the external libraries answer during one
call is in `Env`: any of it may fail.

Simplified: locks are in `Verif.Model.Locks`; a data stream is what it is made from, reading it is in `Verif.Model.Compression` and `Verif.Model.DataStream`;
stream objects that are never freed (4421, 4994) are not counted.
-/
namespace Verif
open Res
namespace FileEntry
open Records (Attribute)

/-- "com.apple.decmpfs", libfsapfs_file_entry.c 1961 -/
def decmpfsName : Bytes := [0x63, 0x6f, 0x6d, 0x2e, 0x61, 0x70, 0x70, 0x6c, 0x65, 0x2e, 0x64, 0x65, 0x63, 0x6d, 0x70, 0x66, 0x73]

/-- "com.apple.ResourceFork", libfsapfs_file_entry.c 1984 -/
def forkName : Bytes := [0x63, 0x6f, 0x6d, 0x2e, 0x61, 0x70, 0x70, 0x6c, 0x65, 0x2e, 0x52, 0x65, 0x73, 0x6f, 0x75, 0x72, 0x63, 0x65, 0x46, 0x6f, 0x72, 0x6b]

/-- "com.apple.fs.symlink", libfsapfs_file_entry.c 2007 -/
def symlinkName : Bytes := [0x63, 0x6f, 0x6d, 0x2e, 0x61, 0x70, 0x70, 0x6c, 0x65, 0x2e, 0x66, 0x73, 0x2e, 0x73, 0x79, 0x6d, 0x6c, 0x69, 0x6e, 0x6b]

/-- answers during a call -/
structure Env where
  /-- `libfsapfs_file_system_btree_get_attributes` -/
  attributes : Res (List Attribute)
  /-- `libfsapfs_attribute_values_compare_name_with_utf8_string`: is the name equal to a string -/
  compare : Bytes → Bytes → Res Bool
  /-- `libfsapfs_attributes_get_file_extents`, libfsapfs_attributes.c 40-116, `libfsapfs_data_stream_initialize_from_file_extents` and what that stream
  holds, by data stream identifier and size -/
  extentData : Nat → Nat → Res Bytes
  /-- allocations of `libfsapfs_data_stream_initialize_from_data` -/
  buffer : Res Unit
  /-- `libfsapfs_internal_file_entry_get_file_extents` and `libfsapfs_data_stream_initialize_from_file_extents` -/
  extents : Res Unit
  /-- allocations of `libfsapfs_data_stream_initialize_from_compressed_data_stream` -/
  stream : Res Unit

/-- what a data stream reads: compressed data, size and `LIBFSAPFS_COMPRESSION_METHOD`, or the extents of the inode with size and sparse flag -/
inductive Stream where
  | compressed (data : Bytes) (size method : Nat)
  | extents (size : Nat) (sparse : Bool)
deriving DecidableEq, Repr

/-- pointer to an element of the attributes array; the number tells which array it was -/
structure Ptr where
  array : Nat
  value : Attribute
deriving DecidableEq, Repr

/-- `libfsapfs_internal_file_entry_t`, fields used here; `size` is (size64_t) -1 if not determined -/
structure Entry where
  inodeSize : Nat
  inodeFlags : Nat
  attributes : Option (List Attribute) := none
  array : Nat := 0
  compressed : Option Ptr := none
  fork : Option Ptr := none
  symlink : Option Ptr := none
  header : Option (Nat × Nat) := none
  size : Nat := 2 ^ 64 - 1
  stream : Option Stream := none
  target : Option Bytes := none
deriving DecidableEq, Repr

/-- use of a pointer: undefined if its array was freed -/
def deref (e : Entry) (p : Ptr) : Res Attribute := if e.attributes.isSome ∧ p.array = e.array then ok p.value else ub

/-- loop of `libfsapfs_internal_file_entry_get_extended_attributes`, libfsapfs_file_entry.c 1939-2028 -/
def scan (env : Env) : List Attribute → Entry → Res Unit × Entry
  | [], e => (ok (), e)
  | a :: as, e =>
    match env.compare a.name decmpfsName with
    | .ub => (ub, e)
    | .err => (err, e)
    | .ok true => scan env as { e with compressed := some { array := e.array, value := a } }
    | .ok false =>
      match env.compare a.name forkName with
      | .ub => (ub, e)
      | .err => (err, e)
      | .ok true => scan env as { e with fork := some { array := e.array, value := a } }
      | .ok false =>
        match env.compare a.name symlinkName with
        | .ub => (ub, e)
        | .err => (err, e)
        | .ok true => scan env as { e with symlink := some { array := e.array, value := a } }
        | .ok false => scan env as e

/-- `libfsapfs_internal_file_entry_get_extended_attributes`, libfsapfs_file_entry.c 1845-2040. On an error the array is freed, the pointers into
it are kept. -/
def getAttributes (env : Env) (e : Entry) : Res Unit × Entry :=
  if e.attributes.isSome then (err, e)
  else
    match env.attributes with
    | .ub => (ub, e)
    | .err => (err, e)
    | .ok as =>
      match scan env as { e with attributes := some as, array := e.array + 1 } with
      | (.ok (), e) => (ok (), e)
      | (r, e) => (r, { e with attributes := none })

/-- reading the attributes if they are not there, as in 2076-2091 and 4947-4962 -/
def needAttributes (env : Env) (e : Entry) : Res Unit × Entry := if e.attributes.isNone then getAttributes env e else (ok (), e)

/-- `libfsapfs_compressed_data_header_read_data`, libfsapfs_compressed_data_header.c 139-235; `none` is `return( 0 )`, another signature -/
def readHeader (d : Bytes) : Res (Option (Nat × Nat)) := do
  require (¬ (d.length < 16 ∨ d.length > 2 ^ 63 - 1))
  let signature ← rdN d 0 4
  if signature ≠ [0x66, 0x70, 0x6d, 0x63] then return none
  else do
    let method ← rdLE d 4 4
    let size ← rdLE d 8 8
    return some (method, size)

/-- `libfsapfs_attributes_get_data_stream`, libfsapfs_attributes.c 121-203, and what the stream holds; `none` is a stream that stays NULL, because neither
of the two flags is set. The check of the data is that of `libfsapfs_buffer_data_handle_initialize`, libfsapfs_buffer_data_handle.c 36-121. -/
def content (env : Env) (a : Attribute) : Res (Option Bytes) :=
  if a.flags % 2 ≠ 0 then do
    let d ← env.extentData a.stream a.size
    return some d
  else if a.flags / 2 % 2 ≠ 0 then
    match a.data with
    | none => do
      require (a.size = 0)
      env.buffer
      return some []
    | some d => do
      require (a.size ≤ 2 ^ 63 - 1)
      env.buffer
      if a.size ≤ d.length then return some (d.take a.size) else ub
  else return none

/-- reading 16 bytes of the stream and the header from them, libfsapfs_file_entry.c 5003-5052 -/
def headerOf : Option Bytes → Res (Option (Nat × Nat))
  | none => err
  | some d => do
    require (16 ≤ d.length)
    readHeader (d.take 16)

/-- the header of the compressed data, libfsapfs_file_entry.c 4963-5068 -/
def compressedHeader (env : Env) (a : Attribute) : Res (Option (Nat × Nat)) := do
  let c ← content env a
  headerOf c

/-- `libfsapfs_internal_file_entry_get_data_size`, libfsapfs_file_entry.c 4902-5103 -/
def getDataSize (env : Env) (e : Entry) : Res Unit × Entry :=
  if e.header.isSome then (err, e)
  else if e.size ≠ 2 ^ 64 - 1 then (err, e)
  else
    match needAttributes env e with
    | (.ub, e) => (ub, e)
    | (.err, e) => (err, e)
    | (.ok (), e) =>
      match e.compressed with
      | none => (ok (), { e with size := e.inodeSize })
      | some p =>
        match (do let a ← deref e p; compressedHeader env a) with
        | .ub => (ub, e)
        | .err => (err, e)
        | .ok none => (ok (), { e with size := e.inodeSize })
        | .ok (some h) => (ok (), { e with header := some h, size := h.2 })

/-- `libfsapfs_file_entry_get_size`, libfsapfs_file_entry.c 5109-5193 -/
def getSize (env : Env) (e : Entry) : Res Nat × Entry :=
  if e.size = 2 ^ 64 - 1 then
    match getDataSize env e with
    | (.ok (), e) => (ok e.size, e)
    | (.err, e) => (err, e)
    | (.ub, e) => (ub, e)
  else (ok e.size, e)

/-- compression method of the header to `LIBFSAPFS_COMPRESSION_METHOD`, libfsapfs_file_entry.c 4344-4375; libfsapfs_definitions.h.in 87-96 -/
def codecOf (method : Nat) : Res Nat :=
  if method = 3 ∨ method = 4 then ok 1
  else if method = 5 then ok 5
  else if method = 7 ∨ method = 8 then ok 3
  else if method = 11 ∨ method = 12 then ok 2
  else err

/-- the check of a pointer -/
def notNull : Option Ptr → Res Ptr
  | none => err
  | some p => ok p

/-- pointer to the attribute with the compressed data, libfsapfs_file_entry.c 4376-4410: the attribute or the resource fork -/
def pick (e : Entry) (method : Nat) : Res Ptr := notNull (if method = 4 ∨ method = 8 then e.fork else e.compressed)

/-- data stream from a compressed data stream: `libfsapfs_data_stream_initialize_from_compressed_data_stream`, libfsapfs_data_stream.c 259-357, with the check
of the method in `libfsapfs_compressed_data_handle_initialize`, libfsapfs_compressed_data_handle.c 83-95 -/
def streamOf (env : Env) (size codec : Nat) : Option Bytes → Res Stream
  | none => err
  | some d => do
    require (codec = 1 ∨ codec = 3 ∨ codec = 5)
    env.stream
    return .compressed d size codec

/-- the compressed data and its stream, libfsapfs_file_entry.c 4344-4437 -/
def compressedStream (env : Env) (e : Entry) (method : Nat) : Res Stream := do
  let codec ← codecOf method
  let p ← pick e method
  let a ← deref e p
  let c ← content env a
  streamOf env e.size codec c

/-- `libfsapfs_internal_file_entry_get_data_stream`, libfsapfs_file_entry.c 4282-4514 -/
def getDataStream (env : Env) (e : Entry) : Res Unit × Entry :=
  if e.stream.isSome then (err, e)
  else
    match (if e.size = 2 ^ 64 - 1 then getDataSize env e else (ok (), e)) with
    | (.ub, e) => (ub, e)
    | (.err, e) => (err, e)
    | (.ok (), e) =>
      match e.header with
      | some h =>
        match compressedStream env e h.1 with
        | .ub => (ub, e)
        | .err => (err, e)
        | .ok s => (ok (), { e with stream := some s })
      | none =>
        match env.extents with
        | .ub => (ub, e)
        | .err => (err, e)
        | .ok () => (ok (), { e with stream := some (.extents e.inodeSize (e.inodeFlags / 0x200 % 2 ≠ 0)) })

/-- what `libfsapfs_file_entry_read_buffer` 4520-4612, `..._read_buffer_at_offset` 4617-4711, `..._seek_offset` 4716-4806 and `..._get_offset` 4811-4897 do
before they use the stream -/
def openStream (env : Env) (e : Entry) : Res Stream × Entry :=
  match e.stream with
  | some s => (ok s, e)
  | none =>
    match getDataStream env e with
    | (.ub, e) => (ub, e)
    | (.err, e) => (err, e)
    | (.ok (), e) =>
      match e.stream with
      | some s => (ok s, e)
      | none => (err, e)

/-- reading the target from the stream, libfsapfs_file_entry.c 2150-2180 -/
def targetOf (size : Nat) : Option Bytes → Res Bytes
  | none => err
  | some d => do
    require (size ≤ d.length)
    return d.take size

/-- the target in an attribute, libfsapfs_file_entry.c 2092-2180; 128 MiB is `MEMORY_MAXIMUM_ALLOCATION_SIZE` -/
def linkTarget (env : Env) (a : Attribute) : Res Bytes := do
  require (¬ (a.size = 0 ∨ a.size > 2 ^ 27))
  let c ← content env a
  targetOf a.size c

/-- `libfsapfs_internal_file_entry_get_symbolic_link_data`, libfsapfs_file_entry.c 2045-2196 -/
def getTarget (env : Env) (e : Entry) : Res Unit × Entry :=
  if e.target.isSome then (err, e)
  else
    match needAttributes env e with
    | (.ub, e) => (ub, e)
    | (.err, e) => (err, e)
    | (.ok (), e) =>
      match e.symlink with
      | none => (ok (), e)
      | some p =>
        match (do let a ← deref e p; linkTarget env a) with
        | .ub => (ub, e)
        | .err => (err, e)
        | .ok t => (ok (), { e with target := some t })

/-- `libfsapfs_file_entry_get_utf8_symbolic_link_target_size` 2203-2299 and the three functions like it: the bytes of the target before they
are converted; `none` is `return( 0 )`, not available -/
def symlinkTarget (env : Env) (e : Entry) : Res (Option Bytes) × Entry :=
  match e.target with
  | some t => (ok (some t), e)
  | none =>
    match getTarget env e with
    | (.ub, e) => (ub, e)
    | (.err, e) => (err, e)
    | (.ok (), e) => (ok e.target, e)

/-- `libfsapfs_file_entry_get_number_of_extended_attributes` 2617-2700; the functions that get an attribute by index or name start the same way -/
def numberOfAttributes (env : Env) (e : Entry) : Res Nat × Entry :=
  match needAttributes env e with
  | (.ub, e) => (ub, e)
  | (.err, e) => (err, e)
  | (.ok (), e) =>
    match e.attributes with
    | none => (ub, e)
    | some as => (ok as.length, e)

/-- loop of `libfsapfs_internal_file_entry_get_attribute_values_by_utf8_name`, libfsapfs_file_entry.c 2901-2946 -/
def findNamed (env : Env) (name : Bytes) : List Attribute → Res (Option Attribute)
  | [] => ok none
  | a :: as => do
    let eq ← env.compare a.name name
    if eq then return some a else findNamed env name as

/-- `libfsapfs_file_entry_get_extended_attribute_by_utf8_name` 3213-3330 with `libfsapfs_internal_file_entry_get_attribute_values_by_utf8_name` 2847-2947;
`none` is `return( 0 )`, no such attribute -/
def attributeByName (env : Env) (name : Bytes) (e : Entry) : Res (Option Attribute) × Entry :=
  match needAttributes env e with
  | (.ub, e) => (ub, e)
  | (.err, e) => (err, e)
  | (.ok (), e) =>
    match e.attributes with
    | none => (ub, e)
    | some as => (findNamed env name as, e)

end FileEntry
end Verif
