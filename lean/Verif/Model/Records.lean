import Verif.Model.DataStream
/-!
# Model of libfsapfs_file_extent.c, libfsapfs_directory_record.c, libfsapfs_inode.c and libfsapfs_attribute_values.c: parsing records

Names are returned as bytes; their conversion to UTF-8 or UTF-16 strings is done by libuna. Allocations of at most 65535 bytes are assumed to succeed.
-/
namespace Verif
open Res
namespace Records

/-- `libfsapfs_file_extent_read_key_data`, libfsapfs_file_extent.c 142-226 -/
def readExtentKey (d : Bytes) : Res Nat := do
  require (¬ (d.length < 16 ∨ d.length > 2 ^ 63 - 1))
  rdLE d 8 8

/-- `libfsapfs_file_extent_read_value_data`, libfsapfs_file_extent.c 231-332: size, physical block number, encryption identifier -/
def readExtentValue (d : Bytes) : Res (Nat × Nat × Nat) := do
  require (¬ (d.length < 24 ∨ d.length > 2 ^ 63 - 1))
  let size ← rdLE d 0 8
  let physical ← rdLE d 8 8
  let encryption ← rdLE d 16 8
  return (size % 2 ^ 56, physical, encryption)

/-- reading a file extent record, libfsapfs_file_system_btree.c 4522-4563 -/
def readExtent (e : Bytes × Bytes) : Res DataStream.Extent := do
  let logical ← readExtentKey e.1
  let (size, physical, encryption) ← readExtentValue e.2
  return { logical := logical, physical := physical, size := size, encId := encryption }

/-- `libfsapfs_directory_record_t` -/
structure DirectoryRecord where
  name : Bytes
  hash : Nat
  identifier : Nat
  added : Nat
deriving DecidableEq, Repr

/-- `libfsapfs_directory_record_read_key_data`, libfsapfs_directory_record.c 264-486: name and name hash, which is 0 if not stored -/
def readDirectoryKey (d : Bytes) : Res (Bytes × Nat) := do
  require (¬ (d.length < 10 ∨ d.length > 2 ^ 63 - 1))
  let v ← rdLE d 8 2
  let (size, hash, off) ← (
    if v % 1024 < d.length - 10 then do
      require (¬ d.length < 12)
      let w ← rdLE d 8 4
      return (w % 1024, w / 1024, 12)
    else return (v % 1024, 0, 10))
  require (¬ (size = 0 ∨ size > 128 * 2 ^ 20 ∨ size > d.length - off))
  let name ← rdN d off size
  return (name, hash)

/-- the next value offset, with padding to a multiple of 8 bytes, libfsapfs_directory_record.c 751-777, libfsapfs_inode.c 823-849 -/
def nextValue (size offset valueSize : Nat) : Nat :=
  if valueSize % 8 > 0 then
    if offset + valueSize > size - (8 - valueSize % 8) then offset + valueSize + (size - (offset + valueSize))
    else offset + valueSize + (8 - valueSize % 8)
  else offset + valueSize

/-- loop of `libfsapfs_directory_record_read_value_data`, libfsapfs_directory_record.c 646-778: `k` more extended fields -/
def directoryFields (d : Bytes) : Nat → Nat → Nat → Res Unit
  | 0, _, _ => ok ()
  | k + 1, off, valueOff => do
    require (¬ off > d.length - 4)
    let type ← rd d off
    let size ← rdLE d (off + 2) 2
    require (¬ valueOff > d.length)
    require (¬ size > d.length - valueOff)
    require (type = 1)
    directoryFields d k (off + 4) (nextValue d.length valueOff size)

/-- `libfsapfs_directory_record_read_value_data`, libfsapfs_directory_record.c 491-788: identifier and added time -/
def readDirectoryValue (d : Bytes) : Res (Nat × Nat) := do
  require (¬ (d.length < 18 ∨ d.length > 2 ^ 63 - 1))
  let identifier ← rdLE d 0 8
  let added ← rdLE d 8 8
  if d.length > 18 then do
    require (¬ 18 > d.length - 4)
    let count ← rdLE d 18 2
    directoryFields d count 22 (22 + count * 4)
    return (identifier, added)
  else return (identifier, added)

/-- reading a directory record, libfsapfs_file_system_btree.c 2897-2938 -/
def readDirectoryRecord (e : Bytes × Bytes) : Res DirectoryRecord := do
  let (name, hash) ← readDirectoryKey e.1
  let (identifier, added) ← readDirectoryValue e.2
  return { name := name, hash := hash, identifier := identifier, added := added }

/-- `libfsapfs_inode_t`, fields that are used -/
structure Inode where
  identifier : Nat
  parent : Nat
  dataStream : Nat
  modification : Nat
  creation : Nat
  change : Nat
  access : Nat
  flags : Nat
  links : Nat
  owner : Nat
  group : Nat
  mode : Nat
  name : Option Bytes
  size : Nat
  device : Nat
deriving DecidableEq, Repr

/-- `libfsapfs_inode_read_key_data`, libfsapfs_inode.c 148-222 -/
def readInodeKey (d : Bytes) : Res Nat := do
  require (¬ (d.length < 8 ∨ d.length > 2 ^ 63 - 1))
  let v ← rdLE d 0 8
  return v % 2 ^ 60

/-- one extended field of an inode, libfsapfs_inode.c 652-822 -/
def inodeField (i : Inode) (d : Bytes) (type valueOff size : Nat) : Res Inode :=
  if type = 1 ∨ type = 2 ∨ type = 3 ∨ type = 5 ∨ type = 7 ∨ type = 10 ∨ type = 11 ∨ type = 13 ∨ type = 15 then ok i
  else if type = 4 then do
    require (i.name = none)
    let name ← rdN d valueOff size
    return { i with name := some name }
  else if type = 8 then do
    require (¬ size < 40)
    let used ← rdLE d valueOff 8
    return { i with size := used }
  else if type = 14 then do
    require (size = 4)
    let device ← rdLE d valueOff 4
    return { i with device := device }
  else err

/-- loop of `libfsapfs_inode_read_value_data`, libfsapfs_inode.c 560-850: `k` more extended fields -/
def inodeFields (d : Bytes) : Nat → Nat → Nat → Inode → Res Inode
  | 0, _, _, i => ok i
  | k + 1, off, valueOff, i => do
    require (¬ off > d.length - 4)
    let type ← rd d off
    let size ← rdLE d (off + 2) 2
    require (¬ valueOff > d.length)
    require (¬ (size = 0 ∨ size > d.length - valueOff))
    let i ← inodeField i d type.toNat valueOff size
    inodeFields d k (off + 4) (nextValue d.length valueOff size) i

/-- `libfsapfs_inode_read_value_data`, libfsapfs_inode.c 227-873 -/
def readInodeValue (identifier : Nat) (d : Bytes) : Res Inode := do
  require (¬ (d.length < 92 ∨ d.length > 2 ^ 63 - 1))
  let parent ← rdLE d 0 8
  let dataStream ← rdLE d 8 8
  let modification ← rdLE d 16 8
  let creation ← rdLE d 24 8
  let change ← rdLE d 32 8
  let access ← rdLE d 40 8
  let flags ← rdLE d 48 8
  let links ← rdLE d 56 4
  let owner ← rdLE d 72 4
  let group ← rdLE d 76 4
  let mode ← rdLE d 80 2
  let i : Inode := { identifier := identifier, parent := parent, dataStream := dataStream, modification := modification, creation := creation, change := change, access := access, flags := flags, links := links, owner := owner, group := group, mode := mode, name := none, size := 0, device := 0 }
  if d.length > 92 then do
    require (¬ 92 > d.length - 4)
    let count ← rdLE d 92 2
    inodeFields d count 96 (96 + count * 4) i
  else return i

/-- reading an inode record, libfsapfs_file_system_btree.c 5258-5299 -/
def readInode (e : Bytes × Bytes) : Res Inode := do
  let identifier ← readInodeKey e.1
  readInodeValue identifier e.2

/-- `libfsapfs_inode_get_device_number`, libfsapfs_inode.c 1220-1281; `none` is `return( 0 )` -/
def deviceNumber (i : Inode) : Option (Nat × Nat) :=
  if i.mode / 2 ^ 12 % 16 = 2 ∨ i.mode / 2 ^ 12 % 16 = 6 then
    if i.device / 2 ^ 16 % 2 ^ 16 = 0 then some (i.device / 2 ^ 8 % 256, i.device % 256)
    else if i.device / 2 ^ 8 % 2 ^ 16 = 0 then some (i.device / 2 ^ 24 % 256, i.device % 256)
    else none
  else none

/-- `libfsapfs_attribute_values_t` -/
structure Attribute where
  name : Bytes
  flags : Nat
  /-- embedded data; `none` is NULL -/
  data : Option Bytes
  stream : Nat
  size : Nat
deriving DecidableEq, Repr

/-- `libfsapfs_attribute_values_read_key_data`, libfsapfs_attribute_values.c 174-336 -/
def readAttributeKey (d : Bytes) : Res Bytes := do
  require (¬ (d.length < 10 ∨ d.length > 2 ^ 63 - 1))
  let size ← rdLE d 8 2
  require (¬ (size = 0 ∨ size > d.length - 10))
  rdN d 10 size

/-- `libfsapfs_attribute_values_read_value_data`, libfsapfs_attribute_values.c 341-589: flags, embedded data, data stream identifier and size -/
def readAttributeValue (d : Bytes) : Res (Nat × Option Bytes × Nat × Nat) := do
  require (¬ (d.length < 4 ∨ d.length > 2 ^ 63 - 1))
  let flags ← rdLE d 0 2
  let size ← rdLE d 2 2
  require (¬ (size ≠ 0 ∧ size > d.length - 4))
  if flags % 2 ≠ 0 then do
    require (size = 48)
    let stream ← rdLE d 4 8
    let used ← rdLE d 12 8
    return (flags, none, stream, used)
  else if flags / 2 % 2 ≠ 0 ∧ size > 0 then do
    let data ← rdN d 4 size
    return (flags, some data, 0, size)
  else return (flags, none, 0, 0)

/-- reading an extended attribute record, libfsapfs_file_system_btree.c 3715-3756 -/
def readAttribute (e : Bytes × Bytes) : Res Attribute := do
  let name ← readAttributeKey e.1
  let (flags, data, stream, size) ← readAttributeValue e.2
  return { name := name, flags := flags, data := data, stream := stream, size := size }

end Records
end Verif
