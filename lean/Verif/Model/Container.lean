import Verif.Model.BTree
import Verif.Model.KeyBag
/-!
# Model of libfsapfs_container_superblock.c, libfsapfs_checkpoint_map.c, libfsapfs_checkpoint_map_entry.c, libfsapfs_object.c, libfsapfs_object_map.c and of
opening a container and its volumes in libfsapfs_container.c

The file is a function from block numbers to the contents of the blocks of 4096 bytes, `none` is a read error; the last block can be shorter. All offsets are multiples of the
block size, 4096. Reading twice gives the same data. Allocation failures and profiling are not modelled; for debug output (HAVE_DEBUG_OUTPUT) see Model/Debug.lean.
-/
namespace Verif
open Res
namespace Container

abbrev Image := Nat → Option Bytes

/-- consecutive blocks -/
def blocksFrom (image : Image) : Nat → Nat → Option Bytes
  | _, 0 => some []
  | b, n + 1 => do
    let d ← image b
    let r ← blocksFrom image (b + 1) n
    return d ++ r

/-- `libbfio_handle_read_buffer_at_offset` followed by the comparison of the count, e.g. libfsapfs_container_superblock.c 176-195. A negative offset (`off64_t`) is an error. -/
def readAt (image : Image) (offset n : Nat) : Res Bytes :=
  if offset ≥ 2 ^ 63 then err
  else
    match blocksFrom image (offset / 4096) ((n + 4095) / 4096) with
    | none => err
    | some d => if n ≤ d.length then ok (d.take n) else err

/-- `libfsapfs_container_superblock_t`, libfsapfs_container_superblock.h 37-105 -/
structure Superblock where
  transaction : Nat
  blockSize : Nat
  blocks : Nat
  incompatible : Nat
  identifier : Bytes
  areaBlocks : Nat
  areaBlock : Nat
  spaceManager : Nat
  objectMap : Nat
  reaper : Nat
  fusionSet : Bytes
  keyBagBlock : Nat
  keyBagBlocks : Nat
  numberOfVolumes : Nat
  volumes : List Nat
  fusionTree : Nat
deriving DecidableEq, Repr

/-- loop over the volume object identifiers, libfsapfs_container_superblock.c 381-399 -/
def readVolumes (d : Bytes) : Nat → Nat → Res (List Nat)
  | _, 0 => return []
  | off, n + 1 => do
    let v ← rdLE d off 8
    let vs ← readVolumes d (off + 8) n
    return v :: vs

/-- `libfsapfs_container_superblock_read_data`, libfsapfs_container_superblock.c 216-884; the offsets are those of the struct in fsapfs_container_superblock.h,
its size is 1384. `checkpoint_descriptor_area_block_number` has 32 bits in libfsapfs_container_superblock.h 65-67. -/
def readSuperblock (d : Bytes) : Res Superblock := do
  require (¬ (d.length < 1384 ∨ d.length > 2 ^ 63 - 1))
  let transaction ← rdLE d 16 8
  let type ← rdLE d 24 4
  require (type = 0x80000001)
  let subtype ← rdLE d 28 4
  require (subtype = 0)
  let signature ← rdN d 32 4
  require (signature = [0x4e, 0x58, 0x53, 0x42])
  let blockSize ← rdLE d 36 4
  let blocks ← rdLE d 40 8
  let incompatible ← rdLE d 64 8
  let identifier ← rdN d 72 16
  let spaceManager ← rdLE d 152 8
  let objectMap ← rdLE d 160 8
  let reaper ← rdLE d 168 8
  let maximumVolumes ← rdLE d 180 4
  let volumes ← readVolumes d 184 100
  let fusionSet ← rdN d 1280 16
  let keyBagBlock ← rdLE d 1296 8
  let keyBagBlocks ← rdLE d 1304 8
  let areaBlocks ← rdLE d 104 4
  let areaBlock ← rdLE d 112 8
  let areaBlock := areaBlock % 2 ^ 32
  let fusionTree ← rdLE d 1352 8
  Checksum.checkObject d
  require (incompatible % 2 = 0)
  require (blockSize = 4096)
  require (areaBlocks / 2 ^ 31 % 2 = 0)
  require (areaBlock ≠ 0)
  require (¬ maximumVolumes > 100)
  return { transaction := transaction, blockSize := blockSize, blocks := blocks, incompatible := incompatible, identifier := identifier, areaBlocks := areaBlocks,
           areaBlock := areaBlock, spaceManager := spaceManager, objectMap := objectMap, reaper := reaper, fusionSet := fusionSet, keyBagBlock := keyBagBlock,
           keyBagBlocks := keyBagBlocks, numberOfVolumes := (volumes.filter (· ≠ 0)).length, volumes := volumes, fusionTree := fusionTree }

/-- `libfsapfs_checkpoint_map_entry_read_data`, libfsapfs_checkpoint_map_entry.c 139-265: object identifier and physical address. The first argument is the data behind the
pointer, whose length is the size that is passed. -/
def readMapEntry (d : Bytes) : Res (Nat × Nat) := do
  require (¬ (d.length < 40 ∨ d.length > 2 ^ 63 - 1))
  let identifier ← rdLE d 24 8
  let address ← rdLE d 32 8
  return (identifier, address)

/-- loop over the entries, libfsapfs_checkpoint_map.c 457-517; `data_size - data_offset` is not negative -/
def readMapEntries (d : Bytes) : Nat → Nat → Res (List (Nat × Nat))
  | _, 0 => return []
  | off, n + 1 => do
    let _ ← if off ≤ d.length then ok () else ub
    let e ← readMapEntry (d.drop off)
    let es ← readMapEntries d (off + 40) n
    return e :: es

/-- `libfsapfs_checkpoint_map_read_data`, libfsapfs_checkpoint_map.c 247-529; the size of the struct is 4080 -/
def readMap (d : Bytes) : Res (List (Nat × Nat)) := do
  require (¬ (d.length < 4080 ∨ d.length > 2 ^ 63 - 1))
  let type ← rdLE d 24 4
  require (type = 0x4000000c)
  let subtype ← rdLE d 28 4
  require (subtype = 0)
  let n ← rdLE d 36 4
  Checksum.checkObject d
  require (¬ n > 101)
  readMapEntries d 40 n

/-- `libfsapfs_checkpoint_map_get_physical_address_by_object_identifier`, libfsapfs_checkpoint_map.c 534-622; `none` is `return( 0 )` -/
def mapAddress (identifier : Nat) : List (Nat × Nat) → Option Nat
  | [] => none
  | e :: es => if identifier = e.1 then some e.2 else mapAddress identifier es

/-- `libfsapfs_object_read_data`, libfsapfs_object.c 216-327: transaction identifier and type -/
def readObject (d : Bytes) : Res (Nat × Nat) := do
  require (¬ (d.length < 32 ∨ d.length > 2 ^ 63 - 1))
  let transaction ← rdLE d 16 8
  let type ← rdLE d 24 4
  return (transaction, type)

/-- `libfsapfs_object_map_read_data`, libfsapfs_object_map.c 213-425: block number of the B-tree; the size of the struct is 88 -/
def readObjectMap (d : Bytes) : Res Nat := do
  require (¬ (d.length < 88 ∨ d.length > 2 ^ 63 - 1))
  let type ← rdLE d 24 4
  require (type = 0x4000000b)
  let subtype ← rdLE d 28 4
  require (subtype = 0)
  rdLE d 48 8

/-- variables of the loop over the checkpoint descriptor area: `internal_container->superblock`, `checkpoint_map_block_number`, `checkpoint_map_transaction_identifier` -/
structure Scan where
  superblock : Superblock
  mapBlock : Nat := 0
  mapTransaction : Nat := 0
deriving DecidableEq, Repr

/-- body of the loop, libfsapfs_container.c 1213-1352 -/
def scanBlock (image : Image) (index offset : Nat) (s : Scan) : Res Scan := do
  let d ← readAt image offset 32
  let (transaction, type) ← readObject d
  if type = 0x4000000c then
    if transaction > s.mapTransaction then
      return { s with mapBlock := (s.superblock.areaBlock + index) % 2 ^ 64, mapTransaction := transaction }
    else return s
  else if type = 0x80000001 then do
    let d ← readAt image offset 4096
    let superblock ← readSuperblock d
    if superblock.transaction > s.superblock.transaction then return { s with superblock := superblock }
    else return s
  else return s

/-- loop over the checkpoint descriptor area, libfsapfs_container.c 1209-1354. The loop ends after 2^31 steps at most, since `areaBlocks` is less than 2^31. -/
def scanLoop (image : Image) : Nat → Nat → Nat → Scan → Res Scan
  | 0, _, _, s => ok s
  | fuel + 1, index, offset, s =>
    if index ≤ s.superblock.areaBlocks then do
      let s ← scanBlock image index offset s
      scanLoop image fuel (index + 1) (offset + 4096) s
    else ok s

/-- what an open container consists of: `io_handle->container_size`, superblock, checkpoint map, root block of the object map B-tree, and the key bag, where `some none` is a locked one -/
structure Opened where
  size : Nat
  superblock : Superblock
  mapBlock : Nat
  map : List (Nat × Nat)
  tree : Nat
  keyBag : Option (Option (List KeyBag.Entry))
deriving DecidableEq

/-- the key bag of a container, libfsapfs_container.c 1749-1793 and `libfsapfs_container_key_bag_read_file_io_handle`, libfsapfs_container_key_bag.c 183-424;
`xts key` is the decryption with AES-XTS, both keys are the container identifier -/
def readKeyBag (xts : Bytes → Bytes → Bytes → Bytes) (image : Image) (s : Superblock) : Res (Option (Option (List KeyBag.Entry))) :=
  if s.keyBagBlock > 0 ∧ s.keyBagBlocks > 0 then do
    let offset := s.keyBagBlock * s.blockSize % 2 ^ 64
    let size := s.keyBagBlocks * s.blockSize % 2 ^ 64
    require (¬ (size = 0 ∨ size > 128 * 1024 * 1024))
    let encrypted ← readAt image offset size
    let data ← Crypto.crypt (xts s.identifier) encrypted (offset / 512) 512 (List.replicate size 0)
    let bag ← KeyBag.readContainerBag data
    return some bag
  else return none

/-- `libfsapfs_internal_container_open_read`, libfsapfs_container.c 1020-1880, of a closed container; `vector size` tells if libfdata can create a vector for the size -/
def openRead (xts : Bytes → Bytes → Bytes → Bytes) (vector : Nat → Bool) (image : Image) : Res Opened := do
  let d ← readAt image 0 4096
  let superblock ← readSuperblock d
  require (superblock.incompatible / 2 ^ 8 % 2 = 0)
  let s ← scanLoop image (2 ^ 31) 0 (superblock.areaBlock * superblock.blockSize) { superblock := superblock }
  require (s.mapBlock ≠ 0)
  let d ← readAt image (s.mapBlock * superblock.blockSize % 2 ^ 64) 4096
  let map ← readMap d
  require (vector (superblock.blocks * superblock.blockSize % 2 ^ 64) = true)
  require (s.superblock.objectMap ≠ 0)
  let d ← readAt image (s.superblock.objectMap * superblock.blockSize % 2 ^ 64) 88
  let tree ← readObjectMap d
  require (tree ≠ 0)
  let keyBag ← readKeyBag xts image s.superblock
  return { size := superblock.blocks * superblock.blockSize % 2 ^ 64, superblock := s.superblock, mapBlock := s.mapBlock, map := map, tree := tree, keyBag := keyBag }

/-- `libfsapfs_container_get_number_of_volumes`, libfsapfs_container.c 2113-2189 -/
def numberOfVolumes (c : Opened) : Nat := c.superblock.numberOfVolumes

/-- `libfsapfs_container_get_volume_by_index`, libfsapfs_container.c 2195-2392: the offset where the volume superblock is read. `fetch` reads blocks through the data block
vector. -/
def volumeOffset (fetch : Nat → Res Bytes) (c : Opened) (index : Int) : Res Nat := do
  require (¬ (index < 0 ∨ index ≥ c.superblock.numberOfVolumes))
  let identifier ← ofMem c.superblock.volumes[index.toNat]?
  let r ← BTree.omDescriptor fetch c.tree identifier c.superblock.transaction
  match r with
  | none => err
  | some d => return d.physical * c.superblock.blockSize % 2 ^ 64

end Container
end Verif
