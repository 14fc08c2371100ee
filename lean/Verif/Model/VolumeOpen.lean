import Verif.Model.Container
import Verif.Model.Snapshot
import Verif.Model.Volume
import Verif.Model.FsTree
/-!
# Model of libfsapfs_volume_superblock.c and of opening a volume in libfsapfs_container.c and libfsapfs_volume.c

The file is an image of blocks as in `Verif.Model.Container`. The data block vectors (libfdata) cover the size of the container with one segment and elements of
4096 bytes; the caches are transparent.
-/
namespace Verif
open Res
namespace VolumeOpen
open Container

/-- the external ciphers: `xts keys tweak data` is `libcaes_crypt_xts` with the keys (key and tweak key) set. `keyless` is what it does in an encryption context where no
keys have been set, `none` if it fails. -/
structure Cipher where
  xts : Bytes × Bytes → Bytes → Bytes → Bytes
  keyless : Option (Bytes → Bytes → Bytes)

/-- `libfsapfs_volume_superblock_t`, libfsapfs_volume_superblock.h 37-86 -/
structure Superblock where
  transaction : Nat
  compatible : Nat
  readOnlyCompatible : Nat
  incompatible : Nat
  objectMap : Nat
  fsRoot : Nat
  extentTree : Nat
  snapshotTree : Nat
  nextIdentifier : Nat
  identifier : Bytes
  flags : Nat
  name : Bytes
deriving DecidableEq, Repr

/-- `libfsapfs_volume_superblock_read_data`, libfsapfs_volume_superblock.c 221-884; the offsets are those of the struct in fsapfs_volume_superblock.h, its size is 1008. -/
def readSuperblock (isSnapshot : Bool) (d : Bytes) : Res Superblock := do
  require (¬ (d.length < 1008 ∨ d.length > 2 ^ 63 - 1))
  let transaction ← rdLE d 16 8
  let type ← rdLE d 24 4
  require (type = if isSnapshot then 0x4000000d else 0x0000000d)
  let subtype ← rdLE d 28 4
  require (subtype = 0)
  let signature ← rdN d 32 4
  require (signature = [0x41, 0x50, 0x53, 0x42])
  let compatible ← rdLE d 40 8
  let readOnlyCompatible ← rdLE d 48 8
  let incompatible ← rdLE d 56 8
  let objectMap ← rdLE d 128 8
  let fsRoot ← rdLE d 136 8
  let extentTree ← rdLE d 144 8
  let snapshotTree ← rdLE d 152 8
  let nextIdentifier ← rdLE d 176 8
  let identifier ← rdN d 240 16
  let flags ← rdLE d 264 8
  let name ← rdN d 704 256
  Checksum.checkObject d
  return { transaction := transaction, compatible := compatible, readOnlyCompatible := readOnlyCompatible, incompatible := incompatible, objectMap := objectMap,
           fsRoot := fsRoot, extentTree := extentTree, snapshotTree := snapshotTree, nextIdentifier := nextIdentifier, identifier := identifier, flags := flags, name := name }

/-- reading a block through a data block vector, `libfsapfs_container_data_handle_read_data_block`, libfsapfs_container_data_handle.c 157-318, and
`libfsapfs_data_block_read` without encryption context, libfsapfs_data_block.c 255-438. `size` is the size of the container. -/
def fetch (image : Image) (size b : Nat) : Res Bytes :=
  if b * 4096 < size then readAt image (b * 4096) 4096 else err

/-- the encryption context of a volume: none, or one with the keys set, if any -/
abbrev Context := Option (Option (Bytes × Bytes))

/-- `libfsapfs_file_system_data_handle_read_data_block` without file extents, libfsapfs_file_system_data_handle.c 164-380: the number of the block is the encryption
identifier (274) -/
def fsFetch (c : Cipher) (context : Context) (image : Image) (size b : Nat) : Res Bytes := do
  let d ← fetch image size b
  match context with
  | none => Crypto.readDataBlock none d (List.replicate 4096 0) b 512
  | some (some keys) => Crypto.readDataBlock (some (c.xts keys)) d (List.replicate 4096 0) b 512
  | some none =>
    match c.keyless with
    | none => err
    | some f => Crypto.readDataBlock (some f) d (List.replicate 4096 0) b 512

/-- `libfsapfs_volume_key_bag_read_file_io_handle`, libfsapfs_volume_key_bag.c 182-419, called in libfsapfs_volume.c 604-625 -/
def readVolumeKeyBag (c : Cipher) (image : Image) (uuid : Bytes) (block blocks : Nat) : Res (List KeyBag.Entry) := do
  let offset := block * 4096 % 2 ^ 64
  let size := blocks * 4096 % 2 ^ 64
  require (¬ (size = 0 ∨ size > 128 * 1024 * 1024))
  let encrypted ← readAt image offset size
  let data ← Crypto.crypt (c.xts (uuid, uuid)) encrypted (offset / 512) 512 (List.replicate size 0)
  KeyBag.readVolumeBag data

/-- an open volume: superblock, root block of the object map B-tree, snapshots and locking state -/
structure Opened where
  superblock : Superblock
  tree : Nat
  snapshots : List Snapshot.Metadata
  state : Volume.State
deriving DecidableEq

/-- the key bag of a container as used by a volume: `is_locked` and the entries, libfsapfs_container.c 1773-1797 -/
def containerBag : Option (Option (List KeyBag.Entry)) → Option (Bool × List KeyBag.Entry)
  | none => none
  | some none => some (true, [])
  | some (some es) => some (false, es)

/-- the snapshots of a volume, libfsapfs_volume.c 694-743 -/
def readSnapshots (image : Image) (size : Nat) (tree : Nat) (s : Superblock) : Res (List Snapshot.Metadata) :=
  if s.snapshotTree ≠ 0 then
    Snapshot.snapshots { omFetch := fetch image size, omRoot := tree, fetch := fetch image size, root := s.snapshotTree } s.transaction
  else ok []

/-- `libfsapfs_internal_volume_open_read`, libfsapfs_volume.c 243-891, of a new volume. `vector size` tells if libfdata can create a vector for the size of the container. -/
def openRead (c : Cipher) (vector : Nat → Bool) (image : Image) (k : Container.Opened) (offset : Nat) : Res Opened := do
  let d ← readAt image offset 4096
  let s ← readSuperblock false d
  require (vector k.size = true)
  require (s.objectMap ≠ 0)
  let d ← readAt image (s.objectMap * 4096 % 2 ^ 64) 88
  let tree ← readObjectMap d
  require (tree ≠ 0)
  let state ← Volume.openRead (containerBag k.keyBag) s.flags s.identifier (readVolumeKeyBag c image s.identifier)
  let snapshots ← readSnapshots image k.size tree s
  require (s.fsRoot ≠ 0)
  return { superblock := s, tree := tree, snapshots := snapshots, state := state }

/-- `libfsapfs_container_get_volume_by_index`, libfsapfs_container.c 2195-2392 -/
def volumeByIndex (c : Cipher) (vector : Nat → Bool) (image : Image) (k : Container.Opened) (index : Int) : Res Opened := do
  let offset ← volumeOffset (fetch image k.size) k index
  openRead c vector image k offset

/-- `libfsapfs_volume_get_identifier`, libfsapfs_volume.c 1512-1592, and `libfsapfs_volume_superblock_get_volume_identifier`,
libfsapfs_volume_superblock.c 890-946: the content of the caller's buffer -/
def getIdentifier (v : Opened) (buffer : Bytes) : Res Bytes := do
  require (¬ (buffer.length < 16 ∨ buffer.length > 2 ^ 63 - 1))
  wrN buffer 0 v.superblock.identifier

/-- `libfsapfs_volume_get_features_flags`, libfsapfs_volume.c 1322-1424: compatible, incompatible and read-only compatible -/
def getFeaturesFlags (v : Opened) : Nat × Nat × Nat := (v.superblock.compatible, v.superblock.incompatible, v.superblock.readOnlyCompatible)

/-- `libfsapfs_volume_get_size`, libfsapfs_volume.c 1429-1506 -/
def getSize (_v : Opened) : Res Nat := err

/-- `libfsapfs_volume_get_next_file_entry_identifier`, libfsapfs_volume.c 2730-2795 -/
def getNextIdentifier (v : Opened) : Nat := v.superblock.nextIdentifier

/-- the bytes libuna reads for `libfsapfs_volume_get_utf8_name_size`, `libfsapfs_volume_get_utf8_name`, `libfsapfs_volume_get_utf16_name_size` and
`libfsapfs_volume_get_utf16_name`, libfsapfs_volume.c 1598-1888 and libfsapfs_volume_superblock.c 952-1111 -/
def nameBytes (v : Opened) : Res Bytes := Snapshot.readStream v.superblock.name 256 0

/-- `libfsapfs_volume_get_number_of_snapshots`, libfsapfs_volume.c 3343-3411 -/
def numberOfSnapshots (v : Opened) : Nat := v.snapshots.length

/-- the encryption context that `libfsapfs_internal_volume_open_read` creates along with the key bag (libfsapfs_volume.c 626), with the keys of the locking state -/
def context (s : Volume.State) : Context := s.keyBag.map fun _ => s.keys

/-- the trees that the functions for files of a volume use, `libfsapfs_internal_volume_get_file_system` libfsapfs_volume.c 2850-2965, `none` if the root of the file
system is not in the object map; unlocking is `Volume.getFileSystem` -/
def trees (c : Cipher) (image : Image) (k : Container.Opened) (v : Opened) (s : Volume.State) : Res (Option FsTree.Volume) := do
  let r ← BTree.omDescriptor (fetch image k.size) v.tree v.superblock.fsRoot v.superblock.transaction
  match r with
  | none => return none
  | some d => return some { omFetch := fetch image k.size, omRoot := v.tree, fsFetch := fsFetch c (context s) image k.size, fsRoot := d.physical }

end VolumeOpen
end Verif
