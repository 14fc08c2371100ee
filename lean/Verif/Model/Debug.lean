import Verif.Model.VolumeOpen
import Verif.Model.Compression
/-!
# Model of the diagnostic output: what a library does that is built with HAVE_DEBUG_OUTPUT

Only what differs from a library built without is here: objects that are read in order to be printed, checks
that are left out, and memory that is read in order to be printed. Printing of a time (libfdatetime) and of an
identifier (libfguid) succeeds; the text that is printed is not modelled.
-/
namespace Verif
open Res
namespace Debug
open Container

/-- a library without HAVE_DEBUG_OUTPUT, one with it, and the latter with `libcnotify_verbose` set, as
`libfsapfs_notify_set_verbose` does, libfsapfs_notify.c 37-42 -/
inductive Mode where
  | plain
  | quiet
  | verbose
deriving DecidableEq, Repr

/-- `libcnotify_print_data` reads `n` bytes; `d` is all the memory behind the pointer -/
def print (d : Bytes) (off n : Nat) : Res Unit := if off + n ≤ d.length then ok () else ub

/-! ### Objects that are only printed -/

/-- an object that is read and whose type is compared: `n` bytes are read from the file, the struct has `size`
bytes; in verbose mode all bytes of the struct, or (`whole`) of the data, are printed -/
def readTyped (n size type subtype : Nat) (whole verbose : Bool) (image : Image) (offset : Nat) : Res Unit := do
  let d ← readAt image offset n
  require (¬ (d.length < size ∨ d.length > 2 ^ 63 - 1))
  if verbose then print d 0 (if whole then d.length else size)
  let t ← rdLE d 24 4
  require (t = type)
  let t ← rdLE d 28 4
  require (t = subtype)

/-- `libfsapfs_space_manager_read_file_io_handle`, libfsapfs_space_manager.c 140-206, and
`libfsapfs_space_manager_read_data`, 211-813 -/
def readSpaceManager (verbose : Bool) : Image → Nat → Res Unit := readTyped 4096 1496 0x80000005 0 true verbose

/-- `libfsapfs_container_reaper_read_file_io_handle`, libfsapfs_container_reaper.c 140-208, and
`libfsapfs_container_reaper_read_data`, 213-356 -/
def readReaper (verbose : Bool) : Image → Nat → Res Unit := readTyped 40 40 0x80000011 0 false verbose

/-- `libfsapfs_fusion_middle_tree_read_file_io_handle`, libfsapfs_fusion_middle_tree.c 140-208, and
`libfsapfs_fusion_middle_tree_read_data`, 213-357 -/
def readFusionTree (verbose : Bool) : Image → Nat → Res Unit := readTyped 4096 36 0x40000002 0x15 true verbose

/-- `libfsapfs_extent_reference_tree_read_file_io_handle`, libfsapfs_extent_reference_tree.c 140-208, and
`libfsapfs_extent_reference_tree_read_data`, 213-357 -/
def readExtentTree (verbose : Bool) : Image → Nat → Res Unit := readTyped 4096 36 0x40000002 0xf true verbose

/-! ### Opening a container -/

/-- body of the loop over the checkpoint descriptor area, libfsapfs_container.c 1213-1352, where each checkpoint map is read in verbose
mode (1233-1283) -/
def scanBlock (m : Mode) (image : Image) (index offset : Nat) (s : Scan) : Res Scan := do
  let d ← readAt image offset 32
  let (transaction, type) ← readObject d
  if type = 0x4000000c then do
    if m = .verbose then do
      let d ← readAt image offset 4096
      let _ ← readMap d
    if transaction > s.mapTransaction then
      return { s with mapBlock := (s.superblock.areaBlock + index) % 2 ^ 64, mapTransaction := transaction }
    else return s
  else if type = 0x80000001 then do
    let d ← readAt image offset 4096
    let superblock ← readSuperblock d
    if superblock.transaction > s.superblock.transaction then return { s with superblock := superblock }
    else return s
  else return s

/-- the loop, libfsapfs_container.c 1209-1354 -/
def scanLoop (m : Mode) (image : Image) : Nat → Nat → Nat → Scan → Res Scan
  | 0, _, _, s => ok s
  | fuel + 1, index, offset, s =>
    if index ≤ s.superblock.areaBlocks then do
      let s ← scanBlock m image index offset s
      scanLoop m image fuel (index + 1) (offset + 4096) s
    else ok s

/-- an object that the checkpoint map has: libfsapfs_container.c 1459-1525 and 1526-1592 -/
def readMapped (read : Image → Nat → Res Unit) (image : Image) (blockSize identifier : Nat) (map : List (Nat × Nat)) : Res Unit :=
  if identifier > 0 then
    match mapAddress identifier map with
    | none => err
    | some a => read image (a * blockSize % 2 ^ 64)
  else ok ()

/-- what is read in verbose mode in order to be printed, libfsapfs_container.c 1418-1594 -/
def readPrinted (image : Image) (blockSize : Nat) (s : Superblock) (map : List (Nat × Nat)) : Res Unit := do
  if s.fusionTree ≠ 0 then readFusionTree true image (s.fusionTree * blockSize % 2 ^ 64)
  readMapped (readSpaceManager true) image blockSize s.spaceManager map
  readMapped (readReaper true) image blockSize s.reaper map

/-- `libfsapfs_internal_container_open_read`, libfsapfs_container.c 1020-1880, of a closed container; Fusion drives are refused only
without HAVE_DEBUG_OUTPUT (1174-1186) -/
def openContainer (m : Mode) (xts : Bytes → Bytes → Bytes → Bytes) (vector : Nat → Bool) (image : Image) : Res Container.Opened := do
  let d ← readAt image 0 4096
  let superblock ← readSuperblock d
  if m = .plain then require (superblock.incompatible / 2 ^ 8 % 2 = 0)
  let s ← scanLoop m image (2 ^ 31) 0 (superblock.areaBlock * superblock.blockSize) { superblock := superblock }
  require (s.mapBlock ≠ 0)
  let d ← readAt image (s.mapBlock * superblock.blockSize % 2 ^ 64) 4096
  let map ← readMap d
  if m = .verbose then readPrinted image superblock.blockSize s.superblock map
  require (vector (superblock.blocks * superblock.blockSize % 2 ^ 64) = true)
  require (s.superblock.objectMap ≠ 0)
  let d ← readAt image (s.superblock.objectMap * superblock.blockSize % 2 ^ 64) 88
  let tree ← readObjectMap d
  require (tree ≠ 0)
  let keyBag ← readKeyBag xts image s.superblock
  return { size := superblock.blocks * superblock.blockSize % 2 ^ 64, superblock := s.superblock, mapBlock := s.mapBlock, map := map, tree := tree, keyBag := keyBag }

/-! ### Opening a volume -/

/-- `libfsapfs_internal_volume_open_read`, libfsapfs_volume.c 243-891, of a new volume; the extent reference tree is read with
HAVE_DEBUG_OUTPUT whether or not it is printed (643-692) -/
def openVolume (m : Mode) (c : VolumeOpen.Cipher) (vector : Nat → Bool) (image : Image) (k : Container.Opened) (offset : Nat) : Res VolumeOpen.Opened := do
  let d ← readAt image offset 4096
  let s ← VolumeOpen.readSuperblock false d
  require (vector k.size = true)
  require (s.objectMap ≠ 0)
  let d ← readAt image (s.objectMap * 4096 % 2 ^ 64) 88
  let tree ← readObjectMap d
  require (tree ≠ 0)
  let state ← Volume.openRead (VolumeOpen.containerBag k.keyBag) s.flags s.identifier (VolumeOpen.readVolumeKeyBag c image s.identifier)
  if m ≠ .plain ∧ s.extentTree ≠ 0 then readExtentTree (m = .verbose) image (s.extentTree * 4096 % 2 ^ 64)
  let snapshots ← VolumeOpen.readSnapshots image k.size tree s
  require (s.fsRoot ≠ 0)
  return { superblock := s, tree := tree, snapshots := snapshots, state := state }

/-! ### Keys -/

open KeyBag in
/-- second part of `libfsapfs_key_encrypted_key_read_data` in verbose mode, libfsapfs_key_encrypted_key.c 452-828: the object is printed
(483-518) before its size is compared, attributes are printed afterwards (603-615) -/
def readInner (mem : Bytes) (size : Nat) (k : Kek) : Res Kek := do
  let tag ← rd mem 0
  let (len, off) ← readSize mem true 1
  print mem 0 size
  print mem off len
  require (tag.toNat = 0xa3)
  require (¬ (len : Int) > (size : Int) - 2)
  attrLoop mem size true (fun t l o k => do print mem o l; innerAttr mem t l o k) off k

open KeyBag in
/-- `libfsapfs_key_encrypted_key_read_data` in verbose mode, libfsapfs_key_encrypted_key.c 147-829, on a new object: the object is printed
(234-267) before its size is compared, attributes are printed afterwards (361-372). `mem` is all the memory behind `data`. -/
def readKek (mem : Bytes) (size : Nat) : Res Kek := do
  require (¬ (size < 2 ∨ size > 2 ^ 63 - 1))
  let tag ← rd mem 0
  let (len, off) ← readSize mem false 1
  print mem 0 size
  print mem off len
  require (tag.toNat = 0x30)
  require (¬ len > size - 2)
  let (k, o) ← attrLoop mem size false (fun t l o s => do print mem o l; outerAttr mem t l o s) off (({} : Kek), none)
  match o with
  | none => err
  | some (base, sz) => readInner (mem.drop base) sz k

/-! ### Compressed files -/

open Compressed in
/-- `libfsapfs_compressed_data_handle_get_compressed_block_offsets`, libfsapfs_compressed_data_handle.c 236-801, in verbose mode: offset and
size of the footer are read from the header (397-417), which has been read completely, and with them the footer (694-729). Both are 0
if the data starts with the signature, and for other methods. -/
def getOffsets (method : Nat) (stream : Bytes) : Res (List Nat) := do
  let offs ← Compressed.getOffsets method stream
  if method = methodDeflate ∧ stream.take 4 ≠ [0x66, 0x70, 0x6d, 0x63] then do
    let off := beNat ((stream.drop 4).take 4)
    let size := beNat ((stream.drop 12).take 4)
    require (¬ size > bufferSize)
    let bs ← readInto stream 0 size off
    require (bs.length = size)
    return offs
  else return offs

end Debug
end Verif
