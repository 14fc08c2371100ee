import Verif.Model.VolumeOpen
import Verif.Model.FileSystem
import Verif.Model.FileEntry
import Verif.Model.NameLookup
import Verif.Model.Compression
import Verif.Spec.CompressedFile
/-!
# Model of libfsapfs_file_system.c, of the functions of libfsapfs_volume.c for file entries and of reading a file entry in libfsapfs_file_entry.c

Puts together the models of the file system B-tree, file entries, data streams and compressed data. The caches of libfdata and libfcache are transparent, see
`Verif.Model.NodeCache` for where they are not. The bytes of an attribute that has a data stream are read at once, libfsapfs reads them when they are needed.
-/
namespace Verif
open Res
namespace FileRead
open Spec (FileOp)

/-- `libfsapfs_file_system_t` and what the functions of a volume pass to it: file IO handle and encryption context, file system B-tree, transaction identifier and
`use_case_folding` -/
structure Files where
  disk : Nat → Nat → Res Bytes
  xts : Option (Bytes → Bytes → Bytes)
  tree : FsTree.Volume
  xid : Nat
  folding : Bool

/-- reading bytes of the image at any offset, as `Container.readAt` does at the start of a block -/
def readBytes (image : Container.Image) (offset n : Nat) : Res Bytes :=
  if offset ≥ 2 ^ 63 then err
  else
    match Container.blocksFrom image (offset / 4096) ((offset % 4096 + n + 4095) / 4096) with
    | none => err
    | some d => if offset % 4096 + n ≤ d.length then ok ((d.drop (offset % 4096)).take n) else err

/-- reading and decrypting blocks of files: an encryption context without keys may fail, which is taken as failure of reading -/
def storage (c : VolumeOpen.Cipher) (disk : Nat → Nat → Res Bytes) : VolumeOpen.Context → (Nat → Nat → Res Bytes) × Option (Bytes → Bytes → Bytes)
  | none => (disk, none)
  | some (some keys) => (disk, some (c.xts keys))
  | some none =>
    match c.keyless with
    | none => (fun _ _ => err, none)
    | some f => (disk, some f)

/-- `libfsapfs_internal_volume_get_file_system`, libfsapfs_volume.c 2800-2965, in a locking state; the transaction identifier is that of the superblock (3037, 3169, 3301), case
folding is the first bit of the incompatible features (2891) -/
def files (c : VolumeOpen.Cipher) (image : Container.Image) (k : Container.Opened) (v : VolumeOpen.Opened) (s : Volume.State) : Res Files := do
  let t ← VolumeOpen.trees c image k v s
  match t with
  | none => err
  | some t =>
    let st := storage c (readBytes image) (VolumeOpen.context s)
    return { disk := st.1, xts := st.2, tree := t, xid := v.superblock.transaction, folding := decide (v.superblock.incompatible % 2 ≠ 0) }

/-- `libfsapfs_file_system_get_file_entry_by_identifier`, libfsapfs_file_system.c 202-300; `none` is `return( 0 )` -/
def byIdentifier (f : Files) (identifier : Nat) : Res (Option Records.Inode) := FsTree.inodeByIdentifier f.tree f.xid identifier

/-- `libfsapfs_file_system_get_file_entry_by_utf8_path`, libfsapfs_file_system.c 305-415, and `libfsapfs_file_system_get_file_entry_by_utf16_path`, 420-530: a path starts at the
directory with identifier 2 -/
def byPath {α : Type} [DecidableEq α] (dn : Name.Decoder UInt8) (dq : Name.Decoder α) (separator : α) (f : Files) (path : List α) :
    Res (Option (Records.Inode × Option Records.DirectoryRecord)) := NameLookup.lookupPath dn dq separator f.folding f.tree f.xid 2 path

/-- the data stream of an identifier: `libfsapfs_internal_file_entry_get_file_extents`, libfsapfs_file_entry.c 4189-4277, or `libfsapfs_attributes_get_file_extents`,
libfsapfs_attributes.c 40-116, and `libfsapfs_data_stream_initialize_from_file_extents`, libfsapfs_data_stream.c 141-253. Blocks have 4096 bytes and sectors 512, libfsapfs_io_handle.c. -/
def extentStream (f : Files) (identifier : Nat) (sparse : Bool) : Res DataStream.Handle := do
  let es ← FsTree.fileExtents f.tree f.xid identifier
  DataStream.initHandle f.disk 4096 512 f.xts es sparse

/-- a file entry of an inode, `libfsapfs_file_entry_initialize`, libfsapfs_file_entry.c 50-156 -/
def entryOf (i : Records.Inode) : FileEntry.Entry := { inodeSize := i.size, inodeFlags := i.flags }

/-- is the data stream of an inode sparse, libfsapfs_file_entry.c 4484 -/
def sparse (i : Records.Inode) : Bool := decide (i.flags / 0x200 % 2 ≠ 0)

/-- what a file entry gets: attributes by the identifier of the inode, libfsapfs_file_entry.c 1881-1938, extents by the identifier of its data stream, 4219-4254. `compare` is libuna. -/
def env (f : Files) (compare : Bytes → Bytes → Res Bool) (i : Records.Inode) : FileEntry.Env where
  attributes := FsTree.extendedAttributes f.tree f.xid i.identifier
  compare := compare
  extentData identifier size := do
    let h ← extentStream f identifier false
    DataStream.streamRead h size 0 size
  buffer := ok ()
  extents := do
    let _ ← extentStream f i.dataStream (sparse i)
    return ()
  stream := ok ()

/-- an open data stream and its position -/
inductive Reader where
  | extents (h : DataStream.Handle) (size pos : Nat)
  | compressed (data : Bytes) (h : Compressed.Handle)

/-- the data stream of a file entry; `junk` is the prior content of the segment data -/
def openFile (f : Files) (compare : Bytes → Bytes → Res Bool) (junk : Bytes) (i : Records.Inode) (e : FileEntry.Entry) : Res Reader :=
  match (FileEntry.openStream (env f compare i) e).1 with
  | .ok (.extents size sparse) => do
    let h ← extentStream f i.dataStream sparse
    return .extents h size 0
  | .ok (.compressed data size method) => do
    let h ← Compressed.Handle.init size method junk
    return .compressed data h
  | .err => err
  | .ub => ub

/-- `libfsapfs_file_entry_seek_offset`, libfsapfs_file_entry.c 4716-4806, from the start and `libfsapfs_file_entry_read_buffer`, 4520-4612. The position of a stream is
kept by libfdata; negative offsets are refused. -/
def step (c : Codec) : FileOp → Reader → Res Bytes × Reader
  | .seek o, .extents h size pos => if o < 0 then (err, .extents h size pos) else (ok [], .extents h size o.toNat)
  | .read n, .extents h size pos =>
    match DataStream.streamRead h size pos n with
    | .ok b => (ok b, .extents h size (pos + b.length))
    | .err => (err, .extents h size pos)
    | .ub => (ub, .extents h size pos)
  | .seek o, .compressed data h =>
    match Compressed.seek o h with
    | (.ok _, h) => (ok [], .compressed data h)
    | (.err, h) => (err, .compressed data h)
    | (.ub, h) => (ub, .compressed data h)
  | .read n, .compressed data h =>
    match Compressed.streamRead c data (fun _ _ => true) n h with
    | (r, h) => (r, .compressed data h)

/-- operations on an open file in a row -/
def run (c : Codec) : List FileOp → Reader → List (Res Bytes)
  | [], _ => []
  | o :: os, r => (step c o r).1 :: run c os (step c o r).2

end FileRead
end Verif
