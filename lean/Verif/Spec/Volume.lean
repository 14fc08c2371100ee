import Verif.Spec.Container
import Verif.Spec.Tree
/-!
# Volumes

Layout of apfs_superblock_t and omap_phys_t in the APFS reference.
-/
namespace Verif.Spec
open Verif

namespace Apsb

def compatible (d : Bytes) : Nat := field d 40 8
def readOnlyCompatible (d : Bytes) : Nat := field d 48 8
def incompatible (d : Bytes) : Nat := field d 56 8
def objectMap (d : Bytes) : Nat := field d 128 8
def fsRoot (d : Bytes) : Nat := field d 136 8
def snapshotTree (d : Bytes) : Nat := field d 152 8
def nextIdentifier (d : Bytes) : Nat := field d 176 8
def uuid (d : Bytes) : Bytes := slice d 240 16
def flags (d : Bytes) : Nat := field d 264 8
def nameField (d : Bytes) : Bytes := slice d 704 256

/-- the volume does not use encryption -/
def unencrypted (d : Bytes) : Prop := flags d % 2 = 1

/-- a volume superblock, whose storage type is that of a virtual (0) or physical (1) object -/
structure Valid (physical : Bool) (d : Bytes) : Prop where
  size : d.length = 4096
  checked : Checked d
  type : objectType d = if physical then 0x4000000d else 0xd
  subtype : field d 28 4 = 0
  signature : slice d 32 4 = [0x41, 0x50, 0x53, 0x42]

end Apsb

/-- an object map whose B-tree has its root in a block -/
structure ObjectMapAt (o : Bytes) (root : Nat) : Prop where
  size : 88 ≤ o.length
  type : objectType o = 0x4000000b
  subtype : field o 28 4 = 0
  tree : field o 48 8 = root

/-- the blocks of a container of `size` bytes: blocks that are cut short by the end of the file are not there -/
def containerBlocks (image : Nat → Option Bytes) (size b : Nat) : Option Bytes :=
  if b * 4096 < size ∧ b * 4096 < 2 ^ 63 then
    match image b with
    | none => none
    | some d => if d.length = 4096 then some d else none
  else none

/-- a volume superblock in a block, with an object map whose B-tree has its root in block `root` -/
structure StoredVolume (image : Nat → Option Bytes) (block : Nat) (d : Bytes) (root : Nat) : Prop where
  stored : image block = some d
  range : block * 4096 < 2 ^ 63
  valid : Apsb.Valid false d
  objectMap : Apsb.objectMap d ≠ 0 ∧ Apsb.objectMap d * 4096 < 2 ^ 63 ∧ ∃ o, image (Apsb.objectMap d) = some o ∧ o.length = 4096 ∧ ObjectMapAt o root
  root : root ≠ 0
  fsRoot : Apsb.fsRoot d ≠ 0

end Verif.Spec
