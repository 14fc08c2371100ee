import Verif.Spec.BTreeNode
import Verif.Spec.Checksum
/-!
# Containers

A container has a superblock in block 0. It tells where the checkpoint descriptor area is, a number of consecutive blocks with superblocks and checkpoint maps. The layout
is the one of nx_superblock_t and checkpoint_map_phys_t in the APFS reference.
-/
namespace Verif.Spec
open Verif

/-- the first eight bytes of an object are the checksum of the rest -/
def Checked (d : Bytes) : Prop := ∃ c1 c2, d.take 8 = toLE 4 c1 ++ toLE 4 c2 ∧ FletcherValid (leWords (d.drop 8)) c1 c2

def objectXid (d : Bytes) : Nat := field d 16 8
def objectType (d : Bytes) : Nat := field d 24 4

def superblockType : Nat := 0x80000001
def mapType : Nat := 0x4000000c

namespace Nx

def blocks (d : Bytes) : Nat := field d 40 8
def incompatible (d : Bytes) : Nat := field d 64 8
def areaBlocks (d : Bytes) : Nat := field d 104 4
def areaBlock (d : Bytes) : Nat := field d 112 8
def objectMap (d : Bytes) : Nat := field d 160 8
def volume (d : Bytes) (i : Nat) : Nat := field d (184 + 8 * i) 8
def keyBagBlock (d : Bytes) : Nat := field d 1296 8
def keyBagBlocks (d : Bytes) : Nat := field d 1304 8

/-- a superblock the library supports: blocks of 4096 bytes, not format version 1, a contiguous checkpoint descriptor area -/
structure Valid (d : Bytes) : Prop where
  size : d.length = 4096
  checked : Checked d
  type : objectType d = superblockType
  subtype : field d 28 4 = 0
  signature : slice d 32 4 = [0x4e, 0x58, 0x53, 0x42]
  blockSize : field d 36 4 = 4096
  version : incompatible d % 2 = 0
  contiguous : areaBlocks d < 2 ^ 31
  area : areaBlock d ≠ 0
  volumes : field d 180 4 ≤ 100

end Nx

/-- a checkpoint map -/
structure ValidMap (d : Bytes) : Prop where
  size : d.length = 4096
  checked : Checked d
  type : objectType d = mapType
  subtype : field d 28 4 = 0
  entries : field d 36 4 ≤ 101

/-- object identifier and address of the entries of a checkpoint map -/
def mapEntries (d : Bytes) : List (Nat × Nat) := (List.range (field d 36 4)).map (fun i => (field d (40 + 40 * i + 24) 8, field d (40 + 40 * i + 32) 8))

end Verif.Spec
