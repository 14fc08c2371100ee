import Verif.Model.Base
/-!
# Layout of a B-tree node

APFS reference, "btree_node_phys_t": after the object header (32 bytes) and the node header (24 bytes) follows the table of contents at an offset, then the
keys, counted from the end of the table of contents forwards. Values are counted backwards from the end of the node, or from the
footer of 40 bytes in a root node. Nodes with fixed-size keys and values (object maps: 16 and 16 bytes, 8 bytes for child pointers) list only the offsets.
-/
namespace Verif.Spec
open Verif

/-- `n` bytes at an offset -/
def slice (d : Bytes) (off n : Nat) : Bytes := (d.drop off).take n

/-- `n`-byte little-endian number at an offset -/
def field (d : Bytes) (off n : Nat) : Nat := leNat (slice d off n)

namespace BNode

def type (d : Bytes) : Nat := field d 24 4
def subtype (d : Bytes) : Nat := field d 28 4
def flags (d : Bytes) : Nat := field d 32 2
def root (d : Bytes) : Bool := flags d % 2 = 1
def leaf (d : Bytes) : Bool := flags d / 2 % 2 = 1
def fixed (d : Bytes) : Bool := flags d / 4 % 2 = 1
def count (d : Bytes) : Nat := field d 36 4
def tocOffset (d : Bytes) : Nat := field d 40 2
def tocSize (d : Bytes) : Nat := field d 42 2
def unusedOffset (d : Bytes) : Nat := field d 44 2
def entrySize (d : Bytes) : Nat := if fixed d then 4 else 8

/-- where entry `i` of the table of contents is -/
def entryStart (d : Bytes) (i : Nat) : Nat := 56 + tocOffset d + i * entrySize d

def keyLen (d : Bytes) (i : Nat) : Nat := if fixed d then 16 else field d (entryStart d i + 2) 2
def valueLen (d : Bytes) (i : Nat) : Nat := if fixed d then (if leaf d then 16 else 8) else field d (entryStart d i + 6) 2

/-- where key `i` starts -/
def keyStart (d : Bytes) (i : Nat) : Nat := 56 + tocOffset d + tocSize d + field d (entryStart d i) 2

def valueOffset (d : Bytes) (i : Nat) : Nat := field d (entryStart d i + if fixed d then 2 else 4) 2

/-- where the values end -/
def valuesEnd (d : Bytes) : Nat := d.length - if root d then 40 else 0

/-- a block that is a node -/
structure Valid (d : Bytes) : Prop where
  size : 96 ≤ d.length
  size2 : d.length < 65536
  typ : type d % 2 ^ 24 = 0 ∨ type d % 2 ^ 24 = 2 ∨ type d % 2 ^ 24 = 3
  toc : tocOffset d + tocSize d + unusedOffset d < d.length - 96
  keys : count d * entrySize d ≤ tocSize d
  objectMap : fixed d = true → count d ≠ 0 → subtype d = 0xb
  key : ∀ i < count d, keyStart d i + keyLen d i ≤ d.length
  value : ∀ i < count d, valueOffset d i ≤ valuesEnd d ∧ valuesEnd d - valueOffset d i + valueLen d i ≤ d.length

/-- the keys and values of a node -/
def entries (d : Bytes) : List (Bytes × Bytes) :=
  (List.range (count d)).map (fun i => (slice d (keyStart d i) (keyLen d i), slice d (valuesEnd d - valueOffset d i) (valueLen d i)))

end BNode
end Verif.Spec
