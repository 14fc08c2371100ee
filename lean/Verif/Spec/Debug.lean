import Verif.Spec.Container
/-! What the objects have to be like that are only read for diagnostic output, from the contents of an image -/
namespace Verif.Spec

/-- block `block` (its offset is computed modulo 2^64) has an object of a type and subtype, and at least `size` bytes -/
def ObjectIn (image : Nat → Option Bytes) (block size type subtype : Nat) : Prop :=
  block % 2 ^ 52 < 2 ^ 51 ∧ ∃ d, image (block % 2 ^ 52) = some d ∧ size ≤ d.length ∧ objectType d = type ∧ field d 28 4 = subtype

/-- an ephemeral object is where the first entry of a checkpoint map for it tells -/
def MappedIn (image : Nat → Option Bytes) (map : List (Nat × Nat)) (identifier size type subtype : Nat) : Prop :=
  ∃ e, map.find? (·.1 == identifier) = some e ∧ ObjectIn image e.2 size type subtype

/-- the Fusion middle tree of a container, and its space manager and reaper according to a checkpoint map, if it has them -/
structure Printable (image : Nat → Option Bytes) (fusionTree spaceManager reaper : Nat) (map : List (Nat × Nat)) : Prop where
  fusionTree : fusionTree ≠ 0 → ObjectIn image fusionTree 4096 0x40000002 0x15
  spaceManager : spaceManager ≠ 0 → MappedIn image map spaceManager 4096 0x80000005 0
  reaper : reaper ≠ 0 → MappedIn image map reaper 40 0x80000011 0

/-- the checkpoint maps in the first `n` blocks of an area are valid -/
def MapsValid (image : Nat → Option Bytes) (base n : Nat) : Prop :=
  ∀ j < n, ∀ d, image (base + j) = some d → objectType d = mapType → ValidMap d

/-- the footer of a resource fork, whose offset and size are in its header, is in the fork and not larger than a chunk -/
def FooterFits (stream : Bytes) : Prop :=
  beNat (slice stream 12 4) ≤ 65537 ∧ (beNat (slice stream 12 4) = 0 ∨ beNat (slice stream 4 4) + beNat (slice stream 12 4) ≤ stream.length)

end Verif.Spec
