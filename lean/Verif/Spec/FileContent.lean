import Verif.Spec.Xts
/-!
# The contents of a file

A file has extents; an extent maps a range of logical offsets to consecutive blocks of the container. Block `k` of an extent is encrypted with
the identifier of the extent plus `k` (APFS reference, "j_file_extent_val_t": `crypto_id` of the first block). In a sparse file an extent without blocks (block
number 0) is a hole.
-/
namespace Verif.Spec
open Verif

structure Mapping where
  logical : Nat
  block : Nat
  length : Nat
  crypto : Nat

/-- `plain` is the content of block number `block` of the image, stored in the clear or encrypted with identifier `id` -/
def Stored (image : Nat → Option Bytes) (bs bps : Nat) (enc : Option (Bytes → Bytes → Bytes)) (id block : Nat) (plain : Bytes) : Prop :=
  plain.length = bs ∧ ∃ raw, image block = some raw ∧
  match enc with
  | none => raw = plain
  | some enc => ∃ sectors : List Bytes, (∀ s ∈ sectors, s.length = bps) ∧ sectors.flatten = plain ∧ sectors.length * bps = bs ∧
      raw = (encryptSectors enc (id * sectors.length) sectors).flatten

/-- logical byte `pos` of the file is `b` -/
def FileByte (bs : Nat) (plain : Nat → Nat → Bytes) (sparse : Bool) (ms : List Mapping) (pos : Nat) (b : UInt8) : Prop :=
  ∃ m ∈ ms, m.logical ≤ pos ∧ pos < m.logical + m.length ∧
    if sparse = true ∧ m.block = 0 then b = 0
    else (plain (m.crypto + (pos - m.logical) / bs) (m.block + (pos - m.logical) / bs))[(pos - m.logical) % bs]? = some b

/-- every extent starts where the one before ended -/
def Contiguous : Nat → List Mapping → Prop
  | _, [] => True
  | at_, m :: ms => m.logical = at_ ∧ Contiguous (at_ + m.length) ms

end Verif.Spec
