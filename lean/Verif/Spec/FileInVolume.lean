import Verif.Spec.FileContent
import Verif.Spec.FileEntry
import Verif.Spec.FsTree
/-!
# Files in the records of a file system tree

Which records a file has, and what the blocks of its data streams hold. APFS reference, "File-System Objects" and "Data Streams".
-/
namespace Verif.Spec
open Verif

/-- numbers fit in the fields of the record, extents have whole blocks -/
structure Mapping.Fits (m : Mapping) : Prop where
  logical : m.logical < 2 ^ 64
  block : m.block * 4096 < 2 ^ 63
  nonempty : 0 < m.length
  length : m.length < 2 ^ 56
  whole : m.length % 4096 = 0
  crypto : m.crypto < 2 ^ 64

/-- the record of an extent of a data stream, which has flags besides -/
def Mapping.record (identifier : Nat) (m : Mapping × Nat) : Record := (extentKey identifier m.1.logical, extentValue m.1.length m.2 m.1.block m.1.crypto)

/-- The data stream of an identifier holds bytes: its extents are recorded from offset 0 on without gaps, and the blocks they map to, encrypted with `enc` if there is such, have the bytes. There may be
more blocks than bytes. In a sparse stream extents without a block are zeros. -/
structure StreamIn (files : List Record) (image : Nat → Option Bytes) (enc : Option (Bytes → Bytes → Bytes)) (identifier : Nat) (sparse : Bool) (bytes : Bytes) : Prop where
  first : 2 ≤ identifier
  identifierFits : identifier < 2 ^ 60
  extents : ∃ (ms : List (Mapping × Nat)) (plain : Nat → Nat → Bytes), recordsOf files identifier 8 = ms.map (Mapping.record identifier) ∧ (∀ m ∈ ms, m.1.Fits ∧ m.2 < 256) ∧
    Contiguous 0 (ms.map (·.1)) ∧ (ms.map (·.1.length)).sum < 2 ^ 64 ∧
    (∀ m ∈ ms, ¬ (sparse = true ∧ m.1.block = 0) → ∀ k, k * 4096 < m.1.length → (enc ≠ none → (m.1.crypto + k + 1) * 4096 ≤ 2 ^ 64) ∧
      Stored image 4096 512 enc (m.1.crypto + k) (m.1.block + k) (plain (m.1.crypto + k) (m.1.block + k))) ∧
    bytes.length ≤ (ms.map (·.1.length)).sum ∧ ∀ i, ∀ h : i < bytes.length, FileByte 4096 plain sparse (ms.map (·.1)) i bytes[i]

/-- the inode record of a file: identifier of the data stream, flag for a sparse one, and its size in an extended field; without that the size is 0 -/
structure InodeOf (r : Record) (f : StoredFile) (stream : Nat) : Prop where
  key : r.1 = toLE 8 (3 * 2 ^ 60 + f.identifier)
  value : ∃ (fixed : Bytes) (fields : Option (List XField)), r.2 = inodeValue fixed fields ∧ fixed.length = 92 ∧
    (∀ l ∈ fields, l.length < 65536 ∧ (∀ x ∈ l, InodeField x) ∧ l.Pairwise (fun x y => y.type ≠ x.type)) ∧ (inodeValue fixed fields).length < 2 ^ 63 ∧
    field fixed 8 8 = stream ∧ decide (field fixed 48 8 / 0x200 % 2 ≠ 0) = f.sparse ∧ ((xvalue (fields.getD []) 8).map (fun v => leNat (v.take 8))).getD 0 = f.size

/-- A file has one inode record and records for its extended attributes, and the data streams of extended attributes hold their values. Its own data stream may be empty. -/
structure FileIn (files : List Record) (image : Nat → Option Bytes) (enc : Option (Bytes → Bytes → Bytes)) (f : StoredFile) (stream : Nat) : Prop where
  valid : f.Valid
  identifier : f.identifier < 2 ^ 60
  inode : ∃ r ∈ files, InodeOf r f stream
  one : files.Pairwise (fun a b => ¬ (IsOf f.identifier 3 a ∧ IsOf f.identifier 3 b))
  attributes : recordsOf files f.identifier 4 = f.attributes.map (·.record f.identifier)
  values : ∀ x ∈ f.attributes, ∀ s ∈ x.stream, x.value.length < 2 ^ 63 ∧ StreamIn files image enc s.1 false x.value
  stream : ∃ bytes, StreamIn files image enc stream f.sparse bytes

end Verif.Spec
