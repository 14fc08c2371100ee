import Verif.Spec.FsTree
/-!
# Snapshots of a volume

APFS reference, "Snapshot metadata": the snapshot metadata tree is a B-tree of physical objects (`OBJ_PHYSICAL`), so that the value of an entry of a branch
node is the block number of the child. A key starts with the 8 bytes described in `Verif.Spec.FsTree`. For each snapshot there is a record of type 1
(`APFS_TYPE_SNAP_METADATA`), whose identifier is the transaction of the snapshot, and one of type 11 (`APFS_TYPE_SNAP_NAME`), whose identifier has all bits set.
-/
namespace Verif.Spec
open Verif

/-- what `j_snap_metadata_val_t` holds -/
structure SnapValue where
  extents : Nat
  superblock : Nat
  created : Nat
  changed : Nat
  inum : Nat
  extentsType : Nat
  flags : Nat
  name : Bytes

/-- `j_snap_metadata_val_t`; the name ends with a zero -/
def SnapValue.encode (v : SnapValue) : Bytes :=
  toLE 8 v.extents ++ (toLE 8 v.superblock ++ (toLE 8 v.created ++ (toLE 8 v.changed ++ (toLE 8 v.inum ++ (toLE 4 v.extentsType ++ (toLE 4 v.flags ++
  (toLE 2 v.name.length ++ v.name)))))))

/-- the part of a string before the first zero -/
def cstring (s : Bytes) : Bytes := s.takeWhile (· ≠ 0)

/-- blocks of the snapshot metadata tree and of the object map of a volume, and where they start -/
structure SnapStorage where
  omImage : Nat → Option Bytes
  omRoot : Nat
  image : Nat → Option Bytes
  root : Nat

/-- a root node of a snapshot metadata tree -/
structure SnapRoot (image : Nat → Option Bytes) (block : Nat) (d : Bytes) : Prop where
  range : block < 2 ^ 31
  stored : image block = some d
  valid : BNode.Valid d
  type : BNode.type d = 0x40000002
  subtype : BNode.subtype d = 0x10
  root : BNode.root d = true
  fixed : BNode.fixed d = false
  footer : footerFields d = (4096, 0, 0)

/-- another node of a snapshot metadata tree -/
structure SnapNode (image : Nat → Option Bytes) (block : Nat) (d : Bytes) : Prop where
  range : block < 2 ^ 31
  stored : image block = some d
  valid : BNode.Valid d
  type : BNode.type d = 0x40000003
  subtype : BNode.subtype d = 0x10
  root : BNode.root d = false
  fixed : BNode.fixed d = false

/-- the value of an entry of a branch node is the block number of the child -/
def SnapChild (image : Nat → Option Bytes) (value : Bytes) (t : TNode) : Prop :=
  value.length = 8 ∧ ∃ d, SnapNode image (field value 0 8) d ∧ t = nodeOf d

/-- the value is, instead, an object identifier that the object map resolves -/
def SnapMapped (s : SnapStorage) (mappings : List Record) (xid : Nat) (value : Bytes) (t : TNode) : Prop :=
  value.length = 8 ∧ field value 0 8 ≠ 0 ∧ ∃ r, Newest mappings (field value 0 8) xid r ∧ ∃ d, SnapNode s.image (field r.2 8 8) d ∧ t = nodeOf d

/-- records of a snapshot metadata tree -/
structure SnapRecords (records : List Record) : Prop where
  keys : ∀ r ∈ records, 8 ≤ r.1.length ∧ r.1.length < 65536
  sorted : records.Pairwise (fun a b => fsLe a.1 b.1)
  types : ∀ r ∈ records, (fsType r.1 = 1 ∧ fsId r.1 < 2 ^ 60 - 1) ∨ (fsType r.1 = 11 ∧ fsId r.1 = 2 ^ 60 - 1)

/-- a snapshot metadata tree, as the APFS reference describes it, of at most `depth` levels -/
def SnapTree (s : SnapStorage) (depth : Nat) (records : List Record) : Prop :=
  SnapRecords records ∧ ∃ d, SnapRoot s.image s.root d ∧ IsTree (SnapChild s.image) depth (nodeOf d) records

/-- the records of snapshots, in order -/
def snapshotRecords (records : List Record) : List Record := records.filter (fun r => decide (fsType r.1 = 1))

end Verif.Spec
