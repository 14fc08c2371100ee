import Verif.Spec.Tree
/-!
# File system trees

A key of a file system tree starts with 8 bytes: the identifier of a file in the lower 60 bits, the type of the record in the upper 4 bits. Records are ordered by
identifier and type. The value of an entry of a branch node is the object identifier of the child, whose block the object map tells.
-/
namespace Verif.Spec
open Verif

def fsId (key : Bytes) : Nat := field key 0 8 % 2 ^ 60
def fsType (key : Bytes) : Nat := field key 0 8 / 2 ^ 60

/-- a record of an identifier and type -/
def IsOf (identifier type : Nat) (r : Record) : Prop := fsId r.1 = identifier ∧ fsType r.1 = type

instance (identifier type : Nat) (r : Record) : Decidable (IsOf identifier type r) := by unfold IsOf; exact inferInstance

/-- the records of an identifier and type, in order -/
def recordsOf (records : List Record) (identifier type : Nat) : List Record := records.filter (fun r => IsOf identifier type r)

/-- order of keys by identifier and type -/
def fsLe (a b : Bytes) : Prop := fsId a < fsId b ∨ (fsId a = fsId b ∧ fsType a ≤ fsType b)

/-- a key behind all records of an identifier and type -/
def fsOver (identifier type : Nat) (key : Bytes) : Prop := fsId key > identifier ∨ (fsId key = identifier ∧ fsType key > type)

instance (identifier type : Nat) (key : Bytes) : Decidable (fsOver identifier type key) := by unfold fsOver; exact inferInstance

/-- the storage of a volume: blocks and root block of the object map and of the file system tree -/
structure Storage where
  omImage : Nat → Option Bytes
  omRoot : Nat
  fsImage : Nat → Option Bytes
  fsRoot : Nat

/-- a root node of a file system tree -/
structure FsRoot (image : Nat → Option Bytes) (block : Nat) (d : Bytes) : Prop where
  range : block < 2 ^ 31
  stored : image block = some d
  valid : BNode.Valid d
  type : BNode.type d = 2 ∨ BNode.type d = 0x10000002
  subtype : BNode.subtype d = 0xe
  root : BNode.root d = true
  fixed : BNode.fixed d = false
  footer : footerFields d = (4096, 0, 0)

/-- another node of a file system tree -/
structure FsNode (image : Nat → Option Bytes) (block : Nat) (d : Bytes) : Prop where
  range : block < 2 ^ 31
  stored : image block = some d
  valid : BNode.Valid d
  type : BNode.type d = 3 ∨ BNode.type d = 0x10000003
  subtype : BNode.subtype d = 0xe
  root : BNode.root d = false
  fixed : BNode.fixed d = false

/-- the value of an entry of a branch node is the object identifier of the child, as of a transaction -/
def FsChild (s : Storage) (mappings : List Record) (xid : Nat) (value : Bytes) (t : TNode) : Prop :=
  value.length = 8 ∧ field value 0 8 ≠ 0 ∧ ∃ r, Newest mappings (field value 0 8) xid r ∧ ∃ d, FsNode s.fsImage (field r.2 8 8) d ∧ t = nodeOf d

/-- the file system tree of a volume holds records, in order of identifier and type -/
structure FsHolds (s : Storage) (xid : Nat) (records : List Record) : Prop where
  tree : ∃ mappings, OmTree s.omImage s.omRoot mappings ∧
    ∃ d, FsRoot s.fsImage s.fsRoot d ∧ IsTree (FsChild s mappings xid) 257 (nodeOf d) records
  keys : ∀ r ∈ records, 8 ≤ r.1.length
  sorted : records.Pairwise (fun a b => fsLe a.1 b.1)

end Verif.Spec
