import Verif.Spec.BTreeNode
/-!
# Search trees

A tree node has entries, each a key and a value. The entries of a leaf are records. The value of an entry of a branch node names a child node, and its key is the first
key of the records below that child. The records of a tree are the records of its leaves from left to right; whether they are sorted is stated separately.
-/
namespace Verif.Spec
open Verif

abbrev Record := Bytes × Bytes

structure TNode where
  leaf : Bool
  entries : List Record
deriving DecidableEq

/-- an entry of a branch node with the child node it names and the records below -/
structure Child where
  key : Bytes
  value : Bytes
  node : TNode
  records : List Record

/-- `node` is the root of a tree of at most `depth` levels holding `records`; `sub` tells which node a value names -/
def IsTree (sub : Bytes → TNode → Prop) : Nat → TNode → List Record → Prop
  | 0, _, _ => False
  | depth + 1, node, records =>
    (node.leaf = true ∧ node.entries = records) ∨
    (node.leaf = false ∧ ∃ cs : List Child, cs ≠ [] ∧ node.entries = cs.map (fun c => (c.key, c.value)) ∧
      records = (cs.map (·.records)).flatten ∧
      ∀ c ∈ cs, sub c.value c.node ∧ IsTree sub depth c.node c.records ∧ c.records.head?.map (·.1) = some c.key)

/-- records in strictly ascending order of their keys -/
def Ascending (lt : Bytes → Bytes → Prop) (records : List Record) : Prop := records.Pairwise (fun a b => lt a.1 b.1)

/-! Object map: a key is an object identifier and a transaction identifier, 8 bytes each -/

def omOid (key : Bytes) : Nat := field key 0 8
def omXid (key : Bytes) : Nat := field key 8 8

/-- order of object map keys -/
def omLt (a b : Bytes) : Prop := omOid a < omOid b ∨ (omOid a = omOid b ∧ omXid a < omXid b)

/-- `r` is the newest version of object `oid` that is not newer than transaction `xid` -/
def Newest (records : List Record) (oid xid : Nat) (r : Record) : Prop :=
  r ∈ records ∧ omOid r.1 = oid ∧ omXid r.1 ≤ xid ∧ ∀ r' ∈ records, omOid r'.1 = oid → omXid r'.1 ≤ xid → omXid r'.1 ≤ omXid r.1

/-- there is a version of object `oid` not newer than `xid` -/
def HasVersion (records : List Record) (oid xid : Nat) : Prop := ∃ r ∈ records, omOid r.1 = oid ∧ omXid r.1 ≤ xid

/-- the node in a block -/
def nodeOf (d : Bytes) : TNode := { leaf := BNode.leaf d, entries := BNode.entries d }

/-- the footer of a root node: node size, key size and value size -/
def footerFields (d : Bytes) : Nat × Nat × Nat :=
  (field d (d.length - 40 + 4) 4, field d (d.length - 40 + 8) 4, field d (d.length - 40 + 12) 4)

/-- a root node of an object map is stored in a block; `image` is the storage -/
structure OmRoot (image : Nat → Option Bytes) (block : Nat) (d : Bytes) : Prop where
  range : block < 2 ^ 31
  stored : image block = some d
  valid : BNode.Valid d
  type : BNode.type d = 0x40000002
  subtype : BNode.subtype d = 0xb
  root : BNode.root d = true
  fixed : BNode.fixed d = true
  footer : footerFields d = (4096, 16, 16)

/-- another node of an object map -/
structure OmSub (image : Nat → Option Bytes) (block : Nat) (d : Bytes) : Prop where
  range : block < 2 ^ 31
  stored : image block = some d
  valid : BNode.Valid d
  type : BNode.type d = 0x40000003
  subtype : BNode.subtype d = 0xb
  root : BNode.root d = false
  fixed : BNode.fixed d = true

/-- the value of an entry of a branch node is the block number of the child -/
def OmChild (image : Nat → Option Bytes) (value : Bytes) (t : TNode) : Prop := value.length = 8 ∧ ∃ d, OmSub image (field value 0 8) d ∧ t = nodeOf d

/-- an object map is stored at a block -/
def OmTree (image : Nat → Option Bytes) (block : Nat) (records : List Record) : Prop :=
  (∃ d, OmRoot image block d ∧ IsTree (OmChild image) 257 (nodeOf d) records) ∧ Ascending omLt records

end Verif.Spec
