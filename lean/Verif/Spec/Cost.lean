import Verif.Spec.FsTree
/-!
# Trees in which no block is reached twice

In a tree written by a file system every node has one parent. Then a tree has at most as many leaves as there are blocks.
-/
namespace Verif.Spec
open Verif

/-- a leaf: its block and its records -/
abbrev LeafAt := Nat × List Record

/-- an entry of a branch node with the block and node it names and the leaves below -/
structure Part where
  key : Bytes
  value : Bytes
  block : Nat
  node : TNode
  leaves : List LeafAt

/-- `node`, in `block`, is the root of a tree of at most `depth` levels with `leaves`, from left to right; `child` tells which block and node a value names -/
def HasLeaves (child : Bytes → Nat → TNode → Prop) : Nat → Nat → TNode → List LeafAt → Prop
  | 0, _, _, _ => False
  | depth + 1, block, node, leaves =>
    (node.leaf = true ∧ leaves = [(block, node.entries)]) ∨
    (node.leaf = false ∧ ∃ ps : List Part, ps ≠ [] ∧ node.entries = ps.map (fun p => (p.key, p.value)) ∧ leaves = (ps.map (·.leaves)).flatten ∧
      ∀ p ∈ ps, child p.value p.block p.node ∧ HasLeaves child depth p.block p.node p.leaves ∧ (p.leaves.flatMap (·.2)).head?.map (·.1) = some p.key)

/-- the block and node that a value names, as of a transaction -/
def ChildAt (s : Storage) (mappings : List Record) (xid : Nat) (value : Bytes) (block : Nat) (t : TNode) : Prop :=
  value.length = 8 ∧ field value 0 8 ≠ 0 ∧ ∃ r, Newest mappings (field value 0 8) xid r ∧ block = field r.2 8 8 ∧ ∃ d, FsNode s.fsImage block d ∧ d.length = 4096 ∧ t = nodeOf d

/-- the file system tree of a volume has leaves in different blocks, all of them before block `blocks` -/
structure Unshared (s : Storage) (xid blocks : Nat) (leaves : List LeafAt) : Prop where
  tree : ∃ mappings, OmTree s.omImage s.omRoot mappings ∧
    ∃ d, FsRoot s.fsImage s.fsRoot d ∧ d.length = 4096 ∧ HasLeaves (ChildAt s mappings xid) 257 s.fsRoot (nodeOf d) leaves
  keys : ∀ l ∈ leaves, ∀ r ∈ l.2, 8 ≤ r.1.length
  sorted : (leaves.flatMap (·.2)).Pairwise (fun a b => fsLe a.1 b.1)
  different : (leaves.map (·.1)).Nodup
  inside : ∀ l ∈ leaves, l.1 < blocks

end Verif.Spec
