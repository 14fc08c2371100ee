import Verif.Model.FsTree
/-!
# Model of libfsapfs_snapshot_metadata.c and libfsapfs_snapshot_metadata_tree.c, and of how a volume opens a snapshot

The tree's blocks come from the data block vector of the container (`fetch`), the object map's blocks with `omFetch`. The node cache is
transparent. An array of snapshot metadata is a list; on an error the array is emptied (1732, 2004, 2160) and the volume cannot be opened.
-/
namespace Verif
open Res
namespace Snapshot
open BTree

/-- `libfsapfs_snapshot_metadata_t`, libfsapfs_snapshot_metadata.h 38-52; `name` is the allocation of `name_size` bytes -/
structure Metadata where
  superblock : Nat
  name : Bytes
deriving DecidableEq, Repr

/-- `libfsapfs_snapshot_metadata_read_value_data`, libfsapfs_snapshot_metadata.c 228-456. The block number is copied with a 32-bit macro (289). -/
def readValue (d : Bytes) : Res Metadata := do
  require (¬ (d.length < 50 ∨ d.length > 2 ^ 63 - 1))
  let superblock ← rdLE d 8 4
  let nameSize ← rdLE d 48 2
  require (¬ (nameSize = 0 ∨ nameSize > d.length - 50))
  let name ← rdN d 50 nameSize
  return { superblock, name }

/-- `libfsapfs_snapshot_metadata_read_key_data` 147-223 and `libfsapfs_snapshot_metadata_read_value_data`, as called in
libfsapfs_snapshot_metadata_tree.c 1674-1702. Nothing of the key is kept. -/
def readEntry (e : Entry) : Res Metadata := do
  require (¬ (e.1.length < 8 ∨ e.1.length > 2 ^ 63 - 1))
  readValue e.2

/-- What libuna's functions for UTF-8 streams read: byte after byte up to a zero or to the given size. The bytes before that are the string. -/
def readStream (mem : Bytes) : Nat → Nat → Res Bytes
  | 0, _ => ok []
  | size + 1, off => do
    let b ← rd mem off
    if b = 0 then return []
    else do
      let s ← readStream mem size (off + 1)
      return b :: s

/-- `libfsapfs_snapshot_metadata_get_utf8_name_size` 462-496, `..._get_utf8_name` 502-538, `..._get_utf16_name_size` 544-578 and `..._get_utf16_name`
584-620, libfsapfs_snapshot_metadata.c: the size passed is 256, whatever the size of the name -/
def Metadata.utf8Name (m : Metadata) : Res Bytes := readStream m.name 256 0

/-- `libfsapfs_volume_get_snapshot_by_index`, libfsapfs_volume.c 3521: the offset of the superblock of a snapshot -/
def Metadata.offset (m : Metadata) (blockSize : Nat) : Nat := m.superblock * blockSize % 2 ^ 64

/-- where the snapshot metadata tree and the object map of a volume are -/
structure Tree where
  omFetch : Nat → Res Bytes
  omRoot : Nat
  fetch : Nat → Res Bytes
  root : Nat

/-- `libfsapfs_snapshot_metadata_tree_get_root_node`, libfsapfs_snapshot_metadata_tree.c 379-684 -/
def rootNode (t : Tree) : Res Node := do
  require (¬ t.root > 2 ^ 31 - 1)
  let d ← t.fetch t.root
  let n ← readNode d
  require (n.objectType = 0x40000002)
  require (n.objectSubtype = 0x10)
  require (¬ n.flags % 2 = 0)
  match n.footer with
  | none => ub
  | some f => do
    require (f.nodeSize = 4096)
    require (f.keySize = 0)
    require (f.valueSize = 0)
    return n

/-- `libfsapfs_snapshot_metadata_tree_get_sub_node`, libfsapfs_snapshot_metadata_tree.c 689-961 -/
def subNode (t : Tree) (block : Nat) : Res Node := do
  require (¬ block > 2 ^ 31 - 1)
  let d ← t.fetch block
  let n ← readNode d
  require (n.objectType = 0x40000003)
  require (n.objectSubtype = 0x10)
  require (¬ n.flags % 2 ≠ 0)
  return n

/-- how the enumeration finds a child: `libfsapfs_snapshot_metadata_tree_get_sub_node_block_number_from_entry`,
libfsapfs_snapshot_metadata_tree.c 223-374, followed by `subNode` as in 1916-1949; a result other than 1 is an error -/
def mappedSub (t : Tree) (xid : Nat) (value : Bytes) : Res Node := do
  require (value.length = 8)
  let oid ← rdLE value 0 8
  let r ← omDescriptor t.omFetch t.omRoot oid xid
  match r with
  | none => err
  | some desc => subNode t desc.physical

/-- how the lookup finds a child, libfsapfs_snapshot_metadata_tree.c 1303-1345: the value is the block number -/
def directSub (t : Tree) (value : Bytes) : Res Node := do
  require (value.length = 8)
  let block ← rdLE value 0 8
  subNode t block

/-- `libfsapfs_snapshot_metadata_tree_get_snapshots_from_leaf_node`, libfsapfs_snapshot_metadata_tree.c 1504-1738 -/
def enumLeaf : List Entry → Res (List Metadata)
  | [] => ok []
  | e :: es => do
    require (¬ e.1.length < 8)
    let key ← rdLE e.1 0 8
    if key / 2 ^ 60 > 1 then return []
    else do
      let x ← readEntry e
      let xs ← enumLeaf es
      return x :: xs

/-- loop of `libfsapfs_snapshot_metadata_tree_get_snapshots_from_branch_node`, libfsapfs_snapshot_metadata_tree.c 1838-2000 -/
def enumBranch (visit : Bytes → Res (List Metadata)) : List Entry → Res (List Metadata)
  | [] => ok []
  | e :: es => do
    require (¬ e.1.length < 8)
    let key ← rdLE e.1 0 8
    if key / 2 ^ 60 > 1 then return []
    else do
      let xs ← visit e.2
      let ys ← enumBranch visit es
      return xs ++ ys

/-- `libfsapfs_snapshot_metadata_tree_get_snapshots_from_branch_node`, 1743-2010, and the choice by kind of node in 1965-1983 and 2104-2122. The
fuel is `LIBFSAPFS_MAXIMUM_BTREE_NODE_RECURSION_DEPTH` + 2 - `recursion_depth`: a leaf at depth 257 is still read. -/
def enumNode (sub : Bytes → Res Node) : Nat → Node → Res (List Metadata)
  | 0, _ => err
  | fuel + 1, n =>
    if n.leaf then enumLeaf n.entries
    else if fuel = 0 then err
    else enumBranch (fun value => do
      let m ← sub value
      enumNode sub fuel m) n.entries

/-- `libfsapfs_snapshot_metadata_tree_get_snapshots`, libfsapfs_snapshot_metadata_tree.c 2015-2166 -/
def snapshots (t : Tree) (xid : Nat) : Res (List Metadata) := do
  let n ← rootNode t
  enumNode (mappedSub t xid) 258 n

/-- loop of `libfsapfs_snapshot_metadata_tree_get_entry_from_node_by_identifier`, libfsapfs_snapshot_metadata_tree.c 966-1153. The outer `none` is
`return( 0 )`, not found; the inner one is NULL. -/
def entryFromNode (leaf : Bool) (identifier : Nat) : List Entry → Option Entry → Res (Option (Option Entry))
  | [], previous => if leaf then return none else return some previous
  | e :: es, previous => do
    require (¬ e.1.length < 8)
    let key ← rdLE e.1 0 8
    if leaf then
      if key % 2 ^ 60 = identifier then return some (some e)
      else entryFromNode leaf identifier es previous
    else if key % 2 ^ 60 ≥ identifier then
      if previous.isNone ∨ key % 2 ^ 60 = identifier then return some (some e)
      else return some previous
    else entryFromNode leaf identifier es (some e)

/-- loop of `libfsapfs_snapshot_metadata_tree_get_entry_by_identifier`, libfsapfs_snapshot_metadata_tree.c 1223-1348 -/
def entryLoop (sub : Bytes → Res Node) (identifier : Nat) : Nat → Node → Res (Option Entry)
  | 0, _ => err
  | fuel + 1, n => do
    let r ← entryFromNode n.leaf identifier n.entries none
    match r with
    | none => return none
    | some none => err
    | some (some e) =>
      if n.leaf then return some e
      else do
        let m ← sub e.2
        entryLoop sub identifier fuel m

/-- `libfsapfs_snapshot_metadata_tree_get_metadata_by_object_identifier`, libfsapfs_snapshot_metadata_tree.c 1356-1499, with
`libfsapfs_snapshot_metadata_tree_get_entry_by_identifier` 1158-1351. Not called by any other function of the library. -/
def metadataById (t : Tree) (identifier : Nat) : Res (Option Metadata) := do
  let n ← rootNode t
  let r ← entryLoop (directSub t) identifier 257 n
  match r with
  | none => return none
  | some e => do
    let m ← readEntry e
    return some m

end Snapshot
end Verif
