import Verif.Model.BTree
/-!
# Model of libfsapfs_file_system_btree.c: nodes, lookup by identifier and enumerations

Block data is fetched with `omFetch` for the object map and `fsFetch` for the file system tree, which may be encrypted. The node cache
(libfcache) is transparent; the loops take the function that gives the node of a branch entry as an argument, so that what is proved about any such
function holds also if the cache returns another node.
-/
namespace Verif
open Res
namespace FsTree
open BTree

/-- where the trees of a volume are -/
structure Volume where
  omFetch : Nat → Res Bytes
  omRoot : Nat
  fsFetch : Nat → Res Bytes
  fsRoot : Nat

/-- `libfsapfs_file_system_btree_get_root_node`, libfsapfs_file_system_btree.c 390-725; `none` is `return( 0 )`, not available -/
def fsRootNode (v : Volume) : Res (Option Node) := do
  require (¬ v.fsRoot > 2 ^ 31 - 1)
  let d ← v.fsFetch v.fsRoot
  let n ← readNode d
  if n.objectType = 0 then return none
  else do
    require (n.objectType = 2 ∨ n.objectType = 0x10000002)
    require (n.objectSubtype = 0xe)
    require (¬ (n.flags % 2 = 0 ∨ n.flags / 4 % 2 ≠ 0))
    match n.footer with
    | none => ub
    | some f => do
      require (f.nodeSize = 4096)
      require (f.keySize = 0)
      require (f.valueSize = 0)
      return some n

/-- `libfsapfs_file_system_btree_get_sub_node`, libfsapfs_file_system_btree.c 730-1015 -/
def fsSubNode (v : Volume) (block : Nat) : Res Node := do
  require (¬ block > 2 ^ 31 - 1)
  let d ← v.fsFetch block
  let n ← readNode d
  require (n.objectType = 3 ∨ n.objectType = 0x10000003)
  require (n.objectSubtype = 0xe)
  require (¬ (n.flags % 2 ≠ 0 ∨ n.flags / 4 % 2 ≠ 0))
  return n

/-- `libfsapfs_file_system_btree_get_sub_node_block_number_from_entry`, libfsapfs_file_system_btree.c 234-385, with the value of the entry, followed
by `fsSubNode` as in 1360-1395; a result other than 1 is an error for all callers -/
def fsSub (v : Volume) (xid : Nat) (value : Bytes) : Res Node := do
  require (value.length = 8)
  let oid ← rdLE value 0 8
  let r ← omDescriptor v.omFetch v.omRoot oid xid
  match r with
  | none => err
  | some desc => fsSubNode v desc.physical

/-- `( (uint64_t) data_type << 60 ) | identifier`, libfsapfs_file_system_btree.c 1112 -/
def lookupKey (dataType identifier : Nat) : Nat := (dataType * 2 ^ 60 % 2 ^ 64) ||| identifier

/-- loop of `libfsapfs_file_system_btree_get_entry_from_node_by_identifier`, libfsapfs_file_system_btree.c 1114-1222. The outer `none` is
`return( 0 )`, not found; the inner one is NULL. -/
def fsEntryFromNode (leaf : Bool) (identifier dataType : Nat) : List Entry → Option Entry → Res (Option (Option Entry))
  | [], previous => if leaf then return none else return some previous
  | e :: es, previous => do
    require (¬ e.1.length < 8)
    let key ← rdLE e.1 0 8
    if leaf then
      if key = lookupKey dataType identifier then return some (some e)
      else fsEntryFromNode leaf identifier dataType es previous
    else if key % 2 ^ 60 ≥ identifier then
      if previous.isNone ∨ (key % 2 ^ 60 = identifier ∧ key / 2 ^ 60 ≤ dataType) then return some (some e)
      else return some previous
    else fsEntryFromNode leaf identifier dataType es (some e)

/-- loop of `libfsapfs_file_system_btree_get_entry_by_identifier`, libfsapfs_file_system_btree.c 1301-1398. The fuel is
`LIBFSAPFS_MAXIMUM_BTREE_NODE_RECURSION_DEPTH` + 1 - `recursion_depth`. -/
def fsEntryLoop (sub : Bytes → Res Node) (identifier dataType : Nat) : Nat → Node → Res (Option Entry)
  | 0, _ => err
  | fuel + 1, n => do
    let r ← fsEntryFromNode n.leaf identifier dataType n.entries none
    match r with
    | none => return none
    | some none => err
    | some (some e) =>
      if n.leaf then return some e
      else do
        let m ← sub e.2
        fsEntryLoop sub identifier dataType fuel m

/-- `libfsapfs_file_system_btree_get_entry_by_identifier`, libfsapfs_file_system_btree.c 1228-1401 -/
def fsEntry (v : Volume) (xid identifier dataType : Nat) : Res (Option Entry) := do
  let r ← fsRootNode v
  match r with
  | none => return none
  | some n => fsEntryLoop (fsSub v xid) identifier dataType 257 n

/-- what differs between the three enumerations: the data type, how a record is read, and whether the child before an entry with the identifier
and type can hold further records of the identifier and type -/
structure Kind (α : Type) where
  dataType : Nat
  decode : Entry → Res α
  before : Bytes → Res Bool

/-- `libfsapfs_file_system_btree_get_directory_entries_from_leaf_node` 2815-2959, `libfsapfs_file_system_btree_get_attributes_from_leaf_node` 3633-3777,
`libfsapfs_file_system_btree_get_file_extents_from_leaf_node` 4440-4584, libfsapfs_file_system_btree.c -/
def enumLeaf {α : Type} (k : Kind α) (identifier : Nat) : List Entry → Res (List α)
  | [] => ok []
  | e :: es => do
    require (¬ e.1.length < 8)
    let key ← rdLE e.1 0 8
    if key % 2 ^ 60 > identifier then return []
    else if key ≠ lookupKey k.dataType identifier then enumLeaf k identifier es
    else do
      let x ← k.decode e
      let xs ← enumLeaf k identifier es
      return x :: xs

/-- loop of `libfsapfs_file_system_btree_get_directory_entries_from_branch_node` 3086-3348, `libfsapfs_file_system_btree_get_attributes_from_branch_node`
3904-4166, `libfsapfs_file_system_btree_get_file_extents_from_branch_node` 4712-5000, libfsapfs_file_system_btree.c. `visit` enumerates the
records below an entry; the last argument is `previous_entry`. -/
def enumBranch {α : Type} (k : Kind α) (visit : Bytes → Res (List α)) (identifier : Nat) : List Entry → Option Entry → Res (List α)
  | [], none => err
  | [], some p => visit p.2
  | e :: es, previous => do
    require (¬ e.1.length < 8)
    let key ← rdLE e.1 0 8
    if key % 2 ^ 60 > identifier ∨ (key % 2 ^ 60 = identifier ∧ key / 2 ^ 60 > k.dataType) then
      match previous with
      | none => err
      | some p => visit p.2
    else do
      let low ← (if key % 2 ^ 60 = identifier ∧ key / 2 ^ 60 = k.dataType then k.before e.1 else return false)
      let xs ← (
        match low, previous with
        | true, some p => visit p.2
        | _, _ => return [])
      let ys ← enumBranch k visit identifier es (some e)
      return xs ++ ys

/-- leaf or branch node, for instance 3206-3241 and 3453-3488 in libfsapfs_file_system_btree.c. The fuel is
`LIBFSAPFS_MAXIMUM_BTREE_NODE_RECURSION_DEPTH` + 1 - `recursion_depth` of the branch node. -/
def enumNode {α : Type} (k : Kind α) (sub : Bytes → Res Node) (identifier : Nat) : Nat → Node → Res (List α)
  | 0, n => if n.leaf then enumLeaf k identifier n.entries else err
  | fuel + 1, n =>
    if n.leaf then enumLeaf k identifier n.entries
    else enumBranch k (fun value => do
      let m ← sub value
      enumNode k sub identifier fuel m) identifier n.entries none

/-- `libfsapfs_file_system_btree_get_directory_entries` 3362-3533, `libfsapfs_file_system_btree_get_attributes` 4180-4351,
`libfsapfs_file_system_btree_get_file_extents` 5014-5127, libfsapfs_file_system_btree.c: the records appended to the array. The functions return 1 if there are any and otherwise 0. -/
def enumerate {α : Type} (k : Kind α) (v : Volume) (xid identifier : Nat) : Res (List α) := do
  let r ← fsRootNode v
  match r with
  | none => return []
  | some n => enumNode k (fsSub v xid) identifier 257 n

/-- directory records, type 9 -/
def directoryKind {α : Type} (decode : Entry → Res α) : Kind α := { dataType := 9, decode := decode, before := fun _ => ok true }

/-- extended attributes, type 4 -/
def attributeKind {α : Type} (decode : Entry → Res α) : Kind α := { dataType := 4, decode := decode, before := fun _ => ok true }

/-- file extents, type 8, libfsapfs_file_system_btree.c 4794-4820: the logical address in the key is greater than 0 -/
def extentKind {α : Type} (decode : Entry → Res α) : Kind α :=
  { dataType := 8, decode := decode, before := fun key => do
      require (¬ key.length < 16)
      let logical ← rdLE key 8 8
      return (logical > 0 : Bool) }

end FsTree
end Verif
