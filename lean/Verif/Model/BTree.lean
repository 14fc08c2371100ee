import Verif.Model.Base
/-!
# Model of libfsapfs_btree_node.c, libfsapfs_btree_node_header.c, libfsapfs_btree_footer.c, libfsapfs_btree_entry.c and libfsapfs_object_map_btree.c

Blocks are fetched with `fetch`, a function from the block number to the data: the storage does not change, and the caches of data blocks and nodes
(libfdata, libfcache) are transparent. Both are external libraries.
-/
namespace Verif
open Res
namespace BTree

/-- `libfsapfs_btree_entry_t`: key data and value data -/
abbrev Entry := Bytes × Bytes

/-- fields of `libfsapfs_btree_footer_t` that are used, libfsapfs_btree_footer.c 198-214 -/
structure Footer where
  nodeSize : Nat
  keySize : Nat
  valueSize : Nat
deriving DecidableEq, Repr

/-- `libfsapfs_btree_node_t`, fields that are used -/
structure Node where
  objectType : Nat
  objectSubtype : Nat
  flags : Nat
  footer : Option Footer
  entries : List Entry
deriving DecidableEq, Repr

/-- loop of `libfsapfs_btree_node_read_data`, libfsapfs_btree_node.c 453-660: `k` more entries, the next one at `off` -/
def readEntries (d : Bytes) (flags subtype tocOffset tocSize footer : Nat) : Nat → Nat → Res (List Entry)
  | 0, _ => ok []
  | k + 1, off => do
    let (ko, ks, vo, vs, size) ← (
      if flags / 4 % 2 = 0 then do
        let ko ← rdLE d off 2
        let ks ← rdLE d (off + 2) 2
        let vo ← rdLE d (off + 4) 2
        let vs ← rdLE d (off + 6) 2
        return (ko, ks, vo, vs, 8)
      else do
        let ko ← rdLE d off 2
        let vo ← rdLE d (off + 2) 2
        require (subtype = 0xb)
        return (ko, 16, vo, (if flags / 2 % 2 = 0 then 8 else 16), 4))
    let ko := (ko + (tocOffset + 56) % 65536 + tocSize) % 65536
    require (¬ (ko > d.length ∨ ks > d.length - ko))
    let vo := (footer + (65536 - vo)) % 65536
    require (¬ (vo > d.length ∨ vs > d.length - vo))
    let key ← rdN d ko ks
    let value ← rdN d vo vs
    let es ← readEntries d flags subtype tocOffset tocSize footer k (off + size)
    return (key, value) :: es

/-- `libfsapfs_btree_node_read_data`, libfsapfs_btree_node.c 211-683, with `libfsapfs_btree_node_read_object_data`, 688-814,
`libfsapfs_btree_node_header_read_data`, libfsapfs_btree_node_header.c 141-321, and `libfsapfs_btree_footer_read_data`, libfsapfs_btree_footer.c 140-282 -/
def readNode (d : Bytes) : Res Node := do
  require (¬ (d.length < 96 ∨ d.length > 2 ^ 63 - 1))
  let objectType ← rdLE d 24 4
  require (objectType % 2 ^ 24 = 0 ∨ objectType % 2 ^ 24 = 2 ∨ objectType % 2 ^ 24 = 3)
  let objectSubtype ← rdLE d 28 4
  let flags ← rdLE d 32 2
  let numberOfKeys ← rdLE d 36 4
  let tocOffset ← rdLE d 40 2
  let tocSize ← rdLE d 42 2
  let unusedOffset ← rdLE d 44 2
  require (¬ tocOffset ≥ d.length - 96)
  require (¬ tocSize > d.length - 96 - tocOffset)
  require (¬ unusedOffset ≥ d.length - 96 - tocOffset - tocSize)
  let footer ← (
    if flags % 2 ≠ 0 then do
      let nodeSize ← rdLE d (d.length - 40 + 4) 4
      let keySize ← rdLE d (d.length - 40 + 8) 4
      let valueSize ← rdLE d (d.length - 40 + 12) 4
      return some { nodeSize := nodeSize, keySize := keySize, valueSize := valueSize }
    else return none)
  let footerOffset := if flags % 2 ≠ 0 then (d.length % 65536 + (65536 - 40)) % 65536 else d.length % 65536
  let entrySize := if flags / 4 % 2 = 0 then 8 else 4
  require (¬ numberOfKeys > tocSize / entrySize)
  let entries ← readEntries d flags objectSubtype tocOffset tocSize footerOffset numberOfKeys (56 + tocOffset)
  return { objectType := objectType, objectSubtype := objectSubtype, flags := flags, footer := footer, entries := entries }

/-- `libfsapfs_btree_node_is_leaf_node`, libfsapfs_btree_node.c 819-848 -/
def Node.leaf (n : Node) : Bool := n.flags / 2 % 2 ≠ 0

/-! ## Object map -/

/-- `libfsapfs_object_map_btree_get_root_node`, libfsapfs_object_map_btree.c 218-524 -/
def omRoot (fetch : Nat → Res Bytes) (block : Nat) : Res Node := do
  require (¬ block > 2 ^ 31 - 1)
  let d ← fetch block
  let n ← readNode d
  require (n.objectType = 0x40000002)
  require (n.objectSubtype = 0xb)
  require (¬ (n.flags % 2 = 0 ∨ n.flags / 4 % 2 = 0))
  match n.footer with
  | none => ub
  | some f => do
    require (f.nodeSize = 4096)
    require (f.keySize = 16)
    require (f.valueSize = 16)
    return n

/-- `libfsapfs_object_map_btree_get_sub_node`, libfsapfs_object_map_btree.c 529-802 -/
def omSubNode (fetch : Nat → Res Bytes) (block : Nat) : Res Node := do
  require (¬ block > 2 ^ 31 - 1)
  let d ← fetch block
  let n ← readNode d
  require (n.objectType = 0x40000003)
  require (n.objectSubtype = 0xb)
  require (¬ (n.flags % 2 ≠ 0 ∨ n.flags / 4 % 2 = 0))
  return n

/-- state of the scan of a node: the last entry looked at with its key, and the entry before the break -/
structure OmScan where
  entry : Option Entry
  identifier : Nat
  transaction : Nat
  previous : Option Entry
  previousIdentifier : Nat

/-- loop of `libfsapfs_object_map_btree_get_entry_from_node_by_identifier`, libfsapfs_object_map_btree.c 886-971 -/
def omScan (oid xid : Nat) : List Entry → OmScan → Res OmScan
  | [], s => ok s
  | e :: es, s => do
    require (¬ e.1.length < 16)
    let identifier ← rdLE e.1 0 8
    let transaction ← rdLE e.1 8 8
    let s := { s with entry := some e, identifier := identifier, transaction := transaction }
    if identifier > oid then return s
    else if identifier = oid ∧ transaction > xid then return s
    else omScan oid xid es { s with previous := some e, previousIdentifier := identifier }

/-- `libfsapfs_object_map_btree_get_entry_from_node_by_identifier`, libfsapfs_object_map_btree.c 807-994. The outer `none` is `return( 0 )`, not found;
the inner one an entry found that is missing (NULL). -/
def omEntryFromNode (n : Node) (oid xid : Nat) : Res (Option (Option Entry)) := do
  let s ← omScan oid xid n.entries { entry := none, identifier := 0, transaction := 0, previous := none, previousIdentifier := 0 }
  if n.leaf then
    if s.previousIdentifier = oid then return some s.previous
    else return none
  else if s.previous.isNone ∨ (s.identifier = oid ∧ s.transaction ≤ xid) then return some s.entry
  else return some s.previous

/-- sub node of a branch node entry, libfsapfs_object_map_btree.c 1124-1188 -/
def omSub (fetch : Nat → Res Bytes) (value : Bytes) : Res Node := do
  require (value.length = 8)
  let block ← rdLE value 0 8
  omSubNode fetch block

/-- loop of `libfsapfs_object_map_btree_get_entry_by_identifier`, libfsapfs_object_map_btree.c 1065-1191. The fuel is
`LIBFSAPFS_MAXIMUM_BTREE_NODE_RECURSION_DEPTH` + 1 - `recursion_depth`. -/
def omLoop (fetch : Nat → Res Bytes) (oid xid : Nat) : Nat → Node → Res (Option (Option Entry))
  | 0, _ => err
  | fuel + 1, n => do
    let r ← omEntryFromNode n oid xid
    match r with
    | none => return none
    | some e =>
      if n.leaf then return some e
      else
        match e with
        | none => err
        | some e => do
          let sub ← omSub fetch e.2
          omLoop fetch oid xid fuel sub

/-- `libfsapfs_object_map_btree_get_entry_by_identifier`, libfsapfs_object_map_btree.c 999-1194 -/
def omLookup (fetch : Nat → Res Bytes) (root oid xid : Nat) : Res (Option (Option Entry)) := do
  let n ← omRoot fetch root
  omLoop fetch oid xid 257 n

/-- `libfsapfs_object_map_descriptor_t` -/
structure Descriptor where
  identifier : Nat
  transaction : Nat
  flags : Nat
  size : Nat
  physical : Nat
deriving DecidableEq, Repr

/-- `libfsapfs_object_map_btree_get_descriptor_by_object_identifier`, libfsapfs_object_map_btree.c 1196-1347, with
`libfsapfs_object_map_descriptor_read_key_data` and `libfsapfs_object_map_descriptor_read_value_data`, libfsapfs_object_map_descriptor.c 139-315 -/
def omDescriptor (fetch : Nat → Res Bytes) (root oid xid : Nat) : Res (Option Descriptor) := do
  let r ← omLookup fetch root oid xid
  match r with
  | none => return none
  | some none => err
  | some (some (key, value)) => do
    require (¬ key.length < 16)
    let identifier ← rdLE key 0 8
    let transaction ← rdLE key 8 8
    require (¬ value.length < 16)
    let flags ← rdLE value 0 4
    let size ← rdLE value 4 4
    let physical ← rdLE value 8 8
    return some { identifier := identifier, transaction := transaction, flags := flags, size := size, physical := physical }

end BTree
end Verif
