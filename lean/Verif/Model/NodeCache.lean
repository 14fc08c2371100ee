import Verif.Model.FsTree
/-!
# Model of the node cache of libfsapfs_file_system_btree.c

`libfsapfs_file_system_btree_get_root_node` and `libfsapfs_file_system_btree_get_sub_node` return a pointer to a node that belongs to the node cache
(libfcache, created in libfsapfs_file_system_btree.c 138-151 with `LIBFSAPFS_MAXIMUM_CACHE_ENTRIES_BTREE_NODES` = 8192 entries, values set with
`LIBFCACHE_CACHE_VALUE_FLAG_MANAGED` 639-656, 929-946). When the cache makes room for another node the one it replaces is freed with
`libfsapfs_btree_node_free`. A pointer is modelled by the slot it was taken from; using it after the slot was replaced is `ub`. The loops are those of Verif/Model/FsTree.lean with the state of the cache. Which value libfcache
replaces is not part of this repository: it is an argument, `Policy`.
-/
namespace Verif
open Res
namespace NodeCache
open BTree FsTree

/-- a value of the cache; `stamp` tells apart nodes read at different times from the same block -/
structure Slot where
  block : Nat
  stamp : Nat
  node : Node

structure Cache where
  slots : List Slot
  next : Nat

/-- what libfcache does: `touch` is the new order of the values after a hit and `evict` the index of the value that is replaced, `none` if there is room -/
structure Policy where
  touch : List Slot → Slot → List Slot
  evict : List Slot → Nat → Option Nat

/-- a computation that uses the cache; the cache keeps its values if the computation fails -/
def CM (α : Type) := Cache → Res α × Cache

def CM.bind {α β : Type} (m : CM α) (f : α → CM β) : CM β := fun c =>
  match m c with
  | (.ok a, c') => f a c'
  | (.err, c') => (.err, c')
  | (.ub, c') => (.ub, c')

instance : Monad CM where
  pure a := fun c => (.ok a, c)
  bind := CM.bind

/-- what does not use the cache -/
def pureRes {α : Type} (r : Res α) : CM α := fun c => (r, c)

/-- use of a node, or of an entry of the node, through a pointer: defined only while the node is in the cache -/
def deref (s : Slot) : CM Unit := fun c => (if c.slots.any (fun t => t.stamp = s.stamp) then ok () else ub, c)

/-- the values after room was made for one more: `libfcache_cache_set_value_by_identifier`, 639-656 and 929-946 -/
def room (p : Policy) (l : List Slot) (block : Nat) : List Slot :=
  match p.evict l block with
  | none => l
  | some i => l.eraseIdx i

/-- the value for a block: `libfcache_cache_get_value_by_identifier`, 471-478 and 811-818; if there is none the node is read with `load`, checked, set as value and retrieved, 490-677 and 830-967. `none` is `return( 0 )`,
566. -/
def get (p : Policy) (load : Nat → Res (Option Node)) (block : Nat) : CM (Option Slot) := fun c =>
  if block > 2 ^ 31 - 1 then (err, c)
  else
    match c.slots.find? (fun t => t.block = block) with
    | some s => (ok (some s), { c with slots := p.touch c.slots s })
    | none =>
      match load block with
      | .err => (err, c)
      | .ub => (ub, c)
      | .ok none => (ok none, c)
      | .ok (some n) => (ok (some ⟨block, c.next, n⟩), { slots := room p c.slots block ++ [⟨block, c.next, n⟩], next := c.next + 1 })

/-- the root node read from a block, as in `fsRootNode` -/
def loadRoot (v : Volume) (block : Nat) : Res (Option Node) := fsRootNode { v with fsRoot := block }

/-- a sub node read from a block, as in `fsSubNode` -/
def loadSub (v : Volume) (block : Nat) : Res (Option Node) := do
  let n ← fsSubNode v block
  return some n

/-- `libfsapfs_file_system_btree_get_root_node`, libfsapfs_file_system_btree.c 390-725 -/
def getRoot (p : Policy) (v : Volume) : CM (Option Slot) := get p (loadRoot v) v.fsRoot

/-- `libfsapfs_file_system_btree_get_sub_node`, libfsapfs_file_system_btree.c 730-1015 -/
def getSub (p : Policy) (v : Volume) (block : Nat) : CM Slot := do
  let r ← get p (loadSub v) block
  match r with
  | none => pureRes err
  | some s => pure s

/-- `libfsapfs_file_system_btree_get_sub_node_block_number_from_entry`, libfsapfs_file_system_btree.c 234-385, with the value of the entry -/
def blockOf (v : Volume) (xid : Nat) (value : Bytes) : Res Nat := do
  require (value.length = 8)
  let oid ← rdLE value 0 8
  let r ← omDescriptor v.omFetch v.omRoot oid xid
  match r with
  | none => err
  | some desc => return desc.physical

/-- loop of `libfsapfs_file_system_btree_get_entry_by_identifier`, libfsapfs_file_system_btree.c 1301-1398; the entry is a pointer into the node, that is the slot in the result -/
def entryLoop (p : Policy) (v : Volume) (xid identifier dataType : Nat) : Nat → Slot → CM (Option (Slot × Entry))
  | 0, _ => pureRes err
  | fuel + 1, s => do
    deref s
    let r ← pureRes (fsEntryFromNode s.node.leaf identifier dataType s.node.entries none)
    match r with
    | none => pure none
    | some none => pureRes err
    | some (some e) =>
      if s.node.leaf then pure (some (s, e))
      else do
        let block ← pureRes (blockOf v xid e.2)
        let t ← getSub p v block
        entryLoop p v xid identifier dataType fuel t

/-- `libfsapfs_file_system_btree_get_entry_by_identifier`, libfsapfs_file_system_btree.c 1228-1401, and the use of the entry by its callers, for instance 5206-5296 -/
def entry (p : Policy) (v : Volume) (xid identifier dataType : Nat) : CM (Option Entry) := do
  let r ← getRoot p v
  match r with
  | none => pure none
  | some s => do
    let e ← entryLoop p v xid identifier dataType 257 s
    match e with
    | none => pure none
    | some (t, e) => do
      deref t
      pure (some e)

/-- loop of the branch node functions, libfsapfs_file_system_btree.c 3086-3348, 3904-4166, 4712-5000, for the node at `s`. Each iteration
retrieves an entry of the node, 3088-3093, and the previous entry is used after the children before it were enumerated, 3185-3192, 3269-3276. -/
def enumBranch {α : Type} (k : Kind α) (visit : Bytes → CM (List α)) (s : Slot) (identifier : Nat) : List Entry → Option Entry → CM (List α)
  | [], none => pureRes err
  | [], some q => do
    deref s
    visit q.2
  | e :: es, previous => do
    deref s
    pureRes (require (¬ e.1.length < 8))
    let key ← pureRes (rdLE e.1 0 8)
    if key % 2 ^ 60 > identifier ∨ (key % 2 ^ 60 = identifier ∧ key / 2 ^ 60 > k.dataType) then
      match previous with
      | none => pureRes err
      | some q => visit q.2
    else do
      let low ← pureRes (if key % 2 ^ 60 = identifier ∧ key / 2 ^ 60 = k.dataType then k.before e.1 else return false)
      let xs ← (
        match low, previous with
        | true, some q => visit q.2
        | _, _ => pure [])
      let ys ← enumBranch k visit s identifier es (some e)
      pure (xs ++ ys)

/-- leaf or branch node, for instance 3206-3241 and 3453-3488 in libfsapfs_file_system_btree.c. While a leaf node is enumerated no other node is loaded. -/
def enumNode {α : Type} (k : Kind α) (p : Policy) (v : Volume) (xid identifier : Nat) : Nat → Slot → CM (List α)
  | 0, s => do
    deref s
    if s.node.leaf then pureRes (enumLeaf k identifier s.node.entries) else pureRes err
  | fuel + 1, s => do
    deref s
    if s.node.leaf then pureRes (enumLeaf k identifier s.node.entries)
    else enumBranch k (fun value => do
      let block ← pureRes (blockOf v xid value)
      let t ← getSub p v block
      enumNode k p v xid identifier fuel t) s identifier s.node.entries none

/-- `libfsapfs_file_system_btree_get_directory_entries` 3362-3533, `libfsapfs_file_system_btree_get_attributes` 4180-4351,
`libfsapfs_file_system_btree_get_file_extents` 5014-5127, libfsapfs_file_system_btree.c -/
def enumerate {α : Type} (k : Kind α) (p : Policy) (v : Volume) (xid identifier : Nat) : CM (List α) := do
  let r ← getRoot p v
  match r with
  | none => pure []
  | some s => enumNode k p v xid identifier 257 s

/-- `LIBFSAPFS_MAXIMUM_CACHE_ENTRIES_BTREE_NODES`, libfsapfs_definitions.h.in 126 -/
def nodeEntries : Nat := 8192

end NodeCache
end Verif
