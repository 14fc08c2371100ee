import Verif.Model.NodeCache
/-!
# Model of threads that share the node cache of a tree

The functions of Verif/Model/NodeCache.lean, with each use of the cache as a step of its own, so that steps of different threads can be interleaved. A call of an API function takes the lock of its handle, for reading or for
writing, uses the tree that the handle shares with other handles, and releases the lock: libfsapfs_file_entry.c and libfsapfs_volume.c, HAVE_LIBFSAPFS_MULTI_THREAD_SUPPORT. The lock of the file system itself,
libfsapfs_file_system.c 105-118 and 176-188, is created and freed and not taken by any function.

Simplified: a call of a function of libfcache is one step, although it consists of many accesses to memory; two such calls at the same time are a data race, see Verif/Spec/Threads.lean. Reading a block and parsing a
node is part of the step before. Taking a lock does not fail. The cache of data blocks and the caches of the object map of the volume are not modelled in calls that use the file system tree.
-/
namespace Verif
open Res
namespace Threads
open BTree FsTree NodeCache

/-- what remains to be done of a function that uses the cache -/
inductive Proc (α : Type) where
  | ret (r : Res α)
  /-- `libfcache_cache_get_value_by_identifier`, libfsapfs_file_system_btree.c 471-478 and 811-818, libfsapfs_object_map_btree.c 288-294 and 599-605 -/
  | lookup (block : Nat) (k : Option Slot → Proc α)
  /-- `libfcache_cache_set_value_by_identifier` and the retrieval of the value, libfsapfs_file_system_btree.c 639-677 and 929-967, libfsapfs_object_map_btree.c 438-476 and 716-754 -/
  | insert (block : Nat) (node : Node) (k : Slot → Proc α)
  /-- use of a node, or of an entry of the node, through a pointer -/
  | use (s : Slot) (k : Proc α)

def Proc.bind {α β : Type} (m : Proc α) (f : α → Proc β) : Proc β :=
  match m with
  | .ret (.ok a) => f a
  | .ret .err => .ret .err
  | .ret .ub => .ret .ub
  | .lookup b k => .lookup b fun r => (k r).bind f
  | .insert b n k => .insert b n fun s => (k s).bind f
  | .use s k => .use s (k.bind f)

instance : Monad Proc where
  pure a := .ret (ok a)
  bind := Proc.bind

/-- the next step of a function: what remains and the cache -/
def Proc.act {α : Type} (p : Policy) : Proc α → Cache → Proc α × Cache
  | .ret r, c => (.ret r, c)
  | .lookup b k, c =>
    match c.slots.find? (fun t => t.block = b) with
    | some s => (k (some s), { c with slots := p.touch c.slots s })
    | none => (k none, c)
  | .insert b n k, c => (k ⟨b, c.next, n⟩, { slots := room p c.slots b ++ [⟨b, c.next, n⟩], next := c.next + 1 })
  | .use s k, c => (if c.slots.any (fun t => t.stamp = s.stamp) then k else .ret ub, c)

/-- the function without other threads -/
def Proc.run {α : Type} (p : Policy) : Proc α → CM α
  | .ret r => fun c => (r, c)
  | .lookup b k => fun c =>
    match c.slots.find? (fun t => t.block = b) with
    | some s => (k (some s)).run p { c with slots := p.touch c.slots s }
    | none => (k none).run p c
  | .insert b n k => fun c => (k ⟨b, c.next, n⟩).run p { slots := room p c.slots b ++ [⟨b, c.next, n⟩], next := c.next + 1 }
  | .use s k => fun c => if c.slots.any (fun t => t.stamp = s.stamp) then k.run p c else (ub, c)

/-- `NodeCache.get`, libfsapfs_file_system_btree.c 471-677 and 811-967, libfsapfs_object_map_btree.c 288-476 and 599-754 -/
def get (load : Nat → Res (Option Node)) (block : Nat) : Proc (Option Slot) :=
  if block > 2 ^ 31 - 1 then .ret err
  else .lookup block fun r =>
    match r with
    | some s => .ret (ok (some s))
    | none =>
      match load block with
      | .err => .ret err
      | .ub => .ret ub
      | .ok none => .ret (ok none)
      | .ok (some n) => .insert block n fun s => .ret (ok (some s))

/-- `libfsapfs_file_system_btree_get_root_node`, libfsapfs_file_system_btree.c 390-725 -/
def getRoot (v : Volume) : Proc (Option Slot) := get (loadRoot v) v.fsRoot

/-- `libfsapfs_file_system_btree_get_sub_node`, libfsapfs_file_system_btree.c 730-1015 -/
def getSub (v : Volume) (block : Nat) : Proc Slot := do
  let r ← get (loadSub v) block
  match r with
  | none => .ret err
  | some s => .ret (ok s)

/-- loop of `libfsapfs_file_system_btree_get_entry_by_identifier`, libfsapfs_file_system_btree.c 1301-1398, as in `NodeCache.entryLoop` -/
def entryLoop (v : Volume) (xid identifier dataType : Nat) : Nat → Slot → Proc (Option (Slot × Entry))
  | 0, _ => .ret err
  | fuel + 1, s => .use s (do
    let r ← .ret (fsEntryFromNode s.node.leaf identifier dataType s.node.entries none)
    match r with
    | none => .ret (ok none)
    | some none => .ret err
    | some (some e) =>
      if s.node.leaf then .ret (ok (some (s, e)))
      else do
        let block ← .ret (blockOf v xid e.2)
        let t ← getSub v block
        entryLoop v xid identifier dataType fuel t)

/-- `libfsapfs_file_system_btree_get_entry_by_identifier`, libfsapfs_file_system_btree.c 1228-1401, and the use of the entry by its callers, as in `NodeCache.entry` -/
def entry (v : Volume) (xid identifier dataType : Nat) : Proc (Option Entry) := do
  let r ← getRoot v
  match r with
  | none => .ret (ok none)
  | some s => do
    let e ← entryLoop v xid identifier dataType 257 s
    match e with
    | none => .ret (ok none)
    | some (t, e) => .use t (.ret (ok (some e)))

/-- loop of the branch node functions, libfsapfs_file_system_btree.c 3086-3348, 3904-4166, 4712-5000, as in `NodeCache.enumBranch` -/
def enumBranch {α : Type} (k : Kind α) (visit : Bytes → Proc (List α)) (s : Slot) (identifier : Nat) : List Entry → Option Entry → Proc (List α)
  | [], none => .ret err
  | [], some q => .use s (visit q.2)
  | e :: es, previous => .use s (do
    let _ ← .ret (require (¬ e.1.length < 8))
    let key ← .ret (rdLE e.1 0 8)
    if key % 2 ^ 60 > identifier ∨ (key % 2 ^ 60 = identifier ∧ key / 2 ^ 60 > k.dataType) then
      match previous with
      | none => .ret err
      | some q => visit q.2
    else do
      let low ← .ret (if key % 2 ^ 60 = identifier ∧ key / 2 ^ 60 = k.dataType then k.before e.1 else return false)
      let xs ← (
        match low, previous with
        | true, some q => visit q.2
        | _, _ => .ret (ok []))
      let ys ← enumBranch k visit s identifier es (some e)
      .ret (ok (xs ++ ys)))

/-- leaf or branch node, as in `NodeCache.enumNode` -/
def enumNode {α : Type} (k : Kind α) (v : Volume) (xid identifier : Nat) : Nat → Slot → Proc (List α)
  | 0, s => .use s (if s.node.leaf then .ret (enumLeaf k identifier s.node.entries) else .ret err)
  | fuel + 1, s => .use s (
    if s.node.leaf then .ret (enumLeaf k identifier s.node.entries)
    else enumBranch k (fun value => do
      let block ← .ret (blockOf v xid value)
      let t ← getSub v block
      enumNode k v xid identifier fuel t) s identifier s.node.entries none)

/-- `libfsapfs_file_system_btree_get_directory_entries` 3362-3533, `libfsapfs_file_system_btree_get_attributes` 4180-4351, `libfsapfs_file_system_btree_get_file_extents` 5014-5127,
libfsapfs_file_system_btree.c, as in `NodeCache.enumerate` -/
def enumerate {α : Type} (k : Kind α) (v : Volume) (xid identifier : Nat) : Proc (List α) := do
  let r ← getRoot v
  match r with
  | none => .ret (ok [])
  | some s => enumNode k v xid identifier 257 s

/-- loop of `libfsapfs_object_map_btree_get_entry_by_identifier`, libfsapfs_object_map_btree.c 1065-1191, as in `BTree.omLoop` with the node cache of the object map -/
def mapLoop (fetch : Nat → Res Bytes) (oid xid : Nat) : Nat → Slot → Proc (Option (Slot × Option Entry))
  | 0, _ => .ret err
  | fuel + 1, s => .use s (do
    let r ← .ret (omEntryFromNode s.node oid xid)
    match r with
    | none => .ret (ok none)
    | some e =>
      if s.node.leaf then .ret (ok (some (s, e)))
      else
        match e with
        | none => .ret err
        | some e => do
          let _ ← .ret (require (e.2.length = 8))
          let block ← .ret (rdLE e.2 0 8)
          let t ← get (fun b => do return some (← omSubNode fetch b)) block
          match t with
          | none => .ret err
          | some t => mapLoop fetch oid xid fuel t)

/-- `libfsapfs_object_map_btree_get_descriptor_by_object_identifier`, libfsapfs_object_map_btree.c 1196-1347, as in `BTree.omDescriptor` with the node cache of the object map -/
def mapping (fetch : Nat → Res Bytes) (root oid xid : Nat) : Proc (Option Descriptor) := do
  let r ← get (fun b => do return some (← omRoot fetch b)) root
  match r with
  | none => .ret err
  | some s => do
    let e ← mapLoop fetch oid xid 257 s
    match e with
    | none => .ret (ok none)
    | some (_, none) => .ret err
    | some (t, some (key, value)) => .use t (.ret (do
      require (¬ key.length < 16)
      let identifier ← rdLE key 0 8
      let transaction ← rdLE key 8 8
      require (¬ value.length < 16)
      let flags ← rdLE value 0 4
      let size ← rdLE value 4 4
      let physical ← rdLE value 8 8
      return some { identifier := identifier, transaction := transaction, flags := flags, size := size, physical := physical }))

/-- a call of an API function: the handle whose lock is taken, if it is taken for writing, and what is done while it is held -/
structure Call (α : Type) where
  handle : Nat
  write : Bool
  body : Proc α

/-- a thread: results of the calls that returned, the call it is in, with what remains of it, and the calls that follow -/
structure Thread (α : Type) where
  results : List (Res α)
  current : Option (Call α)
  todo : List (Call α)

structure System (α : Type) where
  cache : Cache
  threads : Nat → Thread α

def System.set {α : Type} (s : System α) (i : Nat) (t : Thread α) : System α := { s with threads := fun j => if j = i then t else s.threads j }

/-- the lock can be taken: `pthread_rwlock_rdlock`, `pthread_rwlock_wrlock` -/
def System.admits {α : Type} (s : System α) (i : Nat) (c : Call α) : Prop :=
  ∀ j d, j ≠ i → (s.threads j).current = some d → d.handle = c.handle → c.write = false ∧ d.write = false

/-- one step of the thread `i` -/
inductive Step {α : Type} (p : Policy) (s : System α) (i : Nat) : System α → Prop
  | enter {c : Call α} {cs : List (Call α)} : (s.threads i).current = none → (s.threads i).todo = c :: cs → s.admits i c →
      Step p s i (s.set i { results := (s.threads i).results, current := some c, todo := cs })
  | act {c : Call α} : (s.threads i).current = some c →
      Step p s i (({ s with cache := (c.body.act p s.cache).2 } : System α).set i { s.threads i with current := some { c with body := (c.body.act p s.cache).1 } })
  | leave {c : Call α} {r : Res α} : (s.threads i).current = some c → c.body = .ret r →
      Step p s i (s.set i { results := (s.threads i).results ++ [r], current := none, todo := (s.threads i).todo })

/-- steps of threads in any order -/
inductive Steps {α : Type} (p : Policy) : System α → System α → Prop
  | refl (s : System α) : Steps p s s
  | step {s t u : System α} {i : Nat} : Steps p s t → Step p t i u → Steps p s u

/-- threads before their first call -/
def start {α : Type} (c : Cache) (work : Nat → List (Call α)) : System α := { cache := c, threads := fun i => { results := [], current := none, todo := work i } }

end Threads
end Verif
