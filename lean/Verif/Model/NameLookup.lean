import Verif.Model.FsTree
import Verif.Model.Name
import Verif.Model.Records
/-!
# Model of libfsapfs_file_system_btree.c: lookup of a directory record by name and of an inode by path

The functions for UTF-8 and UTF-16 strings are the same except for the decoder. `dn` decodes the stored names, `dq` the string.
-/
namespace Verif
open Res
namespace NameLookup
open BTree FsTree Name Records

/-- `libfsapfs_file_system_btree_get_directory_record_from_leaf_node_by_utf8_name` 1406-1672 and
`libfsapfs_file_system_btree_get_directory_record_from_leaf_node_by_utf16_name` 2063-2329, libfsapfs_file_system_btree.c; `none` is `return( 0 )` -/
def lookupLeaf {α : Type} (dn : Decoder UInt8) (dq : Decoder α) (folding : Bool) (parent : Nat) (str : List α) (strHash : Nat) :
    List Entry → Res (Option DirectoryRecord)
  | [] => return none
  | e :: es => do
    require (¬ e.1.length < 8)
    let key ← rdLE e.1 0 8
    if key = lookupKey 9 parent then do
      let (name, hash) ← readDirectoryKey e.1
      let o ← compareRecord dn dq folding name hash str strHash
      if o = .equal then do
        let (identifier, added) ← readDirectoryValue e.2
        return some { name := name, hash := hash, identifier := identifier, added := added }
      else lookupLeaf dn dq folding parent str strHash es
    else lookupLeaf dn dq folding parent str strHash es

/-- loop of `libfsapfs_file_system_btree_get_directory_record_from_branch_node_by_utf8_name` 1799-1952 and
`libfsapfs_file_system_btree_get_directory_record_from_branch_node_by_utf16_name` 2456-2609, libfsapfs_file_system_btree.c: `previous_entry`.
The comparison is without case folding (1914-1921). -/
def lookupBranch {α : Type} (dn : Decoder UInt8) (dq : Decoder α) (parent : Nat) (str : List α) (strHash : Nat) :
    List Entry → Option Entry → Res (Option Entry)
  | [], previous => return previous
  | e :: es, previous => do
    require (¬ e.1.length < 8)
    let key ← rdLE e.1 0 8
    if key % 2 ^ 60 > parent ∨ (key % 2 ^ 60 = parent ∧ key / 2 ^ 60 > 9) then return previous
    else if key % 2 ^ 60 = parent ∧ key / 2 ^ 60 = 9 then do
      let (name, hash) ← readDirectoryKey e.1
      let o ← compareRecord dn dq false name hash str strHash
      if o = .less then return previous
      else lookupBranch dn dq parent str strHash es (some e)
    else lookupBranch dn dq parent str strHash es (some e)

/-- leaf or branch node, libfsapfs_file_system_btree.c 1677-2058, 2334-2715 and 5887-5913. The fuel is
`LIBFSAPFS_MAXIMUM_BTREE_NODE_RECURSION_DEPTH` + 1 - `recursion_depth` of the branch node. -/
def lookupNode {α : Type} (dn : Decoder UInt8) (dq : Decoder α) (folding : Bool) (sub : Bytes → Res Node) (parent : Nat) (str : List α) (strHash : Nat) :
    Nat → Node → Res (Option DirectoryRecord)
  | 0, n => if n.leaf then lookupLeaf dn dq folding parent str strHash n.entries else err
  | fuel + 1, n =>
    if n.leaf then lookupLeaf dn dq folding parent str strHash n.entries
    else do
      let p ← lookupBranch dn dq parent str strHash n.entries none
      match p with
      | none => err
      | some e => do
        let m ← sub e.2
        lookupNode dn dq folding sub parent str strHash fuel m

/-- one step of a path, libfsapfs_file_system_btree.c 5855-5913 and 6572-6630 -/
def lookupName {α : Type} (dn : Decoder UInt8) (dq : Decoder α) (folding : Bool) (sub : Bytes → Res Node) (root : Node) (parent : Nat) (str : List α) :
    Res (Option DirectoryRecord) := do
  let strHash ← nameHash dq folding str
  lookupNode dn dq folding sub parent str strHash 257 root

/-- the next segment of a path and what is behind it, libfsapfs_file_system_btree.c 5818-5847 and 6535-6564. The segment starts with the first argument, the
second one is what has not been decoded yet. A separator is taken to be one code unit. -/
def segment {α : Type} (dq : Decoder α) (start : List α) (s : List α) : Res (List α × List α) :=
  if s = [] then ok (start, [])
  else
    match _h : dq.next s with
    | none => err
    | some (c, t) => if c = 0x2f ∨ c = 0 then ok (start.take (start.length - t.length - 1), t) else segment dq start t
termination_by s.length
decreasing_by exact dq.shorter _h

theorem segment_shorter {α : Type} (dq : Decoder α) (start s : List α) (seg rest : List α) (h : segment dq start s = ok (seg, rest)) (hs : s ≠ []) :
    rest.length < s.length := by
  fun_induction segment dq start s with
  | case1 => exact absurd rfl hs
  | case2 => cases h
  | case3 s hs' c t hn hc =>
    have := dq.shorter hn
    have h := Res.ok.inj h
    simp only [Prod.mk.injEq] at h
    rw [← h.2]; exact this
  | case4 s hs' c t hn hc ih =>
    have h1 := dq.shorter hn
    by_cases ht : t = []
    · rw [ht] at h
      unfold segment at h
      rw [if_pos rfl] at h
      have h := Res.ok.inj h
      simp only [Prod.mk.injEq] at h
      rw [← h.2]; simp; exact List.length_pos_iff.2 hs
    · have := ih h ht
      omega

/-- the loop over the segments, libfsapfs_file_system_btree.c 5816-5944 and 6533-6661, with `lookup` for one step: the identifier and directory record of
the last segment; `none` is `result == 0` -/
def pathLoop {α : Type} (dq : Decoder α) (lookup : Nat → List α → Res (Option DirectoryRecord)) (identifier : Nat) (record : Option DirectoryRecord)
    (s : List α) : Res (Option (Nat × Option DirectoryRecord)) :=
  if _hs : s = [] then ok (some (identifier, record))
  else
    match _h : segment dq s s with
    | err => err
    | ub => ub
    | ok (seg, rest) =>
      if seg = [] then ok none
      else do
        let r ← lookup identifier seg
        match r with
        | none => return none
        | some r => pathLoop dq lookup r.identifier (some r) rest
termination_by s.length
decreasing_by exact segment_shorter dq s s seg rest _h _hs

/-- `libfsapfs_file_system_btree_get_inode_by_utf8_path` 5661-6055 and `libfsapfs_file_system_btree_get_inode_by_utf16_path` 6378-6772,
libfsapfs_file_system_btree.c; the outer `none` is `return( 0 )`, the directory record is NULL for the starting point itself -/
def lookupPath {α : Type} [DecidableEq α] (dn : Decoder UInt8) (dq : Decoder α) (separator : α) (folding : Bool) (v : Volume) (xid parent : Nat) (str : List α) :
    Res (Option (Inode × Option DirectoryRecord)) := do
  require (¬ str.length > 2 ^ 63 - 1)
  let r ← fsRootNode v
  match r with
  | none => return none
  | some root => do
    let s := if str.head? = some separator then str.drop 1 else str
    let p ← (
      if str.length = 0 ∨ str.length = 1 then return some (parent, none)
      else pathLoop dq (lookupName dn dq folding (fsSub v xid) root) parent none s)
    match p with
    | none => return none
    | some (identifier, record) => do
      let e ← fsEntry v xid identifier 3
      match e with
      | none => err
      | some e => do
        let inode ← readInode e
        return some (inode, record)

end NameLookup
end Verif
