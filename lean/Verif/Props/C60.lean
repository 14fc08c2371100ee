import Verif.Spec.Cost
import Verif.Lemmas.SharedExample
import Verif.Lemmas.Threads
import Verif.Props.C20
/-!
# C60: The work of a call is bounded by the size of the image

Lookups use a bounded number of nodes, whatever the image. A listing gives at most as many entries as fit the blocks of the container if no block is reached twice; if nodes are shared, the number of entries doubles with each level,
since neither the level of a node nor whether it was seen before is compared, libfsapfs_file_system_btree.c 3086-3348.
-/
namespace Verif.Props
open Verif Res Spec BTree FsTree NodeCache

/-- how often a function asks the cache for a node, beginning with a cache; each time at most one block is read -/
def nodesUsed {α : Type} (p : Policy) : Threads.Proc α → Cache → Nat
  | .ret _, _ => 0
  | .lookup b k, c =>
    match c.slots.find? (fun t => t.block = b) with
    | some s => nodesUsed p (k (some s)) { c with slots := p.touch c.slots s } + 1
    | none => nodesUsed p (k none) c + 1
  | .insert b n k, c => nodesUsed p (k ⟨b, c.next, n⟩) { slots := room p c.slots b ++ [⟨b, c.next, n⟩], next := c.next + 1 }
  | .use s k, c => if c.slots.any (fun t => t.stamp = s.stamp) then nodesUsed p k c else 0

/-- whatever the cache answers -/
inductive Within {α : Type} : Nat → Threads.Proc α → Prop
  | ret {n : Nat} (r : Res α) : Within n (.ret r)
  | lookup {n b : Nat} {k : Option Slot → Threads.Proc α} : (∀ r, Within n (k r)) → Within (n + 1) (.lookup b k)
  | insert {n b : Nat} {nd : Node} {k : Slot → Threads.Proc α} : (∀ s, Within n (k s)) → Within n (.insert b nd k)
  | use {n : Nat} {s : Slot} {k : Threads.Proc α} : Within n k → Within n (.use s k)

theorem Within.le {α : Type} {n : Nat} {m : Threads.Proc α} (p : Policy) (h : Within n m) : ∀ c, nodesUsed p m c ≤ n := by
  induction h with
  | ret r => intro c; exact Nat.zero_le _
  | lookup _ ih =>
    intro c
    unfold nodesUsed
    split
    · exact Nat.succ_le_succ (ih _ _)
    · exact Nat.succ_le_succ (ih _ _)
  | insert _ ih => intro c; exact ih _ _
  | use _ ih =>
    intro c
    unfold nodesUsed
    split
    · exact ih c
    · exact Nat.zero_le _

theorem Within.mono {α : Type} {n : Nat} {m : Threads.Proc α} (h : Within n m) : ∀ {k}, n ≤ k → Within k m := by
  induction h with
  | ret r => intro k _; exact .ret r
  | lookup _ ih =>
    intro k hk
    obtain ⟨j, rfl⟩ : ∃ j, k = j + 1 := ⟨k - 1, by omega⟩
    exact .lookup fun r => ih r (by omega)
  | insert _ ih => intro k hk; exact .insert fun s => ih s hk
  | use _ ih => intro k hk; exact .use (ih hk)

theorem Within.bind {α β : Type} {n k : Nat} {m : Threads.Proc α} {f : α → Threads.Proc β} (h : Within n m) (hf : ∀ a, Within k (f a)) : Within (n + k) (m >>= f) := by
  show Within (n + k) (m.bind f)
  induction h with
  | ret r =>
    cases r with
    | ok a => exact (hf a).mono (by omega)
    | err => exact .ret _
    | ub => exact .ret _
  | @lookup n b g _ ih =>
    rw [show n + 1 + k = (n + k) + 1 by omega]
    exact .lookup fun r => ih r
  | insert _ ih => exact .insert fun s => ih s
  | use _ ih => exact .use ih

theorem within_get (load : Nat → Res (Option Node)) (block : Nat) : Within 1 (Threads.get load block) := by
  unfold Threads.get
  split
  · exact .ret _
  · refine .lookup fun r => ?_
    cases r with
    | some s => exact .ret _
    | none =>
      dsimp only
      cases load block with
      | err => exact .ret _
      | ub => exact .ret _
      | ok o =>
        cases o with
        | none => exact .ret _
        | some n => exact .insert fun s => .ret _

theorem within_getSub (v : Volume) (block : Nat) : Within 1 (Threads.getSub v block) := by
  refine Within.bind (k := 0) (within_get _ _) fun r => ?_
  cases r <;> exact .ret _

theorem within_entryLoop (v : Volume) (xid i t : Nat) : ∀ fuel s, Within fuel (Threads.entryLoop v xid i t fuel s)
  | 0, s => .ret _
  | fuel + 1, s => by
    refine .use ?_
    refine Within.bind (n := 0) (k := fuel + 1) (.ret _) (fun r => ?_) |>.mono (by omega)
    cases r with
    | none => exact .ret _
    | some o =>
      cases o with
      | none => exact .ret _
      | some e =>
        dsimp only
        split
        · exact .ret _
        · refine Within.bind (n := 0) (k := 1 + fuel) (.ret _) (fun b => ?_) |>.mono (by omega)
          exact Within.bind (within_getSub v b) fun s => within_entryLoop v xid i t fuel s

theorem within_mapLoop (fetch : Nat → Res Bytes) (oid xid : Nat) : ∀ fuel s, Within fuel (Threads.mapLoop fetch oid xid fuel s)
  | 0, s => .ret _
  | fuel + 1, s => by
    refine .use ?_
    refine Within.bind (n := 0) (k := fuel + 1) (.ret _) (fun r => ?_) |>.mono (by omega)
    cases r with
    | none => exact .ret _
    | some o =>
      dsimp only
      split
      · exact .ret _
      · cases o with
        | none => exact .ret _
        | some e =>
          dsimp only
          refine Within.bind (n := 0) (k := 1 + fuel) (.ret _) (fun _ => ?_) |>.mono (by omega)
          refine Within.bind (n := 0) (k := 1 + fuel) (.ret _) (fun b => ?_) |>.mono (by omega)
          refine Within.bind (within_get _ _) fun o => ?_
          cases o with
          | none => exact .ret _
          | some s => exact within_mapLoop fetch oid xid fuel s

/-- Looking up a record of a file uses at most 258 nodes of the file system tree, whatever is in the image, in the cache, and whatever the cache removes: a tree with cycles does not keep a call from returning. -/
theorem c60_lookup (p : Policy) (v : Volume) (xid identifier dataType : Nat) (c : Cache) : nodesUsed p (Threads.entry v xid identifier dataType) c ≤ 258 := by
  refine Within.le p ?_ c
  refine Within.bind (n := 1) (k := 257) (within_get _ _) fun r => ?_
  cases r with
  | none => exact .ret _
  | some s =>
    refine Within.bind (n := 257) (k := 0) (within_entryLoop v xid identifier dataType 257 s) fun e => ?_
    rcases e with _ | ⟨t, e⟩
    · exact .ret _
    · exact .use (.ret _)

/-- Looking up an object, which is done for each of these nodes, uses at most 258 nodes of the object map. -/
theorem c60_mapping (p : Policy) (fetch : Nat → Res Bytes) (root oid xid : Nat) (c : Cache) : nodesUsed p (Threads.mapping fetch root oid xid) c ≤ 258 := by
  refine Within.le p ?_ c
  refine Within.bind (n := 1) (k := 257) (within_get _ _) fun r => ?_
  cases r with
  | none => exact .ret _
  | some s =>
    refine Within.bind (n := 257) (k := 0) (within_mapLoop fetch oid xid 257 s) fun e => ?_
    rcases e with _ | ⟨t, _ | ⟨key, value⟩⟩
    · exact .ret _
    · exact .ret _
    · exact .use (.ret _)

/-! listings -/

theorem isTree_of_leaves {s : Storage} {mappings : List Record} {xid : Nat} : ∀ {depth block : Nat} {node : TNode} {leaves : List LeafAt}, HasLeaves (ChildAt s mappings xid) depth block node leaves →
    IsTree (FsChild s mappings xid) depth node (leaves.flatMap (·.2))
  | 0, _, _, _, h => h.elim
  | depth + 1, block, node, leaves, h => by
    rcases h with ⟨h1, h2⟩ | ⟨h1, ps, h2, h3, h4, h5⟩
    · refine .inl ⟨h1, ?_⟩
      rw [h2]
      simp
    · refine .inr ⟨h1, ps.map fun p => ⟨p.key, p.value, p.node, p.leaves.flatMap (·.2)⟩, ?_, ?_, ?_, ?_⟩
      · intro h
        exact h2 (List.map_eq_nil_iff.1 h)
      · rw [h3, List.map_map]
        rfl
      · rw [h4, List.map_map, List.flatMap_def, List.map_flatten, List.flatten_flatten, List.map_map, List.map_map]
        rfl
      · intro c hc
        obtain ⟨q, hq, rfl⟩ := List.mem_map.1 hc
        obtain ⟨h6, h7, h8⟩ := h5 q hq
        refine ⟨?_, isTree_of_leaves h7, h8⟩
        obtain ⟨g1, g2, r, g3, hb, d, g4, _, g5⟩ := h6
        exact ⟨g1, g2, r, g3, d, hb ▸ g4, g5⟩

/-- what a node of 4096 bytes can hold -/
theorem entries_le {d : Bytes} (hv : BNode.Valid d) (hl : d.length = 4096) (hf : BNode.fixed d = false) : (BNode.entries d).length ≤ 500 := by
  have h1 := hv.keys
  have h2 := hv.toc
  unfold BNode.entrySize at h1
  rw [hf] at h1
  unfold BNode.entries
  rw [List.length_map, List.length_range]
  rw [hl] at h2
  simp only [Bool.false_eq_true, if_false] at h1
  unfold BNode.tocOffset at h2
  omega

theorem leaves_le {s : Storage} {mappings : List Record} {xid : Nat} : ∀ {depth block : Nat} {node : TNode} {leaves : List LeafAt}, node.entries.length ≤ 500 →
    HasLeaves (ChildAt s mappings xid) depth block node leaves → ∀ l ∈ leaves, l.2.length ≤ 500
  | 0, _, _, _, _, h => h.elim
  | depth + 1, block, node, leaves, he, h => by
    intro l hl
    rcases h with ⟨h1, h2⟩ | ⟨h1, ps, h2, h3, h4, h5⟩
    · rw [h2] at hl
      cases List.mem_singleton.1 hl
      exact he
    · rw [h4] at hl
      obtain ⟨m, hm, hl⟩ := List.mem_flatten.1 hl
      obtain ⟨q, hq, rfl⟩ := List.mem_map.1 hm
      obtain ⟨h6, h7, _⟩ := h5 q hq
      refine leaves_le ?_ h7 l hl
      obtain ⟨_, _, r, _, _, d, g4, g5, g6⟩ := h6
      rw [g6]
      exact entries_le g4.valid g5 g4.fixed

theorem length_flatMap_le {l : List LeafAt} (h : ∀ x ∈ l, x.2.length ≤ 500) : (l.flatMap (·.2)).length ≤ 500 * l.length := by
  induction l with
  | nil => simp
  | cons x l ih =>
    have h1 := h x (by simp)
    have h2 := ih fun y hy => h y (by simp [hy])
    rw [List.flatMap_cons, List.length_append, List.length_cons, Nat.mul_succ]
    omega

theorem unshared_holds {s : Storage} {xid blocks : Nat} {leaves : List LeafAt} (h : Unshared s xid blocks leaves) : FsHolds s xid (leaves.flatMap (·.2)) := by
  obtain ⟨mappings, h1, d, h2, _, h3⟩ := h.tree
  refine ⟨⟨mappings, h1, d, h2, isTree_of_leaves h3⟩, ?_, h.sorted⟩
  intro r hr
  obtain ⟨l, hl, hr⟩ := List.mem_flatMap.1 hr
  exact h.keys l hl r hr

/-- If the leaves of the file system tree are in different blocks, all of them in a container of `blocks` blocks, a listing of a directory gives at most 500 entries for each block. Missing for trees of other shapes: c60_shared. -/
theorem c60_listing_partial (s : Storage) (xid blocks : Nat) (leaves : List LeafAt) (h : Unshared s xid blocks leaves) (identifier : Nat) (hi : identifier < 2 ^ 60)
    (hf : ∃ l ∈ leaves, ∃ r ∈ l.2, IsOf identifier 3 r) (l : List Records.DirectoryRecord) (hl : directoryRecords (volumeOf s) xid identifier = ok l) : l.length ≤ 500 * blocks := by
  have hh := unshared_holds h
  have h1 := c20_no_loss s xid _ hh identifier hi (by obtain ⟨l, hl, r, hr, h⟩ := hf; exact ⟨r, List.mem_flatMap.2 ⟨l, hl, hr⟩, h⟩) l hl
  have h2 : (recordsOf (leaves.flatMap (·.2)) identifier 9).length ≤ (leaves.flatMap (·.2)).length := List.length_filter_le _ _
  obtain ⟨mappings, _, d, h3, h4, h5⟩ := h.tree
  have h6 := length_flatMap_le (leaves_le (entries_le h3.valid h4 h3.fixed) h5)
  have h7 : (leaves.map (·.1)).length ≤ (List.range blocks).length := nodup_length_le h.different fun b hb => by
    obtain ⟨l, hl, rfl⟩ := List.mem_map.1 hb
    exact List.mem_range.2 (h.inside l hl)
  rw [List.length_map, List.length_range] at h7
  have h8 := Nat.mul_le_mul_left 500 h7
  omega

/-- If nodes are shared, the number of entries doubles with each block: a volume stored in `n` + 105 blocks, whose directory with identifier 2 has one record, gives 2 ^ (`n` + 1) entries. -/
theorem c60_shared (n : Nat) (hn : n ≤ 254) : ∃ (image : Nat → Option Bytes) (blocks : List Nat), blocks.length = n + 105 ∧ (∀ b d, image b = some d → b ∈ blocks ∧ d.length = 4096) ∧
    ∃ l, directoryRecords (volumeOf { omImage := image, omRoot := 1, fsImage := image, fsRoot := 1000 }) 1 2 = ok l ∧ l.length = 2 ^ (n + 1) := by
  refine ⟨SharedExample.image n, SharedExample.blocks n, SharedExample.length_blocks n, fun b d h => ⟨SharedExample.stored h, SharedExample.stored_size h⟩, ?_⟩
  have h := c20_listing_records (SharedExample.storage n) 1 (SharedExample.records n) (SharedExample.holds hn) 2 (by decide)
    ⟨WideExample.inode, List.mem_cons_self, SharedExample.inode_key.1, SharedExample.inode_key.2.1⟩ (fun _ => WideExample.file 0) (fun r hr h9 => by
      rcases List.mem_cons.1 hr with rfl | hr
      · exact absurd h9.2 (by rw [SharedExample.inode_key.2.1]; decide)
      · rw [List.eq_of_mem_replicate hr]
        exact WideExample.decode_record (by decide))
  rw [SharedExample.recordsOf_records] at h
  exact ⟨_, h, by rw [List.length_map, List.length_replicate]⟩

/-- An image of less than 1.5 MB makes a listing of more than 2 ^ 64 entries: no computer can finish the call. -/
theorem c60_does_not_finish : ∃ (image : Nat → Option Bytes) (blocks : List Nat), 4096 * blocks.length < 1500000 ∧ (∀ b d, image b = some d → b ∈ blocks ∧ d.length = 4096) ∧
    ∃ l, directoryRecords (volumeOf { omImage := image, omRoot := 1, fsImage := image, fsRoot := 1000 }) 1 2 = ok l ∧ 2 ^ 64 < l.length := by
  obtain ⟨image, blocks, h1, h2, l, h3, h4⟩ := c60_shared 254 (by decide)
  refine ⟨image, blocks, by rw [h1]; decide, h2, l, h3, ?_⟩
  rw [h4]
  exact Nat.pow_lt_pow_right (by decide) (by decide)

/-- the claim as a user would state it: a number of entries for each block of the container is not exceeded, even if it is as large as 2 ^ 200 -/
theorem c60_no_bound : ¬ ∀ (image : Nat → Option Bytes) (blocks : List Nat) (l : List Records.DirectoryRecord), (∀ b d, image b = some d → b ∈ blocks ∧ d.length = 4096) →
    directoryRecords (volumeOf { omImage := image, omRoot := 1, fsImage := image, fsRoot := 1000 }) 1 2 = ok l → l.length ≤ 2 ^ 200 * blocks.length := by
  intro h
  obtain ⟨image, blocks, h1, h2, l, h3, h4⟩ := c60_shared 254 (by decide)
  have h5 := h image blocks l h2 h3
  rw [h1, h4] at h5
  have : 2 ^ 200 * (254 + 105) < 2 ^ (254 + 1) := by decide
  omega

/-! the directory of 10000 files of Verif/Lemmas/WideExample.lean has its leaves in different blocks -/

section
open WideExample NodeImage

def wideBranch (j : Nat) : List LeafAt := (List.range 100).map fun k => (2100 + (100 * j + k), leafEntries (100 * j + k))
def wideLeaves : List LeafAt := ((List.range 100).map wideBranch).flatten

theorem wideBranch_records (j : Nat) : (wideBranch j).flatMap (·.2) = branchRecords j := by
  unfold wideBranch branchRecords
  rw [List.flatMap_def, List.map_map]
  rfl

theorem wideLeaves_records : wideLeaves.flatMap (·.2) = WideExample.records := by
  unfold wideLeaves WideExample.records
  rw [List.flatMap_def, List.map_flatten, List.flatten_flatten, List.map_map, List.map_map]
  congr 1

theorem childAt {b : Nat} {leaf : Bool} {es : List Record} (hb : 2000 ≤ b ∧ b < 12100) (hi : WideExample.image b = some ((subForm leaf).bytes es)) (hf : (subForm leaf).Fits es) :
    ChildAt WideExample.storage mappings 1 (toLE 8 b) b ⟨leaf, es⟩ := by
  have hv : field (toLE 8 b) 0 8 = b := field_value (by omega)
  refine ⟨by simp, by rw [hv]; omega, WideExample.mapping b, ?_, (mapping_block (by omega)).symm, (subForm leaf).bytes es, ?_, length_bytes hf, ?_⟩
  · rw [hv]
    obtain ⟨t, rfl⟩ : ∃ t, b = 2000 + t := ⟨b - 2000, by omega⟩
    exact newest (by omega)
  · exact { range := by omega, stored := hi, valid := valid_bytes hf, type := .inl (type_bytes hf), subtype := subtype_bytes hf, root := root_bytes, fixed := fixed_bytes }
  · rw [nodeOf_bytes hf]
    rfl

theorem wide_unshared : Unshared WideExample.storage 1 12100 wideLeaves := by
  refine ⟨⟨mappings, map_tree, _, fsRoot, length_bytes root_fits, .inr ⟨?_, (List.range 100).map fun j => ⟨firstKey (100 * j), toLE 8 (2000 + j), 2000 + j, ⟨false, branchEntries j⟩, wideBranch j⟩, by simp, ?_, ?_, ?_⟩⟩, ?_, ?_, ?_, ?_⟩
  · rw [nodeOf_bytes root_fits]
    rfl
  · rw [nodeOf_bytes root_fits, List.map_map]
    rfl
  · unfold wideLeaves
    rw [List.map_map]
    rfl
  · intro q hq
    obtain ⟨j, hj, rfl⟩ := List.mem_map.1 hq
    have hj := List.mem_range.1 hj
    refine ⟨childAt (by omega) (image_branch hj) (branch_fits j), .inr ⟨rfl, (List.range 100).map fun k => ⟨firstKey (100 * j + k), toLE 8 (2100 + (100 * j + k)), 2100 + (100 * j + k),
      ⟨true, leafEntries (100 * j + k)⟩, [(2100 + (100 * j + k), leafEntries (100 * j + k))]⟩, by simp, ?_, ?_, ?_⟩, ?_⟩
    · rw [List.map_map]
      rfl
    · dsimp only
      unfold wideBranch
      rw [List.map_map, ← flatten_singletons ((List.range 100).map _), List.map_map]
      rfl
    · intro q hq
      obtain ⟨k, hk, rfl⟩ := List.mem_map.1 hq
      have hk := List.mem_range.1 hk
      refine ⟨childAt (by omega) (image_leaf (by omega)) (leaf_fits _), .inl ⟨rfl, rfl⟩, ?_⟩
      dsimp only
      rw [List.flatMap_cons, List.flatMap_nil, List.append_nil]
      exact head_leaf _
    · dsimp only
      rw [wideBranch_records]
      exact head_branch j
  · intro l hl r hr
    exact WideExample.holds.keys r (by rw [← wideLeaves_records]; exact List.mem_flatMap.2 ⟨l, hl, hr⟩)
  · rw [wideLeaves_records]
    exact WideExample.holds.sorted
  · unfold wideLeaves wideBranch
    rw [List.map_flatten, List.map_map]
    unfold List.Nodup
    rw [List.pairwise_flatten]
    refine ⟨?_, ?_⟩
    · intro l hl
      obtain ⟨j, _, rfl⟩ := List.mem_map.1 hl
      dsimp only [Function.comp_def]
      rw [List.map_map, List.pairwise_map]
      exact List.pairwise_lt_range.imp fun h => by dsimp only [Function.comp_def]; omega
    · rw [List.pairwise_map]
      refine List.pairwise_lt_range.imp fun {a b} h => ?_
      dsimp only [Function.comp_def]
      intro x hx y hy
      rw [List.map_map] at hx hy
      obtain ⟨k, hk, rfl⟩ := List.mem_map.1 hx
      obtain ⟨k', hk', rfl⟩ := List.mem_map.1 hy
      have hk := List.mem_range.1 hk
      have hk' := List.mem_range.1 hk'
      dsimp only [Function.comp_def]
      omega
  · intro l hl
    obtain ⟨m, hm, hl⟩ := List.mem_flatten.1 hl
    obtain ⟨j, hj, rfl⟩ := List.mem_map.1 hm
    obtain ⟨k, hk, rfl⟩ := List.mem_map.1 hl
    have hj := List.mem_range.1 hj
    have hk := List.mem_range.1 hk
    dsimp only
    omega

example : files.length ≤ 500 * 12100 :=
  c60_listing_partial WideExample.storage 1 12100 wideLeaves wide_unshared 2 (by decide)
    ⟨(2100, leafEntries 0), List.mem_flatten.2 ⟨wideBranch 0, List.mem_map_of_mem (List.mem_range.2 (by decide)), List.mem_map_of_mem (f := fun k => (2100 + (100 * 0 + k), leafEntries (100 * 0 + k))) (List.mem_range.2 (by decide : 0 < 100))⟩,
      inode, List.mem_cons_self, SharedExample.inode_key.1, SharedExample.inode_key.2.1⟩ files listing

end

end Verif.Props
