import Verif.Lemmas.Snapshot
import Verif.Lemmas.TreeExample
/-!
# C35: Snapshots are listed completely and their metadata is faithful

Proved for trees whose root is a leaf and for trees whose children the object map resolves, for block numbers below 2^32 and for names that end within 256
bytes; refuted otherwise.
-/
namespace Verif.Props
open Verif Verif.Res Verif.Spec Verif.Snapshot
open Verif.BTree
open Verif.FsTree (readAll)

/-- enumeration of arbitrary data leaves no block and no record -/
theorem c35_safe (t : Tree) (ho : ∀ b, Safe (t.omFetch b)) (hf : ∀ b, Safe (t.fetch b)) (xid : Nat) : Safe (snapshots t xid) := by
  unfold snapshots
  exact safe_bind (safe_rootNode hf) fun _ _ => safe_enumNode (safe_mappedSub ho hf xid) _ _

/-- all records of snapshots are stored values with a name -/
def ValuesOf (records : List Record) (vs : List SnapValue) : Prop :=
  (snapshotRecords records).map (·.2) = vs.map (·.encode) ∧ ∀ v ∈ vs, v.name ≠ [] ∧ v.name.length < 65536

theorem readAll_values {records : List Record} {vs : List SnapValue} (hk : ∀ r ∈ records, 8 ≤ r.1.length ∧ r.1.length < 65536)
    (h : records.map (·.2) = vs.map (·.encode)) (hv : ∀ v ∈ vs, v.name ≠ [] ∧ v.name.length < 65536) :
    readAll readEntry records = ok (vs.map (fun v => { superblock := v.superblock % 2 ^ 32, name := v.name })) := by
  induction records generalizing vs with
  | nil => cases vs with
    | nil => rfl
    | cons v vs => cases h
  | cons r records ih =>
    cases vs with
    | nil => cases h
    | cons v vs =>
      simp only [List.map_cons, List.cons.injEq] at h
      have h1 := hk r (by simp)
      have h2 := hv v (by simp)
      unfold readAll
      have : readEntry r = ok { superblock := v.superblock % 2 ^ 32, name := v.name } := by
        unfold readEntry
        rw [require_true (by omega), ok_bind, h.1, readValue_encode v h2.1 h2.2]
      rw [this, ok_bind, ih (fun x hx => hk x (by simp [hx])) h.2 (fun x hx => hv x (by simp [hx])), ok_bind]
      rfl

theorem snapshotRecords_keys {records : List Record} (h : SnapRecords records) : ∀ r ∈ snapshotRecords records, 8 ≤ r.1.length ∧ r.1.length < 65536 :=
  fun r hr => h.keys r (List.mem_filter.1 hr).1

/-- all snapshots are listed, once and in order, if the tree consists of a single node, the block numbers are below 2^32 -/
theorem c35_listed_partial (s : SnapStorage) (xid : Nat) (records : List Record) (h : SnapTree s 1 records) (vs : List SnapValue) (hv : ValuesOf records vs)
    (hb : ∀ v ∈ vs, v.superblock < 2 ^ 32) :
    snapshots (treeOf s) xid = ok (vs.map (fun v => { superblock := v.superblock, name := v.name })) := by
  obtain ⟨hr, d, hd, ht⟩ := h
  unfold snapshots
  rw [rootNode_ok hd, ok_bind]
  have ht' : IsTree (SnapMapped s [] xid) 258 (view (parsed d)) records := by
    rw [view_parsed]
    unfold IsTree at ht ⊢
    rcases ht with ht | ⟨_, cs, hne, _, _, hc⟩
    · exact .inl ht
    · obtain ⟨c, hcs⟩ := List.exists_mem_of_ne_nil cs hne
      exact absurd (hc c hcs).2.1 (by unfold IsTree; exact id)
  have hnone : ∀ v t, SnapMapped s [] xid v t → ∃ m, mappedSub (treeOf s) xid v = ok m ∧ view m = t := by
    rintro v t ⟨_, _, r, hr, _⟩
    cases hr.1
  rw [enumNode_spec hnone ht' hr, readAll_values (snapshotRecords_keys hr) hv.1 hv.2]
  refine congrArg ok (List.map_congr_left fun v hv => ?_)
  rw [Nat.mod_eq_of_lt (hb v hv)]

/-- the same for trees of any depth whose branch nodes hold object identifiers, which the code expects but the format does not have -/
theorem c35_listed_mapped (s : SnapStorage) (xid : Nat) (records mappings : List Record) (hm : OmTree s.omImage s.omRoot mappings) (d : Bytes)
    (hd : SnapRoot s.image s.root d) (ht : IsTree (SnapMapped s mappings xid) 258 (nodeOf d) records) (hr : SnapRecords records)
    (vs : List SnapValue) (hv : ValuesOf records vs) :
    snapshots (treeOf s) xid = ok (vs.map (fun v => { superblock := v.superblock % 2 ^ 32, name := v.name })) := by
  unfold snapshots
  rw [rootNode_ok hd, ok_bind, enumNode_spec (mappedSub_ok hm) (by rw [view_parsed]; exact ht) hr]
  exact readAll_values (snapshotRecords_keys hr) hv.1 hv.2

/-- a tree with a branch node is refused, unless the object map happens to have an object with the identifier that is the block number of the first child -/
theorem c35_branch_refused (s : SnapStorage) (xid : Nat) (mappings : List Record) (hm : OmTree s.omImage s.omRoot mappings) (d : Bytes)
    (hd : SnapRoot s.image s.root d) (hl : BNode.leaf d = false) (e : Record) (es : List Record) (he : BNode.entries d = e :: es) (hk : 8 ≤ e.1.length)
    (ht : fsType e.1 = 1) (hb : field e.2 0 8 ≠ 0) (hn : ¬ HasVersion mappings (field e.2 0 8) xid) : snapshots (treeOf s) xid = err := by
  have hsub : mappedSub (treeOf s) xid e.2 = err := by
    unfold mappedSub
    by_cases h8 : e.2.length = 8
    · rw [require_true h8, ok_bind, rdLE_field (by omega), ok_bind]
      have : omDescriptor (treeOf s).omFetch (treeOf s).omRoot (field e.2 0 8) xid = ok none := descriptor_none hm hb hn
      rw [this, ok_bind]
    · rw [require_false h8]
      rfl
  unfold snapshots
  rw [rootNode_ok hd, ok_bind]
  unfold enumNode
  have hl' : (parsed d).leaf = false := (congrArg TNode.leaf (view_parsed d)).trans hl
  have he' : (parsed d).entries = e :: es := he
  rw [if_neg (by simp [hl']), if_neg (by decide), he']
  unfold enumBranch
  rw [require_true (by omega), ok_bind, rdLE_field (by omega), ok_bind, field_type, if_neg (by omega), hsub]
  rfl

/-- a snapshot refers to the stored superblock if its block number is below 2^32 -/
theorem c35_superblock_partial (v : SnapValue) (hn : v.name ≠ []) (hl : v.name.length < 65536) (blockSize : Nat) (hb : v.superblock < 2 ^ 32)
    (hs : v.superblock * blockSize < 2 ^ 63) :
    ∃ m, readValue v.encode = ok m ∧ m.offset blockSize = v.superblock * blockSize := by
  refine ⟨_, readValue_encode v hn hl, ?_⟩
  unfold Metadata.offset
  simp only
  rw [Nat.mod_eq_of_lt (a := v.superblock) (by omega), Nat.mod_eq_of_lt (by omega)]

/-- otherwise it refers to another block -/
theorem c35_superblock_truncated (v : SnapValue) (hn : v.name ≠ []) (hl : v.name.length < 65536) (blockSize : Nat) (h0 : 0 < blockSize) (hb : 2 ^ 32 ≤ v.superblock) :
    ∃ m, readValue v.encode = ok m ∧ m.offset blockSize < v.superblock * blockSize := by
  refine ⟨_, readValue_encode v hn hl, ?_⟩
  unfold Metadata.offset
  simp only
  have : v.superblock % 2 ^ 32 < v.superblock := by omega
  exact Nat.lt_of_le_of_lt (Nat.mod_le _ _) (Nat.mul_lt_mul_of_pos_right this h0)

/-- the name is the stored one if it ends with a zero among the first 256 bytes; nothing else is read -/
theorem c35_name_partial (m : Metadata) (h0 : (0 : UInt8) ∈ m.name) (h : (cstring m.name).length < 256) : m.utf8Name = ok (cstring m.name) := by
  unfold Metadata.utf8Name
  have := readStream_ok (mem := m.name) (size := 256) (off := 0) (by simpa using h) (by simpa using h0)
  simpa using this

/-- a shorter name without a zero is read beyond its end -/
theorem c35_name_overread (m : Metadata) (h0 : (0 : UInt8) ∉ m.name) (h : m.name.length < 256) : m.utf8Name = ub := by
  unfold Metadata.utf8Name
  rcases readStream_ub (mem := m.name) (size := 256) (off := 0) (by omega) (by simpa using h0) with h | h
  · exact h
  · omega

/-- a longer name is cut after 256 bytes -/
theorem c35_name_cut (m : Metadata) (h0 : (0 : UInt8) ∉ m.name.take 256) (h : 256 ≤ m.name.length) : m.utf8Name = ok (m.name.take 256) := by
  unfold Metadata.utf8Name
  have := readStream_take (mem := m.name) (size := 256) (off := 0) (by omega) (by simpa using h0)
  simpa using this

/-- a stored value with an unterminated name, which is accepted and then read beyond its end -/
theorem c35_unterminated (v : SnapValue) (hn : v.name ≠ []) (hl : v.name.length < 256) (h0 : (0 : UInt8) ∉ v.name) :
    ∃ m, readValue v.encode = ok m ∧ m.utf8Name = ub :=
  ⟨_, readValue_encode v hn (by omega), c35_name_overread _ h0 hl⟩

/-! examples -/

namespace SnapExample
open Verif.FsTree.TreeExample (tocOf key omRootBlock mappings om storage)

/-- a node of a snapshot metadata tree -/
def block (type flags : Nat) (es : List Record) (footer : Bytes) : Bytes :=
  List.replicate 24 0 ++ toLE 4 type ++ toLE 4 0x10 ++ toLE 2 flags ++ toLE 2 0 ++ toLE 4 es.length ++ toLE 2 0 ++ toLE 2 (es.length * 8) ++ toLE 2 0 ++ toLE 2 0 ++ List.replicate 8 0 ++
  tocOf es 0 0 ++ (es.map (·.1)).flatten ++ List.replicate 40 0 ++ (es.map (·.2)).reverse.flatten ++ footer

def value (superblock : Nat) (name : Bytes) : SnapValue :=
  { extents := 77, superblock := superblock, created := 5, changed := 6, inum := 0, extentsType := 0x40000002, flags := 0, name := name }

def record (xid superblock : Nat) (name : Bytes) : Record := (key 1 xid [], (value superblock name).encode)

/-- the record of a name: its key has the name, its value the transaction -/
def named (xid : Nat) (name : Bytes) : Record := (key 11 (2 ^ 60 - 1) (toLE 2 name.length ++ name), toLE 8 xid)

def nameA : Bytes := [97, 98, 0]
def nameB : Bytes := [99, 0]

def leafA : List Record := [record 12 500 nameA]
def leafB : List Record := [record 34 600 nameB, named 12 nameA, named 34 nameB]

def footer : Bytes := toLE 4 0 ++ toLE 4 4096 ++ toLE 4 0 ++ toLE 4 0 ++ List.replicate 24 0

def leafRoot : Bytes := block 0x40000002 3 (leafA ++ leafB) footer
def branchRoot (a b : Nat) : Bytes := block 0x40000002 1 [(key 1 12 [], toLE 8 a), (key 1 34 [], toLE 8 b)] footer
def nodeA : Bytes := block 0x40000003 2 leafA []
def nodeB : Bytes := block 0x40000003 2 leafB []

/-- root block 30 is a leaf, 31 a branch node with block numbers, 32 a branch node with object identifiers -/
def store (root : Nat) : SnapStorage :=
  { omImage := storage.omImage, omRoot := storage.omRoot, root := root,
    image := fun b => if b = 30 then some leafRoot else if b = 31 then some (branchRoot 21 22) else if b = 32 then some (branchRoot 1000 1001) else
      if b = 21 then some nodeA else if b = 22 then some nodeB else none }

theorem recordsOk : SnapRecords (leafA ++ leafB) := by
  refine ⟨by decide +kernel, ?_, by decide +kernel⟩
  unfold fsLe
  decide +kernel

theorem values : ValuesOf (leafA ++ leafB) [value 500 nameA, value 600 nameB] := ⟨by decide +kernel, by decide +kernel⟩

theorem root30 : SnapRoot (store 30).image 30 leafRoot :=
  ⟨by decide, rfl, ⟨by decide +kernel, by decide +kernel, by decide +kernel, by decide +kernel, by decide +kernel, by decide +kernel, by decide +kernel, by decide +kernel⟩,
    by decide +kernel, by decide +kernel, by decide +kernel, by decide +kernel, by decide +kernel⟩

theorem root31 : SnapRoot (store 31).image 31 (branchRoot 21 22) :=
  ⟨by decide, rfl, ⟨by decide +kernel, by decide +kernel, by decide +kernel, by decide +kernel, by decide +kernel, by decide +kernel, by decide +kernel, by decide +kernel⟩,
    by decide +kernel, by decide +kernel, by decide +kernel, by decide +kernel, by decide +kernel⟩

theorem root32 : SnapRoot (store 32).image 32 (branchRoot 1000 1001) :=
  ⟨by decide, rfl, ⟨by decide +kernel, by decide +kernel, by decide +kernel, by decide +kernel, by decide +kernel, by decide +kernel, by decide +kernel, by decide +kernel⟩,
    by decide +kernel, by decide +kernel, by decide +kernel, by decide +kernel, by decide +kernel⟩

theorem node21 (r : Nat) : SnapNode (store r).image 21 nodeA :=
  ⟨by decide, rfl, ⟨by decide +kernel, by decide +kernel, by decide +kernel, by decide +kernel, by decide +kernel, by decide +kernel, by decide +kernel, by decide +kernel⟩,
    by decide +kernel, by decide +kernel, by decide +kernel, by decide +kernel⟩

theorem node22 (r : Nat) : SnapNode (store r).image 22 nodeB :=
  ⟨by decide, rfl, ⟨by decide +kernel, by decide +kernel, by decide +kernel, by decide +kernel, by decide +kernel, by decide +kernel, by decide +kernel, by decide +kernel⟩,
    by decide +kernel, by decide +kernel, by decide +kernel, by decide +kernel⟩

theorem tree30 : SnapTree (store 30) 1 (leafA ++ leafB) := ⟨recordsOk, leafRoot, root30, .inl ⟨by decide +kernel, by decide +kernel⟩⟩

/-- a tree of two levels, as the format describes it -/
theorem tree31 : SnapTree (store 31) 2 (leafA ++ leafB) := by
  refine ⟨recordsOk, branchRoot 21 22, root31, .inr ⟨by decide +kernel, [⟨key 1 12 [], toLE 8 21, ⟨true, leafA⟩, leafA⟩, ⟨key 1 34 [], toLE 8 22, ⟨true, leafB⟩, leafB⟩],
    by simp, by decide +kernel, by simp, ?_⟩⟩
  intro c hc
  simp only [List.mem_cons, List.not_mem_nil, or_false] at hc
  rcases hc with rfl | rfl
  · exact ⟨⟨length_toLE .., nodeA, node21 31, by decide +kernel⟩, .inl ⟨rfl, rfl⟩, by decide +kernel⟩
  · exact ⟨⟨length_toLE .., nodeB, node22 31, by decide +kernel⟩, .inl ⟨rfl, rfl⟩, by decide +kernel⟩

theorem tree32 : IsTree (SnapMapped (store 32) mappings 9) 258 (nodeOf (branchRoot 1000 1001)) (leafA ++ leafB) := by
  refine .inr ⟨by decide +kernel, [⟨key 1 12 [], toLE 8 1000, ⟨true, leafA⟩, leafA⟩, ⟨key 1 34 [], toLE 8 1001, ⟨true, leafB⟩, leafB⟩],
    by simp, by decide +kernel, by simp, ?_⟩
  intro c hc
  simp only [List.mem_cons, List.not_mem_nil, or_false] at hc
  rcases hc with rfl | rfl
  · refine ⟨⟨length_toLE .., by decide +kernel, FsTree.TreeExample.mapping 1000 21, ⟨by decide +kernel, by decide +kernel, by decide +kernel, by decide +kernel⟩, nodeA, node21 32, by decide +kernel⟩,
      .inl ⟨rfl, rfl⟩, by decide +kernel⟩
  · refine ⟨⟨length_toLE .., by decide +kernel, FsTree.TreeExample.mapping 1001 22, ⟨by decide +kernel, by decide +kernel, by decide +kernel, by decide +kernel⟩, nodeB, node22 32, by decide +kernel⟩,
      .inl ⟨rfl, rfl⟩, by decide +kernel⟩

example : Safe (snapshots (treeOf (store 31)) 9) :=
  c35_safe _ (fun b => by show Safe (fetchOf _ b); unfold fetchOf; split <;> simp [Safe]) (fun b => by show Safe (fetchOf _ b); unfold fetchOf; split <;> simp [Safe]) _

example : ∃ x, snapshots (treeOf (store 30)) 9 = ok x ∧ x.length = 2 :=
  ⟨_, c35_listed_partial (store 30) 9 _ tree30 _ values (by decide +kernel), rfl⟩

example : ∃ x, snapshots (treeOf (store 32)) 9 = ok x ∧ x.length = 2 :=
  ⟨_, c35_listed_mapped (store 32) 9 _ mappings om _ root32 tree32 recordsOk _ values, rfl⟩

example : snapshots (treeOf (store 31)) 9 = err :=
  c35_branch_refused (store 31) 9 mappings om _ root31 (by decide +kernel) (key 1 12 [], toLE 8 21) [(key 1 34 [], toLE 8 22)] (by decide +kernel) (by decide +kernel)
    (by decide +kernel) (by decide +kernel) (by unfold HasVersion; decide +kernel)

example : ∃ m, readValue (value 500 nameA).encode = ok m ∧ m.offset 4096 = 2048000 := c35_superblock_partial _ (by decide) (by decide) 4096 (by decide) (by decide)
example : ∃ m, readValue (value (2 ^ 32) nameA).encode = ok m ∧ m.offset 4096 < 2 ^ 32 * 4096 := c35_superblock_truncated _ (by decide) (by decide) 4096 (by decide) (by decide)
example : ({ superblock := 1, name := nameA } : Metadata).utf8Name = ok [97, 98] := c35_name_partial _ (by decide) (by decide)
example : ({ superblock := 1, name := [97, 98] } : Metadata).utf8Name = ub := c35_name_overread _ (by decide) (by decide)
example : ({ superblock := 1, name := List.replicate 300 97 } : Metadata).utf8Name = ok (List.replicate 256 97) :=
  (c35_name_cut ⟨1, List.replicate 300 97⟩ (by decide +kernel) (by decide +kernel)).trans (congrArg ok (by decide +kernel))
example : ∃ m, readValue (value 500 [97]).encode = ok m ∧ m.utf8Name = ub := c35_unterminated _ (by decide) (by decide) (by decide)

end SnapExample

/-- a tree of two levels is refused by the enumeration, though the lookup of an identifier, which no function of the API uses, finds its snapshots -/
theorem c35_two_levels : SnapTree (SnapExample.store 31) 2 (SnapExample.leafA ++ SnapExample.leafB) ∧ snapshots (treeOf (SnapExample.store 31)) 9 = err ∧
    metadataById (treeOf (SnapExample.store 31)) 34 = ok (some { superblock := 600, name := SnapExample.nameB }) := by
  refine ⟨SnapExample.tree31, by decide +kernel, by decide +kernel⟩

end Verif.Props
