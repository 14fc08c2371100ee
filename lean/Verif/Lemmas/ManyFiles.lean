import Verif.Lemmas.WideListing
/-!
# A volume with 10000 inodes in nodes of at most 100 entries

The inodes have the identifiers 2 to 10001, one in each leaf of the file system tree; the root has 100 children, each with 100 leaves. The object map is that of Verif/Lemmas/WideExample.lean, in
the blocks 1 to 102.
-/
namespace Verif
open Res Spec BTree FsTree NodeCache NodeImage
namespace ManyFiles
open WideExample (subForm rootForm need_le field_value map_tree mappings newest mapping_block)

def key (n : Nat) : Bytes := toLE 8 (3 * 2 ^ 60 + (n + 2))

/-- the inode with identifier `n + 2` -/
def inode (n : Nat) : Record := (key n, toLE 8 1 ++ (toLE 8 (n + 2) ++ List.replicate 76 0))

def leafEntries (n : Nat) : List Record := [inode n]
def branchEntry (j k : Nat) : Record := (key (100 * j + k), toLE 8 (2100 + (100 * j + k)))
def rootEntry (j : Nat) : Record := (key (100 * j), toLE 8 (2000 + j))
def branchEntries (j : Nat) : List Record := (List.range 100).map (branchEntry j)
def rootEntries : List Record := (List.range 100).map rootEntry

def image (b : Nat) : Option Bytes :=
  if b = 1000 then some (rootForm.bytes rootEntries)
  else if b < 2000 then none
  else if b < 2100 then some ((subForm false).bytes (branchEntries (b - 2000)))
  else if b < 12100 then some ((subForm true).bytes (leafEntries (b - 2100)))
  else none

def storage : Storage := { omImage := WideExample.image, omRoot := 1, fsImage := image, fsRoot := 1000 }

theorem leaf_fits (n : Nat) : (subForm true).Fits (leafEntries n) := by
  refine ⟨by decide, by decide, by decide, by decide, ?_, ?_, by intro h; cases h⟩
  · have := need_le (f := subForm true) (es := leafEntries n) (n := 1) (kl := 8) (vl := 92) rfl (by intro e he; cases List.mem_singleton.1 he; simp [inode, key])
      (by intro e he; cases List.mem_singleton.1 he; simp [inode])
    omega
  · rw [length_tocOf]
    split <;> simp [leafEntries]

theorem branch_fits (j : Nat) : (subForm false).Fits (branchEntries j) := by
  have hn : (branchEntries j).length = 100 := by simp [branchEntries]
  refine ⟨by decide, by decide, by decide, by decide, ?_, ?_, by intro h; cases h⟩
  · have := need_le (f := subForm false) hn (kl := 8) (vl := 8) (fun e he => by
      obtain ⟨k, _, rfl⟩ := List.mem_map.1 he
      simp [branchEntry, key]) (fun e he => by
      obtain ⟨k, _, rfl⟩ := List.mem_map.1 he
      simp [branchEntry])
    omega
  · rw [length_tocOf, hn]
    split <;> omega

theorem root_fits : rootForm.Fits rootEntries := by
  have hn : rootEntries.length = 100 := by simp [rootEntries]
  refine ⟨by decide, by decide, by decide, by decide, ?_, ?_, by intro h; cases h⟩
  · have := need_le (f := rootForm) hn (kl := 8) (vl := 8) (fun e he => by
      obtain ⟨k, _, rfl⟩ := List.mem_map.1 he
      simp [rootEntry, key]) (fun e he => by
      obtain ⟨k, _, rfl⟩ := List.mem_map.1 he
      simp [rootEntry])
    omega
  · rw [length_tocOf, hn]
    split <;> omega

theorem image_branch {j : Nat} (h : j < 100) : image (2000 + j) = some ((subForm false).bytes (branchEntries j)) := by
  unfold image
  rw [if_neg (by omega), if_neg (by omega), if_pos (by omega), show 2000 + j - 2000 = j by omega]

theorem image_leaf {n : Nat} (h : n < 10000) : image (2100 + n) = some ((subForm true).bytes (leafEntries n)) := by
  unfold image
  rw [if_neg (by omega), if_neg (by omega), if_neg (by omega), if_pos (by omega), show 2100 + n - 2100 = n by omega]

theorem fsChild_branch {j : Nat} (h : j < 100) : FsChild storage mappings 1 (toLE 8 (2000 + j)) (nodeOf ((subForm false).bytes (branchEntries j))) := by
  have hf : field (toLE 8 (2000 + j)) 0 8 = 2000 + j := field_value (by omega)
  refine ⟨by simp, by rw [hf]; omega, WideExample.mapping (2000 + j), by rw [hf]; exact newest (by omega), _, ?_, rfl⟩
  rw [mapping_block (by omega)]
  exact { range := by omega, stored := image_branch h, valid := valid_bytes (branch_fits j), type := .inl (type_bytes (branch_fits j)), subtype := subtype_bytes (branch_fits j),
          root := root_bytes, fixed := fixed_bytes }

theorem fsChild_leaf {n : Nat} (h : n < 10000) : FsChild storage mappings 1 (toLE 8 (2100 + n)) (nodeOf ((subForm true).bytes (leafEntries n))) := by
  have hf : field (toLE 8 (2100 + n)) 0 8 = 2100 + n := field_value (by omega)
  refine ⟨by simp, by rw [hf]; omega, WideExample.mapping (2100 + n), by rw [hf, show 2100 + n = 2000 + (100 + n) by omega]; exact newest (by omega), _, ?_, rfl⟩
  rw [mapping_block (by omega)]
  exact { range := by omega, stored := image_leaf h, valid := valid_bytes (leaf_fits n), type := .inl (type_bytes (leaf_fits n)), subtype := subtype_bytes (leaf_fits n),
          root := root_bytes, fixed := fixed_bytes }

theorem fsRoot : FsRoot image 1000 (rootForm.bytes rootEntries) :=
  { range := by decide, stored := rfl, valid := valid_bytes root_fits, type := .inl (type_bytes root_fits), subtype := subtype_bytes root_fits, root := root_bytes, fixed := fixed_bytes,
    footer := footer_bytes root_fits rfl }

theorem root_node : ∃ n, fsRootNode (volumeOf storage) = ok (some n) ∧ n.leaf = false ∧ n.entries = rootEntries := by
  refine ⟨_, fsRootNode_ok (s := storage) fsRoot, ?_⟩
  have h := view_parsed (rootForm.bytes rootEntries)
  rw [nodeOf_bytes root_fits] at h
  exact ⟨congrArg TNode.leaf h, congrArg TNode.entries h⟩

theorem blockOf_many {t : Nat} (ht : t < 10100) : blockOf (volumeOf storage) 1 (toLE 8 (2000 + t)) = ok (2000 + t) := WideExample.blockOf_wide ht

theorem sub_node {value : Bytes} {t : TNode} (h : FsChild storage mappings 1 value t) {b : Nat} (hb : blockOf (volumeOf storage) 1 value = ok b) : ∃ m, fsSubNode (volumeOf storage) b = ok m ∧ view m = t := by
  obtain ⟨m, h1, h2⟩ := fsSub_ok (s := storage) map_tree value t h
  rw [fsSub_eq] at h1
  rw [hb, ok_bind] at h1
  exact ⟨m, h1, h2⟩

theorem branch_node {j : Nat} (h : j < 100) : ∃ m, fsSubNode (volumeOf storage) (2000 + j) = ok m ∧ m.leaf = false ∧ m.entries = branchEntries j := by
  obtain ⟨m, h1, h2⟩ := sub_node (fsChild_branch h) (blockOf_many (t := j) (by omega))
  rw [nodeOf_bytes (branch_fits j)] at h2
  exact ⟨m, h1, congrArg TNode.leaf h2, congrArg TNode.entries h2⟩

theorem leaf_node {n : Nat} (h : n < 10000) : ∃ m, fsSubNode (volumeOf storage) (2100 + n) = ok m ∧ m.leaf = true ∧ m.entries = leafEntries n := by
  have hb := blockOf_many (t := 100 + n) (by omega)
  rw [show 2000 + (100 + n) = 2100 + n by omega] at hb
  obtain ⟨m, h1, h2⟩ := sub_node (fsChild_leaf h) hb
  rw [nodeOf_bytes (leaf_fits n)] at h2
  exact ⟨m, h1, congrArg TNode.leaf h2, congrArg TNode.entries h2⟩

/-! which child is taken -/

theorem key_field {n : Nat} (h : n < 100000) (v : Bytes) : rdLE (key n, v).1 0 8 = ok (3 * 2 ^ 60 + (n + 2)) := by
  have hl : (key n).length = 8 := by simp [key]
  rw [rdLE_field (by rw [hl]; decide)]
  unfold key
  rw [field_value (by omega)]

theorem scan {f : Nat → Record} {g : Nat → Nat} {n J : Nat} (hf : ∀ j, (f j).1 = key (g j)) (hg : ∀ j, j < 100 → g j < 100000) (hJ : g J ≤ n) (hup : ∀ j, J < j → n < g j) (hlow : ∀ j, j < J → g j < n) : ∀ m s,
    s ≤ J + 1 → J < s + m → s + m ≤ 100 → fsEntryFromNode false (n + 2) 3 ((List.range' s m).map f) (if s = 0 then none else some (f (s - 1))) = ok (some (some (f J)))
  | 0, s, h1, h2, h3 => by
    have : s = J + 1 := by omega
    subst this
    rfl
  | m + 1, s, h1, h2, h3 => by
    have hk : rdLE (f s).1 0 8 = ok (3 * 2 ^ 60 + (g s + 2)) := by
      rw [hf]
      exact key_field (hg s (by omega)) []
    have hlen : (f s).1.length = 8 := by rw [hf]; simp [key]
    rw [List.range'_succ, List.map_cons]
    unfold fsEntryFromNode
    rw [require_true (by rw [hlen]; decide), ok_bind, hk, ok_bind, if_neg (by decide)]
    have hgs := hg s (by omega)
    have e1 : (3 * 2 ^ 60 + (g s + 2)) % 2 ^ 60 = g s + 2 := by omega
    have e2 : (3 * 2 ^ 60 + (g s + 2)) / 2 ^ 60 = 3 := by omega
    rw [e1, e2]
    by_cases hs : s = J + 1
    · have := hup s (by omega)
      have hJn : ¬ g s + 2 = n + 2 := by omega
      rw [if_pos (by omega), if_neg (by
        subst hs
        intro h
        rcases h with h | h
        · simp at h
        · exact hJn h.1), if_neg (by omega), hs]
      rfl
    · have ih := scan hf hg hJ hup hlow m (s + 1) (by omega) (by omega) (by omega)
      rw [if_neg (by omega), show s + 1 - 1 = s by omega] at ih
      by_cases hsJ : s = J
      · by_cases he : g s = n
        · rw [if_pos (by omega), if_pos (.inr ⟨by omega, by decide⟩), hsJ]
          rfl
        · rw [if_neg (by subst hsJ; omega)]
          exact ih
      · rw [if_neg (by have := hlow s (by omega); omega)]
        exact ih

theorem scan_root {n : Nat} (h : n < 10000) : fsEntryFromNode false (n + 2) 3 rootEntries none = ok (some (some (rootEntry (n / 100)))) := by
  have := scan (f := rootEntry) (g := fun j => 100 * j) (n := n) (J := n / 100) (fun _ => rfl) (by omega) (by omega) (by omega) (by omega) 100 0 (by omega) (by omega) (by omega)
  rw [if_pos rfl] at this
  unfold rootEntries
  rw [List.range_eq_range']
  exact this

theorem scan_branch {n : Nat} (h : n < 10000) : fsEntryFromNode false (n + 2) 3 (branchEntries (n / 100)) none = ok (some (some (branchEntry (n / 100) (n % 100)))) := by
  have := scan (f := branchEntry (n / 100)) (g := fun k => 100 * (n / 100) + k) (n := n) (J := n % 100) (fun _ => rfl) (by omega) (by omega) (by omega) (by omega) 100 0 (by omega) (by omega) (by omega)
  rw [if_pos rfl] at this
  unfold branchEntries
  rw [List.range_eq_range']
  exact this

theorem scan_leaf {n : Nat} (h : n < 10000) : fsEntryFromNode true (n + 2) 3 (leafEntries n) none = ok (some (some (inode n))) := by
  unfold leafEntries fsEntryFromNode
  have hlen : (inode n).1.length = 8 := by simp [inode, key]
  rw [require_true (by rw [hlen]; decide), ok_bind]
  show (rdLE (key n, _).1 0 8 >>= _) = _
  rw [key_field (v := (inode n).2) (by omega), ok_bind, if_pos rfl, if_pos]
  · rfl
  · rw [lookupKey_eq (by decide) (by omega)]

theorem root_value {n : Nat} (h : n < 10000) : blockOf (volumeOf storage) 1 (rootEntry (n / 100)).2 = ok (2000 + n / 100) := blockOf_many (by omega)

theorem branch_value {n : Nat} (h : n < 10000) : blockOf (volumeOf storage) 1 (branchEntry (n / 100) (n % 100)).2 = ok (2100 + n) := by
  have := blockOf_many (t := 100 + n) (by omega)
  rw [show 2000 + (100 + n) = 2100 + n by omega] at this
  unfold branchEntry
  rw [show 100 * (n / 100) + n % 100 = n by omega]
  exact this

/-! the volume is valid -/

def branchRecords (j : Nat) : List Record := ((List.range 100).map fun k => leafEntries (100 * j + k)).flatten
def records : List Record := ((List.range 100).map branchRecords).flatten

theorem leaf_le {m n : Nat} (h : m < n) (hn : n < 100000) : ∀ x ∈ leafEntries m, ∀ y ∈ leafEntries n, fsLe x.1 y.1 := by
  intro x hx y hy
  cases List.mem_singleton.1 hx
  cases List.mem_singleton.1 hy
  have id : ∀ k, k < 100000 → fsId (inode k).1 = k + 2 := by
    intro k hk
    show field (key k) 0 8 % 2 ^ 60 = k + 2
    unfold key
    rw [field_value (by omega)]
    omega
  left
  rw [id m (by omega), id n hn]
  omega

theorem holds : FsHolds storage 1 records := by
  refine ⟨⟨mappings, map_tree, _, fsRoot, .inr ⟨?_, (List.range 100).map fun j => ⟨key (100 * j), toLE 8 (2000 + j), nodeOf ((subForm false).bytes (branchEntries j)), branchRecords j⟩,
    by simp, ?_, ?_, ?_⟩⟩, ?_, ?_⟩
  · rw [nodeOf_bytes root_fits]
    rfl
  · rw [nodeOf_bytes root_fits, List.map_map]
    rfl
  · unfold records
    rw [List.map_map]
    rfl
  · intro c hc
    obtain ⟨j, hj, rfl⟩ := List.mem_map.1 hc
    have hj := List.mem_range.1 hj
    refine ⟨fsChild_branch hj, .inr ⟨?_, (List.range 100).map fun k => ⟨key (100 * j + k), toLE 8 (2100 + (100 * j + k)), nodeOf ((subForm true).bytes (leafEntries (100 * j + k))), leafEntries (100 * j + k)⟩,
      by simp, ?_, ?_, ?_⟩, rfl⟩
    · dsimp only
      rw [nodeOf_bytes (branch_fits j)]
      rfl
    · dsimp only
      rw [nodeOf_bytes (branch_fits j), List.map_map]
      rfl
    · dsimp only
      unfold branchRecords
      rw [List.map_map]
      rfl
    · intro c hc
      obtain ⟨k, hk, rfl⟩ := List.mem_map.1 hc
      have hk := List.mem_range.1 hk
      refine ⟨fsChild_leaf (by omega), .inl ⟨?_, ?_⟩, rfl⟩
      · dsimp only
        rw [nodeOf_bytes (leaf_fits _)]
        rfl
      · dsimp only
        rw [nodeOf_bytes (leaf_fits _)]
  · intro r hr
    obtain ⟨l, hl, hr⟩ := List.mem_flatten.1 hr
    obtain ⟨j, hj, rfl⟩ := List.mem_map.1 hl
    obtain ⟨l, hl, hr⟩ := List.mem_flatten.1 hr
    obtain ⟨k, hk, rfl⟩ := List.mem_map.1 hl
    rw [List.mem_singleton.1 hr]
    simp [inode, key]
  · unfold records
    rw [List.pairwise_flatten]
    refine ⟨?_, ?_⟩
    · intro l hl
      obtain ⟨j, hj, rfl⟩ := List.mem_map.1 hl
      unfold branchRecords
      rw [List.pairwise_flatten]
      refine ⟨?_, ?_⟩
      · intro l hl
        obtain ⟨k, hk, rfl⟩ := List.mem_map.1 hl
        exact List.pairwise_singleton _ _
      · rw [List.pairwise_map]
        refine List.Pairwise.imp_of_mem ?_ List.pairwise_lt_range
        intro a b ha hb hlt
        exact leaf_le (by omega) (by have := List.mem_range.1 hb; have := List.mem_range.1 hj; omega)
    · rw [List.pairwise_map]
      refine List.Pairwise.imp_of_mem ?_ List.pairwise_lt_range
      intro a b ha hb hlt x hx y hy
      have hb := List.mem_range.1 hb
      obtain ⟨l, hl, hx⟩ := List.mem_flatten.1 hx
      obtain ⟨k, hk, rfl⟩ := List.mem_map.1 hl
      obtain ⟨l, hl, hy⟩ := List.mem_flatten.1 hy
      obtain ⟨k', hk', rfl⟩ := List.mem_map.1 hl
      have hk := List.mem_range.1 hk
      have hk' := List.mem_range.1 hk'
      exact leaf_le (by omega) (by omega) x hx y hy


end ManyFiles
end Verif
