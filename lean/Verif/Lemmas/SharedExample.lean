import Verif.Spec.Cost
import Verif.Lemmas.WideListing
import Verif.Model.FileSystem
/-!
# A file system tree whose nodes are shared

The root, in block 1000, has a leaf with the inode of the directory 2, and twice the node in block 2001. For `n` nodes, in the blocks 2001 to 2000 + `n`, both entries name the next block; block 2001 + `n` is a leaf with one
directory record. The object map is that of Verif/Lemmas/WideExample.lean, in the blocks 1 to 102.
-/
namespace Verif
open Res Spec BTree FsTree NodeCache NodeImage
namespace SharedExample
open WideExample (subForm rootForm need_le field_value mappings newest mapping_block inode record record_key map_tree_of decode_record file kind recordsOf_flatten)

def key : Bytes := (record 0).1
def twice (b : Nat) : List Record := [(key, toLE 8 b), (key, toLE 8 b)]
def rootEntries : List Record := (inode.1, toLE 8 2000) :: twice 2001

def image (n b : Nat) : Option Bytes :=
  if b < 103 then WideExample.image b
  else if b = 1000 then some (rootForm.bytes rootEntries)
  else if b < 2000 then none
  else if b = 2000 then some ((subForm true).bytes [inode])
  else if b < 2001 + n then some ((subForm false).bytes (twice (b + 1)))
  else if b = 2001 + n then some ((subForm true).bytes [record 0])
  else none

/-- the blocks that are stored -/
def blocks (n : Nat) : List Nat := (List.range 102).map (· + 1) ++ 1000 :: (List.range (n + 2)).map (· + 2000)

def storage (n : Nat) : Storage := { omImage := image n, omRoot := 1, fsImage := image n, fsRoot := 1000 }

theorem length_blocks (n : Nat) : (blocks n).length = n + 105 := by
  simp [blocks]
  omega

theorem mem_blocks {n b : Nat} : b ∈ blocks n ↔ (1 ≤ b ∧ b < 103) ∨ b = 1000 ∨ (2000 ≤ b ∧ b < 2002 + n) := by
  unfold blocks
  simp only [List.mem_append, List.mem_map, List.mem_range, List.mem_cons]
  constructor
  · rintro (⟨a, h, rfl⟩ | rfl | ⟨a, h, rfl⟩) <;> omega
  · rintro (h | h | h)
    · exact .inl ⟨b - 1, by omega, by omega⟩
    · exact .inr (.inl h)
    · exact .inr (.inr ⟨b - 2000, by omega, by omega⟩)

theorem stored {n b : Nat} {d : Bytes} (h : image n b = some d) : b ∈ blocks n := by
  rw [mem_blocks]
  unfold image at h
  split at h
  · unfold WideExample.image at h
    split at h
    · omega
    · split at h
      · cases h
      · omega
  · split at h
    · omega
    · split at h
      · cases h
      · split at h
        · omega
        · split at h
          · omega
          · split at h
            · omega
            · cases h

theorem length_key : key.length = 15 := by
  simp [key, record, drecKey]

theorem twice_fits (b : Nat) : (subForm false).Fits (twice b) := by
  refine ⟨by decide, by decide, by decide, by decide, ?_, ?_, by intro h; cases h⟩
  · have := need_le (f := subForm false) (es := twice b) (n := 2) (kl := 15) (vl := 8) rfl (by simp [twice, length_key]) (by simp [twice])
    omega
  · rw [length_tocOf]
    split <;> simp [twice]

theorem root_fits : rootForm.Fits rootEntries := by
  refine ⟨by decide, by decide, by decide, by decide, ?_, ?_, by intro h; cases h⟩
  · have := need_le (f := rootForm) (es := rootEntries) (n := 3) (kl := 15) (vl := 8) rfl (by simp [rootEntries, twice, length_key, inode]) (by simp [rootEntries, twice])
    omega
  · rw [length_tocOf]
    split <;> simp [rootEntries, twice]

theorem inode_fits : (subForm true).Fits [inode] := by
  refine ⟨by decide, by decide, by decide, by decide, ?_, ?_, by intro h; cases h⟩
  · have := need_le (f := subForm true) (es := [inode]) (n := 1) (kl := 15) (vl := 92) rfl (by simp [inode]) (by simp [inode])
    omega
  · rw [length_tocOf]
    split <;> simp

theorem record_fits : (subForm true).Fits [record 0] := by
  refine ⟨by decide, by decide, by decide, by decide, ?_, ?_, by intro h; cases h⟩
  · have := need_le (f := subForm true) (es := [record 0]) (n := 1) (kl := 15) (vl := 92) rfl (by simp [record, drecKey]) (by simp [record, drecValue, optionalFields])
    omega
  · rw [length_tocOf]
    split <;> simp

theorem map_tree (n : Nat) : OmTree (image n) 1 mappings := by
  refine map_tree_of rfl fun m h => ?_
  unfold image
  rw [if_pos (by omega)]
  exact WideExample.image_mapLeaf h

theorem child {n b : Nat} {leaf : Bool} {es : List Record} (hb : 2000 ≤ b ∧ b < 12100) (hi : image n b = some ((subForm leaf).bytes es)) (hf : (subForm leaf).Fits es) :
    FsChild (storage n) mappings 1 (toLE 8 b) ⟨leaf, es⟩ := by
  have hv : field (toLE 8 b) 0 8 = b := field_value (by omega)
  refine ⟨by simp, by rw [hv]; omega, WideExample.mapping b, ?_, (subForm leaf).bytes es, ?_, ?_⟩
  · rw [hv]
    obtain ⟨t, rfl⟩ : ∃ t, b = 2000 + t := ⟨b - 2000, by omega⟩
    exact newest (by omega)
  · rw [mapping_block (by omega)]
    exact { range := by omega, stored := hi, valid := valid_bytes hf, type := .inl (type_bytes hf), subtype := subtype_bytes hf, root := root_bytes, fixed := fixed_bytes }
  · rw [nodeOf_bytes hf]
    rfl

/-- what is below the block 2001 + `n` - `m` -/
theorem below {n : Nat} (hn : n ≤ 254) : ∀ m, m ≤ n → ∀ depth, m + 1 ≤ depth → ∃ t, FsChild (storage n) mappings 1 (toLE 8 (2001 + n - m)) t ∧
    IsTree (FsChild (storage n) mappings 1) depth t (List.replicate (2 ^ m) (record 0))
  | 0, _, 0, h => by omega
  | 0, _, depth + 1, _ => by
    refine ⟨⟨true, [record 0]⟩, ?_, .inl ⟨rfl, rfl⟩⟩
    refine child (by omega) ?_ record_fits
    unfold image
    rw [if_neg (by omega), if_neg (by omega), if_neg (by omega), if_neg (by omega), if_neg (by omega), if_pos (by omega)]
  | m + 1, _, 0, h => by omega
  | m + 1, hm, depth + 1, h => by
    obtain ⟨t, h1, h2⟩ := below hn m (by omega) depth (by omega)
    refine ⟨⟨false, twice (2001 + n - m)⟩, ?_, .inr ⟨rfl, [⟨key, toLE 8 (2001 + n - m), t, List.replicate (2 ^ m) (record 0)⟩, ⟨key, toLE 8 (2001 + n - m), t, List.replicate (2 ^ m) (record 0)⟩],
      by simp, rfl, ?_, ?_⟩⟩
    · refine child (by omega) ?_ (twice_fits _)
      unfold image
      rw [if_neg (by omega), if_neg (by omega), if_neg (by omega), if_neg (by omega), if_pos (by omega), show 2001 + n - (m + 1) + 1 = 2001 + n - m by omega]
    · rw [Nat.pow_succ, Nat.mul_two]
      simp only [List.map_cons, List.map_nil, List.flatten_cons, List.flatten_nil, List.append_nil]
      rw [List.replicate_append_replicate]
    · intro c hc
      simp only [List.mem_cons, List.not_mem_nil, or_false, or_self] at hc
      subst hc
      refine ⟨h1, h2, ?_⟩
      dsimp only
      rw [List.head?_replicate, if_neg (by have := Nat.two_pow_pos m; omega)]
      rfl

def records (n : Nat) : List Record := inode :: List.replicate (2 ^ (n + 1)) (record 0)

theorem inode_key : fsId inode.1 = 2 ∧ fsType inode.1 = 3 ∧ 8 ≤ inode.1.length := by decide +kernel

theorem holds {n : Nat} (hn : n ≤ 254) : FsHolds (storage n) 1 (records n) := by
  obtain ⟨t, h1, h2⟩ := below hn n (Nat.le_refl n) 256 (by omega)
  rw [show 2001 + n - n = 2001 by omega] at h1
  refine ⟨⟨mappings, map_tree n, rootForm.bytes rootEntries, ?_, .inr ⟨?_, [⟨inode.1, toLE 8 2000, ⟨true, [inode]⟩, [inode]⟩, ⟨key, toLE 8 2001, t, List.replicate (2 ^ n) (record 0)⟩,
    ⟨key, toLE 8 2001, t, List.replicate (2 ^ n) (record 0)⟩], by simp, ?_, ?_, ?_⟩⟩, ?_, ?_⟩
  · exact { range := by show 1000 < 2 ^ 31; decide, stored := rfl, valid := valid_bytes root_fits, type := .inl (type_bytes root_fits), subtype := subtype_bytes root_fits, root := root_bytes, fixed := fixed_bytes,
            footer := footer_bytes root_fits rfl }
  · rw [nodeOf_bytes root_fits]
    rfl
  · rw [nodeOf_bytes root_fits]
    rfl
  · unfold records
    rw [Nat.pow_succ, Nat.mul_two]
    simp only [List.map_cons, List.map_nil, List.flatten_cons, List.flatten_nil, List.append_nil]
    rw [List.replicate_append_replicate]
    rfl
  · intro c hc
    simp only [List.mem_cons, List.not_mem_nil, or_false, or_self] at hc
    rcases hc with rfl | rfl
    · refine ⟨?_, .inl ⟨rfl, rfl⟩, rfl⟩
      refine child (by omega) ?_ inode_fits
      unfold image
      rw [if_neg (by omega), if_neg (by omega), if_neg (by omega), if_pos (by omega)]
    · refine ⟨h1, h2, ?_⟩
      dsimp only
      rw [List.head?_replicate, if_neg (by have := Nat.two_pow_pos n; omega)]
      rfl
  · intro r hr
    rcases List.mem_cons.1 hr with rfl | hr
    · exact inode_key.2.2
    · rw [List.eq_of_mem_replicate hr]
      exact (record_key 0).2.2
  · refine List.pairwise_cons.2 ⟨fun r hr => ?_, List.pairwise_replicate.2 (.inr ?_)⟩
    · rw [List.eq_of_mem_replicate hr]
      exact .inr ⟨by rw [inode_key.1, (record_key 0).1], by rw [inode_key.2.1, (record_key 0).2.1]; decide⟩
    · exact .inr ⟨rfl, Nat.le_refl _⟩

theorem stored_size {n b : Nat} {d : Bytes} (h : image n b = some d) : d.length = 4096 := by
  unfold image at h
  split at h
  · unfold WideExample.image at h
    split at h
    · cases h; exact length_bytes WideExample.mapRoot_fits
    · split at h
      · cases h
      · cases h; exact length_bytes (WideExample.mapLeaf_fits _)
  · split at h
    · cases h; exact length_bytes root_fits
    · split at h
      · cases h
      · split at h
        · cases h; exact length_bytes inode_fits
        · split at h
          · cases h; exact length_bytes (twice_fits _)
          · split at h
            · cases h; exact length_bytes record_fits
            · cases h

theorem recordsOf_records (n : Nat) : recordsOf (records n) 2 9 = List.replicate (2 ^ (n + 1)) (record 0) := by
  unfold records recordsOf
  rw [List.filter_cons_of_neg (by simp [IsOf, inode_key.2.1]), List.filter_replicate, if_pos (by simp [IsOf, (record_key 0).1, (record_key 0).2.1])]

end SharedExample
end Verif
