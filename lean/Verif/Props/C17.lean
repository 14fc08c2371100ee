import Verif.Lemmas.BTree
/-!
# C17 Parsing a B-tree node never leaves the node
-/
namespace Verif.Props
open Verif Res Spec BTree

/-- Parsing any block terminates and stays within the block. -/
theorem c17_safe (d : Bytes) : Safe (readNode d) := (readNode_spec d).1

/-- Every key and value a node exposes is a part of the block. -/
theorem c17_within (d : Bytes) (n : Node) (h : readNode d = ok n) : ∀ e ∈ n.entries,
    (∃ a b, d = a ++ (e.1 ++ b)) ∧ (∃ a b, d = a ++ (e.2 ++ b)) := by
  obtain ⟨hh, he, rfl⟩ := ((readNode_spec d).2 n).1 h
  have part : ∀ off len, ∃ a b, d = a ++ (slice d off len ++ b) := fun off len =>
    ⟨d.take off, d.drop (off + len), by unfold slice; rw [← eq_take_drop, List.take_append_drop]⟩
  intro e hm
  obtain ⟨i, _, rfl⟩ := List.mem_map.1 hm
  exact ⟨part _ _, part _ _⟩

/-- The keys and values of every valid node are read, exactly and in order. -/
theorem c17_complete (d : Bytes) (v : BNode.Valid d) : ∃ n, readNode d = ok n ∧ n.entries = BNode.entries d ∧
    n.objectType = BNode.type d ∧ n.objectSubtype = BNode.subtype d ∧ n.leaf = BNode.leaf d :=
  ⟨_, readNode_valid v, rfl, rfl, rfl, leaf_eq d⟩

/-- A block of up to 65535 bytes that is accepted is a valid node, provided that the offsets of its keys and values do not exceed the 16-bit
range or the end of the values. Blocks in general are accepted also if an offset wraps around, see `c17_key_offset_wraps`. -/
theorem c17_sound_partial (d : Bytes) (n : Node) (h : readNode d = ok n) (hl : d.length < 65536)
    (hk : ∀ i < BNode.count d, BNode.keyStart d i < 65536) (hv : ∀ i < BNode.count d, BNode.valueOffset d i ≤ BNode.valuesEnd d) :
    BNode.Valid d ∧ n.entries = BNode.entries d := by
  obtain ⟨hh, he, rfl⟩ := ((readNode_spec d).2 n).1 h
  have hf := footerOffset_eq hh.size hl
  have hve : BNode.valuesEnd d ≤ d.length := by unfold BNode.valuesEnd; omega
  have value : ∀ i < BNode.count d, (BNode.valuesEnd d + (65536 - BNode.valueOffset d i)) % 65536 = BNode.valuesEnd d - BNode.valueOffset d i := by
    intro i hi
    have := hv i hi
    omega
  have hvalid : BNode.Valid d := ⟨hh.size, hl, hh.typ, hh.toc, (Nat.le_div_iff_mul_le (entrySize_pos d)).1 hh.keys,
    fun h0 h1 => (he 0 (by omega)).1 h0, fun i hi => by have := (he i hi).2.1; rwa [Nat.mod_eq_of_lt (hk i hi)] at this,
    fun i hi => ⟨hv i hi, by have := (he i hi).2.2; rwa [hf, value i hi] at this⟩⟩
  refine ⟨hvalid, ?_⟩
  unfold BNode.entries
  apply List.map_congr_left
  intro i hi
  have hi := List.mem_range.1 hi
  unfold entryAt
  rw [Nat.mod_eq_of_lt (hk i hi), hf, value i hi]

/-- A value offset beyond the end of the values is refused, except in a root node if it wraps around into the footer. -/
theorem c17_value_offset_checked (d : Bytes) (n : Node) (h : readNode d = ok n) (hl : d.length < 65536) (i : Nat) (hi : i < BNode.count d) :
    BNode.valueOffset d i ≤ BNode.valuesEnd d ∨ (BNode.root d = true ∧ 65496 ≤ BNode.valueOffset d i) := by
  obtain ⟨hh, he, _⟩ := ((readNode_spec d).2 n).1 h
  have := (he i hi).2.2
  rw [footerOffset_eq hh.size (by omega)] at this
  have hs := hh.size
  have hv : BNode.valueOffset d i < 65536 := by
    have h1 := count_le hh
    have h2 : (i + 1) * BNode.entrySize d ≤ BNode.count d * BNode.entrySize d := Nat.mul_le_mul_right _ hi
    rw [Nat.succ_mul] at h2
    unfold BNode.entryStart at h1
    unfold BNode.valueOffset BNode.entryStart
    apply field_lt (n := 2)
    by_cases hf : BNode.fixed d = true
    · have : BNode.entrySize d = 4 := by unfold BNode.entrySize; rw [if_pos hf]
      rw [if_pos hf]; omega
    · have : BNode.entrySize d = 8 := by unfold BNode.entrySize; rw [if_neg hf]
      rw [if_neg hf]; omega
  by_cases hr : BNode.root d = true
  · have hve : BNode.valuesEnd d = d.length - 40 := by unfold BNode.valuesEnd; rw [if_pos hr]
    by_cases h1 : BNode.valueOffset d i ≤ BNode.valuesEnd d
    · exact .inl h1
    · exact .inr ⟨hr, by omega⟩
  · have hve : BNode.valuesEnd d = d.length := by unfold BNode.valuesEnd; rw [if_neg hr]; rfl
    left
    omega

/-- a block of 120 bytes with one variable-size entry: key offset `ko`, value offset `vo`; both key and value have 8 bytes -/
def oneEntryNode (ko vo : Nat) : Bytes :=
  List.replicate 24 0 ++ toLE 4 0 ++ toLE 4 0xe ++ toLE 2 2 ++ toLE 2 0 ++ toLE 4 1 ++ toLE 2 0 ++ toLE 2 8 ++ toLE 2 0 ++ toLE 2 0 ++ List.replicate 8 0 ++
  (toLE 2 ko ++ toLE 2 8 ++ toLE 2 vo ++ toLE 2 8) ++ [1, 2, 3, 4, 5, 6, 7, 8] ++ List.replicate 40 0 ++ [9, 10, 11, 12, 13, 14, 15, 16]

/-- A key offset is added modulo 2^16: the key offset 65472 points to the start of the block, where the checksum of the object is. -/
theorem c17_key_offset_wraps : readNode (oneEntryNode 65472 8) =
    ok { objectType := 0, objectSubtype := 0xe, flags := 2, footer := none, entries := [([0, 0, 0, 0, 0, 0, 0, 0], [9, 10, 11, 12, 13, 14, 15, 16])] } := by
  decide +kernel

example : readNode (oneEntryNode 0 8) =
    ok { objectType := 0, objectSubtype := 0xe, flags := 2, footer := none, entries := [([1, 2, 3, 4, 5, 6, 7, 8], [9, 10, 11, 12, 13, 14, 15, 16])] } := by
  decide +kernel

example : BNode.Valid (oneEntryNode 0 8) := ⟨by decide +kernel, by decide +kernel, by decide +kernel, by decide +kernel, by decide +kernel,
  by decide +kernel, by decide +kernel, by decide +kernel⟩

/-- malformed offsets are refused -/
example : readNode (oneEntryNode 80 8) = err ∧ readNode (oneEntryNode 0 7) = err ∧ readNode (oneEntryNode 0 121) = err := by decide +kernel

end Verif.Props
