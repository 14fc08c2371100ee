import Verif.Props.C50
/-! Blocks with other checksums: trees are the same -/
namespace Verif
open Res Spec
namespace Restamp

/-- storage where the first eight bytes of some blocks have been replaced -/
def restamp (chk : Nat → Option Bytes) (image : Nat → Option Bytes) (b : Nat) : Option Bytes :=
  match chk b with
  | none => image b
  | some c => (image b).map (fun d => c ++ d.drop 8)

/-- no value of a node overlaps the checksum -/
def Clear (d : Bytes) : Prop := ∀ i < BNode.count d, BNode.valueOffset d i + 8 ≤ BNode.valuesEnd d

variable {chk : Nat → Option Bytes} {image : Nat → Option Bytes}

theorem slice_stamp {c d : Bytes} (hc : c.length = 8) {off n : Nat} (h : 8 ≤ off) : slice (c ++ d.drop 8) off n = slice d off n := by
  unfold slice
  rw [List.drop_append, hc, List.drop_eq_nil_of_le (by omega), List.nil_append, List.drop_drop, show 8 + (off - 8) = off by omega]

theorem field_stamp {c d : Bytes} (hc : c.length = 8) {off n : Nat} (h : 8 ≤ off) : field (c ++ d.drop 8) off n = field d off n := by
  unfold field
  rw [slice_stamp hc h]

theorem length_stamp {c d : Bytes} (hc : c.length = 8) (h : 8 ≤ d.length) : (c ++ d.drop 8).length = d.length := by
  rw [List.length_append, List.length_drop]; omega

section node
variable {c d : Bytes} (hc : c.length = 8)
include hc

theorem type_stamp : BNode.type (c ++ d.drop 8) = BNode.type d := field_stamp hc (by omega)
theorem subtype_stamp : BNode.subtype (c ++ d.drop 8) = BNode.subtype d := field_stamp hc (by omega)
theorem flags_stamp : BNode.flags (c ++ d.drop 8) = BNode.flags d := field_stamp hc (by omega)
theorem count_stamp : BNode.count (c ++ d.drop 8) = BNode.count d := field_stamp hc (by omega)
theorem tocOffset_stamp : BNode.tocOffset (c ++ d.drop 8) = BNode.tocOffset d := field_stamp hc (by omega)
theorem tocSize_stamp : BNode.tocSize (c ++ d.drop 8) = BNode.tocSize d := field_stamp hc (by omega)
theorem unused_stamp : BNode.unusedOffset (c ++ d.drop 8) = BNode.unusedOffset d := field_stamp hc (by omega)
theorem root_stamp : BNode.root (c ++ d.drop 8) = BNode.root d := by unfold BNode.root; rw [flags_stamp hc]
theorem leaf_stamp : BNode.leaf (c ++ d.drop 8) = BNode.leaf d := by unfold BNode.leaf; rw [flags_stamp hc]
theorem fixed_stamp : BNode.fixed (c ++ d.drop 8) = BNode.fixed d := by unfold BNode.fixed; rw [flags_stamp hc]
theorem entrySize_stamp : BNode.entrySize (c ++ d.drop 8) = BNode.entrySize d := by unfold BNode.entrySize; rw [fixed_stamp hc]
theorem entryStart_stamp (i : Nat) : BNode.entryStart (c ++ d.drop 8) i = BNode.entryStart d i := by unfold BNode.entryStart; rw [tocOffset_stamp hc, entrySize_stamp hc]

omit hc in
theorem le_entryStart (i : Nat) : 8 ≤ BNode.entryStart d i := by unfold BNode.entryStart; omega

theorem keyLen_stamp (i : Nat) : BNode.keyLen (c ++ d.drop 8) i = BNode.keyLen d i := by
  unfold BNode.keyLen
  rw [fixed_stamp hc, entryStart_stamp hc, field_stamp hc (by have := le_entryStart (d := d) i; omega)]
theorem valueLen_stamp (i : Nat) : BNode.valueLen (c ++ d.drop 8) i = BNode.valueLen d i := by
  unfold BNode.valueLen
  rw [fixed_stamp hc, leaf_stamp hc, entryStart_stamp hc, field_stamp hc (by have := le_entryStart (d := d) i; omega)]
theorem keyStart_stamp (i : Nat) : BNode.keyStart (c ++ d.drop 8) i = BNode.keyStart d i := by
  unfold BNode.keyStart
  rw [tocOffset_stamp hc, tocSize_stamp hc, entryStart_stamp hc, field_stamp hc (by have := le_entryStart (d := d) i; omega)]
theorem valueOffset_stamp (i : Nat) : BNode.valueOffset (c ++ d.drop 8) i = BNode.valueOffset d i := by
  unfold BNode.valueOffset
  rw [fixed_stamp hc, entryStart_stamp hc, field_stamp hc (by have := le_entryStart (d := d) i; omega)]
theorem valuesEnd_stamp (h : 8 ≤ d.length) : BNode.valuesEnd (c ++ d.drop 8) = BNode.valuesEnd d := by
  unfold BNode.valuesEnd
  rw [root_stamp hc, length_stamp hc h]

theorem valid_stamp (v : BNode.Valid d) : BNode.Valid (c ++ d.drop 8) := by
  have h := v.size
  have h8 : 8 ≤ d.length := by omega
  constructor
  · rw [length_stamp hc h8]; exact v.size
  · rw [length_stamp hc h8]; exact v.size2
  · rw [type_stamp hc]; exact v.typ
  · rw [tocOffset_stamp hc, tocSize_stamp hc, unused_stamp hc, length_stamp hc h8]; exact v.toc
  · rw [count_stamp hc, entrySize_stamp hc, tocSize_stamp hc]; exact v.keys
  · rw [fixed_stamp hc, count_stamp hc, subtype_stamp hc]; exact v.objectMap
  · intro i hi
    rw [count_stamp hc] at hi
    rw [keyStart_stamp hc, keyLen_stamp hc, length_stamp hc h8]
    exact v.key i hi
  · intro i hi
    rw [count_stamp hc] at hi
    rw [valueOffset_stamp hc, valuesEnd_stamp hc h8, valueLen_stamp hc, length_stamp hc h8]
    exact v.value i hi

theorem entries_stamp (v : BNode.Valid d) (hv : Clear d) : BNode.entries (c ++ d.drop 8) = BNode.entries d := by
  have h := v.size
  unfold BNode.entries
  rw [count_stamp hc]
  apply List.map_congr_left
  intro i hi
  have hi := List.mem_range.1 hi
  have := hv i hi
  rw [keyStart_stamp hc, keyLen_stamp hc, valuesEnd_stamp hc (by omega), valueOffset_stamp hc, valueLen_stamp hc, slice_stamp hc (by unfold BNode.keyStart; omega),
    slice_stamp hc (by omega)]

theorem nodeOf_stamp (v : BNode.Valid d) (hv : Clear d) : nodeOf (c ++ d.drop 8) = nodeOf d := by
  unfold nodeOf
  rw [leaf_stamp hc, entries_stamp hc v hv]

theorem footer_stamp (v : BNode.Valid d) : footerFields (c ++ d.drop 8) = footerFields d := by
  have h := v.size
  unfold footerFields
  rw [length_stamp hc (by omega), field_stamp hc (by omega), field_stamp hc (by omega), field_stamp hc (by omega)]

theorem parsed_stamp (v : BNode.Valid d) (hv : Clear d) : BTree.parsed (c ++ d.drop 8) = BTree.parsed d := by
  have h := v.size
  unfold BTree.parsed BTree.footerOf
  rw [type_stamp hc, subtype_stamp hc, flags_stamp hc, entries_stamp hc v hv, length_stamp hc (by omega), field_stamp hc (by omega), field_stamp hc (by omega), field_stamp hc (by omega)]

end node

theorem isTree_mono {R R' : Bytes → TNode → Prop} (h : ∀ v t, R v t → R' v t) : ∀ n t rs, IsTree R n t rs → IsTree R' n t rs
  | 0, _, _, g => g
  | n + 1, t, rs, g => by
    rcases g with g | ⟨g1, cs, g2, g3, g4, g5⟩
    · exact .inl g
    · exact .inr ⟨g1, cs, g2, g3, g4, fun c hc => ⟨h _ _ (g5 c hc).1, isTree_mono h n _ _ (g5 c hc).2.1, (g5 c hc).2.2⟩⟩

/-- the checksums that are put have eight bytes, and nodes do not use them for values -/
structure Ok (chk : Nat → Option Bytes) (image : Nat → Option Bytes) : Prop where
  size : ∀ b c, chk b = some c → c.length = 8
  clear : ∀ b d, image b = some d → BNode.Valid d → Clear d

/-- what a block becomes -/
theorem stamped (ok : Ok chk image) {b : Nat} {d : Bytes} (h : image b = some d) : restamp chk image b = some d ∨ ∃ c, c.length = 8 ∧ restamp chk image b = some (c ++ d.drop 8) := by
  unfold restamp
  cases e : chk b with
  | none => exact .inl h
  | some c => exact .inr ⟨c, ok.size b c e, by rw [h]; rfl⟩

theorem omChild (ok : Ok chk image) (v : Bytes) (t : TNode) (h : OmChild image v t) : OmChild (restamp chk image) v t := by
  obtain ⟨h1, d, s, rfl⟩ := h
  refine ⟨h1, ?_⟩
  rcases stamped ok s.stored with e | ⟨c, hc, e⟩
  · exact ⟨d, ⟨s.range, e, s.valid, s.type, s.subtype, s.root, s.fixed⟩, rfl⟩
  · exact ⟨_, ⟨s.range, e, valid_stamp hc s.valid, (type_stamp hc).trans s.type, (subtype_stamp hc).trans s.subtype, (root_stamp hc).trans s.root, (fixed_stamp hc).trans s.fixed⟩,
      (nodeOf_stamp hc s.valid (ok.clear _ _ s.stored s.valid)).symm⟩

theorem omTree (ok : Ok chk image) {b : Nat} {rs : List Record} (h : OmTree image b rs) : OmTree (restamp chk image) b rs := by
  obtain ⟨⟨d, s, t⟩, ha⟩ := h
  refine ⟨?_, ha⟩
  have t' := isTree_mono (omChild ok) _ _ _ t
  rcases stamped ok s.stored with e | ⟨c, hc, e⟩
  · exact ⟨d, ⟨s.range, e, s.valid, s.type, s.subtype, s.root, s.fixed, s.footer⟩, t'⟩
  · exact ⟨_, ⟨s.range, e, valid_stamp hc s.valid, (type_stamp hc).trans s.type, (subtype_stamp hc).trans s.subtype, (root_stamp hc).trans s.root, (fixed_stamp hc).trans s.fixed,
      (footer_stamp hc s.valid).trans s.footer⟩, by rw [nodeOf_stamp hc s.valid (ok.clear _ _ s.stored s.valid)]; exact t'⟩

theorem fsHolds {s : Storage} (ok : Ok chk s.omImage) (ok' : Ok chk s.fsImage) {xid : Nat} {rs : List Record} (h : FsHolds s xid rs) :
    FsHolds { s with omImage := restamp chk s.omImage, fsImage := restamp chk s.fsImage } xid rs := by
  obtain ⟨⟨ms, h1, d, r, t⟩, h2, h3⟩ := h
  refine ⟨⟨ms, omTree ok h1, ?_⟩, h2, h3⟩
  have t' := isTree_mono (R' := FsChild { s with omImage := restamp chk s.omImage, fsImage := restamp chk s.fsImage } ms xid) (by
    rintro v t ⟨g1, g2, r, g3, d, n, rfl⟩
    refine ⟨g1, g2, r, g3, ?_⟩
    rcases stamped ok' n.stored with e | ⟨c, hc, e⟩
    · exact ⟨d, ⟨n.range, e, n.valid, n.type, n.subtype, n.root, n.fixed⟩, rfl⟩
    · exact ⟨_, ⟨n.range, e, valid_stamp hc n.valid, by rw [type_stamp hc]; exact n.type, (subtype_stamp hc).trans n.subtype, (root_stamp hc).trans n.root, (fixed_stamp hc).trans n.fixed⟩,
        (nodeOf_stamp hc n.valid (ok'.clear _ _ n.stored n.valid)).symm⟩) _ _ _ t
  rcases stamped ok' r.stored with e | ⟨c, hc, e⟩
  · exact ⟨d, ⟨r.range, e, r.valid, r.type, r.subtype, r.root, r.fixed, r.footer⟩, t'⟩
  · exact ⟨_, ⟨r.range, e, valid_stamp hc r.valid, by rw [type_stamp hc]; exact r.type, (subtype_stamp hc).trans r.subtype, (root_stamp hc).trans r.root, (fixed_stamp hc).trans r.fixed,
      (footer_stamp hc r.valid).trans r.footer⟩, by rw [nodeOf_stamp hc r.valid (ok'.clear _ _ r.stored r.valid)]; exact t'⟩

theorem containerBlocks_restamp (hs : ∀ b c, chk b = some c → c.length = 8) (size : Nat) : containerBlocks (restamp chk image) size = restamp chk (containerBlocks image size) := by
  funext b
  unfold containerBlocks restamp
  cases e : chk b with
  | none => rfl
  | some c =>
    have hc := hs b c e
    dsimp only
    by_cases h : b * 4096 < size ∧ b * 4096 < 2 ^ 63
    · rw [if_pos h, if_pos h]
      cases image b with
      | none => rfl
      | some d =>
        simp only [Option.map_some]
        by_cases hl : d.length = 4096
        · rw [if_pos hl, if_pos (by rw [length_stamp hc (by omega)]; exact hl)]
          rfl
        · rw [if_neg hl, if_neg (by rw [List.length_append, List.length_drop]; omega)]
          rfl
    · rw [if_neg h, if_neg h]
      rfl

theorem objectMapAt {o c : Bytes} {root : Nat} (hc : c.length = 8) (h : ObjectMapAt o root) : ObjectMapAt (c ++ o.drop 8) root := by
  have := h.size
  exact ⟨by rw [length_stamp hc (by omega)]; exact h.size, (field_stamp hc (by omega)).trans h.type, (field_stamp hc (by omega)).trans h.subtype, (field_stamp hc (by omega)).trans h.tree⟩

end Restamp
end Verif
