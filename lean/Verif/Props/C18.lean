import Verif.Lemmas.ObjectMap
/-!
# C18 Object map lookup returns the newest version not newer than the requested transaction
-/
namespace Verif.Props
open Verif Res Spec BTree

/-- Looking up an object in an object map of any shape, with at most 257 levels, returns the newest version that is not newer than the requested
transaction, and reports not found if there is none. -/
theorem c18_lookup (image : Nat → Option Bytes) (root : Nat) (records : List Record) (h : OmTree image root records) (oid xid : Nat) (h0 : oid ≠ 0) :
    (¬ HasVersion records oid xid ∧ omDescriptor (fetchOf image) root oid xid = ok none) ∨
    ∃ r desc, Newest records oid xid r ∧ omDescriptor (fetchOf image) root oid xid = ok (some desc) ∧
      desc.identifier = oid ∧ desc.transaction = omXid r.1 ∧ desc.flags = field r.2 0 4 ∧ desc.size = field r.2 4 4 ∧ desc.physical = field r.2 8 8 := by
  unfold omDescriptor
  rcases omLookup_spec h h0 (xid := xid) with ⟨h1, h2⟩ | ⟨r, h1, h2⟩
  · left
    rw [h2]
    exact ⟨h1, rfl⟩
  · right
    obtain ⟨hk, hv⟩ := omTree_lengths h r h1.1
    refine ⟨r, { identifier := oid, transaction := omXid r.1, flags := field r.2 0 4, size := field r.2 4 4, physical := field r.2 8 8 }, h1, ?_, rfl, rfl, rfl, rfl, rfl⟩
    rw [h2, ok_bind]
    simp only
    rw [require_true (by omega), ok_bind, rdLE_field (by omega), ok_bind, rdLE_field (by omega), ok_bind, require_true (by omega), ok_bind,
      rdLE_field (by omega), ok_bind, rdLE_field (by omega), ok_bind, rdLE_field (by omega), ok_bind, show field r.1 0 8 = oid from h1.2.1]
    rfl

/-- Not found is reported exactly if there is no such version. -/
theorem c18_not_found (image : Nat → Option Bytes) (root : Nat) (records : List Record) (h : OmTree image root records) (oid xid : Nat) (h0 : oid ≠ 0) :
    omDescriptor (fetchOf image) root oid xid = ok none ↔ ¬ HasVersion records oid xid := by
  rcases c18_lookup image root records h oid xid h0 with ⟨h1, h2⟩ | ⟨r, desc, h1, h2, _⟩
  · exact ⟨fun _ => h1, fun _ => h2⟩
  · rw [h2]
    refine ⟨fun h => ?_, fun h => absurd ⟨r, h1.1, h1.2.1, h1.2.2.1⟩ h⟩
    cases h

/-- A mapping that is stored is found at its own transaction, and a version stays visible until the next one. -/
theorem c18_stored (image : Nat → Option Bytes) (root : Nat) (records : List Record) (h : OmTree image root records) (r : Record) (hr : r ∈ records)
    (h0 : omOid r.1 ≠ 0) (xid : Nat) (h1 : omXid r.1 ≤ xid) (h2 : ∀ r' ∈ records, omOid r'.1 = omOid r.1 → omXid r'.1 ≤ omXid r.1 ∨ xid < omXid r'.1) :
    ∃ desc, omDescriptor (fetchOf image) root (omOid r.1) xid = ok (some desc) ∧ desc.physical = field r.2 8 8 ∧ desc.transaction = omXid r.1 := by
  rcases c18_lookup image root records h (omOid r.1) xid h0 with ⟨h3, _⟩ | ⟨q, desc, h3, h4, _, h5, _, _, h6⟩
  · exact absurd ⟨r, hr, rfl, h1⟩ h3
  · have hx : omXid q.1 = omXid r.1 := by
      have a := h3.2.2.2 r hr rfl h1
      have b := h2 q h3.1 h3.2.1
      have c := h3.2.2.1
      omega
    have hq : q = r := by
      have hp := h.2
      unfold Ascending at hp
      -- equal keys: the same record
      refine Classical.byContradiction fun hne => ?_
      have := List.Pairwise.forall_of_forall_of_flip (R := fun a b : Record => a = b ∨ omLt a.1 b.1 ∨ omLt b.1 a.1) (l := records) (fun _ _ => .inl rfl)
        (hp.imp (fun h => .inr (.inl h))) (hp.imp (fun h => .inr (.inr h))) h3.1 hr
      rcases this with h | h | h
      · exact hne h
      · unfold omLt at h; have := h3.2.1; omega
      · unfold omLt at h; have := h3.2.1; omega
    subst hq
    exact ⟨desc, h4, h6, h5⟩

/-! An object map of two levels: a root node in block 5 with children in blocks 6 and 7 -/

/-- a node with entries of fixed size, key area before the value area -/
def omBlock (type flags : Nat) (es : List Record) (footer : Bytes) : Bytes :=
  let toc := es.length * 4
  let vs := if flags / 2 % 2 = 0 then 8 else 16
  List.replicate 24 0 ++ toLE 4 type ++ toLE 4 0xb ++ toLE 2 flags ++ toLE 2 0 ++ toLE 4 es.length ++ toLE 2 0 ++ toLE 2 toc ++ toLE 2 0 ++ toLE 2 0 ++ List.replicate 8 0 ++
  (List.range es.length).flatMap (fun i => toLE 2 (i * 16) ++ toLE 2 ((i + 1) * vs)) ++ (es.map (·.1)).flatten ++ List.replicate 40 0 ++ (es.map (·.2)).reverse.flatten ++ footer

def omKey (oid xid : Nat) : Bytes := toLE 8 oid ++ toLE 8 xid
def omValue (block : Nat) : Bytes := toLE 4 0 ++ toLE 4 4096 ++ toLE 8 block

def omLeft : List Record := [(omKey 10 1, omValue 100), (omKey 10 4, omValue 101)]
def omRight : List Record := [(omKey 10 7, omValue 102), (omKey 12 2, omValue 103)]

def omImage : Nat → Option Bytes
  | 5 => some (omBlock 0x40000002 5 [(omKey 10 1, toLE 8 6), (omKey 10 7, toLE 8 7)] (toLE 4 0 ++ toLE 4 4096 ++ toLE 4 16 ++ toLE 4 16 ++ List.replicate 24 0))
  | 6 => some (omBlock 0x40000003 6 omLeft [])
  | 7 => some (omBlock 0x40000003 6 omRight [])
  | _ => none

theorem omImage_root : OmRoot omImage 5 (omBlock 0x40000002 5 [(omKey 10 1, toLE 8 6), (omKey 10 7, toLE 8 7)] (toLE 4 0 ++ toLE 4 4096 ++ toLE 4 16 ++ toLE 4 16 ++ List.replicate 24 0)) :=
  ⟨by decide, rfl, ⟨by decide +kernel, by decide +kernel, by decide +kernel, by decide +kernel, by decide +kernel, by decide +kernel, by decide +kernel, by decide +kernel⟩,
    by decide +kernel, by decide +kernel, by decide +kernel, by decide +kernel, by decide +kernel⟩

theorem omImage_left : OmChild omImage (toLE 8 6) { leaf := true, entries := omLeft } :=
  ⟨by decide, omBlock 0x40000003 6 omLeft [],
    ⟨by decide +kernel, rfl, ⟨by decide +kernel, by decide +kernel, by decide +kernel, by decide +kernel, by decide +kernel, by decide +kernel, by decide +kernel, by decide +kernel⟩,
    by decide +kernel, by decide +kernel, by decide +kernel, by decide +kernel⟩, by decide +kernel⟩

theorem omImage_right : OmChild omImage (toLE 8 7) { leaf := true, entries := omRight } :=
  ⟨by decide, omBlock 0x40000003 6 omRight [],
    ⟨by decide +kernel, rfl, ⟨by decide +kernel, by decide +kernel, by decide +kernel, by decide +kernel, by decide +kernel, by decide +kernel, by decide +kernel, by decide +kernel⟩,
    by decide +kernel, by decide +kernel, by decide +kernel, by decide +kernel⟩, by decide +kernel⟩

theorem omImage_tree : OmTree omImage 5 (omLeft ++ omRight) := by
  refine ⟨⟨_, omImage_root, .inr ⟨by decide +kernel,
    [⟨omKey 10 1, toLE 8 6, ⟨true, omLeft⟩, omLeft⟩, ⟨omKey 10 7, toLE 8 7, ⟨true, omRight⟩, omRight⟩], by simp, by decide +kernel, by simp, ?_⟩⟩, ?_⟩
  · intro c hc
    rcases List.mem_cons.1 hc with rfl | hc
    · exact ⟨omImage_left, .inl ⟨rfl, rfl⟩, rfl⟩
    · rcases List.mem_cons.1 hc with rfl | hc
      · exact ⟨omImage_right, .inl ⟨rfl, rfl⟩, rfl⟩
      · cases hc
  · unfold Ascending omLt
    decide +kernel

example := c18_lookup omImage 5 _ omImage_tree 10 6 (by decide)

/-- transaction 6 sees the version of transaction 4, transaction 7 that of transaction 7; object 12 does not exist before transaction 2, object 11 not at all -/
example : (omDescriptor (fetchOf omImage) 5 10 6).bind (fun r => ok (r.map (·.physical))) = ok (some 101) ∧
    (omDescriptor (fetchOf omImage) 5 10 7).bind (fun r => ok (r.map (·.physical))) = ok (some 102) ∧
    (omDescriptor (fetchOf omImage) 5 10 0) = ok none ∧ (omDescriptor (fetchOf omImage) 5 12 1) = ok none ∧ omDescriptor (fetchOf omImage) 5 11 9 = ok none ∧
    (omDescriptor (fetchOf omImage) 5 12 2).bind (fun r => ok (r.map (·.physical))) = ok (some 103) := by decide +kernel

/-- Object identifier 0, which is not valid, is the exception: looking it up in this tree is an error instead of not found. -/
theorem c18_object_zero : omDescriptor (fetchOf omImage) 5 0 9 = err ∧ ¬ HasVersion (omLeft ++ omRight) 0 9 := by
  refine ⟨by decide +kernel, ?_⟩
  unfold HasVersion
  decide +kernel

end Verif.Props
