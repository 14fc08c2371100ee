import Verif.Props.C20
/-!
# C23 Extended attribute listing is complete, exact and ordered
-/
namespace Verif.Props
open Verif Res Spec BTree FsTree

/-- Listing the extended attributes of a file in a file system tree of any shape reads every extended attribute record of that file, and no other record, exactly
once in the order of the tree. If one of them cannot be read the listing fails. -/
theorem c23_listing (s : Storage) (xid : Nat) (records : List Record) (h : FsHolds s xid records) (identifier : Nat) (hi : identifier < 2 ^ 60)
    (hf : ∃ r ∈ records, IsOf identifier 3 r) :
    extendedAttributes (volumeOf s) xid identifier = readAll Records.readAttribute (recordsOf records identifier 4) :=
  enumerate_spec (k := attributeKind Records.readAttribute) (by decide) hi h ⟨fun _ _ _ => ⟨true, rfl⟩, List.pairwise_of_forall fun _ _ _ _ => rfl⟩ (first_not_over h (by decide) hf)

/-- If the records are well-formed, the listing is their image, in order. -/
theorem c23_listing_records (s : Storage) (xid : Nat) (records : List Record) (h : FsHolds s xid records) (identifier : Nat) (hi : identifier < 2 ^ 60)
    (hf : ∃ r ∈ records, IsOf identifier 3 r) (content : Record → Records.Attribute)
    (hd : ∀ r ∈ records, IsOf identifier 4 r → Records.readAttribute r = ok (content r)) :
    extendedAttributes (volumeOf s) xid identifier = ok ((recordsOf records identifier 4).map content) := by
  rw [c23_listing s xid records h identifier hi hf]
  refine readAll_ok fun e he => ?_
  unfold recordsOf at he
  rw [List.mem_filter, decide_eq_true_eq] at he
  exact hd e he.1 he.2

/-- Nothing is lost silently: whatever is returned, has one element per extended attribute record of the file. -/
theorem c23_no_loss (s : Storage) (xid : Nat) (records : List Record) (h : FsHolds s xid records) (identifier : Nat) (hi : identifier < 2 ^ 60)
    (hf : ∃ r ∈ records, IsOf identifier 3 r) (l : List Records.Attribute) (hl : extendedAttributes (volumeOf s) xid identifier = ok l) :
    l.length = (recordsOf records identifier 4).length ∧
    ∀ k (h1 : k < l.length) (h2 : k < (recordsOf records identifier 4).length), Records.readAttribute (recordsOf records identifier 4)[k] = ok l[k] := by
  rw [c23_listing s xid records h identifier hi hf] at hl
  exact readAll_inv hl

/-- the extended attributes of file 3 are in two leaves -/
example : (∃ r ∈ TreeExample.records, IsOf 3 3 r) ∧ FsHolds TreeExample.storage 9 TreeExample.records ∧
    recordsOf TreeExample.records 3 4 = [(xattrKey 3 [120, 0], xattrValue 2 [1, 2, 3]), (xattrKey 3 [121, 0], xattrValue 2 [4])] := ⟨by decide +kernel, TreeExample.holds, by decide +kernel⟩

example : extendedAttributes (volumeOf TreeExample.storage) 9 3 =
    ok [{ name := [120, 0], flags := 2, data := some [1, 2, 3], stream := 0, size := 3 }, { name := [121, 0], flags := 2, data := some [4], stream := 0, size := 1 }] := by decide +kernel

end Verif.Props
