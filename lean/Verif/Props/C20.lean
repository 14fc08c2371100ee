import Verif.Lemmas.TreeExample
import Verif.Lemmas.Records
import Verif.Model.FileSystem
/-!
# C20 Directory listing is complete, exact and ordered
-/
namespace Verif.Props
open Verif Res Spec BTree FsTree

/-- If some record is not behind an identifier and type, the first one is not. -/
theorem first_not_over_of {s : Storage} {xid : Nat} {records : List Record} (h : FsHolds s xid records) {identifier type : Nat}
    (hf : ∃ r ∈ records, ¬ fsOver identifier type r.1) : ∀ r ∈ records.head?, ¬ fsOver identifier type r.1 := by
  intro r hr
  obtain ⟨q, hq, ho⟩ := hf
  cases hrec : records with
  | nil => rw [hrec] at hr; cases hr
  | cons x xs =>
    rw [hrec] at hr hq
    cases hr
    have hs := h.sorted
    rw [hrec] at hs
    rcases List.mem_cons.1 hq with rfl | hq
    · exact ho
    · have := (List.pairwise_cons.1 hs).1 q hq
      unfold fsLe at this
      unfold fsOver at ho ⊢
      omega

/-- An inode is in front of the other records of its identifier. -/
theorem inode_not_over {records : List Record} {identifier type : Nat} (ht : 3 ≤ type) (hf : ∃ r ∈ records, IsOf identifier 3 r) : ∃ r ∈ records, ¬ fsOver identifier type r.1 := by
  obtain ⟨r, hr, h1, h2⟩ := hf
  exact ⟨r, hr, by unfold fsOver; omega⟩

/-- A file whose inode is stored is not in front of the first record of the tree. -/
theorem first_not_over {s : Storage} {xid : Nat} {records : List Record} (h : FsHolds s xid records) {identifier type : Nat} (ht : 3 ≤ type)
    (hf : ∃ r ∈ records, IsOf identifier 3 r) : ∀ r ∈ records.head?, ¬ fsOver identifier type r.1 := first_not_over_of h (inode_not_over ht hf)

/-- Listing a directory in a file system tree of any shape reads every directory record of that directory, and no other record, exactly once in the order of the tree.
If one of them cannot be read the listing fails. -/
theorem c20_listing (s : Storage) (xid : Nat) (records : List Record) (h : FsHolds s xid records) (identifier : Nat) (hi : identifier < 2 ^ 60)
    (hf : ∃ r ∈ records, IsOf identifier 3 r) :
    directoryRecords (volumeOf s) xid identifier = readAll Records.readDirectoryRecord (recordsOf records identifier 9) :=
  enumerate_spec (k := directoryKind Records.readDirectoryRecord) (by decide) hi h ⟨fun _ _ _ => ⟨true, rfl⟩, List.pairwise_of_forall fun _ _ _ _ => rfl⟩ (first_not_over h (by decide) hf)

/-- If the records are well-formed, the listing is their image, in order. -/
theorem c20_listing_records (s : Storage) (xid : Nat) (records : List Record) (h : FsHolds s xid records) (identifier : Nat) (hi : identifier < 2 ^ 60)
    (hf : ∃ r ∈ records, IsOf identifier 3 r) (content : Record → Records.DirectoryRecord)
    (hd : ∀ r ∈ records, IsOf identifier 9 r → Records.readDirectoryRecord r = ok (content r)) :
    directoryRecords (volumeOf s) xid identifier = ok ((recordsOf records identifier 9).map content) := by
  rw [c20_listing s xid records h identifier hi hf]
  refine readAll_ok fun e he => ?_
  unfold recordsOf at he
  rw [List.mem_filter, decide_eq_true_eq] at he
  exact hd e he.1 he.2

/-- Nothing is lost silently: whatever is returned, has one element per directory record of the directory. -/
theorem c20_no_loss (s : Storage) (xid : Nat) (records : List Record) (h : FsHolds s xid records) (identifier : Nat) (hi : identifier < 2 ^ 60)
    (hf : ∃ r ∈ records, IsOf identifier 3 r) (l : List Records.DirectoryRecord) (hl : directoryRecords (volumeOf s) xid identifier = ok l) :
    l.length = (recordsOf records identifier 9).length ∧
    ∀ k (h1 : k < l.length) (h2 : k < (recordsOf records identifier 9).length), Records.readDirectoryRecord (recordsOf records identifier 9)[k] = ok l[k] := by
  rw [c20_listing s xid records h identifier hi hf] at hl
  exact readAll_inv hl

/-- An identifier in front of all records of a tree of more than one level is an error instead of an empty list. Such an identifier has no inode. -/
theorem c20_before_first_error : directoryRecords (volumeOf TreeExample.storage) 9 1 = err := by decide +kernel

/-- the records of directory 2 are in two leaves -/
example : (∃ r ∈ TreeExample.records, IsOf 2 3 r) ∧ FsHolds TreeExample.storage 9 TreeExample.records ∧
    recordsOf TreeExample.records 2 9 = [(drecKey 2 [97, 0], drecValue 3 11 8 none), (drecKey 2 [98, 0], drecValue 9 12 8 none)] := ⟨by decide +kernel, TreeExample.holds, by decide +kernel⟩

example : directoryRecords (volumeOf TreeExample.storage) 9 2 =
    ok [{ name := [97, 0], hash := 0, identifier := 3, added := 11 }, { name := [98, 0], hash := 0, identifier := 9, added := 12 }] := by decide +kernel

end Verif.Props
