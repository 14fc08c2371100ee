import Verif.Lemmas.TreeExample
import Verif.Lemmas.Records
import Verif.Model.FileSystem
/-!
# C19 Inode lookup by identifier finds exactly the stored inode
-/
namespace Verif.Props
open Verif Res Spec BTree FsTree

/-- Looking up an identifier in a file system tree of any shape reads the inode record of that identifier, and reports not available if there is none.
A file system tree has no records of a type less than 3 and one inode record per identifier. -/
theorem c19_lookup_partial (s : Storage) (xid : Nat) (records : List Record) (h : FsHolds s xid records) (identifier : Nat) (hi : identifier < 2 ^ 60)
    (hu : records.Pairwise (fun a b => ¬ (IsOf identifier 3 a ∧ IsOf identifier 3 b))) (ht : ∀ r ∈ records, 3 ≤ fsType r.1) :
    (∀ r ∈ records, IsOf identifier 3 r → inodeByIdentifier (volumeOf s) xid identifier = (do let i ← Records.readInode r; return some i)) ∧
    ((∀ r ∈ records, ¬ IsOf identifier 3 r) → inodeByIdentifier (volumeOf s) xid identifier = ok none) := by
  have hspec := fsEntry_spec (t := 3) (by omega) hi h ⟨hu, fun r hr _ => ht r hr⟩
  unfold inodeByIdentifier
  rw [hspec, ok_bind]
  constructor
  · intro r hr ho
    have : (recordsOf records identifier 3).head? = some r := by
      unfold recordsOf
      rw [List.head?_filter]
      cases hf : records.find? (fun r => IsOf identifier 3 r) with
      | none =>
        have := List.find?_eq_none.1 hf r hr
        exact absurd (decide_eq_true ho) this
      | some q =>
        have h1 := List.find?_some hf
        have h2 := List.mem_of_find?_eq_some hf
        simp only [decide_eq_true_eq] at h1
        refine congrArg some (Classical.byContradiction fun hne => ?_)
        have := List.Pairwise.forall_of_forall_of_flip (R := fun a b : Record => a = b ∨ ¬ (IsOf identifier 3 a ∧ IsOf identifier 3 b)) (l := records) (fun _ _ => .inl rfl)
          (hu.imp (fun h => .inr h)) (hu.imp (fun h => .inr (fun h' => h h'.symm))) h2 hr
        rcases this with h | h
        · exact hne h
        · exact h ⟨h1, ho⟩
    rw [this]
  · intro hn
    rw [recordsOf_nil hn]
    rfl

/-- The inode that is returned has the identifier that was looked for. -/
theorem c19_identifier (s : Storage) (xid : Nat) (records : List Record) (h : FsHolds s xid records) (identifier : Nat) (hi : identifier < 2 ^ 60)
    (hu : records.Pairwise (fun a b => ¬ (IsOf identifier 3 a ∧ IsOf identifier 3 b))) (ht : ∀ r ∈ records, 3 ≤ fsType r.1)
    (i : Records.Inode) (hf : inodeByIdentifier (volumeOf s) xid identifier = ok (some i)) : i.identifier = identifier := by
  obtain ⟨h1, h2⟩ := c19_lookup_partial s xid records h identifier hi hu ht
  by_cases hex : ∃ r ∈ records, IsOf identifier 3 r
  · obtain ⟨r, hr, ho⟩ := hex
    rw [h1 r hr ho] at hf
    obtain ⟨j, hj, hf⟩ := bind_eq_ok.1 hf
    cases hf
    unfold Records.readInode Records.readInodeKey at hj
    obtain ⟨id, hid, hj⟩ := bind_eq_ok.1 hj
    obtain ⟨_, hq, hid⟩ := bind_eq_ok.1 hid
    have := (require_eq_ok _).1 hq
    obtain ⟨v, hv, hid⟩ := bind_eq_ok.1 hid
    rw [rdLE_field (by omega)] at hv
    cases hv
    cases hid
    rw [Records.readInodeValue_identifier hj]
    exact ho.1
  · rw [h2 (fun r hr ho => hex ⟨r, hr, ho⟩)] at hf
    cases hf

/-- Identifiers of 2^60 and more are not possible in a file system, and no inode has one. But the identifier is combined with the data type by a bitwise or,
so that looking up 0x3000000000000005 finds inode 5. -/
theorem c19_wide_identifier_finds_other : lookupKey 3 0x3000000000000005 = lookupKey 3 5 ∧
    fsEntryLoop (fun _ => err) 0x3000000000000005 3 257 { objectType := 2, objectSubtype := 14, flags := 3, footer := none, entries := [(toLE 8 (3 * 2 ^ 60 + 5), [1])] } =
      ok (some (toLE 8 (3 * 2 ^ 60 + 5), [1])) := by decide +kernel

/-! In the example tree -/

example : (∃ r ∈ TreeExample.records, IsOf 3 3 r) ∧ (∀ r ∈ TreeExample.records, ¬ IsOf 4 3 r) ∧ FsHolds TreeExample.storage 9 TreeExample.records ∧
    TreeExample.records.Pairwise (fun a b => ¬ (IsOf 3 3 a ∧ IsOf 3 3 b)) ∧ ∀ r ∈ TreeExample.records, 3 ≤ fsType r.1 :=
  ⟨by decide +kernel, by decide +kernel, TreeExample.holds, by decide +kernel, by decide +kernel⟩

example : (do let r ← inodeByIdentifier (volumeOf TreeExample.storage) 9 3; return r.map (fun i => (i.identifier, i.parent, i.mode))) = ok (some (3, 2, 0x81a4)) ∧
    inodeByIdentifier (volumeOf TreeExample.storage) 9 4 = ok none := by decide +kernel

end Verif.Props
