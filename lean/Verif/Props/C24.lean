import Verif.Props.C20
/-!
# C24 File extent listing is complete, exact and ordered
-/
namespace Verif.Props
open Verif Res Spec BTree FsTree

/-- the extents of a file have keys of 16 bytes, values of 24 bytes, and strictly ascending logical addresses -/
structure ExtentsOk (records : List Record) (identifier : Nat) : Prop where
  sizes : ∀ r ∈ records, IsOf identifier 8 r → r.1.length = 16 ∧ r.2.length = 24
  ascending : records.Pairwise (fun a b => IsOf identifier 8 a → IsOf identifier 8 b → field a.1 8 8 < field b.1 8 8)

/-- what an extent record says: logical address, block number, size (lower 56 bits) and encryption identifier -/
def extentOf (r : Record) : DataStream.Extent := { logical := field r.1 8 8, physical := field r.2 8 8, size := field r.2 0 8 % 2 ^ 56, encId := field r.2 16 8 }

/-- Listing the extents of a file in a file system tree of any shape returns every extent of that file exactly once, and no other extent, in the order of
the tree. The identifier is that of the data stream, which need not have an inode: clones share one; it is enough that it is not in front of all records. -/
theorem c24_listing (s : Storage) (xid : Nat) (records : List Record) (h : FsHolds s xid records) (identifier : Nat) (hi : identifier < 2 ^ 60)
    (he : ExtentsOk records identifier) (hf : ∃ r ∈ records, ¬ fsOver identifier 8 r.1) :
    fileExtents (volumeOf s) xid identifier = ok ((recordsOf records identifier 8).map extentOf) := by
  have hb : ∀ r ∈ records, IsOf identifier 8 r → (extentKind Records.readExtent).before r.1 = ok (field r.1 8 8 > 0 : Bool) := by
    intro r hr ho
    have := he.sizes r hr ho
    unfold extentKind
    simp only
    rw [require_true (by omega), ok_bind, rdLE_field (by omega)]
    rfl
  have := enumerate_spec (k := extentKind Records.readExtent) (i := identifier) (by decide) hi h
    ⟨fun r hr ho => ⟨_, hb r hr ho⟩, ?_⟩ (first_not_over_of h hf)
  · show enumerate _ _ _ _ = _
    rw [this]
    refine readAll_ok fun e hm => ?_
    unfold recordsOf at hm
    rw [List.mem_filter, decide_eq_true_eq] at hm
    have hsz := he.sizes e hm.1 hm.2
    exact Records.readExtent_ok (by omega) (by omega) (by omega) (by omega)
  · refine List.Pairwise.imp_of_mem ?_ he.ascending
    intro a b _ hb' hlt ho1 ho2
    rw [hb b hb' ho2, decide_eq_true (by have := hlt ho1 ho2; omega)]

/-- The extents that are returned are ordered by logical address. -/
theorem c24_ordered (s : Storage) (xid : Nat) (records : List Record) (h : FsHolds s xid records) (identifier : Nat) (hi : identifier < 2 ^ 60)
    (he : ExtentsOk records identifier) (hf : ∃ r ∈ records, ¬ fsOver identifier 8 r.1) :
    ∃ l, fileExtents (volumeOf s) xid identifier = ok l ∧ l.Pairwise (fun a b => a.logical < b.logical) := by
  refine ⟨_, c24_listing s xid records h identifier hi he hf, ?_⟩
  rw [List.pairwise_map]
  unfold recordsOf
  rw [List.pairwise_filter]
  refine he.ascending.imp fun hlt h1 h2 => ?_
  exact hlt (by simpa using h1) (by simpa using h2)

/-- Without the logical addresses in order an extent can be lost: here the second child of the root begins with an extent at logical address 0 although the child before
ends with one at logical address 4096, and that one is not returned. -/
theorem c24_unordered_extent_lost :
    let leaf1 : Node := { objectType := 3, objectSubtype := 14, flags := 2, footer := none, entries := [(TreeExample.key 3 3 [], [1]), (TreeExample.key 8 3 (toLE 8 4096), [2])] }
    let leaf2 : Node := { objectType := 3, objectSubtype := 14, flags := 2, footer := none, entries := [(TreeExample.key 8 3 (toLE 8 0), [3])] }
    let root : Node := { objectType := 2, objectSubtype := 14, flags := 1, footer := none, entries := [(TreeExample.key 3 3 [], [1]), (TreeExample.key 8 3 (toLE 8 0), [2])] }
    enumNode (extentKind (fun e => ok e)) (fun v => if v = [1] then ok leaf1 else ok leaf2) 3 257 root = ok [(TreeExample.key 8 3 (toLE 8 0), [3])] := by decide +kernel

/-- the extents of file 3 of the example tree are in two leaves -/
example : FsHolds TreeExample.storage 9 TreeExample.records ∧ ExtentsOk TreeExample.records 3 ∧ (∃ r ∈ TreeExample.records, ¬ fsOver 3 8 r.1) ∧
    (recordsOf TreeExample.records 3 8).map extentOf = [{ logical := 0, physical := 50, size := 4096, encId := 0 }, { logical := 4096, physical := 70, size := 8192, encId := 1 }] :=
  ⟨TreeExample.holds, ⟨by decide +kernel, by decide +kernel⟩, by decide +kernel, by decide +kernel⟩

example : fileExtents (volumeOf TreeExample.storage) 9 3 =
    ok [{ logical := 0, physical := 50, size := 4096, encId := 0 }, { logical := 4096, physical := 70, size := 8192, encId := 1 }] := by decide +kernel

end Verif.Props
