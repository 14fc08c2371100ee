import Verif.Spec.Records
import Verif.Lemmas.NodeImage
import Verif.Lemmas.NodeCache
import Verif.Lemmas.FsTree
/-!
# A directory of 10000 files in nodes of at most 100 entries

The directory with identifier 2 has the files "0000" to "9999", one in each leaf of the file system tree; the root has 100 children, each with 100 leaves. The object map has
101 leaves. Written to a container, the nodes take 48 MB.
-/
namespace Verif
open Res Spec BTree FsTree NodeCache NodeImage
namespace WideExample

/-- children of a branch node -/
def firstKey (n : Nat) : Bytes := if n = 0 then toLE 8 (3 * 2 ^ 60 + 2)
  else drecKey 2 [UInt8.ofNat (48 + n / 1000), UInt8.ofNat (48 + n / 100 % 10), UInt8.ofNat (48 + n / 10 % 10), UInt8.ofNat (48 + n % 10), 0]

/-- the record of file `n` -/
def record (n : Nat) : Record :=
  (drecKey 2 [UInt8.ofNat (48 + n / 1000), UInt8.ofNat (48 + n / 100 % 10), UInt8.ofNat (48 + n / 10 % 10), UInt8.ofNat (48 + n % 10), 0], drecValue (100 + n) 0 8 none)

/-- the inode of the directory -/
def inode : Record := (toLE 8 (3 * 2 ^ 60 + 2), toLE 8 1 ++ (toLE 8 2 ++ List.replicate 76 0))

def leafEntries (n : Nat) : List Record := if n = 0 then [inode, record 0] else [record n]
def branchEntries (j : Nat) : List Record := (List.range 100).map fun k => (firstKey (100 * j + k), toLE 8 (2100 + (100 * j + k)))
def rootEntries : List Record := (List.range 100).map fun j => (firstKey (100 * j), toLE 8 (2000 + j))

/-- the mapping of an object identifier to the block with the same number -/
def mapping (oid : Nat) : Record := (toLE 8 oid ++ toLE 8 1, List.replicate 8 0 ++ toLE 8 oid)
def mapLeafEntries (m : Nat) : List Record := (List.range 100).map fun k => mapping (2000 + (100 * m + k))
def mapRootEntries : List Record := (List.range 101).map fun m => ((mapping (2000 + 100 * m)).1, toLE 8 (2 + m))

def subForm (leaf : Bool) : NodeForm := { type := 3, subtype := 0xe, root := false, leaf := leaf, fixed := false, keySize := 0, valueSize := 0 }
def rootForm : NodeForm := { type := 2, subtype := 0xe, root := true, leaf := false, fixed := false, keySize := 0, valueSize := 0 }
def mapLeafForm : NodeForm := { type := 0x40000003, subtype := 0xb, root := false, leaf := true, fixed := true, keySize := 0, valueSize := 0 }
def mapRootForm : NodeForm := { type := 0x40000002, subtype := 0xb, root := true, leaf := false, fixed := true, keySize := 16, valueSize := 16 }

def image (b : Nat) : Option Bytes :=
  if b = 1 then some (mapRootForm.bytes mapRootEntries)
  else if b < 2 then none
  else if b < 103 then some (mapLeafForm.bytes (mapLeafEntries (b - 2)))
  else if b = 1000 then some (rootForm.bytes rootEntries)
  else if b < 2000 then none
  else if b < 2100 then some ((subForm false).bytes (branchEntries (b - 2000)))
  else if b < 12100 then some ((subForm true).bytes (leafEntries (b - 2100)))
  else none

def storage : Storage := { omImage := image, omRoot := 1, fsImage := image, fsRoot := 1000 }

/-! everything fits -/

theorem length_firstKey (n : Nat) : (firstKey n).length ≤ 15 ∧ 8 ≤ (firstKey n).length := by
  unfold firstKey
  split <;> simp [drecKey]

theorem length_flatten_le {l : List Bytes} {m : Nat} (h : ∀ x ∈ l, x.length ≤ m) : l.flatten.length ≤ l.length * m := by
  induction l with
  | nil => simp
  | cons x l ih =>
    have h1 := h x (by simp)
    have h2 := ih fun y hy => h y (by simp [hy])
    rw [List.flatten_cons, List.length_append, List.length_cons, Nat.succ_mul]
    omega

theorem need_le {f : NodeForm} {es : List Record} {n kl vl : Nat} (hn : es.length = n) (hk : ∀ e ∈ es, e.1.length ≤ kl) (hv : ∀ e ∈ es, e.2.length ≤ vl) :
    f.need es ≤ 56 + n * 8 + n * kl + n * vl + 40 := by
  have h1 : (keysOf es).length ≤ n * kl := by
    have := length_flatten_le (l := es.map (·.1)) (m := kl) (by simpa using hk)
    rwa [List.length_map, hn] at this
  have h2 : (valuesOf es).length ≤ n * vl := by
    have := length_flatten_le (l := es.map (·.2)) (m := vl) (fun x hx => by obtain ⟨e, he, rfl⟩ := List.mem_map.1 hx; exact hv e he)
    rwa [List.length_map, hn] at this
  have h3 := length_footer f
  have h4 := length_tocOf f.fixed 0 es
  rw [hn] at h4
  unfold NodeForm.need
  have h5 : f.footer.length ≤ 40 := by rw [h3]; split <;> omega
  have h6 : (tocOf f.fixed 0 es).length ≤ n * 8 := by rw [h4]; split <;> omega
  omega

theorem need_fixed {f : NodeForm} (hf : f.fixed = true) {es : List Record} {n kl vl : Nat} (hn : es.length = n) (hk : ∀ e ∈ es, e.1.length ≤ kl) (hv : ∀ e ∈ es, e.2.length ≤ vl) :
    f.need es ≤ 56 + n * 4 + n * kl + n * vl + 40 := by
  have h1 : (keysOf es).length ≤ n * kl := by
    have := length_flatten_le (l := es.map (·.1)) (m := kl) (by simpa using hk)
    rwa [List.length_map, hn] at this
  have h2 : (valuesOf es).length ≤ n * vl := by
    have := length_flatten_le (l := es.map (·.2)) (m := vl) (fun x hx => by obtain ⟨e, he, rfl⟩ := List.mem_map.1 hx; exact hv e he)
    rwa [List.length_map, hn] at this
  have h3 := length_footer f
  have h4 := length_tocOf f.fixed 0 es
  rw [hn, hf, if_pos rfl] at h4
  unfold NodeForm.need
  have h5 : f.footer.length ≤ 40 := by rw [h3]; split <;> omega
  rw [hf, h4]
  omega

theorem leaf_fits (n : Nat) : (subForm true).Fits (leafEntries n) := by
  have hl : ∀ e ∈ leafEntries n, e.1.length ≤ 15 ∧ e.2.length ≤ 92 := by
    intro e he
    unfold leafEntries at he
    split at he
    · simp only [List.mem_cons, List.not_mem_nil, or_false] at he
      rcases he with rfl | rfl
      · simp [inode]
      · simp [record, drecKey, drecValue, optionalFields]
    · simp only [List.mem_cons, List.not_mem_nil, or_false] at he
      subst he
      simp [record, drecKey, drecValue, optionalFields]
  have hlen : (leafEntries n).length ≤ 2 := by
    unfold leafEntries
    split <;> simp
  refine ⟨by decide, by decide, by decide, by decide, ?_, ?_, by intro h; cases h⟩
  · have := need_le (f := subForm true) (n := (leafEntries n).length) rfl (fun e he => (hl e he).1) (fun e he => (hl e he).2)
    omega
  · rw [length_tocOf]
    split <;> omega

theorem branch_fits (j : Nat) : (subForm false).Fits (branchEntries j) := by
  have hn : (branchEntries j).length = 100 := by simp [branchEntries]
  refine ⟨by decide, by decide, by decide, by decide, ?_, ?_, by intro h; cases h⟩
  · have := need_le (f := subForm false) hn (kl := 15) (vl := 8) (fun e he => by
      obtain ⟨k, _, rfl⟩ := List.mem_map.1 he
      exact (length_firstKey _).1) (fun e he => by
      obtain ⟨k, _, rfl⟩ := List.mem_map.1 he
      simp)
    omega
  · rw [length_tocOf, hn]
    split <;> omega

theorem root_fits : rootForm.Fits rootEntries := by
  have hn : rootEntries.length = 100 := by simp [rootEntries]
  refine ⟨by decide, by decide, by decide, by decide, ?_, ?_, by intro h; cases h⟩
  · have := need_le (f := rootForm) hn (kl := 15) (vl := 8) (fun e he => by
      obtain ⟨k, _, rfl⟩ := List.mem_map.1 he
      exact (length_firstKey _).1) (fun e he => by
      obtain ⟨k, _, rfl⟩ := List.mem_map.1 he
      simp)
    omega
  · rw [length_tocOf, hn]
    split <;> omega

theorem mapLeaf_fits (m : Nat) : mapLeafForm.Fits (mapLeafEntries m) := by
  have hn : (mapLeafEntries m).length = 100 := by simp [mapLeafEntries]
  have hl : ∀ e ∈ mapLeafEntries m, e.1.length = 16 ∧ e.2.length = 16 := by
    intro e he
    obtain ⟨k, _, rfl⟩ := List.mem_map.1 he
    simp [mapping]
  refine ⟨by decide, by decide, by decide, by decide, ?_, ?_, fun _ => ⟨rfl, hl⟩⟩
  · have := need_fixed (f := mapLeafForm) rfl hn (kl := 16) (vl := 16) (fun e he => by have := (hl e he).1; omega) (fun e he => by have := (hl e he).2; omega)
    omega
  · rw [length_tocOf, hn]
    split <;> omega

theorem mapRoot_fits : mapRootForm.Fits mapRootEntries := by
  have hn : mapRootEntries.length = 101 := by simp [mapRootEntries]
  have hl : ∀ e ∈ mapRootEntries, e.1.length = 16 ∧ e.2.length = 8 := by
    intro e he
    obtain ⟨k, _, rfl⟩ := List.mem_map.1 he
    simp [mapping]
  refine ⟨by decide, by decide, by decide, by decide, ?_, ?_, fun _ => ⟨rfl, hl⟩⟩
  · have := need_fixed (f := mapRootForm) rfl hn (kl := 16) (vl := 8) (fun e he => by have := (hl e he).1; omega) (fun e he => by have := (hl e he).2; omega)
    omega
  · rw [length_tocOf, hn]
    split <;> omega

/-! object map -/

theorem image_mapLeaf {m : Nat} (h : m < 101) : image (2 + m) = some (mapLeafForm.bytes (mapLeafEntries m)) := by
  unfold image
  rw [if_neg (by omega), if_neg (by omega), if_pos (by omega), show 2 + m - 2 = m by omega]

theorem image_branch {j : Nat} (h : j < 100) : image (2000 + j) = some ((subForm false).bytes (branchEntries j)) := by
  unfold image
  rw [if_neg (by omega), if_neg (by omega), if_neg (by omega), if_neg (by omega), if_neg (by omega), if_pos (by omega), show 2000 + j - 2000 = j by omega]

theorem image_leaf {n : Nat} (h : n < 10000) : image (2100 + n) = some ((subForm true).bytes (leafEntries n)) := by
  unfold image
  rw [if_neg (by omega), if_neg (by omega), if_neg (by omega), if_neg (by omega), if_neg (by omega), if_neg (by omega), if_pos (by omega), show 2100 + n - 2100 = n by omega]

theorem field_value {n : Nat} (h : n < 2 ^ 64) : field (toLE 8 n) 0 8 = n :=
  field_mid (a := []) ⟨[], by simp⟩ rfl h

theorem omOid_mapping {oid : Nat} (h : oid < 2 ^ 64) : omOid (mapping oid).1 = oid ∧ omXid (mapping oid).1 = 1 :=
  ⟨field_mid (a := []) ⟨_, rfl⟩ rfl h, field_mid (a := toLE 8 oid) ⟨[], by simp [mapping]⟩ (by simp) (by decide)⟩

theorem mapping_block {oid : Nat} (h : oid < 2 ^ 64) : field (mapping oid).2 8 8 = oid :=
  field_mid (a := List.replicate 8 0) ⟨[], by simp [mapping]⟩ (by simp only [List.length_replicate]) h

def mappings : List Record := ((List.range 101).map mapLeafEntries).flatten

theorem mem_mappings {r : Record} : r ∈ mappings ↔ ∃ t, t < 10100 ∧ r = mapping (2000 + t) := by
  unfold mappings
  rw [List.mem_flatten]
  constructor
  · rintro ⟨l, hl, hr⟩
    obtain ⟨m, hm, rfl⟩ := List.mem_map.1 hl
    obtain ⟨k, hk, rfl⟩ := List.mem_map.1 hr
    rw [List.mem_range] at hm hk
    exact ⟨100 * m + k, by omega, rfl⟩
  · rintro ⟨t, ht, rfl⟩
    refine ⟨mapLeafEntries (t / 100), List.mem_map_of_mem (List.mem_range.2 (by omega)), List.mem_map.2 ⟨t % 100, List.mem_range.2 (by omega), ?_⟩⟩
    show mapping (2000 + (100 * (t / 100) + t % 100)) = _
    rw [Nat.div_add_mod]

/-- the object map in any image with its blocks -/
theorem map_tree_of {image : Nat → Option Bytes} (h1 : image 1 = some (mapRootForm.bytes mapRootEntries)) (hm : ∀ m, m < 101 → image (2 + m) = some (mapLeafForm.bytes (mapLeafEntries m))) :
    OmTree image 1 mappings := by
  refine ⟨⟨mapRootForm.bytes mapRootEntries, ?_, .inr ⟨?_, (List.range 101).map fun m => ⟨(mapping (2000 + 100 * m)).1, toLE 8 (2 + m), nodeOf (mapLeafForm.bytes (mapLeafEntries m)), mapLeafEntries m⟩,
    by simp, ?_, ?_, ?_⟩⟩, ?_⟩
  · exact { range := by decide, stored := h1, valid := valid_bytes mapRoot_fits, type := type_bytes mapRoot_fits, subtype := subtype_bytes mapRoot_fits, root := root_bytes, fixed := fixed_bytes,
            footer := footer_bytes mapRoot_fits rfl }
  · rw [nodeOf_bytes mapRoot_fits]
    rfl
  · rw [nodeOf_bytes mapRoot_fits, List.map_map]
    rfl
  · unfold mappings
    rw [List.map_map]
    rfl
  · intro c hc
    obtain ⟨m, hmm, rfl⟩ := List.mem_map.1 hc
    have hmm := List.mem_range.1 hmm
    refine ⟨⟨by simp, mapLeafForm.bytes (mapLeafEntries m), ?_, rfl⟩, .inl ⟨?_, ?_⟩, ?_⟩
    · have hf : field (toLE 8 (2 + m)) 0 8 = 2 + m := field_value (by omega)
      dsimp only
      rw [hf]
      exact { range := by omega, stored := hm m hmm, valid := valid_bytes (mapLeaf_fits m), type := type_bytes (mapLeaf_fits m), subtype := subtype_bytes (mapLeaf_fits m),
              root := root_bytes, fixed := fixed_bytes }
    · dsimp only
      rw [nodeOf_bytes (mapLeaf_fits m)]
      rfl
    · dsimp only
      rw [nodeOf_bytes (mapLeaf_fits m)]
    · rfl
  · unfold Ascending mappings
    rw [List.pairwise_flatten]
    refine ⟨?_, ?_⟩
    · intro l hl
      obtain ⟨m, hm, rfl⟩ := List.mem_map.1 hl
      have hm := List.mem_range.1 hm
      unfold mapLeafEntries
      rw [List.pairwise_map]
      refine List.Pairwise.imp_of_mem ?_ List.pairwise_lt_range
      intro a b ha hb hlt
      have ha := List.mem_range.1 ha
      have hb := List.mem_range.1 hb
      refine .inl ?_
      rw [(omOid_mapping (by omega)).1, (omOid_mapping (by omega)).1]
      omega
    · rw [List.pairwise_map]
      refine List.Pairwise.imp_of_mem ?_ List.pairwise_lt_range
      intro a b ha hb hlt x hx y hy
      have ha := List.mem_range.1 ha
      have hb := List.mem_range.1 hb
      obtain ⟨k, hk, rfl⟩ := List.mem_map.1 hx
      obtain ⟨k', hk', rfl⟩ := List.mem_map.1 hy
      have hk := List.mem_range.1 hk
      have hk' := List.mem_range.1 hk'
      refine .inl ?_
      rw [(omOid_mapping (by omega)).1, (omOid_mapping (by omega)).1]
      omega

theorem map_tree : OmTree image 1 mappings := map_tree_of rfl fun _ h => image_mapLeaf h

theorem newest {t : Nat} (ht : t < 10100) : Newest mappings (2000 + t) 1 (mapping (2000 + t)) := by
  refine ⟨mem_mappings.2 ⟨t, ht, rfl⟩, (omOid_mapping (by omega)).1, Nat.le_of_eq (omOid_mapping (by omega)).2, fun r hr _ _ => ?_⟩
  obtain ⟨u, hu, rfl⟩ := mem_mappings.1 hr
  rw [(omOid_mapping (by omega)).2, (omOid_mapping (by omega)).2]
  exact Nat.le_refl _

/-! file system tree -/

/-- keys of the directory: identifier 2 and type 3 for the first, type 9 for the others -/
theorem field_start {n : Nat} (h : n < 2 ^ 64) (rest : Bytes) : field (toLE 8 n ++ rest) 0 8 = n :=
  field_mid (a := []) ⟨rest, rfl⟩ rfl h

theorem inode_key_lt : 3 * 2 ^ 60 + 2 < 2 ^ 64 := by decide
theorem record_key_lt : 9 * 2 ^ 60 + 2 < 2 ^ 64 := by decide

theorem field_firstKey (n : Nat) : field (firstKey n) 0 8 = if n = 0 then 3 * 2 ^ 60 + 2 else 9 * 2 ^ 60 + 2 := by
  unfold firstKey
  by_cases h : n = 0
  · rw [if_pos h, if_pos h]
    exact field_value inode_key_lt
  · rw [if_neg h, if_neg h]
    unfold drecKey
    exact field_start record_key_lt _

theorem fsId_firstKey (n : Nat) : fsId (firstKey n) = 2 := by
  unfold fsId
  rw [field_firstKey]
  split <;> rfl

theorem fsType_firstKey (n : Nat) : fsType (firstKey n) = if n = 0 then 3 else 9 := by
  unfold fsType
  rw [field_firstKey]
  split <;> rfl

theorem record_key (n : Nat) : fsId (record n).1 = 2 ∧ fsType (record n).1 = 9 ∧ 8 ≤ (record n).1.length := by
  have : field (record n).1 0 8 = 9 * 2 ^ 60 + 2 := by
    unfold record drecKey
    exact field_start record_key_lt _
  unfold fsId fsType
  rw [this]
  refine ⟨rfl, rfl, ?_⟩
  simp [record, drecKey]

theorem fsChild_branch {j : Nat} (h : j < 100) : FsChild storage mappings 1 (toLE 8 (2000 + j)) (nodeOf ((subForm false).bytes (branchEntries j))) := by
  have hf : field (toLE 8 (2000 + j)) 0 8 = 2000 + j := field_value (by omega)
  refine ⟨by simp, by rw [hf]; omega, mapping (2000 + j), by rw [hf]; exact newest (by omega), _, ?_, rfl⟩
  rw [mapping_block (by omega)]
  exact { range := by omega, stored := image_branch h, valid := valid_bytes (branch_fits j), type := .inl (type_bytes (branch_fits j)), subtype := subtype_bytes (branch_fits j),
          root := root_bytes, fixed := fixed_bytes }

theorem fsChild_leaf {n : Nat} (h : n < 10000) : FsChild storage mappings 1 (toLE 8 (2100 + n)) (nodeOf ((subForm true).bytes (leafEntries n))) := by
  have hf : field (toLE 8 (2100 + n)) 0 8 = 2100 + n := field_value (by omega)
  refine ⟨by simp, by rw [hf]; omega, mapping (2100 + n), by rw [hf, show 2100 + n = 2000 + (100 + n) by omega]; exact newest (by omega), _, ?_, rfl⟩
  rw [mapping_block (by omega)]
  exact { range := by omega, stored := image_leaf h, valid := valid_bytes (leaf_fits n), type := .inl (type_bytes (leaf_fits n)), subtype := subtype_bytes (leaf_fits n),
          root := root_bytes, fixed := fixed_bytes }

theorem fsRoot : FsRoot image 1000 (rootForm.bytes rootEntries) :=
  { range := by decide, stored := rfl, valid := valid_bytes root_fits, type := .inl (type_bytes root_fits), subtype := subtype_bytes root_fits, root := root_bytes, fixed := fixed_bytes,
    footer := footer_bytes root_fits rfl }

def branchRecords (j : Nat) : List Record := ((List.range 100).map fun k => leafEntries (100 * j + k)).flatten
def records : List Record := ((List.range 100).map branchRecords).flatten

theorem head_leaf (n : Nat) : (leafEntries n).head?.map (·.1) = some (firstKey n) := by
  unfold leafEntries firstKey
  split <;> rfl

theorem head_branch (j : Nat) : (branchRecords j).head?.map (·.1) = some (firstKey (100 * j)) := by
  unfold branchRecords
  rw [show List.range 100 = 0 :: (List.range 99).map Nat.succ from rfl, List.map_cons, List.flatten_cons, List.head?_append]
  have h := head_leaf (100 * j + 0)
  cases hl : (leafEntries (100 * j + 0)).head? with
  | none => rw [hl] at h; cases h
  | some r => rw [hl] at h; exact h

theorem leaf_sorted (n : Nat) : (leafEntries n).Pairwise (fun a b => fsLe a.1 b.1) ∧ (∀ r ∈ leafEntries n, fsId r.1 = 2 ∧ 8 ≤ r.1.length ∧ (fsType r.1 = 9 ∨ n = 0)) ∧
    ∀ r ∈ leafEntries n, fsType r.1 ≤ 9 := by
  have hi : fsId inode.1 = 2 ∧ fsType inode.1 = 3 ∧ 8 ≤ inode.1.length := by decide +kernel
  unfold leafEntries
  split
  · next h =>
    refine ⟨?_, ?_, ?_⟩
    · simp only [List.pairwise_cons, List.mem_cons, List.not_mem_nil, or_false, forall_eq, false_implies, implies_true, List.Pairwise.nil, and_true]
      refine .inr ⟨by rw [hi.1, (record_key 0).1], by rw [hi.2.1, (record_key 0).2.1]; decide⟩
    · intro r hr
      simp only [List.mem_cons, List.not_mem_nil, or_false] at hr
      rcases hr with rfl | rfl
      · exact ⟨hi.1, hi.2.2, .inr h⟩
      · exact ⟨(record_key 0).1, (record_key 0).2.2, .inr h⟩
    · intro r hr
      simp only [List.mem_cons, List.not_mem_nil, or_false] at hr
      rcases hr with rfl | rfl
      · rw [hi.2.1]; decide
      · rw [(record_key 0).2.1]; decide
  · refine ⟨by simp, ?_, ?_⟩
    · intro r hr
      simp only [List.mem_cons, List.not_mem_nil, or_false] at hr
      subst hr
      exact ⟨(record_key n).1, (record_key n).2.2, .inl (record_key n).2.1⟩
    · intro r hr
      simp only [List.mem_cons, List.not_mem_nil, or_false] at hr
      subst hr
      rw [(record_key n).2.1]
      exact Nat.le_refl _

theorem leaf_le {m n : Nat} (h : m < n) : ∀ x ∈ leafEntries m, ∀ y ∈ leafEntries n, fsLe x.1 y.1 := by
  intro x hx y hy
  obtain ⟨hy1, _, hy3⟩ := (leaf_sorted n).2.1 y hy
  have hx1 := (leaf_sorted m).2.2 x hx
  refine .inr ⟨by rw [((leaf_sorted m).2.1 x hx).1, hy1], ?_⟩
  rcases hy3 with hy3 | hy3
  · rw [hy3]; exact hx1
  · omega

theorem holds : FsHolds storage 1 records := by
  refine ⟨⟨mappings, map_tree, _, fsRoot, .inr ⟨?_, (List.range 100).map fun j => ⟨firstKey (100 * j), toLE 8 (2000 + j), nodeOf ((subForm false).bytes (branchEntries j)), branchRecords j⟩,
    by simp, ?_, ?_, ?_⟩⟩, ?_, ?_⟩
  · rw [nodeOf_bytes root_fits]
    rfl
  · rw [nodeOf_bytes root_fits, List.map_map]
    rfl
  · unfold records
    rw [List.map_map]
    rfl
  · intro c hc
    obtain ⟨j, hj, rfl⟩ := List.mem_map.1 hc
    have hj := List.mem_range.1 hj
    refine ⟨fsChild_branch hj, .inr ⟨?_, (List.range 100).map fun k => ⟨firstKey (100 * j + k), toLE 8 (2100 + (100 * j + k)), nodeOf ((subForm true).bytes (leafEntries (100 * j + k))), leafEntries (100 * j + k)⟩,
      by simp, ?_, ?_, ?_⟩, head_branch j⟩
    · dsimp only
      rw [nodeOf_bytes (branch_fits j)]
      rfl
    · dsimp only
      rw [nodeOf_bytes (branch_fits j), List.map_map]
      rfl
    · dsimp only
      unfold branchRecords
      rw [List.map_map]
      rfl
    · intro c hc
      obtain ⟨k, hk, rfl⟩ := List.mem_map.1 hc
      have hk := List.mem_range.1 hk
      refine ⟨fsChild_leaf (by omega), .inl ⟨?_, ?_⟩, head_leaf _⟩
      · dsimp only
        rw [nodeOf_bytes (leaf_fits _)]
        rfl
      · dsimp only
        rw [nodeOf_bytes (leaf_fits _)]
  · intro r hr
    obtain ⟨l, hl, hr⟩ := List.mem_flatten.1 hr
    obtain ⟨j, hj, rfl⟩ := List.mem_map.1 hl
    obtain ⟨l, hl, hr⟩ := List.mem_flatten.1 hr
    obtain ⟨k, hk, rfl⟩ := List.mem_map.1 hl
    exact ((leaf_sorted _).2.1 r hr).2.1
  · unfold records
    rw [List.pairwise_flatten]
    refine ⟨?_, ?_⟩
    · intro l hl
      obtain ⟨j, hj, rfl⟩ := List.mem_map.1 hl
      unfold branchRecords
      rw [List.pairwise_flatten]
      refine ⟨?_, ?_⟩
      · intro l hl
        obtain ⟨k, hk, rfl⟩ := List.mem_map.1 hl
        exact (leaf_sorted _).1
      · rw [List.pairwise_map]
        refine List.Pairwise.imp ?_ List.pairwise_lt_range
        intro a b hlt
        exact leaf_le (by omega)
    · rw [List.pairwise_map]
      refine List.Pairwise.imp ?_ List.pairwise_lt_range
      intro a b hlt x hx y hy
      obtain ⟨l, hl, hx⟩ := List.mem_flatten.1 hx
      obtain ⟨k, hk, rfl⟩ := List.mem_map.1 hl
      obtain ⟨l, hl, hy⟩ := List.mem_flatten.1 hy
      obtain ⟨k', hk', rfl⟩ := List.mem_map.1 hl
      have hk := List.mem_range.1 hk
      have hk' := List.mem_range.1 hk'
      exact leaf_le (by omega) x hx y hy

end WideExample
end Verif
