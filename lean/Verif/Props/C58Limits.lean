import Verif.Props.C58
import Verif.Lemmas.Restamp
import Verif.Lemmas.EncryptedExample
/-!
# C58 Damage to the metadata of a container is noticed: what fails

The checksums of object maps, of the nodes of B-trees and of the key bags of volumes are not compared with anything: any eight bytes will do.
-/
namespace Verif.Props
open Verif Res Container Spec Restamp

/-- A node is read the same with any checksum. Nodes with values that overlap their own checksum are left out. -/
theorem c58_node_checksum {c d : Bytes} (hc : c.length = 8) (v : BNode.Valid d) (hv : Clear d) : ∃ n, BTree.readNode d = ok n ∧ BTree.readNode (c ++ d.drop 8) = ok n :=
  ⟨_, BTree.readNode_valid v, by rw [BTree.readNode_valid (valid_stamp hc v), parsed_stamp hc v hv]⟩

theorem rdN_stamp {c d : Bytes} (hc : c.length = 8) (hl : 8 ≤ d.length) {off n : Nat} (h : 8 ≤ off) : rdN (c ++ d.drop 8) off n = rdN d off n := by
  have e : ((c ++ d.drop 8).drop off).take n = (d.drop off).take n := slice_stamp hc h
  unfold rdN
  rw [length_stamp hc hl, e]

theorem rdLE_stamp {c d : Bytes} (hc : c.length = 8) (hl : 8 ≤ d.length) {off n : Nat} (h : 8 ≤ off) : rdLE (c ++ d.drop 8) off n = rdLE d off n := by
  unfold rdLE
  rw [rdN_stamp hc hl h]

/-- An object map is read the same with any checksum. -/
theorem c58_object_map_checksum {c d : Bytes} (hc : c.length = 8) (hl : 8 ≤ d.length) : readObjectMap (c ++ d.drop 8) = readObjectMap d := by
  unfold readObjectMap
  rw [length_stamp hc hl, rdLE_stamp hc hl (by omega), rdLE_stamp hc hl (by omega), rdLE_stamp hc hl (by omega)]

theorem bagEntries_stamp {c d : Bytes} (hc : c.length = 8) (hl : 8 ≤ d.length) : ∀ n off, 8 ≤ off → KeyBag.readEntries (c ++ d.drop 8) n off = KeyBag.readEntries d n off
  | 0, _, _ => rfl
  | n + 1, off, h => by
    have he : KeyBag.readEntry (c ++ d.drop 8) off = KeyBag.readEntry d off := by
      unfold KeyBag.readEntry
      rw [length_stamp hc hl, rdN_stamp hc hl h, rdLE_stamp hc hl (by omega), rdLE_stamp hc hl (by omega)]
      simp only [rdN_stamp hc hl (show 8 ≤ off + 24 by omega)]
    unfold KeyBag.readEntries
    rw [he]
    cases KeyBag.readEntry d off with
    | err => rfl
    | ub => rfl
    | ok e =>
      simp only [ok_bind, length_stamp hc hl]
      rw [bagEntries_stamp hc hl n _ (by omega), bagEntries_stamp hc hl n _ (by omega)]

/-- The key bag of a volume, once it is decrypted, is read the same with any checksum. -/
theorem c58_volume_bag_checksum {c d : Bytes} (hc : c.length = 8) (hl : 8 ≤ d.length) : KeyBag.readVolumeBag (c ++ d.drop 8) = KeyBag.readVolumeBag d := by
  unfold KeyBag.readVolumeBag KeyBag.readBag
  rw [length_stamp hc hl, rdLE_stamp hc hl (by omega), rdLE_stamp hc hl (by omega), rdLE_stamp hc hl (by omega), rdLE_stamp hc hl (by omega), rdLE_stamp hc hl (by omega)]
  simp only [bagEntries_stamp hc hl _ _ (show 8 ≤ 48 by omega)]

section
variable {image : Image} {vector : Nat → Bool} {k : Opened} {c : VolumeOpen.Cipher} {d0 d : Bytes} {records : List Record}

/-- The checksums of any blocks of an open container but those of volume superblocks can be replaced by anything: a volume that is not encrypted and has no snapshots still opens and lists the
same directories. -/
theorem c58_unverified (hb : Blocks image) (hs : k.superblock = Container.superblockOf d0) (hv : Nx.Valid d0) (hvec : vector k.size = true)
    (ht : OmTree (containerBlocks image k.size) k.tree records) {i : Nat} (hi : i < numberOfVolumes k) (h0 : Nx.volume d0 i ≠ 0) {root : Nat}
    (hr : ∀ r, Newest records (Nx.volume d0 i) (objectXid d0) r → StoredVolume image (field r.2 8 8) d root) (hx : HasVersion records (Nx.volume d0 i) (objectXid d0))
    (hsn : Apsb.snapshotTree d = 0) (hun : k.keyBag = none ∨ Apsb.unencrypted d)
    {mappings files : List Record} (hm : OmTree (containerBlocks image k.size) root mappings) (hrx : HasVersion mappings (Apsb.fsRoot d) (objectXid d))
    (hfs : ∀ r, Newest mappings (Apsb.fsRoot d) (objectXid d) r → FsHolds (plainStorage image k.size root (field r.2 8 8)) (objectXid d) files)
    (chk : Nat → Option Bytes) (hok : Restamp.Ok chk (containerBlocks image k.size)) (hchk : ∀ r, Newest records (Nx.volume d0 i) (objectXid d0) r → chk (field r.2 8 8) = none)
    (p : KeyBag.Prims) (ops : List Volume.Op) :
    ∃ v, VolumeOpen.volumeByIndex c vector (restamp chk image) k i = ok v ∧ ∀ s, Volume.run p v.state ops = ok s → s.isLocked = false ∧
      ∃ t, VolumeOpen.trees c (restamp chk image) k v s = ok (some t) ∧
      ∀ identifier < 2 ^ 60, (∃ r ∈ files, IsOf identifier 3 r) →
        FsTree.directoryRecords t v.superblock.transaction identifier = FsTree.readAll Records.readDirectoryRecord (recordsOf files identifier 9) := by
  have hcb := containerBlocks_restamp (image := image) hok.size k.size
  refine c50_listing_partial (image := restamp chk image) (d := d) (root := root) (vs := []) (mappings := mappings) (files := files) (records := records) ?_ hs hv hvec ?_ hi h0 ?_ hx (.inl ⟨hsn, rfl⟩)
    hun ?_ hrx ?_ p ops
  · intro b e he
    unfold restamp at he
    cases hcb : chk b with
    | none => rw [hcb] at he; exact hb b e he
    | some x =>
      rw [hcb] at he
      have hx := hok.size b x hcb
      cases hib : image b with
      | none => rw [hib] at he; cases he
      | some y =>
        rw [hib] at he
        have he : x ++ y.drop 8 = e := Option.some.inj he
        have := hb b y hib
        rw [← he, List.length_append, List.length_drop]
        omega
  · rw [hcb]; exact omTree hok ht
  · intro r hr'
    have h := hr r hr'
    have e : restamp chk image (field r.2 8 8) = image (field r.2 8 8) := by unfold restamp; rw [hchk r hr']
    obtain ⟨g1, g2, o, g3, g4, g5⟩ := h.objectMap
    refine ⟨e.trans h.stored, h.range, h.valid, ⟨g1, g2, ?_⟩, h.root, h.fsRoot⟩
    unfold restamp
    cases hco : chk (Apsb.objectMap d) with
    | none => exact ⟨o, g3, g4, g5⟩
    | some x => exact ⟨x ++ o.drop 8, by rw [g3]; rfl, (length_stamp (hok.size _ _ hco) (by omega)).trans g4, objectMapAt (hok.size _ _ hco) g5⟩
  · rw [hcb]; exact omTree hok hm
  · intro r hr'
    have := fsHolds (s := plainStorage image k.size root (field r.2 8 8)) hok hok (hfs r hr')
    unfold plainStorage
    rw [hcb]
    exact this

end

namespace DamageExample


/-- an object with its checksum put in front -/
def withChecksum (d : Bytes) : Bytes :=
  match Checksum.fletcher64 (d.drop 8) 0 with
  | ok v => toLE 8 v ++ d.drop 8
  | _ => []

/-- the root and only node of the file system tree, and the same with one byte changed: the "D" of "Docs" is "E" -/
def good : Bytes := withChecksum VolumeExample.b20
def bad : Bytes := good.set 188 69

/-- the container of `VolumeExample` with another block 20 -/
def stored (d : Bytes) : Image := fun b => if b = 20 then some d else VolumeExample.image b

/-- opens the container, its first volume, and lists the names and identifiers in a directory -/
def listing (image : Image) (identifier : Nat) : Res (List (Bytes × Nat)) := do
  let k ← Container.openRead (fun _ _ d => d) (fun _ => true) image
  let v ← VolumeOpen.volumeByIndex ⟨fun _ _ d => d, none⟩ (fun _ => true) image k 0
  let t ← VolumeOpen.trees ⟨fun _ _ d => d, none⟩ image k v v.state
  match t with
  | none => err
  | some t => do
    let rs ← FsTree.directoryRecords t v.superblock.transaction identifier
    return rs.map fun r => (r.name, r.identifier)

theorem bad_eq : bad = good.set 188 69 := rfl

attribute [irreducible] good bad

theorem good_facts : good.length = 4096 ∧ good[188]? = some 68 ∧ Checksum.checkObject good = ok () := by decide +kernel

theorem listed : listing (stored good) 2 = ok [([0x44, 0x6f, 0x63, 0x73, 0], 5)] := by decide +kernel
theorem listed_bad : listing (stored bad) 2 = ok [([0x45, 0x6f, 0x63, 0x73, 0], 5)] := by decide +kernel

end DamageExample

open DamageExample in
/-- One byte of a node is damaged in a container whose checksums match. The container and the volume open, and the directory is listed with a name that is not in it, without an error. -/
theorem c58_damage_shown : ∃ good bad : Bytes, Checked good ∧ Damaged good bad ∧ ¬ Checked bad ∧ good ≠ bad ∧
    listing (stored good) 2 = ok [([0x44, 0x6f, 0x63, 0x73, 0], 5)] ∧ listing (stored bad) 2 = ok [([0x45, 0x6f, 0x63, 0x73, 0], 5)] := by
  obtain ⟨h1, h2, h4⟩ := good_facts
  have hc : Checked good := (checked_iff (by omega) (by omega) (by omega)).1 h4
  have hi : 188 < good.length := by omega
  have hx : good[188] = 68 := by
    rw [List.getElem?_eq_getElem hi] at h2
    exact Option.some.inj h2
  have hd : Damaged good bad := by
    rw [bad_eq]
    exact c58_byte (by omega) (by omega) hi (by rw [hx]; decide)
  refine ⟨good, bad, hc, hd, c58_detects (by omega) (by omega) hc hd, ?_, listed, listed_bad⟩
  intro h
  exact c58_detects (by omega) (by omega) hc hd (h ▸ hc)

namespace DamageExample
open VolumeExample

/-- not a node, or one with no value at its checksum -/
def clear (d : Bytes) : Bool :=
  !(decide (BNode.type d % 2 ^ 24 = 0) || decide (BNode.type d % 2 ^ 24 = 2) || decide (BNode.type d % 2 ^ 24 = 3)) || decide (∀ i < BNode.count d, BNode.valueOffset d i + 8 ≤ BNode.valuesEnd d)

theorem clear_of {d : Bytes} (h : clear d = true) (v : BNode.Valid d) : Clear d := by
  unfold clear at h
  simp only [Bool.or_eq_true, Bool.not_eq_true', Bool.or_eq_false_iff, decide_eq_true_eq, decide_eq_false_iff_not] at h
  rcases h with h | h
  · have := v.typ; omega
  · exact h

theorem clears : ∀ d ∈ [superblock, exampleMap, zeroBlock, exampleObjectMap, b5, b7, b8, b10, b11, b12, b20, b30, b31, b60, b62, b63], clear d = true := by decide +kernel

/-- nodes and object maps of the container and its first volume get a checksum of ones -/
def ones (b : Nat) : Option Bytes := if b ∈ [4, 5, 7, 8, 20] then some (List.replicate 8 1) else none

theorem ones_ok : Restamp.Ok ones (containerBlocks image (200 * 4096)) := by
  refine ⟨fun b c h => ?_, fun b d h v => clear_of ?_ v⟩
  · unfold ones at h
    split at h
    · rw [← Option.some.inj h]; rfl
    · cases h
  · have hi : image b = some d := by
      unfold containerBlocks at h
      split at h
      · cases e : image b with
        | none => rw [e] at h; cases h
        | some d' =>
          rw [e] at h
          dsimp only at h
          split at h
          · exact h
          · cases h
      · cases h
    apply clears
    unfold image at hi
    simp only [List.mem_cons, List.not_mem_nil, or_false]
    split at hi <;> first | (cases hi; done) | (have := Option.some.inj hi; subst this; simp)

/-- the hypotheses of `c58_unverified` are met -/
example (p : KeyBag.Prims) (ops : List Volume.Op) : ∃ v, VolumeOpen.volumeByIndex ⟨fun _ _ d => d, none⟩ (fun _ => true) (restamp ones image) opened 0 = ok v ∧
    ∀ s, Volume.run p v.state ops = ok s → s.isLocked = false ∧ ∃ t, VolumeOpen.trees ⟨fun _ _ d => d, none⟩ (restamp ones image) opened v s = ok (some t) ∧
      ∀ identifier < 2 ^ 60, (∃ r ∈ files, IsOf identifier 3 r) →
        FsTree.directoryRecords t v.superblock.transaction identifier = FsTree.readAll Records.readDirectoryRecord (recordsOf files identifier 9) := by
  obtain ⟨_, _, _, _, _, _, _, f8, _, f10, f11, f12, _, _⟩ := superblock_facts
  obtain ⟨g1, g2, g3, g4, g5, g6⟩ := b10_facts
  obtain ⟨n1, n2⟩ := newest_volume (oid := 1026) (block := 10) (by decide)
  refine c58_unverified (k := opened) (d0 := superblock) (d := b10) (root := 8) (records := volumes) (mappings := mappings) (files := files) (i := 0) blocks rfl superblock_valid rfl
    containerTree ?_ ?_ ?_ ?_ g4 (.inl rfl) volumeTree ?_ ?_ ones ones_ok ?_ p ops
  · rw [number]; omega
  · rw [f10]; omega
  · rw [f10, f8]
    intro r hr
    rw [n2 r hr]
    exact storedVolume rfl (by omega) lengths.2.2.2.1 g1 g2 g3
  · rw [f10, f8]; exact n1
  · rw [g3, g5]; exact newest_root.1
  · rw [g3, g5]
    intro r hr
    rw [newest_root.2 r hr]
    exact holds
  · rw [f10, f8]
    intro r hr
    rw [n2 r hr]
    decide

/-- the container opens, so that `c58_container_partial` and `c58_volume_partial` apply to it -/
example : ∃ d0 d m, image 0 = some d0 ∧ opened.superblock = superblockOf d ∧ (d = d0 ∨ ∃ j, image (Nx.areaBlock d0 % 2 ^ 32 + j) = some d) ∧
    image (opened.mapBlock % 2 ^ 52) = some m ∧ ∀ e, Checked e → ¬ Damaged e d0 ∧ ¬ Damaged e d ∧ ¬ Damaged e m := by
  obtain ⟨d0, d, m, h1, h2, h3, h4, _, h5⟩ := c58_container_partial blocks opens
  exact ⟨d0, d, m, h1, h2, h3, h4, fun e he => ⟨(h5 e he).1, (h5 e he).2.1, (h5 e he).2.2.1⟩⟩

example : ∃ v b d, VolumeOpen.volumeByIndex ⟨fun _ _ d => d, none⟩ (fun _ => true) image opened 1 = ok v ∧ image b = some d ∧ ∀ e, Checked e → ¬ Damaged e d := by
  obtain ⟨v, h, _⟩ := second
  obtain ⟨b, d, h1, _, h2⟩ := c58_volume_partial blocks (show opened.superblock.blockSize = 4096 from superblock_valid.blockSize) h
  exact ⟨v, b, d, h, h1, h2⟩

/-- the key bag of the container of `EncryptedExample` -/
example : ∃ stored data, readAt EncryptedExample.image (EncryptedExample.opened.superblock.keyBagBlock * 4096 % 2 ^ 64) (EncryptedExample.opened.superblock.keyBagBlocks * 4096 % 2 ^ 64) = ok stored ∧
    KeyBag.readBag data = ok (entriesOf EncryptedExample.cb) ∧ (data.length % 4 = 0 → data.length ≤ 4 * 92681 + 8 → ∀ e, Checked e → ¬ Damaged e data) := by
  obtain ⟨st, data, h1, _, h2, h3⟩ := c58_key_bag_partial EncryptedExample.blocks EncryptedExample.opens rfl
  exact ⟨st, data, h1, h2, h3⟩

/-- a byte of the first volume identifier in block 0 is changed -/
example : ∃ d0, Damaged superblock d0 ∧ openRead (fun _ _ d => d) (fun _ => true) (fun b => if b = 0 then some d0 else image b) = err := by
  have hl := superblock_facts.1
  have hc := superblock_valid.checked
  have hi : 184 < superblock.length := by omega
  refine ⟨superblock.set 184 (superblock[184] + 1), c58_byte (by omega) (by omega) hi (fun h => ?_), ?_⟩
  · have : ∀ x : UInt8, x ≠ x + 1 := by intro x hx; have := congrArg UInt8.toNat hx; rw [UInt8.toNat_add] at this; have := x.toNat_lt; simp only [UInt8.reduceToNat] at *; omega
    exact this _ h
  · refine c58_block0 (fun _ _ _ => rfl) ?_ (d0 := superblock.set 184 (superblock[184] + 1)) rfl hc (c58_byte (by omega) (by omega) hi (fun h => ?_))
    · intro b d h
      dsimp only at h
      split at h
      · rw [← Option.some.inj h, List.length_set]; omega
      · exact blocks b d h
    · have : ∀ x : UInt8, x ≠ x + 1 := by intro x hx; have := congrArg UInt8.toNat hx; rw [UInt8.toNat_add] at this; have := x.toNat_lt; simp only [UInt8.reduceToNat] at *; omega
      exact this _ h

end DamageExample

end Verif.Props
