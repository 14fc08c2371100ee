import Verif.Props.C50
import Verif.Lemmas.DirectoryExample
import Verif.Spec.FileInVolume
import Verif.Spec.CompressedFile
/-! An example of a container with three volumes: one without snapshots, one with a snapshot metadata tree of one level, one with such a tree of two levels -/
namespace Verif
open Res Spec
namespace VolumeExample
open FsTree.TreeExample (tocOf key mapping)
open Props (exampleSuperblock exampleMap zeroBlock exampleObjectMap readsSuperblock valid_of_read)
open Props.SnapExample (leafA leafB)

/-- a node of a B-tree of 4096 bytes -/
def node (type subtype flags : Nat) (toc : Bytes) (es : List Record) (footer : Bytes) : Bytes :=
  let keys := (es.map (·.1)).flatten
  let values := (es.map (·.2)).reverse.flatten
  List.replicate 24 0 ++ toLE 4 type ++ toLE 4 subtype ++ toLE 2 flags ++ toLE 2 0 ++ toLE 4 es.length ++ toLE 2 0 ++ toLE 2 toc.length ++ toLE 2 0 ++ toLE 2 0 ++ List.replicate 8 0 ++
  toc ++ keys ++ List.replicate (4096 - 56 - toc.length - keys.length - values.length - footer.length) 0 ++ values ++ footer

def footer (keys values : Nat) : Bytes := toLE 4 0 ++ toLE 4 4096 ++ toLE 4 keys ++ toLE 4 values ++ List.replicate 24 0

/-- root and leaf of an object map -/
def omLeaf (es : List Record) : Bytes := node 0x40000002 0xb 7 ((List.range es.length).flatMap (fun i => toLE 2 (i * 16) ++ toLE 2 ((i + 1) * 16))) es (footer 16 16)

/-- root and leaf of a file system tree -/
def fsLeaf (es : List Record) : Bytes := node 2 0xe 3 (tocOf es 0 0) es (footer 0 0)

/-- root of a snapshot metadata tree, `flags` are 3 for a leaf, 1 for a branch node -/
def snapNode (flags : Nat) (es : List Record) : Bytes := node 0x40000002 0x10 flags (tocOf es 0 0) es (footer 0 0)

/-- an object map with its root in a block -/
def omObject (root : Nat) : Bytes := List.replicate 24 0 ++ toLE 4 0x4000000b ++ List.replicate 20 0 ++ toLE 8 root ++ List.replicate 4040 0

/-- a volume superblock -/
def volume (oid xid snapshots flags : Nat) (name : Bytes) : Bytes :=
  let p := toLE 8 oid ++ toLE 8 xid ++ toLE 4 0xd ++ toLE 4 0 ++ [0x41, 0x50, 0x53, 0x42] ++ toLE 4 0 ++ toLE 8 1 ++ toLE 8 2 ++ toLE 8 3 ++ List.replicate 64 0 ++ toLE 8 7 ++ toLE 8 1000 ++
    toLE 8 0 ++ toLE 8 snapshots ++ List.replicate 16 0 ++ toLE 8 34 ++ List.replicate 56 0 ++ List.replicate 16 (UInt8.ofNat oid) ++ List.replicate 8 0 ++ toLE 8 flags ++
    List.replicate 432 0 ++ name ++ List.replicate (256 - name.length) 0 ++ List.replicate 3136 0
  match Checksum.fletcher64 p 0 with
  | ok v => toLE 8 v ++ p
  | _ => []

def superblock : Bytes := exampleSuperblock 4 200 2 1 4 [1026, 1028, 1030] []
def volumes : List Record := [mapping 1026 10, mapping 1028 11, mapping 1030 12].map (fun r => (toLE 8 (field r.1 0 8) ++ toLE 8 3, r.2))
def mappings : List Record := [mapping 1000 20]

/-- an inode with its data stream -/
def inode (parent stream flags mode : Nat) (fields : Option (List XField)) : Bytes :=
  inodeValue (toLE 8 parent ++ toLE 8 stream ++ List.replicate 32 7 ++ toLE 8 flags ++ List.replicate 24 0 ++ toLE 2 mode ++ List.replicate 10 0) fields

/-- the name of a file, in an extended field -/
def nameField (name : List Nat) : XField := { type := 4, flags := 2, value := storedName name }

/-- the size of a data stream, in an extended field -/
def sizeField (size : Nat) : XField := { type := 8, flags := 0x20, value := toLE 8 size ++ List.replicate 32 0 }

/-- "Docs/readme" has 9000 bytes, of which 4096 are a hole -/
def readmeExtents : List (Mapping × Nat) := [({ logical := 0, block := 60, length := 4096, crypto := 100 }, 0), ({ logical := 4096, block := 0, length := 4096, crypto := 0 }, 0),
  ({ logical := 8192, block := 62, length := 4096, crypto := 7 }, 0)]
def readmeContent : Bytes := List.replicate 4096 0x61 ++ (List.replicate 4096 0 ++ List.replicate 808 0x62)
def readmeFile : StoredFile := { identifier := 7, attributes := [{ name := [0x74, 0x61, 0x67], value := [1, 2] }], size := 9000, sparse := true }

/-- "Docs/Docs" is compressed, with the compressed data in its resource fork -/
def innerContent : Bytes := [0x68, 0x65, 0x6c, 0x6c, 0x6f]
/-- a zlib stream with a stored block -/
def innerChunk : Bytes := [0x78, 0x01, 0x01, 5, 0, 0xfa, 0xff] ++ innerContent ++ [0x06, 0x2c, 0x02, 0x15]
def innerFork : Bytes := zlibFork (List.replicate 252 0) (List.replicate 4 0) [16] [innerChunk]
def innerExtents : List (Mapping × Nat) := [({ logical := 0, block := 63, length := 4096, crypto := 63 }, 0)]
def innerFile : StoredFile :=
  { identifier := 8, size := 0, sparse := false,
    attributes := [{ name := resourceFork, value := innerFork, stream := some (17, List.replicate 32 0) }, { name := decmpfs, value := [0x66, 0x70, 0x6d, 0x63] ++ (toLE 4 4 ++ toLE 8 5) }] }

open NameLookup.DirectoryExample (rec docs readme)
def files : List Record :=
  [(key 3 2 [], inode 1 2 0 0x41ed (some [{ type := 4, flags := 2, value := [0x72, 0x6f, 0x6f, 0x74, 0] }])), rec 2 docs 5, (key 3 5 [], inode 2 5 0 0x41ed (some [nameField docs])), rec 5 docs 8, rec 5 readme 7,
    (key 3 7 [], inode 5 7 0x200 0x81a4 (some [nameField readme, sizeField 9000]))] ++ readmeFile.attributes.map (·.record 7) ++ readmeExtents.map (Mapping.record 7) ++
  [(key 3 8 [], inode 5 8 0 0x81a4 (some [nameField docs]))] ++ innerFile.attributes.map (·.record 8) ++ innerExtents.map (Mapping.record 17)
def branch : List Record := [(key 1 12 [], toLE 8 21), (key 1 34 [], toLE 8 22)]

def b5 : Bytes := omLeaf volumes
def b7 : Bytes := omObject 8
def b8 : Bytes := omLeaf mappings
def b10 : Bytes := volume 1026 9 0 1 [68, 97, 116, 97]
def b11 : Bytes := volume 1028 9 30 1 (List.replicate 256 120)
def b12 : Bytes := volume 1030 9 31 1 [66]
def b20 : Bytes := fsLeaf files
def b60 : Bytes := List.replicate 4096 0x61
def b62 : Bytes := List.replicate 4096 0x62
def b63 : Bytes := innerFork ++ List.replicate (4096 - innerFork.length) 0x63
def b30 : Bytes := snapNode 3 (leafA ++ leafB)
def b31 : Bytes := snapNode 1 branch

def image : Container.Image
  | 0 => some superblock
  | 1 => some exampleMap
  | 2 => some superblock
  | 3 => some zeroBlock
  | 4 => some exampleObjectMap
  | 5 => some b5
  | 7 => some b7
  | 8 => some b8
  | 10 => some b10
  | 11 => some b11
  | 12 => some b12
  | 20 => some b20
  | 30 => some b30
  | 31 => some b31
  | 60 => some b60
  | 62 => some b62
  | 63 => some b63
  | _ => none

attribute [irreducible] superblock b5 b7 b8 b10 b11 b12 b20 b30 b31 b60 b62 b63

theorem superblock_facts : superblock.length = 4096 ∧ readsSuperblock superblock = true ∧ Nx.areaBlock superblock = 1 ∧ Nx.areaBlocks superblock = 2 ∧ Nx.objectMap superblock = 4 ∧
    Nx.keyBagBlock superblock = 0 ∧ objectType superblock = superblockType ∧ objectXid superblock = 4 ∧ Nx.blocks superblock = 200 ∧ Nx.volume superblock 0 = 1026 ∧
    Nx.volume superblock 1 = 1028 ∧ Nx.volume superblock 2 = 1030 ∧ Nx.incompatible superblock / 2 ^ 8 % 2 = 0 ∧ Props.used (Nx.volume superblock) 100 = 3 := by decide +kernel

theorem lengths : b5.length = 4096 ∧ b7.length = 4096 ∧ b8.length = 4096 ∧ b10.length = 4096 ∧ b11.length = 4096 ∧ b12.length = 4096 ∧ b20.length = 4096 ∧ b30.length = 4096 ∧
    b31.length = 4096 ∧ zeroBlock.length = 4096 ∧ exampleObjectMap.length = 4096 ∧ b60.length = 4096 ∧ b62.length = 4096 ∧ b63.length = 4096 := by decide +kernel

theorem superblock_valid : Nx.Valid superblock := valid_of_read superblock_facts.1 superblock_facts.2.1

theorem blocks : Container.Blocks image := by
  intro b d h
  obtain ⟨h1, h2, h3, h4, h5, h6, h7, h8, h9, h10, h11, h14, h15, h16⟩ := lengths
  have h12 := superblock_facts.1
  have h13 := Props.exampleMap_length
  unfold image at h
  split at h <;> first | (cases h; done) | (rw [← Option.some.inj h]; omega)

def opened : Container.Opened := ⟨200 * 4096, Container.superblockOf superblock, 1, mapEntries exampleMap, 5, none⟩

theorem opens : Container.openRead (fun _ _ d => d) (fun _ => true) image = ok opened := by
  decide +kernel

/-- the blocks of the container -/
abbrev stored : Nat → Option Bytes := containerBlocks image (200 * 4096)

theorem stored_some {b : Nat} {d : Bytes} (h : image b = some d) (hl : d.length = 4096) (hb : b < 200) : stored b = some d := by
  show containerBlocks image (200 * 4096) b = some d
  unfold containerBlocks
  rw [if_pos (by omega), h]
  simp only
  rw [if_pos hl]

theorem containerTree : OmTree stored 5 volumes := by
  refine ⟨⟨b5, ⟨by decide, stored_some rfl lengths.1 (by omega), ⟨by decide +kernel, by decide +kernel, by decide +kernel, by decide +kernel, by decide +kernel, by decide +kernel, by decide +kernel, by decide +kernel⟩,
    by decide +kernel, by decide +kernel, by decide +kernel, by decide +kernel, by decide +kernel⟩, .inl (by decide +kernel)⟩, ?_⟩
  unfold Ascending omLt
  decide +kernel

theorem volumeTree : OmTree stored 8 mappings := by
  refine ⟨⟨b8, ⟨by decide, stored_some rfl lengths.2.2.1 (by omega), ⟨by decide +kernel, by decide +kernel, by decide +kernel, by decide +kernel, by decide +kernel, by decide +kernel, by decide +kernel, by decide +kernel⟩,
    by decide +kernel, by decide +kernel, by decide +kernel, by decide +kernel, by decide +kernel⟩, .inl (by decide +kernel)⟩, ?_⟩
  unfold Ascending omLt
  decide +kernel

theorem b20_stored : (Props.plainStorage image (200 * 4096) 8 20).fsImage (Props.plainStorage image (200 * 4096) 8 20).fsRoot = some b20 := by
  have h : stored 20 = some b20 := stored_some (b := 20) rfl lengths.2.2.2.2.2.2.1 (by omega)
  simp only [Props.plainStorage]
  exact h

theorem holds : FsHolds (Props.plainStorage image (200 * 4096) 8 20) 9 files := by
  refine ⟨⟨mappings, volumeTree, b20, ⟨by decide, b20_stored, ⟨by decide +kernel, by decide +kernel, by decide +kernel, by decide +kernel, by decide +kernel, by decide +kernel, by decide +kernel, by decide +kernel⟩,
    by decide +kernel, by decide +kernel, by decide +kernel, by decide +kernel, by decide +kernel⟩, .inl (by decide +kernel)⟩, by decide +kernel, ?_⟩
  unfold fsLe
  decide +kernel

theorem root30 : SnapRoot stored 30 b30 :=
  ⟨by decide, stored_some rfl lengths.2.2.2.2.2.2.2.1 (by omega), ⟨by decide +kernel, by decide +kernel, by decide +kernel, by decide +kernel, by decide +kernel, by decide +kernel, by decide +kernel, by decide +kernel⟩,
    by decide +kernel, by decide +kernel, by decide +kernel, by decide +kernel, by decide +kernel⟩

theorem root31 : SnapRoot stored 31 b31 :=
  ⟨by decide, stored_some rfl lengths.2.2.2.2.2.2.2.2.1 (by omega), ⟨by decide +kernel, by decide +kernel, by decide +kernel, by decide +kernel, by decide +kernel, by decide +kernel, by decide +kernel, by decide +kernel⟩,
    by decide +kernel, by decide +kernel, by decide +kernel, by decide +kernel, by decide +kernel⟩

def readsVolume (d : Bytes) : Bool :=
  match VolumeOpen.readSuperblock false d with
  | ok _ => true
  | _ => false

theorem valid_of_readsVolume {d : Bytes} (hl : d.length = 4096) (h : readsVolume d = true) : Apsb.Valid false d := by
  unfold readsVolume at h
  cases e : VolumeOpen.readSuperblock false d with
  | ok s => exact ((VolumeOpen.readSuperblock_iff false d hl s).1 e).1
  | err => rw [e] at h; cases h
  | ub => rw [e] at h; cases h

theorem b10_facts : readsVolume b10 = true ∧ Apsb.objectMap b10 = 7 ∧ Apsb.fsRoot b10 = 1000 ∧ Apsb.snapshotTree b10 = 0 ∧ objectXid b10 = 9 ∧ Apsb.flags b10 = 1 := by decide +kernel
theorem b11_facts : readsVolume b11 = true ∧ Apsb.objectMap b11 = 7 ∧ Apsb.fsRoot b11 = 1000 ∧ Apsb.snapshotTree b11 = 30 ∧ objectXid b11 = 9 ∧ Apsb.flags b11 = 1 := by decide +kernel
theorem b12_facts : readsVolume b12 = true ∧ Apsb.objectMap b12 = 7 ∧ Apsb.fsRoot b12 = 1000 ∧ Apsb.snapshotTree b12 = 31 ∧ objectXid b12 = 9 ∧ Apsb.flags b12 = 1 := by decide +kernel

theorem map7 : ObjectMapAt b7 8 := ⟨by rw [lengths.2.1]; omega, by decide +kernel, by decide +kernel, by decide +kernel⟩

theorem storedVolume {b : Nat} {d : Bytes} (hb : image b = some d) (h : b < 200) (hl : d.length = 4096) (h1 : readsVolume d = true) (h2 : Apsb.objectMap d = 7) (h3 : Apsb.fsRoot d = 1000) :
    StoredVolume image b d 8 :=
  ⟨hb, by omega, valid_of_readsVolume hl h1, by rw [h2]; exact ⟨by decide, by decide, b7, rfl, lengths.2.1, map7⟩, by decide, by rw [h3]; decide⟩

theorem newest_volume {oid block : Nat} (h : (oid, block) ∈ [(1026, 10), (1028, 11), (1030, 12)]) :
    HasVersion volumes oid 4 ∧ ∀ r, Newest volumes oid 4 r → field r.2 8 8 = block := by
  have hv : ∀ p ∈ [(1026, 10), (1028, 11), (1030, 12)], (∃ r ∈ volumes, omOid r.1 = p.1 ∧ omXid r.1 ≤ 4) ∧ ∀ r ∈ volumes, omOid r.1 = p.1 → field r.2 8 8 = p.2 := by decide +kernel
  have := hv _ h
  exact ⟨this.1, fun r hr => this.2 r hr.1 hr.2.1⟩

theorem newest_root : HasVersion mappings 1000 9 ∧ ∀ r, Newest mappings 1000 9 r → field r.2 8 8 = 20 := by
  have hv : (∃ r ∈ mappings, omOid r.1 = 1000 ∧ omXid r.1 ≤ 9) ∧ ∀ r ∈ mappings, omOid r.1 = 1000 → field r.2 8 8 = 20 := by decide +kernel
  exact ⟨hv.1, fun r hr => hv.2 r hr.1 hr.2.1⟩

theorem number : Container.numberOfVolumes opened = 3 := by
  rw [Props.c29_number (d := superblock) rfl]
  exact superblock_facts.2.2.2.2.2.2.2.2.2.2.2.2.2

theorem sized : VolumeOpen.Cipher.Sized ⟨fun _ _ d => d, none⟩ := ⟨fun _ _ _ => rfl, fun _ h => by cases h⟩

/-- whatever the index -/
example (i : Int) : VolumeOpen.volumeByIndex ⟨fun _ _ d => d, none⟩ (fun _ => true) image opened i ≠ ub := Props.c50_safe sized blocks opens i

/-- the first volume opens and its directories can be listed -/
theorem lists (p : KeyBag.Prims) (ops : List Volume.Op) : ∃ v, VolumeOpen.volumeByIndex ⟨fun _ _ d => d, none⟩ (fun _ => true) image opened 0 = ok v ∧
    ∀ s, Volume.run p v.state ops = ok s → s.isLocked = false ∧ ∃ t, VolumeOpen.trees ⟨fun _ _ d => d, none⟩ image opened v s = ok (some t) ∧
      ∀ identifier < 2 ^ 60, (∃ r ∈ files, IsOf identifier 3 r) →
        FsTree.directoryRecords t v.superblock.transaction identifier = FsTree.readAll Records.readDirectoryRecord (recordsOf files identifier 9) := by
  obtain ⟨_, _, _, _, _, _, _, f8, _, f10, f11, f12, _, _⟩ := superblock_facts
  obtain ⟨g1, g2, g3, g4, g5, g6⟩ := b10_facts
  obtain ⟨n1, n2⟩ := newest_volume (oid := 1026) (block := 10) (by decide)
  refine Props.c50_listing_partial (k := opened) (d0 := superblock) (d := b10) (root := 8) (vs := []) (records := volumes) (mappings := mappings) (files := files) (i := 0) blocks rfl superblock_valid rfl
    containerTree ?_ ?_ ?_ ?_ (.inl ⟨g4, rfl⟩) (.inl rfl) volumeTree ?_ ?_ p ops
  · rw [number]; omega
  · rw [f10]; omega
  · rw [f10, f8]
    intro r hr
    rw [n2 r hr]
    exact storedVolume rfl (by omega) lengths.2.2.2.1 g1 g2 g3
  · rw [f10, f8]; exact n1
  · rw [g3, g5]; exact newest_root.1
  · rw [g3, g5]
    intro r hr
    rw [newest_root.2 r hr]
    exact holds

/-- the second one has two snapshots and a name that fills its field -/
theorem second : ∃ v, VolumeOpen.volumeByIndex ⟨fun _ _ d => d, none⟩ (fun _ => true) image opened 1 = ok v ∧ Props.Reports v b11 ∧ VolumeOpen.numberOfSnapshots v = 2 := by
  obtain ⟨_, _, _, _, _, _, _, f8, _, f10, f11, f12, _, _⟩ := superblock_facts
  obtain ⟨g1, g2, g3, g4, g5, g6⟩ := b11_facts
  obtain ⟨n1, n2⟩ := newest_volume (oid := 1028) (block := 11) (by decide)
  obtain ⟨v, h1, h2, h3, _⟩ := Props.c50_opens_partial (c := ⟨fun _ _ d => d, none⟩) (vector := fun _ => true) (k := opened) (d0 := superblock) (d := b11) (root := 8)
    (vs := [Props.SnapExample.value 500 Props.SnapExample.nameA, Props.SnapExample.value 600 Props.SnapExample.nameB]) (records := volumes) (i := 1) blocks rfl superblock_valid rfl
    containerTree (by rw [number]; omega) (by rw [f11]; omega)
    (by
      rw [f11, f8]
      intro r hr
      rw [n2 r hr]
      exact storedVolume rfl (by omega) lengths.2.2.2.2.1 g1 g2 g3)
    (by rw [f11, f8]; exact n1)
    (.inr ⟨leafA ++ leafB, by rw [g4]; exact ⟨Props.SnapExample.recordsOk, b30, root30, .inl ⟨by decide +kernel, by decide +kernel⟩⟩, Props.SnapExample.values, by rw [g4]; omega, by decide +kernel⟩)
    (.inr (by unfold Apsb.unencrypted; rw [g6]))
  exact ⟨v, h1, h2, h3⟩

/-- what `c50_metadata` says about it -/
example : ∃ v r d, VolumeOpen.volumeByIndex ⟨fun _ _ d => d, none⟩ (fun _ => true) image opened 1 = ok v ∧ Newest volumes (Nx.volume superblock 1) (objectXid superblock) r ∧
    image (field r.2 8 8 % 2 ^ 52) = some d ∧ Props.Reports v d := by
  obtain ⟨v, h, _⟩ := second
  obtain ⟨r, d, h1, h2, _, h3⟩ := Props.c50_metadata (d0 := superblock) (records := volumes) (i := 1) blocks rfl superblock_valid containerTree (by rw [number]; omega)
    (by rw [superblock_facts.2.2.2.2.2.2.2.2.2.2.1]; omega) h
  exact ⟨v, r, d, h, h1, h2, h3⟩

/-- the third one has a snapshot metadata tree of two levels and does not open -/
theorem third : ∀ v, VolumeOpen.volumeByIndex ⟨fun _ _ d => d, none⟩ (fun _ => true) image opened 2 ≠ ok v := by
  obtain ⟨_, _, _, _, _, _, _, f8, _, f10, f11, f12, _, _⟩ := superblock_facts
  obtain ⟨g1, g2, g3, g4, g5, g6⟩ := b12_facts
  obtain ⟨n1, n2⟩ := newest_volume (oid := 1030) (block := 12) (by decide)
  refine Props.c50_snapshot_tree (d0 := superblock) (d := b12) (root := 8) (records := volumes) (mappings := mappings) (b := b31) (e := (key 1 12 [], toLE 8 21)) (es := [(key 1 34 [], toLE 8 22)])
    (i := 2) blocks rfl superblock_valid containerTree ?_ ?_ ?_ volumeTree ?_ ?_ ?_ ?_ ?_ ?_ ?_ ?_
  · rw [number]; omega
  · rw [f12]; omega
  · rw [f12, f8]
    intro r hr
    rw [n2 r hr]
    exact storedVolume rfl (by omega) lengths.2.2.2.2.2.1 g1 g2 g3
  · rw [g4]; exact root31
  · rw [g4]; omega
  · decide +kernel
  · decide +kernel
  · decide +kernel
  · decide +kernel
  · decide +kernel
  · unfold HasVersion; decide +kernel

end VolumeExample
end Verif
