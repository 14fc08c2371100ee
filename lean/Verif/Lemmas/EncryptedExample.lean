import Verif.Lemmas.VolumeExample
import Verif.Props.C51
/-! An example of a container with an encrypted volume -/
namespace Verif
open Res Spec
namespace EncryptedExample
open VolumeExample (omLeaf fsLeaf omObject volume readsVolume valid_of_readsVolume mappings files newest_root b60 b62 b63)
open FsTree.TreeExample (mapping)
open Props (exampleMap zeroBlock exampleObjectMap readsSuperblock valid_of_read exKek exPrims exPrims_ok entriesOf)

/-- a cipher that adds the first bytes of key and tweak -/
def encX (ks : Bytes × Bytes) (t d : Bytes) : Bytes := d.map (· + (t.headD 0 + ks.1.headD 0))
def decX (ks : Bytes × Bytes) (t d : Bytes) : Bytes := d.map (· - (t.headD 0 + ks.1.headD 0))

theorem cipher (ks : Bytes × Bytes) : TweakableCipher 512 (encX ks) (decX ks) :=
  ⟨fun t d h => by unfold encX; rw [List.length_map, h], fun t d => by unfold decX; rw [List.length_map], fun t d _ => by
    unfold encX decX
    rw [List.map_map]
    conv => rhs; rw [← List.map_id d]
    apply List.map_congr_left
    intro x _
    simp only [Function.comp, id]
    rw [UInt8.add_sub_cancel]⟩

def sectorsOf (d : Bytes) : List Bytes := (List.range 8).map (fun i => slice d (i * 512) 512)
def encrypt (ks : Bytes × Bytes) (b : Nat) (d : Bytes) : Bytes := (encryptSectors (encX ks) (b * 8) (sectorsOf d)).flatten

def uuid : Bytes := List.replicate 16 2
def keys : Bytes × Bytes := (List.replicate 16 8, List.replicate 16 8)

def superblock : Bytes :=
  let v := (1026 :: List.replicate 99 0).flatMap (toLE 8)
  let p := toLE 8 1 ++ toLE 8 4 ++ toLE 4 0x80000001 ++ toLE 4 0 ++ [0x4e, 0x58, 0x53, 0x42] ++ toLE 4 4096 ++ toLE 8 200 ++ List.replicate 56 0 ++ toLE 4 2 ++
    List.replicate 4 0 ++ toLE 8 1 ++ List.replicate 40 0 ++ toLE 8 4 ++ List.replicate 12 0 ++ toLE 4 100 ++ v ++ List.replicate 312 0 ++ toLE 8 40 ++ toLE 8 1 ++ List.replicate 2784 0
  match Checksum.fletcher64 p 0 with
  | ok v => toLE 8 v ++ p
  | _ => []

/-- KEKs have a length of 147 or so; entries are padded to multiples of 16 bytes -/
def entry (type : Nat) (data : Bytes) : BagEntry :=
  { identifier := uuid, type := type, reserved := [0, 0, 0, 0], data := data, pad := List.replicate ((16 - (24 + data.length) % 16) % 16) 0 }

def cb : List BagEntry := [entry 3 (toLE 8 50 ++ toLE 8 1), entry 2 (exKek 0 8).encode]
def vb : List BagEntry := [entry 4 [1], entry 3 (exKek 0 6).encode]

/-- the key bags, of 4096 bytes -/
def containerBag : Bytes :=
  let b := (bagBlock (List.replicate 24 0 ++ toLE 4 0x6b657973 ++ toLE 4 0) 2 1000 (List.replicate 8 0) cb []).drop 8
  let p := b ++ List.replicate (4088 - b.length) 0
  match Checksum.fletcher64 p 0 with
  | ok v => toLE 8 v ++ p
  | _ => []
def volumeBag : Bytes :=
  let b := bagBlock (List.replicate 24 0 ++ toLE 4 0x72656373 ++ toLE 4 0) 2 1000 (List.replicate 8 0) vb []
  b ++ List.replicate (4096 - b.length) 0

def volumes : List Record := [(toLE 8 1026 ++ toLE 8 3, (mapping 1026 10).2)]
def b5 : Bytes := omLeaf volumes
def b7 : Bytes := omObject 8
def b8 : Bytes := omLeaf mappings
def b10 : Bytes := volume 1026 9 0 0 [68, 97, 116, 97]
def b20 : Bytes := fsLeaf files
def e20 : Bytes := encrypt keys 20 b20
def e40 : Bytes := encrypt (List.replicate 16 0, List.replicate 16 0) 40 containerBag
def e60 : Bytes := encrypt keys 100 b60
def e62 : Bytes := encrypt keys 7 b62
def e63 : Bytes := encrypt keys 63 b63
def e50 : Bytes := encrypt (uuid, uuid) 50 volumeBag

def image : Container.Image
  | 0 => some superblock
  | 1 => some exampleMap
  | 2 => some superblock
  | 3 => some zeroBlock
  | 4 => some exampleObjectMap
  | 5 => some b5
  | 7 => some b7
  | 8 => some b8
  | 10 => some b10
  | 20 => some e20
  | 40 => some e40
  | 50 => some e50
  | 60 => some e60
  | 62 => some e62
  | 63 => some e63
  | _ => none

attribute [irreducible] superblock b5 b7 b8 b10 b20 e20 e40 e50 e60 e62 e63 containerBag volumeBag

theorem superblock_facts : superblock.length = 4096 ∧ readsSuperblock superblock = true ∧ Nx.keyBagBlock superblock = 40 ∧ Nx.keyBagBlocks superblock = 1 ∧ objectXid superblock = 4 ∧
    Nx.volume superblock 0 = 1026 ∧ slice superblock 72 16 = List.replicate 16 0 ∧ Props.used (Nx.volume superblock) 100 = 1 := by decide +kernel

theorem lengths : b5.length = 4096 ∧ b7.length = 4096 ∧ b8.length = 4096 ∧ b10.length = 4096 ∧ b20.length = 4096 ∧ e20.length = 4096 ∧ e40.length = 4096 ∧
    e50.length = 4096 ∧ zeroBlock.length = 4096 ∧ exampleObjectMap.length = 4096 ∧ e60.length = 4096 ∧ e62.length = 4096 ∧ e63.length = 4096 := by decide +kernel

theorem superblock_valid : Nx.Valid superblock := valid_of_read superblock_facts.1 superblock_facts.2.1

theorem blocks : Container.Blocks image := by
  intro b d h
  obtain ⟨h1, h2, h3, h4, h5, h6, h7, h8, h9, h10, h14, h15, h16⟩ := lengths
  have h12 := superblock_facts.1
  have h13 := Props.exampleMap_length
  unfold image at h
  split at h <;> first | (cases h; done) | (rw [← Option.some.inj h]; omega)

/-- the cipher that the library has; without keys it fails -/
def c : VolumeOpen.Cipher := ⟨decX, none⟩

def opened : Container.Opened := ⟨200 * 4096, Container.superblockOf superblock, 1, mapEntries exampleMap, 5, some (some (entriesOf cb))⟩

theorem opens : Container.openRead (fun k => decX (k, k)) (fun _ => true) image = ok opened := by decide +kernel

abbrev stored : Nat → Option Bytes := containerBlocks image (200 * 4096)

theorem stored_some {b : Nat} {d : Bytes} (h : image b = some d) (hl : d.length = 4096) (hb : b < 200) : stored b = some d := by
  show containerBlocks image (200 * 4096) b = some d
  unfold containerBlocks
  rw [if_pos (by omega), h]
  simp only
  rw [if_pos hl]

theorem containerTree : OmTree stored 5 volumes := by
  refine ⟨⟨b5, ⟨by decide, stored_some rfl lengths.1 (by omega), ⟨by decide +kernel, by decide +kernel, by decide +kernel, by decide +kernel, by decide +kernel, by decide +kernel, by decide +kernel, by decide +kernel⟩,
    by decide +kernel, by decide +kernel, by decide +kernel, by decide +kernel, by decide +kernel⟩, .inl (by decide +kernel)⟩, ?_⟩
  unfold Ascending omLt
  decide +kernel

theorem volumeTree : OmTree stored 8 mappings := by
  refine ⟨⟨b8, ⟨by decide, stored_some rfl lengths.2.2.1 (by omega), ⟨by decide +kernel, by decide +kernel, by decide +kernel, by decide +kernel, by decide +kernel, by decide +kernel, by decide +kernel, by decide +kernel⟩,
    by decide +kernel, by decide +kernel, by decide +kernel, by decide +kernel, by decide +kernel⟩, .inl (by decide +kernel)⟩, ?_⟩
  unfold Ascending omLt
  decide +kernel

/-- the block of the file system tree before encryption -/
def plain (b : Nat) : Option Bytes := if b = 20 then some b20 else none

theorem holds : FsHolds (Props.encryptedStorage image plain (200 * 4096) 8 20) 9 files := by
  refine ⟨⟨mappings, volumeTree, b20, ⟨by decide, rfl, ⟨by decide +kernel, by decide +kernel, by decide +kernel, by decide +kernel, by decide +kernel, by decide +kernel, by decide +kernel, by decide +kernel⟩,
    by decide +kernel, by decide +kernel, by decide +kernel, by decide +kernel, by decide +kernel⟩, .inl (by decide +kernel)⟩, by decide +kernel, ?_⟩
  unfold fsLe
  decide +kernel

theorem storedEncrypted {ks : Bytes × Bytes} {b : Nat} {d e : Bytes} (h : image b = some e) (hl : e.length = 4096) (he : e = encrypt ks b d) (hs : ∀ s ∈ sectorsOf d, s.length = 512)
    (hd : d = (sectorsOf d).flatten) : StoredEncrypted (encX ks) image b 1 d := by
  refine ⟨sectorsOf d, [e], by simp [sectorsOf], hs, hd, rfl, by simpa using hl, ?_, ?_⟩
  · intro i hi
    have : i = 0 := by omega
    subst this
    exact h
  · rw [he]
    simp [encrypt]

theorem e20_facts : e20 = encrypt keys 20 b20 ∧ (∀ s ∈ sectorsOf b20, s.length = 512) ∧ b20 = (sectorsOf b20).flatten :=
  ⟨eq_of_beq (by decide +kernel), by decide +kernel, eq_of_beq (by decide +kernel)⟩
theorem e40_facts : e40 = encrypt (List.replicate 16 0, List.replicate 16 0) 40 containerBag ∧ (∀ s ∈ sectorsOf containerBag, s.length = 512) ∧
    containerBag = (sectorsOf containerBag).flatten := ⟨eq_of_beq (by decide +kernel), by decide +kernel, eq_of_beq (by decide +kernel)⟩
theorem e50_facts : e50 = encrypt (uuid, uuid) 50 volumeBag ∧ (∀ s ∈ sectorsOf volumeBag, s.length = 512) ∧ volumeBag = (sectorsOf volumeBag).flatten :=
  ⟨eq_of_beq (by decide +kernel), by decide +kernel, eq_of_beq (by decide +kernel)⟩

theorem wf : (∀ e ∈ cb, e.identifier.length = 16 ∧ e.type < 65536 ∧ e.reserved.length = 4 ∧ (1 ≤ e.data.length ∧ e.data.length < 65536) ∧
      (e.pad.length < 16 ∧ (24 + e.data.length + e.pad.length) % 16 = 0)) ∧
    (∀ e ∈ vb, e.identifier.length = 16 ∧ e.type < 65536 ∧ e.reserved.length = 4 ∧ (1 ≤ e.data.length ∧ e.data.length < 65536) ∧
      (e.pad.length < 16 ∧ (24 + e.data.length + e.pad.length) % 16 = 0)) := by decide +kernel

theorem volumeBag_ok : VolumeBag volumeBag vb :=
  ⟨List.replicate 24 0, 1000, List.replicate 8 0,
    List.replicate (4096 - (bagBlock (List.replicate 24 0 ++ toLE 4 0x72656373 ++ toLE 4 0) 2 1000 (List.replicate 8 0) vb []).length) 0, rfl, by decide +kernel, by decide, rfl, by decide,
    fun e he => ⟨(wf.2 e he).1, (wf.2 e he).2.1, (wf.2 e he).2.2.1, (wf.2 e he).2.2.2.1, (wf.2 e he).2.2.2.2⟩, eq_of_beq (by decide +kernel)⟩

theorem containerBag_ok : ContainerBag containerBag cb := by
  refine ⟨?_, containerBag.take 24, 1000, List.replicate 8 0,
    List.replicate (4096 - (bagBlock (List.replicate 24 0 ++ toLE 4 0x6b657973 ++ toLE 4 0) 2 1000 (List.replicate 8 0) cb []).length) 0, by decide +kernel, by decide +kernel, by decide, rfl, by decide,
    fun e he => ⟨(wf.1 e he).1, (wf.1 e he).2.1, (wf.1 e he).2.2.1, (wf.1 e he).2.2.2.1, (wf.1 e he).2.2.2.2⟩, eq_of_beq (by decide +kernel)⟩
  exact (Props.c01_object_accept_iff containerBag (by decide +kernel) (by decide +kernel) (by decide +kernel)).1.1 (by decide +kernel)

/-- what `c51_container_bag` says about it -/
example : opened.keyBag = some (some (entriesOf cb)) := by
  obtain ⟨f1, f2, f3, f4, f5, f6, f7, f8⟩ := superblock_facts
  refine Props.c51_container_bag (d0 := superblock) (data := containerBag) (enc := encX (List.replicate 16 0, List.replicate 16 0)) blocks opens rfl superblock_valid ?_ (by rw [f3]; omega) (by rw [f4]; omega)
    (by rw [f4]; omega) (by rw [f3, f4]; decide) ?_ containerBag_ok
  · rw [f7]; exact cipher _
  · rw [f3, f4]; exact storedEncrypted rfl lengths.2.2.2.2.2.2.1 e40_facts.1 e40_facts.2.1 e40_facts.2.2

theorem b10_facts : readsVolume b10 = true ∧ Apsb.objectMap b10 = 7 ∧ Apsb.fsRoot b10 = 1000 ∧ Apsb.snapshotTree b10 = 0 ∧ objectXid b10 = 9 ∧ Apsb.flags b10 = 0 ∧ Apsb.uuid b10 = uuid := by decide +kernel

theorem map7 : ObjectMapAt b7 8 := ⟨by rw [lengths.2.1]; omega, by decide +kernel, by decide +kernel, by decide +kernel⟩

theorem storedVolume : StoredVolume image 10 b10 8 := by
  obtain ⟨g1, g2, g3, g4, g5, g6, g7⟩ := b10_facts
  exact ⟨rfl, by omega, valid_of_readsVolume lengths.2.2.2.1 g1, by rw [g2]; exact ⟨by decide, by decide, b7, rfl, lengths.2.1, map7⟩, by decide, by rw [g3]; decide⟩

theorem newest_volume : HasVersion volumes 1026 4 ∧ ∀ r, Newest volumes 1026 4 r → field r.2 8 8 = 10 := by
  have hv : (∃ r ∈ volumes, omOid r.1 = 1026 ∧ omXid r.1 ≤ 4) ∧ ∀ r ∈ volumes, omOid r.1 = 1026 → field r.2 8 8 = 10 := by decide +kernel
  exact ⟨hv.1, fun r hr => hv.2 r hr.1 hr.2.1⟩

theorem number : Container.numberOfVolumes opened = 1 := by
  rw [Props.c29_number (d := superblock) rfl]
  exact superblock_facts.2.2.2.2.2.2.2

theorem encryptedVolume : Props.EncryptedVolume encX image cb vb b10 := by
  obtain ⟨g1, g2, g3, g4, g5, g6, g7⟩ := b10_facts
  refine ⟨by unfold Apsb.unencrypted; omega, 50, 1, volumeBag, ?_, by decide, by decide, by decide, by decide, ?_, volumeBag_ok⟩
  · rw [g7]
    exact ⟨[], entry 3 (toLE 8 50 ++ toLE 8 1), [entry 2 (exKek 0 8).encode], rfl, rfl, rfl, rfl, by simp⟩
  · rw [g7]
    exact storedEncrypted rfl lengths.2.2.2.2.2.2.2.1 e50_facts.1 e50_facts.2.1 e50_facts.2.2

theorem exKek_wf {x : UInt8} (hx : x = 6 ∨ x = 8) : (exKek 0 x).Wf := by
  have h : ∀ x : UInt8, x = 6 ∨ x = 8 → (exKek 0 x).wrapped.length = 40 := by
    rintro x (rfl | rfl) <;> decide +kernel
  exact ⟨rfl, rfl, rfl, Nat.two_pow_pos _, rfl, h x hx, ⟨Nat.le_refl _, Nat.le_of_ble_eq_true rfl⟩, rfl⟩

theorem kek_unique {e : BagEntry} {o : KekFields} {x : UInt8} (hx : x = 6 ∨ x = 8) (he : e.data = (exKek 0 x).encode) (h : HasKek e o) :
    o.method = 0 ∧ o.wrapped = (exKek 0 x).wrapped ∧ o.uuid = (exKek 0 x).uuid := by
  have h1 := Props.readKek_of h
  rw [Props.readKek_of (o := exKek 0 x) ⟨exKek_wf hx, he⟩] at h1
  have h1 := Res.ok.inj h1
  exact ⟨(congrArg KeyBag.Kek.method h1).symm, (congrArg KeyBag.Kek.wrapped h1).symm, (congrArg KeyBag.Kek.identifier h1).symm⟩

theorem wraps_unique {x : UInt8} (_hx : x = 6 ∨ x = 8) {kek key : Bytes} (h : WrapsKey (fun _ => List.reverse) kek (exKek 0 x).wrapped key) : key = List.replicate 32 x := by
  obtain ⟨bs, h1, h2, h3⟩ := h
  have h4 : (exKek 0 x).wrapped = keyWrap List.reverse defaultIv (List.replicate 4 (List.replicate 8 x)) := rfl
  rw [h4] at h3
  have := (KeyBag.keyWrap_inj (enc := fun _ => List.reverse) (dec := fun _ => List.reverse) (k := kek) Props.blockCipher_reverse (by rfl) (by rfl)
    (by intro b hb; rw [List.eq_of_mem_replicate hb, List.length_replicate]) h1 h3).2
  rw [← h2, ← this]
  rfl

theorem wraps {x : UInt8} (kek : Bytes) : WrapsKey (fun _ => List.reverse) kek (exKek 0 x).wrapped (List.replicate 32 x) :=
  ⟨List.replicate 4 (List.replicate 8 x), by intro b hb; rw [List.eq_of_mem_replicate hb, List.length_replicate], rfl, rfl⟩

theorem take_wrapped {x : UInt8} (hx : x = 6 ∨ x = 8) : (exKek 0 x).wrapped.take 40 = (exKek 0 x).wrapped :=
  List.take_of_length_le (by rw [(exKek_wf hx).wrapped]; exact Nat.le_refl _)

theorem entry_vb {e : BagEntry} (he : e ∈ vb) (ht : e.type = 3) : e.data = (exKek 0 6).encode := by
  unfold vb at he
  simp only [List.mem_cons, List.not_mem_nil, or_false] at he
  rcases he with rfl | rfl
  · cases ht
  · rfl

theorem entry_cb {e : BagEntry} (he : e ∈ cb) (ht : e.type = 2) : e.data = (exKek 0 8).encode := by
  unfold cb at he
  simp only [List.mem_cons, List.not_mem_nil, or_false] at he
  rcases he with rfl | rfl
  · cases ht
  · rfl

theorem length_of {o : KekFields} {n : Nat} (hm : o.method = 0) (h : secretBytes o.method = some n ∨ masterBytes o.method = some n) : n = 32 := by
  rw [hm] at h
  rcases h with h | h <;> exact (Option.some.inj h).symm

/-- any password will do, as the block cipher of the example has no key -/
theorem secrets : Secrets exPrims.prf (fun _ => List.reverse) exPrims.sha vb cb uuid (fun _ => True) (List.replicate 32 6) keys := by
  refine ⟨?_, ?_, ?_, ?_, ?_⟩
  · intro e he ht
    exact ⟨exKek 0 6, 32, ⟨exKek_wf (.inl rfl), entry_vb he ht⟩, rfl, by decide, by decide⟩
  · intro e he ht o ho pw _ x hx
    obtain ⟨h1, h2, _⟩ := kek_unique (.inl rfl) (entry_vb he ht) ho
    obtain ⟨h3, h4⟩ := hx
    have hl := length_of h1 (.inl h3)
    rw [hl, h2, take_wrapped (.inl rfl)] at h4
    exact wraps_unique (.inl rfl) h4
  · intro e he ht _
    exact ⟨exKek 0 8, 32, ⟨exKek_wf (.inr rfl), entry_cb he ht⟩, rfl, by decide⟩
  · intro e he ht _ o ho m hm
    obtain ⟨h1, h2, _⟩ := kek_unique (.inr rfl) (entry_cb he ht) ho
    obtain ⟨h3, h4⟩ := hm
    have hl := length_of h1 (.inr h3)
    rw [hl, h2, take_wrapped (.inr rfl)] at h4
    rw [wraps_unique (.inr rfl) h4]
    rfl
  · refine ⟨entry 2 (exKek 0 8).encode, by unfold cb; simp, rfl, rfl, exKek 0 8, ⟨exKek_wf (.inr rfl), rfl⟩, List.replicate 32 8, rfl, ?_⟩
    have := take_wrapped (x := 8) (.inr rfl)
    rw [List.length_replicate, this]
    exact wraps _

theorem isSecret (pw : Bytes) : IsSecret exPrims.prf (fun _ => List.reverse) vb pw := by
  refine ⟨entry 3 (exKek 0 6).encode, by unfold vb; simp, rfl, exKek 0 6, ⟨exKek_wf (.inl rfl), rfl⟩, List.replicate 32 6, rfl, ?_⟩
  have := take_wrapped (x := 6) (.inl rfl)
  rw [List.length_replicate, this]
  exact wraps _

/-- the volume opens; a password is set and the volume unlocked, then its directories can be listed -/
theorem lists : ∃ v s, VolumeOpen.volumeByIndex c (fun _ => true) image opened 0 = ok v ∧ v.state.isLocked = true ∧
    Volume.run exPrims v.state [.isLocked, .setUser (some [1, 2]), .unlock (List.replicate 32 0) (List.replicate 32 0)] = ok s ∧ s.isLocked = false ∧
    ∃ t, VolumeOpen.trees c image opened v s = ok (some t) ∧ ∀ identifier < 2 ^ 60, (∃ r ∈ files, IsOf identifier 3 r) →
        FsTree.directoryRecords t v.superblock.transaction identifier = FsTree.readAll Records.readDirectoryRecord (recordsOf files identifier 9) := by
  obtain ⟨f1, f2, f3, f4, f5, f6, f7, f8⟩ := superblock_facts
  obtain ⟨g1, g2, g3, g4, g5, g6, g7⟩ := b10_facts
  obtain ⟨n1, n2⟩ := newest_volume
  obtain ⟨v, h1, h2, h3⟩ := Props.c51_listing_partial (c := c) (vector := fun _ => true) (image := image) (k := opened) (d0 := superblock) (d := b10) (root := 8) (vs := []) (records := volumes)
    (mappings := mappings) (files := files) (plain := plain) (cb := cb) (vb := vb) (encX := encX) (S := fun _ => True) (keys := keys) (vk := List.replicate 32 6)
    (i := 0) exPrims_ok cipher blocks rfl superblock_valid rfl containerTree (by rw [number]; omega) (by rw [f6]; omega)
    (by rw [f6, f5]; intro r hr; rw [n2 r hr]; exact storedVolume) (by rw [f6, f5]; exact n1) (.inl ⟨g4, rfl⟩) rfl encryptedVolume (by rw [g7]; exact secrets) volumeTree
    (by rw [g3, g5]; exact newest_root.1)
    (by
      intro b d h
      unfold plain at h
      split at h
      · rename_i hb
        subst hb
        cases h
        exact storedEncrypted rfl lengths.2.2.2.2.2.1 e20_facts.1 e20_facts.2.1 e20_facts.2.2
      · cases h)
    (by
      intro b d h
      unfold plain at h
      split at h
      · rename_i hb
        subst hb
        exact ⟨by decide, by decide⟩
      · cases h)
    (by rw [g3, g5]; intro r hr; rw [newest_root.2 r hr]; exact holds)
  have ops : ∀ ops : List Volume.Op, (∀ q ∈ Props.secretsOf ops, True) := fun _ _ _ => trivial
  obtain ⟨s, h4, h5⟩ := (h3 [.isLocked, .setUser (some [1, 2])] (by intro o ho; simp only [List.mem_cons, List.not_mem_nil, or_false] at ho; rcases ho with rfl | rfl <;> simp [Props.OpOk]) (ops _) _ rfl).1
    [1, 2] (.inl rfl) (isSecret _) (List.replicate 32 0) (List.replicate 32 0) rfl rfl
  obtain ⟨t, h6⟩ := (h3 [.isLocked, .setUser (some [1, 2]), .unlock (List.replicate 32 0) (List.replicate 32 0)] (by
    intro o ho; simp only [List.mem_cons, List.not_mem_nil, or_false] at ho; rcases ho with rfl | rfl | rfl <;> simp [Props.OpOk]) (ops _) s h4).2 h5
  exact ⟨v, s, h1, h2, h4, h5, t, h6⟩

/-- the same container had its key bag not been understood: `c51_no_container_bag` applies -/
example : ∃ v, VolumeOpen.volumeByIndex c (fun _ => true) image { opened with keyBag := some none } 0 = ok v ∧ v.state.isLocked = true ∧
    ∀ p bk bm, ∃ s, Volume.unlock p bk bm v.state = ok (s, true) ∧ s.isLocked = false ∧ VolumeOpen.context s = none := by
  obtain ⟨f1, f2, f3, f4, f5, f6, f7, f8⟩ := superblock_facts
  obtain ⟨g1, g2, g3, g4, g5, g6, g7⟩ := b10_facts
  obtain ⟨n1, n2⟩ := newest_volume
  exact Props.c51_no_container_bag (c := c) (vector := fun _ => true) (image := image) (k := { opened with keyBag := some none }) (d0 := superblock) (d := b10) (root := 8) (vs := [])
    (records := volumes) (i := 0) blocks rfl superblock_valid rfl containerTree (by have := number; simpa [Container.numberOfVolumes] using (show 0 < Container.numberOfVolumes opened by omega)) (by rw [f6]; omega)
    (by rw [f6, f5]; intro r hr; rw [n2 r hr]; exact storedVolume) (by rw [f6, f5]; exact n1) (.inl ⟨g4, rfl⟩) rfl encryptedVolume.encrypted

end EncryptedExample
end Verif
