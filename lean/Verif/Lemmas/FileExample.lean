import Verif.Lemmas.EncryptedExample
import Verif.Props.C53
/-! The files of the example volumes, plain and encrypted, and what `c53_volume_partial` and `c53_encrypted_partial` say about them -/
namespace Verif
open Res Spec
namespace FileExample
open VolumeExample
open NameLookup
open NameLookup.DirectoryExample (entry docs readme format valid_entry)
open Name (utf8)
open Props (dataBlocks PathTo Readable HasContent Compares)

def dirA : List DirEntry := [entry docs 5]
def dirB : List DirEntry := [entry docs 8, entry readme 7]

theorem directory2 : Directory files format 2 dirA := by
  refine ⟨by decide +kernel, by decide +kernel, ?_, by unfold DirEntry.Before; decide +kernel⟩
  intro e he
  simp only [dirA, List.mem_cons, List.not_mem_nil, or_false] at he
  subst he
  exact valid_entry docs 5 (by decide) (by decide) (by decide) (by decide)

theorem directory5 : Directory files format 5 dirB := by
  refine ⟨by decide +kernel, by decide +kernel, ?_, by unfold DirEntry.Before; decide +kernel⟩
  intro e he
  simp only [dirB, List.mem_cons, List.not_mem_nil, or_false] at he
  rcases he with rfl | rfl
  · exact valid_entry docs 8 (by decide) (by decide) (by decide) (by decide)
  · exact valid_entry readme 7 (by decide) (by decide) (by decide) (by decide)

theorem docs_reads : Name.NameOf utf8 (Utf8.encode docs) docs ∧ Name.Reads utf8 (Utf8.encode docs) docs :=
  ⟨by show Name.Decodes utf8 (Name.stripNul _ _) docs []; rw [show Name.stripNul utf8.isNul (Utf8.encode docs) = Utf8.encode docs from by decide +kernel]; simpa using Name.decodes_utf8 docs (by decide) [],
    ⟨by decide, [], by simpa using Name.decodes_utf8 docs (by decide) [], .inl rfl⟩⟩

theorem readme_reads : Name.NameOf utf8 (Utf8.encode readme) readme ∧ Name.Reads utf8 (Utf8.encode readme) readme :=
  ⟨by show Name.Decodes utf8 (Name.stripNul _ _) readme []; rw [show Name.stripNul utf8.isNul (Utf8.encode readme) = Utf8.encode readme from by decide +kernel]; simpa using Name.decodes_utf8 readme (by decide) [],
    ⟨by decide, [], by simpa using Name.decodes_utf8 readme (by decide) [], .inl rfl⟩⟩

/-- "Docs", "readme" -/
def readmeNames : List Bytes := [Utf8.encode docs, Utf8.encode readme]
/-- "Docs", "Docs" -/
def innerNames : List Bytes := [Utf8.encode docs, Utf8.encode docs]

theorem readmePath : PathTo utf8 files format readmeNames (entry readme 7) := by
  obtain ⟨h1, q1⟩ := Props.c21_query utf8 format dirA (Utf8.encode docs) docs docs_reads.1 docs_reads.2 (by decide +kernel) (by decide +kernel) (by decide +kernel) (by decide +kernel) (by decide +kernel)
  obtain ⟨h2, q2⟩ := Props.c21_query utf8 format dirB (Utf8.encode readme) readme readme_reads.1 readme_reads.2 (by decide +kernel) (by decide +kernel) (by decide +kernel) (by decide +kernel) (by decide +kernel)
  refine ⟨⟨[entry docs 5], .step (by decide) directory2 (by simp [dirA]) q1 (by unfold SameName; decide +kernel)
    (.step (by decide) directory5 (by simp [dirB]) q2 (by unfold SameName; decide +kernel) (.here 7))⟩, ?_⟩
  intro n hn
  simp only [readmeNames, List.mem_cons, List.not_mem_nil, or_false] at hn
  rcases hn with rfl | rfl
  · exact Props.c22_utf8_name docs (by decide) (by decide)
  · exact Props.c22_utf8_name readme (by decide) (by decide)

theorem innerPath : PathTo utf8 files format innerNames (entry docs 8) := by
  obtain ⟨h1, q1⟩ := Props.c21_query utf8 format dirA (Utf8.encode docs) docs docs_reads.1 docs_reads.2 (by decide +kernel) (by decide +kernel) (by decide +kernel) (by decide +kernel) (by decide +kernel)
  obtain ⟨h2, q2⟩ := Props.c21_query utf8 format dirB (Utf8.encode docs) docs docs_reads.1 docs_reads.2 (by decide +kernel) (by decide +kernel) (by decide +kernel) (by decide +kernel) (by decide +kernel)
  refine ⟨⟨[entry docs 5], .step (by decide) directory2 (by simp [dirA]) q1 (by unfold SameName; decide +kernel)
    (.step (by decide) directory5 (by simp [dirB]) q2 (by unfold SameName; decide +kernel) (.here 8))⟩, ?_⟩
  intro n hn
  simp only [innerNames, List.mem_cons, List.not_mem_nil, or_false] at hn
  rcases hn with rfl | rfl <;> exact Props.c22_utf8_name docs (by decide) (by decide)

theorem readme_length : readmeContent.length = 9000 := by
  unfold readmeContent
  rw [List.length_append, List.length_append, List.length_replicate, List.length_replicate, List.length_replicate]

/-- the blocks of the two files, as they are before encryption -/
def plainOf (_ b : Nat) : Bytes := if b = 60 then List.replicate 4096 0x61 else if b = 62 then List.replicate 4096 0x62 else b63

/-- an image with these, encrypted or not -/
def HasBlocks (image : Nat → Option Bytes) (enc : Option (Bytes → Bytes → Bytes)) : Prop :=
  Stored image 4096 512 enc 100 60 (plainOf 100 60) ∧ Stored image 4096 512 enc 7 62 (plainOf 7 62) ∧ Stored image 4096 512 enc 63 63 (plainOf 63 63)

theorem readme_extents : recordsOf files 7 8 = readmeExtents.map (Mapping.record 7) ∧ recordsOf files 8 8 = [] ∧ recordsOf files 17 8 = innerExtents.map (Mapping.record 17) := by decide +kernel

theorem readme_stream {image : Nat → Option Bytes} {enc : Option (Bytes → Bytes → Bytes)} (h : HasBlocks image enc) : StreamIn files image enc 7 true readmeContent := by
  refine ⟨by decide, by decide, readmeExtents, plainOf, readme_extents.1, ?_, ?_, by decide, ?_, ?_, ?_⟩
  · intro m hm
    simp only [readmeExtents, List.mem_cons, List.not_mem_nil, or_false] at hm
    rcases hm with rfl | rfl | rfl <;> exact ⟨⟨by decide, by decide, by decide, by decide, by decide, by decide⟩, by decide⟩
  · simp [readmeExtents, Contiguous]
  · intro m hm hns k hk
    simp only [readmeExtents, List.mem_cons, List.not_mem_nil, or_false] at hm
    rcases hm with rfl | rfl | rfl
    · have : k = 0 := by simp only at hk; omega
      subst this
      exact ⟨fun _ => by decide, h.1⟩
    · simp at hns
    · have : k = 0 := by simp only at hk; omega
      subst this
      exact ⟨fun _ => by decide, h.2.1⟩
  · rw [readme_length]
    decide
  · intro i hi
    have hl := readme_length
    rw [hl] at hi
    have hg : readmeContent[i]? = some (readmeContent[i]'(by rw [hl]; exact hi)) := List.getElem?_eq_getElem _
    by_cases h1 : i < 4096
    · refine ⟨_, by simp only [readmeExtents, List.map_cons]; exact List.mem_cons_self, by simp, by simpa using h1, ?_⟩
      rw [if_neg (by simp)]
      simp only [Nat.sub_zero, Nat.div_eq_of_lt h1, Nat.mod_eq_of_lt h1, Nat.add_zero]
      rw [← hg]
      unfold readmeContent plainOf
      rw [if_pos rfl, List.getElem?_append_left (by rw [List.length_replicate]; exact h1)]
    · by_cases h2 : i < 8192
      · refine ⟨_, by simp only [readmeExtents, List.map_cons]; exact List.mem_cons_of_mem _ List.mem_cons_self, by simp only; omega, by simp only; omega, ?_⟩
        rw [if_pos ⟨rfl, rfl⟩]
        apply Option.some.inj
        rw [← hg]
        unfold readmeContent
        rw [List.getElem?_append_right (by rw [List.length_replicate]; omega), List.getElem?_append_left (by simp only [List.length_replicate]; omega), List.length_replicate, List.getElem?_replicate, if_pos (by omega)]
      · refine ⟨_, by simp only [readmeExtents, List.map_cons]; exact List.mem_cons_of_mem _ (List.mem_cons_of_mem _ List.mem_cons_self), by simp only; omega, by simp only; omega, ?_⟩
        rw [if_neg (by simp)]
        simp only
        rw [Nat.div_eq_of_lt (by omega), Nat.mod_eq_of_lt (by omega), ← hg]
        unfold readmeContent plainOf
        rw [List.getElem?_append_right (by rw [List.length_replicate]; omega), List.getElem?_append_right (by simp only [List.length_replicate]; omega)]
        simp only [List.length_replicate]
        rw [if_neg (by decide), if_pos trivial, List.getElem?_replicate, List.getElem?_replicate, if_pos (by omega), if_pos (by omega)]

theorem fork_facts : innerFork.length < 4096 ∧ b63 = innerFork ++ List.replicate (4096 - innerFork.length) 0x63 := ⟨by decide +kernel, by unfold b63; rfl⟩

theorem fork_stream {image : Nat → Option Bytes} {enc : Option (Bytes → Bytes → Bytes)} (h : HasBlocks image enc) : StreamIn files image enc 17 false innerFork := by
  have hk := fork_facts
  refine ⟨by decide, by decide, innerExtents, plainOf, readme_extents.2.2, ?_, ?_, by decide, ?_, ?_, ?_⟩
  · intro m hm
    simp only [innerExtents, List.mem_cons, List.not_mem_nil, or_false] at hm
    subst hm
    exact ⟨⟨by decide, by decide, by decide, by decide, by decide, by decide⟩, by decide⟩
  · simp [innerExtents, Contiguous]
  · intro m hm hns k hk
    simp only [innerExtents, List.mem_cons, List.not_mem_nil, or_false] at hm
    subst hm
    have : k = 0 := by simp only at hk; omega
    subst this
    exact ⟨fun _ => by decide, h.2.2⟩
  · show innerFork.length ≤ 4096
    omega
  · intro i hi
    have h1 : i < 4096 := by omega
    refine ⟨_, by simp only [innerExtents, List.map_cons]; exact List.mem_cons_self, by simp, by simpa using h1, ?_⟩
    rw [if_neg (by simp)]
    simp only [Nat.sub_zero, Nat.div_eq_of_lt h1, Nat.mod_eq_of_lt h1, Nat.add_zero]
    unfold plainOf
    rw [if_neg (by decide), if_neg (by decide), hk.2, List.getElem?_append_left hi, List.getElem?_eq_getElem hi]

theorem readme_in {image : Nat → Option Bytes} {enc : Option (Bytes → Bytes → Bytes)} (h : HasBlocks image enc) : FileIn files image enc readmeFile 7 := by
  refine ⟨⟨?_, by unfold readmeFile; simp, by decide⟩, by decide, ⟨(FsTree.TreeExample.key 3 7 [], inode 5 7 0x200 0x81a4 (some [nameField readme, sizeField 9000])), by decide +kernel, by decide +kernel, _,
    some [nameField readme, sizeField 9000], rfl, rfl, ?_,
    by decide +kernel, by decide +kernel, by decide +kernel, by decide +kernel⟩, by decide +kernel, by decide +kernel, ?_, _, readme_stream h⟩
  · intro x hx
    simp only [readmeFile, List.mem_cons, List.not_mem_nil, or_false] at hx
    subst hx
    exact ⟨by decide, by decide⟩
  · intro l hl
    rw [Option.mem_some_iff] at hl
    subst hl
    refine ⟨by decide, ?_, by decide⟩
    intro x hx
    simp only [List.mem_cons, List.not_mem_nil, or_false] at hx
    rcases hx with rfl | rfl
    · exact ⟨by decide, by decide, by decide +kernel, fun h => (by cases h), fun h => (by cases h)⟩
    · exact ⟨by decide, by decide, by decide, fun _ => by decide, fun h => by cases h⟩
  · intro x hx s hs
    simp only [readmeFile, List.mem_cons, List.not_mem_nil, or_false] at hx
    subst hx
    cases hs

theorem inner_in {image : Nat → Option Bytes} {enc : Option (Bytes → Bytes → Bytes)} (h : HasBlocks image enc) : FileIn files image enc innerFile 8 := by
  refine ⟨⟨?_, ?_, by decide⟩, by decide, ⟨(FsTree.TreeExample.key 3 8 [], inode 5 8 0 0x81a4 (some [nameField docs])), by decide +kernel, by decide +kernel, _, some [nameField docs], rfl, rfl, ?_,
    by decide +kernel, by decide +kernel, by decide +kernel, by decide +kernel⟩, by decide +kernel, by decide +kernel, ?_, [], ?_⟩
  · intro x hx
    simp only [innerFile, List.mem_cons, List.not_mem_nil, or_false] at hx
    rcases hx with rfl | rfl
    · exact ⟨by decide +kernel, by decide, by have := fork_facts.1; show innerFork.length < _; omega, rfl⟩
    · exact ⟨by decide +kernel, by decide⟩
  · unfold innerFile
    decide +kernel
  · intro l hl
    rw [Option.mem_some_iff] at hl
    subst hl
    refine ⟨by decide, ?_, by simp⟩
    intro x hx
    rw [List.mem_singleton] at hx
    subst hx
    exact ⟨by decide, by decide, by decide +kernel, fun h => (by cases h), fun h => (by cases h)⟩
  · intro x hx s hs
    simp only [innerFile, List.mem_cons, List.not_mem_nil, or_false] at hx
    rcases hx with rfl | rfl
    · rw [Option.mem_some_iff] at hs
      subst hs
      exact ⟨by have := fork_facts.1; show innerFork.length < _; omega, fork_stream h⟩
    · cases hs
  · exact ⟨by decide, by decide, [], plainOf, readme_extents.2.1, by simp, trivial, by decide, by simp, by simp, by simp⟩

/-- the decompressors: the built-in one for zlib, none for LZVN -/
def codec : Codec := ⟨builtinZlib (fun _ _ => []), fun _ _ => .ok []⟩
theorem codec_ok : Compressed.CodecOk codec := Props.c10_builtin_bounded (fun _ _ => []) (fun _ _ => []) (fun _ _ => Nat.zero_le _) (fun _ _ => Nat.zero_le _)

theorem readme_content {image : Nat → Option Bytes} {enc : Option (Bytes → Bytes → Bytes)} (h : HasBlocks image enc) : HasContent codec files image enc readmeFile 7 readmeContent := by
  have hl := readme_length
  refine .inl ⟨?_, by omega, readme_stream h⟩
  rw [hl]
  decide +kernel

theorem inner_content {image : Nat → Option Bytes} {enc : Option (Bytes → Bytes → Bytes)} : HasContent codec files image enc innerFile 8 innerContent := by
  refine .inr ⟨.zlib, innerFork, by decide +kernel, by decide, [innerChunk], ?_, ?_⟩
  · rw [if_pos rfl]
    exact .zlib _ _ _ _ List.length_replicate rfl rfl (by decide) (by decide) (by decide) (by have := fork_facts.1; show innerFork.length < _; omega)
  · rw [if_pos rfl]
    refine ⟨by decide, ?_⟩
    intro i b hb
    have : i = 0 := by
      have := (List.getElem?_eq_some_iff.1 hb).1
      simpa using this
    subst this
    cases hb
    exact ⟨innerContent, by decide +kernel, by decide, by decide⟩

/-- comparison of names -/
def compare (a b : Bytes) : Res Bool := ok (decide (a = b ++ [0]))
theorem compares (f : StoredFile) : Compares compare f := by
  intro x _ s
  unfold compare
  simp

theorem plain60 : plainOf 100 60 = b60 := by unfold b60 plainOf; rfl
theorem plain62 : plainOf 7 62 = b62 := by unfold b62 plainOf; rfl

theorem plain_blocks : HasBlocks (dataBlocks image) none := by
  obtain ⟨_, _, _, _, _, _, _, _, _, _, _, h1, h2, h3⟩ := lengths
  refine ⟨⟨by rw [plain60]; exact h1, b60, ?_, plain60.symm⟩, ⟨by rw [plain62]; exact h2, b62, ?_, plain62.symm⟩, ⟨h3, b63, ?_, rfl⟩⟩
  · unfold dataBlocks
    rw [show image 60 = some b60 from rfl]
    exact if_pos ⟨h1, by decide⟩
  · unfold dataBlocks
    rw [show image 62 = some b62 from rfl]
    exact if_pos ⟨h2, by decide⟩
  · unfold dataBlocks
    rw [show image 63 = some b63 from rfl]
    exact if_pos ⟨h3, by decide⟩

theorem types : ∀ r ∈ files, 3 ≤ fsType r.1 := by decide +kernel
theorem hasRoot : ∃ r ∈ files, IsOf 2 3 r := by decide +kernel
theorem folds : Apsb.incompatible VolumeExample.b10 % 2 = 1 ∧ Apsb.incompatible EncryptedExample.b10 % 2 = 1 := by decide +kernel

theorem plain_readable {names : List Bytes} {e : DirEntry} (hp : PathTo utf8 files format names e) (hlen : 2 ≤ (pathString 0x2f true false names).length)
    (hmax : (pathString 0x2f true false names).length < 2 ^ 63) {f : StoredFile} (hid : e.identifier = f.identifier) {stream : Nat} (hf : FileIn files (dataBlocks image) none f stream) {content : Bytes}
    (hcon : HasContent codec files (dataBlocks image) none f stream content) (p : KeyBag.Prims) (ops : List Volume.Op) :
    ∃ v, VolumeOpen.volumeByIndex ⟨fun _ _ d => d, none⟩ (fun _ => true) image opened 0 = ok v ∧
      ∀ s, Volume.run p v.state ops = ok s → ∃ F, FileRead.files ⟨fun _ _ d => d, none⟩ image opened v s = ok F ∧
        Readable utf8 utf8 0x2f compare codec F (pathString 0x2f true false names) (recordOf format e) f content := by
  obtain ⟨_, _, _, _, _, _, _, f8, _, f10, f11, f12, _, _⟩ := superblock_facts
  obtain ⟨g1, g2, g3, g4, g5, g6⟩ := b10_facts
  obtain ⟨n1, n2⟩ := newest_volume (oid := 1026) (block := 10) (by decide)
  refine Props.c53_volume_partial (k := opened) (d0 := superblock) (d := b10) (root := 8) (vs := []) (records := volumes) (mappings := mappings) (files := files) (index := 0) blocks rfl superblock_valid rfl
    containerTree ?_ ?_ ?_ ?_ (.inl ⟨g4, rfl⟩) (.inl rfl) volumeTree ?_ ?_ readsUtf8_utf8 utf8 Props.utf8_separator types hasRoot ⟨fun _ => folds.1, fun _ => rfl⟩ hp true false hlen hmax hid hf codec_ok hcon
    (compares f) p ops
  · rw [number]; omega
  · rw [f10]; omega
  · rw [f10, f8]
    intro r hr
    rw [n2 r hr]
    exact storedVolume rfl (by omega) lengths.2.2.2.1 g1 g2 g3
  · rw [f10, f8]; exact n1
  · rw [g3, g5]; exact newest_root.1
  · rw [g3, g5]
    intro r hr
    rw [newest_root.2 r hr]
    exact holds

/-- "/Docs/readme" has its contents -/
example (p : KeyBag.Prims) (ops : List Volume.Op) := plain_readable readmePath (by decide +kernel) (by decide +kernel) rfl (readme_in plain_blocks) (readme_content plain_blocks) p ops
/-- and so has the other file -/
example (p : KeyBag.Prims) (ops : List Volume.Op) := plain_readable innerPath (by decide +kernel) (by decide +kernel) rfl (inner_in plain_blocks) inner_content p ops

namespace Encrypted
open EncryptedExample

theorem b60_facts : e60 = encrypt keys 100 b60 ∧ (∀ s ∈ sectorsOf b60, s.length = 512) ∧ (sectorsOf b60).flatten = b60 := ⟨by unfold e60; rfl, by decide +kernel, eq_of_beq (by decide +kernel)⟩
theorem b62_facts : e62 = encrypt keys 7 b62 ∧ (∀ s ∈ sectorsOf b62, s.length = 512) ∧ (sectorsOf b62).flatten = b62 := ⟨by unfold e62; rfl, by decide +kernel, eq_of_beq (by decide +kernel)⟩
theorem b63_facts : e63 = encrypt keys 63 b63 ∧ (∀ s ∈ sectorsOf b63, s.length = 512) ∧ (sectorsOf b63).flatten = b63 := ⟨by unfold e63; rfl, by decide +kernel, eq_of_beq (by decide +kernel)⟩

theorem stored_block {id b : Nat} {d e : Bytes} (h : EncryptedExample.image b = some e) (hl : e.length = 4096) (hb : (b + 1) * 4096 < 2 ^ 63) (hd : d.length = 4096)
    (he : e = encrypt keys id d ∧ (∀ s ∈ sectorsOf d, s.length = 512) ∧ (sectorsOf d).flatten = d) : Stored (dataBlocks EncryptedExample.image) 4096 512 (some (encX keys)) id b d := by
  refine ⟨hd, e, ?_, sectorsOf d, he.2.1, he.2.2, by simp [sectorsOf], ?_⟩
  · unfold dataBlocks
    rw [h]
    exact if_pos ⟨hl, hb⟩
  · rw [he.1]
    simp [encrypt, sectorsOf]

theorem encrypted_blocks : HasBlocks (dataBlocks EncryptedExample.image) (some (encX keys)) := by
  obtain ⟨_, _, _, _, _, _, _, _, _, _, h1, h2, h3⟩ := EncryptedExample.lengths
  obtain ⟨_, _, _, _, _, _, _, _, _, _, _, g1, g2, g3⟩ := VolumeExample.lengths
  have e63 : plainOf 63 63 = b63 := by unfold plainOf; rfl
  unfold HasBlocks
  rw [plain60, plain62, e63]
  exact ⟨stored_block rfl h1 (by decide) g1 b60_facts, stored_block rfl h2 (by decide) g2 b62_facts, stored_block rfl h3 (by decide) g3 b63_facts⟩

theorem readable {names : List Bytes} {e : DirEntry} (hp : PathTo utf8 files format names e) (hlen : 2 ≤ (pathString 0x2f true false names).length)
    (hmax : (pathString 0x2f true false names).length < 2 ^ 63) {f : StoredFile} (hid : e.identifier = f.identifier) {stream : Nat}
    (hf : FileIn files (dataBlocks EncryptedExample.image) (some (encX keys)) f stream) {content : Bytes} (hcon : HasContent codec files (dataBlocks EncryptedExample.image) (some (encX keys)) f stream content) :
    ∃ v s F, VolumeOpen.volumeByIndex c (fun _ => true) EncryptedExample.image EncryptedExample.opened 0 = ok v ∧
      Volume.run Props.exPrims v.state [.setUser (some [1, 2]), .unlock (List.replicate 32 0) (List.replicate 32 0)] = ok s ∧ s.isLocked = false ∧
      FileRead.files c EncryptedExample.image EncryptedExample.opened v s = ok F ∧
        Readable utf8 utf8 0x2f compare codec F (pathString 0x2f true false names) (recordOf format e) f content := by
  obtain ⟨f1, f2, f3, f4, f5, f6, f7, f8⟩ := EncryptedExample.superblock_facts
  obtain ⟨g1, g2, g3, g4, g5, g6, g7⟩ := EncryptedExample.b10_facts
  obtain ⟨n1, n2⟩ := EncryptedExample.newest_volume
  obtain ⟨v, h1, h2, h3⟩ := Props.c53_encrypted_partial (cx := c) (vector := fun _ => true) (img := EncryptedExample.image) (k := EncryptedExample.opened) (d0 := EncryptedExample.superblock)
    (d := EncryptedExample.b10) (root := 8) (vs := []) (records := EncryptedExample.volumes)
    (mappings := mappings) (files := files) (plain := EncryptedExample.plain) (cb := cb) (vb := vb) (encX := encX) (S := fun _ => True) (keys := keys) (vk := List.replicate 32 6)
    (index := 0) Props.exPrims_ok cipher EncryptedExample.blocks rfl EncryptedExample.superblock_valid rfl EncryptedExample.containerTree (by rw [EncryptedExample.number]; omega) (by rw [f6]; omega)
    (by rw [f6, f5]; intro r hr; rw [n2 r hr]; exact EncryptedExample.storedVolume) (by rw [f6, f5]; exact n1) (.inl ⟨g4, rfl⟩) rfl encryptedVolume (by rw [g7]; exact secrets) EncryptedExample.volumeTree
    (by rw [g3, g5]; exact newest_root.1)
    (by
      intro b d h
      unfold EncryptedExample.plain at h
      split at h
      · rename_i hb
        subst hb
        cases h
        exact storedEncrypted rfl EncryptedExample.lengths.2.2.2.2.2.1 e20_facts.1 e20_facts.2.1 e20_facts.2.2
      · cases h)
    (by
      intro b d h
      unfold EncryptedExample.plain at h
      split at h
      · rename_i hb
        subst hb
        exact ⟨by decide, by decide⟩
      · cases h)
    (by rw [g3, g5]; intro r hr; rw [newest_root.2 r hr]; exact EncryptedExample.holds) readsUtf8_utf8 utf8 Props.utf8_separator types hasRoot ⟨fun _ => folds.2, fun _ => rfl⟩ hp true false hlen hmax hid hf
    codec_ok hcon (compares f)
  have ops : ∀ ops : List Volume.Op, (∀ q ∈ Props.secretsOf ops, True) := fun _ _ _ => trivial
  obtain ⟨s, h4, h5⟩ := (h3 [.setUser (some [1, 2])] (by intro o ho; simp only [List.mem_cons, List.not_mem_nil, or_false] at ho; subst ho; simp [Props.OpOk]) (ops _) _ rfl).1
    [1, 2] (.inl rfl) (isSecret _) (List.replicate 32 0) (List.replicate 32 0) rfl rfl
  obtain ⟨F, h6⟩ := (h3 [.setUser (some [1, 2]), .unlock (List.replicate 32 0) (List.replicate 32 0)] (by
    intro o ho; simp only [List.mem_cons, List.not_mem_nil, or_false] at ho; rcases ho with rfl | rfl <;> simp [Props.OpOk]) (ops _) s h4).2 h5
  exact ⟨v, s, F, h1, h4, h5, h6⟩

example := readable readmePath (by decide +kernel) (by decide +kernel) rfl (readme_in encrypted_blocks) (readme_content encrypted_blocks)
example := readable innerPath (by decide +kernel) (by decide +kernel) rfl (inner_in encrypted_blocks) inner_content

end Encrypted
end FileExample
end Verif
