import Verif.Props.C56Volumes
import Verif.Props.C55Examples
import Verif.Lemmas.FileExample
/-!
# C56: the example volumes, plain and encrypted, as programs see them when they are mounted
-/
namespace Verif.Props
open Verif Res Spec BTree FsTree
open Verif.FileRead (Files)
open Verif.PathString (utf8Codec lawful_utf8Codec)
open Verif.Mount (Mounted)
open Verif.Spec.Fuse (Request)
open Verif.NameLookup.DirectoryExample (entry docs readme format)
open Verif.FsTree.TreeExample (key)
open Verif.VolumeExample (files nameField sizeField readmeFile innerFile readmeContent innerContent)
open HierarchyExample (una readsNames dirs reach hierarchy)
open Verif.FileExample (HasBlocks)

namespace MountedVolume

def time : Nat := 0x0707070707070707

def fixed (parent stream flags mode : Nat) : InodeFixed :=
  { parent, dataStream := stream, created := time, modified := time, changed := time, accessed := time, flags, links := 0, protectionClass := 0, generation := 0, bsdFlags := 0, owner := 0, group := 0, mode,
    padding := List.replicate 10 0 }

def root : VolumeFile := { identifier := 2, fixed := fixed 1 2 0 0x41ed, name := [0x72, 0x6f, 0x6f, 0x74], attributes := [], size := 0, content := none }
def directory : VolumeFile := { identifier := 5, fixed := fixed 2 5 0 0x41ed, name := docs, attributes := [], size := 0, content := none }
def file : VolumeFile := { identifier := 7, fixed := fixed 5 7 0x200 0x81a4, name := readme, attributes := readmeFile.attributes, size := 9000, content := some readmeContent }
def inner : VolumeFile := { identifier := 8, fixed := fixed 5 8 0 0x81a4, name := docs, attributes := innerFile.attributes, size := 0, content := some innerContent }

def view : View where
  format := format
  dirs := dirs
  file i := if i = 2 then root else if i = 5 then directory else if i = 7 then file else inner
  text := shownName

def fieldsOf (i : Nat) : List XField := if i = 7 then [nameField readme, sizeField 9000] else if i = 2 then [nameField root.name] else [nameField docs]

theorem reached {i : Nat} (h : Reach dirs i) : i ∈ [2, 5, 7, 8] := by
  rcases reach h with rfl | rfl | rfl | rfl <;> decide

theorem facts : ∀ i ∈ [2, 5, 7, 8], (view.file i).identifier = i ∧ (i ≠ 2 → 2 < i) ∧
    (key 3 i [], inodeValue (view.file i).fixed.bytes (some (fieldsOf i))) ∈ files ∧
    files.Pairwise (fun a b => ¬ (IsOf i 3 a ∧ IsOf i 3 b)) ∧ (view.file i).size < 2 ^ 63 ∧
    (view.file i).name ≠ [] ∧ (∀ x ∈ (view.file i).name, Scalar x ∧ x ≠ 0) ∧ (Utf8.encode (view.file i).name).length < 65535 ∧ (view.file i).fixed.dataStream = i := by decide +kernel

theorem sizes : (view.file 2).stored.size? = some 0 ∧ (view.file 5).stored.size? = some 0 ∧ (view.file 7).stored.size? = some 9000 ∧ (view.file 8).stored.size? = some 5 := by decide +kernel

theorem fields_ok : ∀ i ∈ [2, 5, 7, 8], (∀ x ∈ fieldsOf i, InodeField x) ∧ (fieldsOf i).Pairwise (fun x y => y.type ≠ x.type) ∧ (fieldsOf i).length < 65536 ∧
    (inodeValue (view.file i).fixed.bytes (some (fieldsOf i))).length < 2 ^ 63 ∧ (view.file i).fixed.bytes.length = 92 ∧
    xvalue (fieldsOf i) 4 = some (storedName (view.file i).name) ∧ ((xvalue (fieldsOf i) 8).map (fun b => leNat (b.take 8))).getD 0 = (view.file i).size ∧
    field (view.file i).fixed.bytes 8 8 = (view.file i).fixed.dataStream ∧ field (view.file i).fixed.bytes 48 8 = (view.file i).fixed.flags := by unfold InodeField; decide +kernel

theorem fits : ∀ i ∈ [2, 5, 7, 8], (view.file i).fixed.Fits := by
  intro i hi
  simp only [List.mem_cons, List.not_mem_nil, or_false] at hi
  rcases hi with rfl | rfl | rfl | rfl <;> exact ⟨by decide, by decide, by decide, by decide, by decide, by decide, by decide, by decide, by decide, by decide, by decide, by decide⟩

variable {image : Nat → Option Bytes} {enc : Option (Bytes → Bytes → Bytes)}

theorem empty_in {i : Nat} (hi : i = 2 ∨ i = 5) : FileIn files image enc (view.file i).stored (view.file i).fixed.dataStream := by
  have hm : i ∈ [2, 5, 7, 8] := by rcases hi with rfl | rfl <;> decide
  obtain ⟨f1, f2, f3, f4, f5, f6, f7, f8, f9⟩ := facts i hm
  obtain ⟨g1, g2, g3, g4, g5, g6, g7, g8, g9⟩ := fields_ok i hm
  have ha : (view.file i).attributes = [] := by rcases hi with rfl | rfl <;> rfl
  have hs : (view.file i).stored.sparse = false ∧ (view.file i).fixed.flags = 0 := by rcases hi with rfl | rfl <;> exact ⟨rfl, rfl⟩
  refine ⟨⟨?_, ?_, ?_⟩, ?_, ⟨_, f3, ?_, _, some (fieldsOf i), rfl, g5, ?_, g4, g8, ?_, g7⟩, ?_, ?_, ?_, [], ?_⟩
  · intro x hx
    rw [show (view.file i).stored.attributes = [] from ha] at hx
    cases hx
  · rw [show (view.file i).stored.attributes = [] from ha]
    exact .nil
  · exact Nat.lt_of_lt_of_le f5 (by decide)
  · show (view.file i).identifier < _
    rw [f1]
    rcases hi with rfl | rfl <;> decide
  · show key 3 i [] = toLE 8 (3 * 2 ^ 60 + (view.file i).identifier)
    rw [f1]
    unfold key
    rw [List.append_nil]
  · intro l hl
    rw [Option.mem_some_iff] at hl
    subst hl
    exact ⟨g3, g1, g2⟩
  · rw [g9, hs.1, hs.2]
    decide
  · show files.Pairwise (fun a b => ¬ (IsOf (view.file i).identifier 3 a ∧ IsOf (view.file i).identifier 3 b))
    rw [f1]
    exact f4
  · show recordsOf files (view.file i).identifier 4 = (view.file i).attributes.map (·.record (view.file i).identifier)
    rw [f1, ha]
    rcases hi with rfl | rfl <;> decide +kernel
  · intro x hx
    rw [show (view.file i).stored.attributes = [] from ha] at hx
    cases hx
  · rw [f9, hs.1]
    exact ⟨by rcases hi with rfl | rfl <;> decide, by rcases hi with rfl | rfl <;> decide, [], fun _ _ => [], by rcases hi with rfl | rfl <;> decide +kernel, by simp, trivial, by decide, by simp, by simp, by simp⟩

theorem stored7 : (view.file 7).stored = readmeFile := by
  have : decide ((view.file 7).fixed.flags / 0x200 % 2 ≠ 0) = true := by decide
  show StoredFile.mk _ _ _ _ = _
  rw [this]
  rfl
theorem stored8 : (view.file 8).stored = innerFile := by
  have : decide ((view.file 8).fixed.flags / 0x200 % 2 ≠ 0) = false := by decide
  show StoredFile.mk _ _ _ _ = _
  rw [this]
  rfl

theorem fileIn (h : HasBlocks image enc) {i : Nat} (hi : i ∈ [2, 5, 7, 8]) : FileIn files image enc (view.file i).stored (view.file i).fixed.dataStream := by
  simp only [List.mem_cons, List.not_mem_nil, or_false] at hi
  rcases hi with rfl | rfl | rfl | rfl
  · exact empty_in (.inl rfl)
  · exact empty_in (.inr rfl)
  · rw [stored7]
    exact FileExample.readme_in h
  · rw [stored8]
    exact FileExample.inner_in h

theorem findable {name : List Nat} (h : name ∈ [docs, readme]) : Findable format name := by
  have h1 : ∀ name ∈ [docs, readme], (∀ c ∈ name, excluded c = false) ∧ InOrder (name.flatMap Unicode.decomposition) ∧
    InOrder (((name.flatMap Unicode.decomposition).flatMap Unicode.caseFolding).flatMap Unicode.decomposition) ∧ hashOf format name ≠ 0 := by decide +kernel
  exact ⟨(h1 name h).1, (h1 name h).2.1, fun _ => (h1 name h).2.2.1, fun _ => (h1 name h).2.2.2⟩

theorem has (h : HasBlocks image enc) : VolumeHas FileExample.codec files image enc view where
  hierarchy := hierarchy
  unique i hr := (show ∀ i ∈ [2, 5, 7, 8], (dirs i).Pairwise (fun a b => ¬ SameName true a.name b.name) by unfold SameName; decide +kernel) i (reached hr)
  findable i hr e he := findable ((show ∀ i ∈ [2, 5, 7, 8], ∀ e ∈ dirs i, e.name ∈ [docs, readme] by decide) i (reached hr) e he)
  types := FileExample.types
  identifier i hr := (facts i (reached hr)).1
  reserved i hr := (facts i (reached hr)).2.1
  parent i hr h2 := by
    have h5 : Reach dirs 5 := .step (e := entry docs 5) .root (by simp [dirs])
    rcases reach hr with rfl | rfl | rfl | rfl
    · exact absurd rfl h2
    · exact .root
    · exact h5
    · exact h5
  inode i hr := by
    obtain ⟨g1, g2, g3, g4, g5, g6, g7, g8, g9⟩ := fields_ok i (reached hr)
    refine ⟨_, (facts i (reached hr)).2.2.1, ?_, fits i (reached hr), some (fieldsOf i), rfl, ?_, g4, g6, g7⟩
    · show key 3 i [] = toLE 8 (3 * 2 ^ 60 + (view.file i).identifier)
      rw [(facts i (reached hr)).1]
      unfold key
      rw [List.append_nil]
    · intro l hl
      rw [Option.mem_some_iff] at hl
      subst hl
      exact ⟨g3, g1, g2⟩
  file i hr := fileIn h (reached hr)
  size i hr := by
    obtain ⟨s2, s5, s7, s8⟩ := sizes
    rcases reach hr with rfl | rfl | rfl | rfl
    · exact ⟨0, s2, by decide⟩
    · exact ⟨0, s5, by decide⟩
    · exact ⟨9000, s7, by decide⟩
    · exact ⟨5, s8, by decide⟩
  named i hr := by
    obtain ⟨_, _, _, _, _, h1, h2, h3, _⟩ := facts i (reached hr)
    exact ⟨h1, h2, h3⟩
  attributes i hr := by
    rcases reach hr with rfl | rfl | rfl | rfl
    · intro x hx; cases hx
    · intro x hx; cases hx
    · intro x hx
      rw [show (view.file 7).attributes = [{ name := [0x74, 0x61, 0x67], value := [1, 2] }] from rfl, List.mem_singleton] at hx
      subst hx
      exact ⟨[0x74, 0x61, 0x67], by decide, by decide⟩
    · intro x hx
      have hn : x.name = resourceFork ∨ x.name = decmpfs := by
        have hx : x ∈ innerFile.attributes := hx
        simp only [innerFile, List.mem_cons, List.not_mem_nil, or_false] at hx
        rcases hx with rfl | rfl
        · exact .inl rfl
        · exact .inr rfl
      rcases hn with hn | hn <;> rw [hn]
      · exact ⟨resourceFork.map (·.toNat), by decide +kernel, by decide +kernel⟩
      · exact ⟨decmpfs.map (·.toNat), by decide +kernel, by decide +kernel⟩
  content i hr content hc := by
    rcases reach hr with rfl | rfl | rfl | rfl
    · cases hc
    · cases hc
    · have : readmeContent = content := Option.some.inj hc
      subst this
      rw [stored7]
      exact FileExample.readme_content h
    · have : innerContent = content := Option.some.inj hc
      subst this
      rw [stored8]
      exact FileExample.inner_content

/-- the libraries that a mounted volume uses -/
def mounted (F : Files) : Mounted := { files := F, text := utf8Codec, una, compare := FileExample.compare, unpack := FileExample.codec, junk := List.replicate 65536 0 }

theorem libraries (F : Files) : Libraries (mounted F) := ⟨lawful_utf8Codec, fun _ => rfl, readsNames, FileExample.codec_ok, List.length_replicate⟩

theorem component {name : List Nat} (h : name ∈ [docs, readme]) : Component format name :=
  ⟨(show ∀ n ∈ [docs, readme], n ≠ [] by decide) name h, (show ∀ n ∈ [docs, readme], ∀ c ∈ n, Scalar c ∧ c ≠ 0 ∧ c ≠ 0x2f by decide) name h, findable h⟩

/-- "/Docs/readme" -/
def readmePath : Bytes := 0x2f :: Utf8.encode docs ++ 0x2f :: Utf8.encode readme

theorem readmeFound : view.Path readmePath (some 7) :=
  ⟨[docs, readme], by decide +kernel, by decide +kernel, fun n hn => component (by simp at hn; simp [hn]),
    .step (e := entry docs 5) (by simp [view, dirs]) (.step (e := entry readme 7) (by simp [view, dirs, entry]) (.here 7))⟩

theorem rootFound : view.Path [0x2f] (some 2) := ⟨[], rfl, by decide, by simp, .here 2⟩

/-- the root directory is listed, a file is read twice -/
def requests : List Request := [.opendir [0x2f], .readdir 0, .open_ readmePath 0, .read 1 100 4000, .getattr readmePath, .read 1 5000 8000, .release 1]

theorem asked : ∀ r ∈ requests, Asked view r := by
  intro r hr
  simp only [requests, List.mem_cons, List.not_mem_nil, or_false] at hr
  rcases hr with rfl | rfl | rfl | rfl | rfl | rfl | rfl
  · exact ⟨fun p h => by cases h; exact ⟨_, rootFound⟩, fun _ _ _ h => by cases h⟩
  · exact ⟨fun p h => (by cases h), fun _ _ _ h => by cases h⟩
  · exact ⟨fun p h => by cases h; exact ⟨_, readmeFound⟩, fun _ _ _ h => by cases h⟩
  · exact ⟨fun p h => (by cases h), fun _ _ _ h => by cases h⟩
  · exact ⟨fun p h => by cases h; exact ⟨_, readmeFound⟩, fun _ _ _ h => by cases h⟩
  · exact ⟨fun p h => (by cases h), fun _ _ _ h => by cases h⟩
  · exact ⟨fun p h => (by cases h), fun _ _ _ h => by cases h⟩

open VolumeExample in
example (p : KeyBag.Prims) (ops : List Volume.Op) :
    ∃ v, VolumeOpen.volumeByIndex ⟨fun _ _ d => d, none⟩ (fun _ => true) VolumeExample.image opened 0 = ok v ∧
      ∀ s, Volume.run p v.state ops = ok s → ∃ F, FileRead.files ⟨fun _ _ d => d, none⟩ VolumeExample.image opened v s = ok F ∧
        view.Trace Terms.shown [] requests (Mount.serveAll (mounted F) requests {}).1 := by
  obtain ⟨_, _, _, _, _, _, _, f8, _, f10, f11, f12, _, _⟩ := superblock_facts
  obtain ⟨g1, g2, g3, g4, g5, g6⟩ := b10_facts
  obtain ⟨n1, n2⟩ := newest_volume (oid := 1026) (block := 10) (by decide)
  have H := c56_volume_partial (cx := ⟨fun _ _ d => d, none⟩) (vector := fun _ => true) (k := opened) (d0 := superblock) (d := b10) (root := 8) (vs := []) (records := volumes) (mappings := mappings)
    (files := files) (index := 0) (V := view) (c := FileExample.codec) blocks rfl superblock_valid rfl
    containerTree (by rw [number]; omega) (by rw [f10]; omega) (by
      rw [f10, f8]
      intro r hr
      rw [n2 r hr]
      exact storedVolume rfl (by omega) lengths.2.2.2.1 g1 g2 g3) (by rw [f10, f8]; exact n1) (.inl ⟨g4, rfl⟩) (.inl rfl) volumeTree (by rw [g3, g5]; exact newest_root.1)
    (by
      rw [g3, g5]
      intro r hr
      rw [newest_root.2 r hr]
      exact holds) ⟨fun _ => FileExample.folds.1, fun _ => rfl⟩ rfl (has FileExample.plain_blocks) p ops
  obtain ⟨v, h1, h2⟩ := H
  refine ⟨v, h1, fun s hs => ?_⟩
  obtain ⟨F, h3, h4⟩ := h2 s hs
  exact ⟨F, h3, h4 (mounted F) rfl rfl (libraries F) (fun _ _ => FileExample.compares _) requests asked⟩

open EncryptedExample in
example : ∃ v s F, VolumeOpen.volumeByIndex c (fun _ => true) EncryptedExample.image EncryptedExample.opened 0 = ok v ∧
      Volume.run Props.exPrims v.state [.setUser (some [1, 2]), .unlock (List.replicate 32 0) (List.replicate 32 0)] = ok s ∧ s.isLocked = false ∧
      FileRead.files c EncryptedExample.image EncryptedExample.opened v s = ok F ∧ view.Trace Terms.shown [] requests (Mount.serveAll (mounted F) requests {}).1 := by
  obtain ⟨f1, f2, f3, f4, f5, f6, f7, f8⟩ := EncryptedExample.superblock_facts
  obtain ⟨g1, g2, g3, g4, g5, g6, g7⟩ := EncryptedExample.b10_facts
  obtain ⟨n1, n2⟩ := EncryptedExample.newest_volume
  obtain ⟨v, h1, h2, h3⟩ := c56_encrypted_partial (cx := c) (vector := fun _ => true) (img := EncryptedExample.image) (k := EncryptedExample.opened) (d0 := EncryptedExample.superblock)
    (d := EncryptedExample.b10) (root := 8) (vs := []) (records := EncryptedExample.volumes)
    (mappings := VolumeExample.mappings) (files := files) (plain := EncryptedExample.plain) (cb := cb) (vb := vb) (encX := encX) (S := fun _ => True) (keys := keys) (vk := List.replicate 32 6)
    (index := 0) (V := view) (c := FileExample.codec) exPrims_ok cipher EncryptedExample.blocks rfl EncryptedExample.superblock_valid rfl EncryptedExample.containerTree (by rw [EncryptedExample.number]; omega)
    (by rw [f6]; omega)
    (by rw [f6, f5]; intro r hr; rw [n2 r hr]; exact EncryptedExample.storedVolume) (by rw [f6, f5]; exact n1) (.inl ⟨g4, rfl⟩) rfl encryptedVolume (by rw [g7]; exact secrets) EncryptedExample.volumeTree
    (by rw [g3, g5]; exact VolumeExample.newest_root.1)
    (by
      intro b d h
      unfold EncryptedExample.plain at h
      split at h
      · rename_i hb
        subst hb
        cases h
        exact storedEncrypted rfl EncryptedExample.lengths.2.2.2.2.2.1 e20_facts.1 e20_facts.2.1 e20_facts.2.2
      · cases h)
    (by
      intro b d h
      unfold EncryptedExample.plain at h
      split at h
      · rename_i hb
        subst hb
        exact ⟨by decide, by decide⟩
      · cases h)
    (by rw [g3, g5]; intro r hr; rw [VolumeExample.newest_root.2 r hr]; exact EncryptedExample.holds) ⟨fun _ => FileExample.folds.2, fun _ => rfl⟩ rfl (has FileExample.Encrypted.encrypted_blocks)
  have ops : ∀ ops : List Volume.Op, (∀ q ∈ secretsOf ops, True) := fun _ _ _ => trivial
  obtain ⟨s, h4, h5⟩ := (h3 [.setUser (some [1, 2])] (by intro o ho; simp only [List.mem_cons, List.not_mem_nil, or_false] at ho; subst ho; simp [OpOk]) (ops _) _ rfl).1
    [1, 2] (.inl rfl) (isSecret _) (List.replicate 32 0) (List.replicate 32 0) rfl rfl
  obtain ⟨F, h6, h7⟩ := (h3 [.setUser (some [1, 2]), .unlock (List.replicate 32 0) (List.replicate 32 0)] (by
    intro o ho; simp only [List.mem_cons, List.not_mem_nil, or_false] at ho; rcases ho with rfl | rfl <;> simp [OpOk]) (ops _) s h4).2 h5
  exact ⟨v, s, F, h1, h4, h5, h6, h7 (mounted F) rfl rfl (libraries F) (fun _ _ => FileExample.compares _) requests asked⟩

end MountedVolume
end Verif.Props
