import Verif.Props.C71Program
import Verif.Props.C66Examples
import Verif.Props.C70Examples
/-!
# C71: examples of what fsapfsinfo shows

The volume of `MountExample` has a directory with a file and a symbolic link, and a file with a slash in its name. The container of `VolumeExample` and the encrypted one of `EncryptedExample` are read from the command
line on.
-/
namespace Verif.Props
open Verif Res Spec BTree FsTree FileRead
open Verif.PathString (escaped ssizeMax)
open Verif.Mount (Mounted)
open Verif.Spec.Bodyfile (Each)
open Verif.Info (ascii)
open Verif.Spec.Info (ShowsFile OneLine)
open Verif.Program (Machine Options Selected)
open Verif.Spec.Decimal (Digit Numeral)
open Verif.NameLookup.DirectoryExample (entry docs readme)

namespace InfoExample

/-- a text for times -/
def clock (t : Int) : Res Bytes := ok (PathString.decimal (t + 2 ^ 63).toNat)
def read (s : Bytes) : Option Int :=
  match Escape.number s with
  | some n => some (Int.ofNat n - 2 ^ 63)
  | none => none

theorem clock_ok : Clock clock read := by
  intro t h1 h2
  refine ⟨_, rfl, ?_, fun h => ?_⟩
  · unfold read
    rw [PathString.number_decimal]
    simp only [Int.ofNat_eq_natCast, Option.some.injEq]
    omega
  · exact absurd (PathString.mem_decimal h).1 (by decide)

section
open MountExample

theorem plainFile : ∀ i ∈ [2, 5, 7, 8, 9], OneLine (view.file i) := by
  intro i hi
  simp only [List.mem_cons, List.not_mem_nil, or_false] at hi
  rcases hi with rfl | rfl | rfl | rfl | rfl
  · exact ⟨.inl (by decide +kernel), by decide +kernel⟩
  · exact ⟨.inl (by decide +kernel), by decide +kernel⟩
  · exact ⟨.inl (by decide +kernel), by decide +kernel⟩
  · exact ⟨.inr ⟨readme, linksTo, by decide +kernel⟩, by decide +kernel⟩
  · exact ⟨.inl (by decide +kernel), by decide +kernel⟩

theorem reached : ∀ i ∈ [2, 5, 7, 8, 9], Reach dirs i := by
  have h5 : Reach dirs 5 := .step (e := entry docs 5) .root (by simp [dirs])
  intro i hi
  simp only [List.mem_cons, List.not_mem_nil, or_false] at hi
  rcases hi with rfl | rfl | rfl | rfl | rfl
  · exact .root
  · exact h5
  · exact .step (e := entry readme 7) h5 (by simp [dirs])
  · exact .step (e := entry docs 8) h5 (by simp [dirs])
  · exact .step (e := entry slash 9) .root (by simp [dirs])

theorem keeps {i : Nat} (hi : i ∈ [2, 5, 7, 8, 9]) : KeepsFile mounted records image none (view.file i) := mounts.kept (reached i hi)

/-- the symbolic link -/
example : ∃ text, Info.byIdentifier mounted clock (view.file 8).identifier = (Props.block text, ok ()) ∧ ShowsFile read (·.fixed.created) (·.fixed.modified) (view.file 8) (view.file 8).name none text :=
  c71_identifier_partial libraries clock_ok mounts.fileTree (keeps (i := 8) (by decide)) (plainFile 8 (by decide))

example : Info.byIdentifier mounted clock 77 = ([], err) := c71_missing mounts.fileTree (by decide) (by decide +kernel)

example : ¬ ∃ text, Info.byIdentifier mounted clock (view.file 7).identifier = (Props.block text, ok ()) ∧ ShowsFile read (·.fixed.modified) (·.fixed.created) (view.file 7) (view.file 7).name none text :=
  c71_swapped libraries clock_ok mounts.fileTree (keeps (i := 7) (by decide)) (plainFile 7 (by decide)) (by decide)

theorem inodes : ∀ i < 10, (∀ r ∈ records, ¬ IsOf i 3 r) ∨ ∃ v, v.identifier = i ∧ KeepsFile mounted records image none v ∧ OneLine v := by
  intro i hi
  by_cases h : i ∈ [2, 5, 7, 8, 9]
  · exact .inr ⟨view.file i, (facts i h).1, keeps h, plainFile i h⟩
  · exact .inl ((show ∀ i < 10, i ∉ [2, 5, 7, 8, 9] → ∀ r ∈ records, ¬ IsOf i 3 r by decide +kernel) i hi h)

/-- all files, of which there are five -/
example : ∃ vs texts, Info.entriesFrom mounted clock 10 0 = (texts.flatMap Props.block, ok ()) ∧ Each (fun v text => ShowsFile read (·.fixed.created) (·.fixed.modified) v v.name none text) vs texts ∧ ∀ i ∈ [2, 5, 7, 8, 9],
    i ∈ vs.map (·.identifier) := by
  obtain ⟨vs, texts, h1, h2, _, _, h5⟩ := c71_all_partial libraries clock_ok mounts.fileTree (next := 10) (by decide) inodes
  exact ⟨vs, texts, h1, h2, fun i hi => (h5 i).2 ((show ∀ i ∈ [2, 5, 7, 8, 9], i < 10 ∧ ∃ r ∈ records, IsOf i 3 r by decide +kernel) i hi)⟩

example : ∃ n text a b, FileRead.byIdentifier mounted.files 9 = ok (some n) ∧ Info.fileText mounted clock { inode := n, record := none } = ok text ∧ (Info.entriesFrom mounted clock 10 0).1 = a ++ Props.block text ++ b := by
  obtain ⟨vs, texts, h1, _⟩ := c71_all_partial libraries clock_ok mounts.fileTree (next := 10) (by decide) inodes
  rcases c71_no_omission (m := mounted) (clock := clock) (count := 10) (start := 0) (by rw [h1]) (i := 9) (by decide) (by decide) with h | h
  · obtain ⟨n, h3, _⟩ := kept_found mounts.fileTree (keeps (i := 9) (by decide))
    have h3 : FileRead.byIdentifier mounted.files 9 = ok (some n) := h3
    rw [h3] at h
    cases h
  · exact h

/-- a volume whose inodes have no names -/
example : (Info.entriesFrom unnamed clock 10 0).2 ≠ ok () := by
  have h : (match FileRead.byIdentifier unnamed.files 5 with | .ok (some n) => n.name.isNone | _ => false) = true := by decide +kernel
  cases hn : FileRead.byIdentifier unnamed.files 5 with
  | err => rw [hn] at h; cases h
  | ub => rw [hn] at h; cases h
  | ok n =>
    cases n with
    | none => rw [hn] at h; cases h
    | some n =>
      rw [hn] at h
      exact c71_nameless (i := 5) (by decide) hn (Option.isNone_iff_eq_none.1 h)

/-- the file by its path, with its name and added time in the directory -/
example : ∃ shown text, Info.byPath mounted clock ((docs ++ 0x2f :: readme).flatMap (escaped .info)) = (pathBlock shown text, ok ()) ∧
    Escape.unescape shown = some ((docs ++ 0x2f :: readme).flatMap (escaped .info)) ∧ (0x0a : UInt8) ∉ shown ∧ ShowsFile read (·.fixed.created) (·.fixed.modified) file readme (some (entry readme 7).added) text :=
  c71_path_partial libraries clock_ok mounts PyVolumeExample.readmeText (by simp) (by decide +kernel) (fun z hz => by cases hz; exact plainFile 7 (by decide))

/-- a path that leads nowhere -/
example : Info.byPath mounted clock (readme.flatMap (escaped .info)) = ([], err) :=
  c71_path_partial (y := none) libraries clock_ok mounts
    PyVolumeExample.noText (by decide) (by decide +kernel) (fun _ h => nomatch h)

/-- one extended attribute as two -/
example : Info.attributeLines mounted.una 0 [{ name := storedName (forged [0x61] [0x62]), flags := 0, stream := 0, size := 0, data := none }] =
    Info.attributeLines mounted.una 0 [{ name := storedName [0x61], flags := 0, stream := 0, size := 0, data := none }, { name := storedName [0x62], flags := 0, stream := 0, size := 0, data := none }] :=
  (c71_forged libraries (a := [0x61]) (b := [0x62]) (by unfold PathString.Name; decide) (by unfold PathString.Name; decide) rfl rfl rfl).2.1

end

/-! Arguments -/

open CommandLine

example (o : Options) (source : Nat → Container.Image) : Info.run plain MountedVolume.mounted clock o source (.identifier wrap) = Info.run plain MountedVolume.mounted clock o source (.identifier one) :=
  c71_argument_wraps plain MountedVolume.mounted clock o source numerals.1 (by decide) numerals.2.2.2.2.1 (by decide)

example (o : Options) (source : Nat → Container.Image) : Info.run plain MountedVolume.mounted clock o source (.identifier most) = ([], err) :=
  (c71_argument_partial plain MountedVolume.mounted clock o source).2.1 numerals.2.2.2.2.2 (by decide) (by decide) (by decide)

example (o : Options) (source : Nat → Container.Image) : Info.run plain MountedVolume.mounted clock o source (.identifier text) = ([], err) :=
  (c71_argument_partial plain MountedVolume.mounted clock o source).2.2 text_other.1 (by decide +kernel) text_other.2.2 text_other.2.1

example : Info.identifierOption far ≠ ub := c71_argument_safe ⟨by decide, by decide⟩

/-! The example volumes -/

open MountedVolume in
theorem plainFiles : ∀ i ∈ [2, 5, 7, 8], OneLine (view.file i) := by
  intro i hi
  simp only [List.mem_cons, List.not_mem_nil, or_false] at hi
  rcases hi with rfl | rfl | rfl | rfl <;> exact ⟨.inl (by decide +kernel), by decide +kernel⟩

/-- "7" -/
def seven : Bytes := [0x37]

open VolumeExample MountedVolume in
/-- `fsapfsinfo -o 512 -f 1` with `-E` or `-F` -/
theorem shows : ∃ F, InfoShows (Info.run plain mounted clock command (CommandLine.file VolumeExample.image)) (mounted F) files (dataBlocks VolumeExample.image) none view (Apsb.nextIdentifier b10) read := by
  obtain ⟨_, _, _, _, _, _, _, f8, _, f10, f11, f12, _, _⟩ := superblock_facts
  obtain ⟨g1, g2, g3, g4, g5, g6⟩ := b10_facts
  obtain ⟨n1, n2⟩ := newest_volume (oid := 1026) (block := 10) (by decide)
  exact c71_volume_partial (m := plain) (o := command) (source := CommandLine.file VolumeExample.image) (at_ := 512) (k := opened) (d0 := superblock) (d := b10) (root := 8) (vs := []) (records := volumes)
    (mappings := mappings) (files := files) (index := 0) (V := view) (c := FileExample.codec) starts rfl opens (.inl ⟨one, rfl, numerals.1, by decide, by decide⟩) (fun _ h => by cases h) (fun _ h => by cases h)
    blocks rfl superblock_valid rfl
    containerTree (by rw [number]; omega) (by rw [f10]; omega) (by
      rw [f10, f8]
      intro r hr
      rw [n2 r hr]
      exact storedVolume rfl (by omega) lengths.2.2.2.1 g1 g2 g3) (by rw [f10, f8]; exact n1) (.inl ⟨g4, rfl⟩) (.inl rfl) volumeTree (by rw [g3, g5]; exact newest_root.1)
    (by
      rw [g3, g5]
      intro r hr
      rw [newest_root.2 r hr]
      exact holds) ⟨fun _ => FileExample.folds.1, fun _ => rfl⟩ (has FileExample.plain_blocks) clock_ok (fun F => ⟨rfl, rfl, libraries F, fun _ _ => FileExample.compares _⟩)

open MountedVolume in
/-- the file with identifier 7 of the container -/
example : ∃ text, Info.run plain mounted clock command (CommandLine.file VolumeExample.image) (.identifier seven) = (Info.heading ++ Props.block text, ok ()) ∧
    ShowsFile read (·.fixed.created) (·.fixed.modified) MountedVolume.file readme none text := by
  obtain ⟨F, h⟩ := shows
  have h7 : Reach view.dirs 7 := .step (i := 5) (e := entry readme 7) (.step (e := entry docs 5) .root (by simp [MountedVolume.view, HierarchyExample.dirs])) (by simp [MountedVolume.view, HierarchyExample.dirs])
  have hH := has FileExample.plain_blocks
  exact h.identifier (v := view.file 7) (by decide) (by decide) ⟨hH.inode 7 h7, hH.file 7 h7, hH.size 7 h7, hH.named 7 h7, hH.attributes 7 h7, FileExample.compares _⟩ (plainFiles 7 (by decide))

open EncryptedExample MountedVolume in
/-- `fsapfsinfo -o 512 -p password` with `-E` or `-F`, for a container with one volume -/
theorem shows_encrypted : ∃ F, InfoShows (Info.run secret mounted clock unlocks (CommandLine.file EncryptedExample.image)) (mounted F) VolumeExample.files (dataBlocks EncryptedExample.image) (some (encX keys)) view
    (Apsb.nextIdentifier EncryptedExample.b10) read := by
  obtain ⟨f1, f2, f3, f4, f5, f6, f7, f8⟩ := EncryptedExample.superblock_facts
  obtain ⟨g1, g2, g3, g4, g5, g6, g7⟩ := EncryptedExample.b10_facts
  obtain ⟨n1, n2⟩ := EncryptedExample.newest_volume
  exact c71_encrypted_partial (m := secret) (o := unlocks) (source := CommandLine.file EncryptedExample.image) (at_ := 512) (index := 0) (img := EncryptedExample.image)
    (k := EncryptedExample.opened) (d0 := EncryptedExample.superblock) (enc := fun _ => List.reverse)
    (d := EncryptedExample.b10) (root := 8) (vs := []) (records := EncryptedExample.volumes)
    (mappings := VolumeExample.mappings) (files := VolumeExample.files) (plain := EncryptedExample.plain) (cb := cb) (vb := vb) (encX := encX) (S := fun _ => True) (keys := keys) (vk := List.replicate 32 6)
    (V := view) (c := FileExample.codec) exPrims_ok rfl rfl unlocks_starts rfl EncryptedExample.opens (.inr ⟨rfl, EncryptedExample.number, rfl⟩)
    (fun s h => by cases h; exact ⟨by decide, by decide, by decide⟩) (fun _ h => by cases h)
    cipher EncryptedExample.blocks rfl EncryptedExample.superblock_valid rfl EncryptedExample.containerTree (by rw [EncryptedExample.number]; omega)
    (by rw [f6]; omega)
    (by rw [f6, f5]; intro r hr; rw [n2 r hr]; exact EncryptedExample.storedVolume) (by rw [f6, f5]; exact n1) (.inl ⟨g4, rfl⟩) rfl encryptedVolume (by rw [g7]; exact secrets) EncryptedExample.volumeTree
    (by rw [g3, g5]; exact VolumeExample.newest_root.1)
    (by
      intro b d h
      unfold EncryptedExample.plain at h
      split at h
      · rename_i hb
        subst hb
        cases h
        exact storedEncrypted rfl EncryptedExample.lengths.2.2.2.2.2.1 e20_facts.1 e20_facts.2.1 e20_facts.2.2
      · cases h)
    (by
      intro b d h
      unfold EncryptedExample.plain at h
      split at h
      · rename_i hb
        subst hb
        exact ⟨by decide, by decide⟩
      · cases h)
    (by rw [g3, g5]; intro r hr; rw [VolumeExample.newest_root.2 r hr]; exact EncryptedExample.holds) ⟨fun _ => FileExample.folds.2, fun _ => rfl⟩ (has FileExample.Encrypted.encrypted_blocks)
    (fun _ _ => trivial) (pw := [1, 2]) (.inl rfl) (isSecret _) clock_ok (fun F => ⟨rfl, rfl, libraries F, fun _ _ => FileExample.compares _⟩)

end InfoExample

end Verif.Props
