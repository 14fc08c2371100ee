import Verif.Props.C70
import Verif.Props.C56VolumeExamples
/-!
# C70: examples of command lines and of the volumes that they mount
-/
namespace Verif.Props
open Verif Res Spec BTree FsTree
open Verif.Spec.Decimal (Digit Numeral)
open Verif.Program (Options Machine Selected Obtained)

namespace CommandLine
open MountedVolume

/-- "1", "2", "0", "512", "1x", "18446744073709551617", which is 2⁶⁴ + 1, and "18446744073709551615" -/
def one : Bytes := [0x31]
def two : Bytes := [0x32]
def zero : Bytes := [0x30]
def far : Bytes := [0x35, 0x31, 0x32]
def text : Bytes := [0x31, 0x78]
def wrap : Bytes := [0x31, 0x38, 0x34, 0x34, 0x36, 0x37, 0x34, 0x34, 0x30, 0x37, 0x33, 0x37, 0x30, 0x39, 0x35, 0x35, 0x31, 0x36, 0x31, 0x37]
def most : Bytes := [0x31, 0x38, 0x34, 0x34, 0x36, 0x37, 0x34, 0x34, 0x30, 0x37, 0x33, 0x37, 0x30, 0x39, 0x35, 0x35, 0x31, 0x36, 0x31, 0x35]

theorem numerals : Numeral one 1 ∧ Numeral two 2 ∧ Numeral zero 0 ∧ Numeral far 512 ∧ Numeral wrap (1 + 2 ^ 64 * 1) ∧ Numeral most (2 ^ 64 - 1) := by decide +kernel

theorem text_other : Argument text ∧ (∀ c, text.head? = some c → c ≠ 0x2d ∧ c ≠ 0x2b) ∧ ¬ ∀ c ∈ text, Digit c :=
  ⟨⟨by decide, by decide⟩, fun c h => by cases h; decide, by decide⟩

/-- a file in which a container starts at byte 512 -/
def file (image : Container.Image) (n : Nat) : Container.Image := if n = 512 then image else fun _ => none

/-- the programs with the functions of the examples -/
def plain : Machine := ⟨⟨fun _ _ d => d, none⟩, fun _ _ d => d, fun _ => true, exPrims, List.replicate 32 0, List.replicate 32 0⟩
def secret : Machine := ⟨EncryptedExample.c, fun k => EncryptedExample.decX (k, k), fun _ => true, exPrims, List.replicate 32 0, List.replicate 32 0⟩

/-! The numbers -/

example (o : Options) (source : Nat → Container.Image) : Program.mount plain { o with index := some wrap } source = Program.mount plain { o with index := some one } source :=
  c70_wraps plain o source numerals.1 (by decide) numerals.2.2.2.2.1 (by decide)

example (o : Options) (source : Nat → Container.Image) : Program.mount plain { o with index := some (0x2d :: most) } source = Program.mount plain { o with index := some one } source :=
  c70_negative plain o source numerals.1 (by decide) numerals.2.2.2.2.2 (by decide) (by decide)

example (o : Options) (source : Nat → Container.Image) : Program.mount plain { o with index := some text } source = Program.mount plain { o with index := none } source :=
  c70_ignored plain o source text_other.1 text_other.2.1 (.inl text_other.2.2)

example (o : Options) (source : Nat → Container.Image) : Program.mount plain { o with index := some zero } source = Program.mount plain { o with index := none } source :=
  c70_ignored plain o source ⟨by decide, by decide⟩ (fun c h => by cases h; decide) (.inr (.inr ⟨0, numerals.2.2.1, by decide, .inl rfl⟩))

example (o : Options) (source : Nat → Container.Image) : Program.mount plain { o with offset := some far } source = Program.mount plain { o with offset := none } (fun b => source (512 + b)) :=
  c70_offset_partial plain o source numerals.2.2.2.1 (by decide) (by decide)

example (o : Options) (source : Nat → Container.Image) : Program.mount plain { o with offset := some wrap } source = Program.mount plain { o with offset := none } (fun b => source (1 + b)) := by
  have h := c70_offset_wraps plain o source numerals.2.2.2.2.1 (by decide) (by decide)
  rwa [show (1 + 2 ^ 64 * 1) % 2 ^ 64 = 1 from by decide] at h

example (o : Options) (source : Nat → Container.Image) (v : Selected) : Program.mount plain { o with offset := some most } source ≠ ok v :=
  c70_offset_far plain o source numerals.2.2.2.2.2 (by decide) (by decide) v

example (o : Options) (source : Nat → Container.Image) (v : Selected) : Program.mount plain { o with offset := some text } source ≠ ok v :=
  c70_offset_text plain o source text_other.1 text_other.2.1 text_other.2.2 v

example (o : Options) (source : Nat → Container.Image) : Program.info plain { o with offset := some text } source = Program.info plain { o with offset := none } source :=
  c70_info_offset plain o source text_other.1 text_other.2.1 text_other.2.2

/-! The example volumes -/

/-- `fsapfsmount -o 512 -f 1` -/
def command : Options := { index := some one, offset := some far }

theorem starts : StartsAt command 512 := .inr ⟨far, rfl, numerals.2.2.2.1, by decide, by decide⟩

open VolumeExample in
theorem mounts : ∃ v F, Program.mount plain command (file VolumeExample.image) = ok v ∧ v.index = 0 ∧ FileRead.files plain.cipher v.image v.container v.obtained.volume v.obtained.state = ok F ∧
    view.Trace Terms.shown [] requests (Mount.serveAll (mounted F) requests {}).1 := by
  obtain ⟨_, _, _, _, _, _, _, f8, _, f10, f11, f12, _, _⟩ := superblock_facts
  obtain ⟨g1, g2, g3, g4, g5, g6⟩ := b10_facts
  obtain ⟨n1, n2⟩ := newest_volume (oid := 1026) (block := 10) (by decide)
  obtain ⟨v, F, h1, h2, h3, h4⟩ := c70_files_partial (m := plain) (o := command) (source := file VolumeExample.image) (at_ := 512) (k := opened) (d0 := superblock) (d := b10) (root := 8) (vs := []) (records := volumes)
    (mappings := mappings) (files := files) (index := 0) (V := view) (c := FileExample.codec) starts rfl opens (.inl ⟨one, rfl, numerals.1, by decide, by decide⟩) (fun _ h => by cases h) (fun _ h => by cases h)
    blocks rfl superblock_valid rfl
    containerTree (by rw [number]; omega) (by rw [f10]; omega) (by
      rw [f10, f8]
      intro r hr
      rw [n2 r hr]
      exact storedVolume rfl (by omega) lengths.2.2.2.1 g1 g2 g3) (by rw [f10, f8]; exact n1) (.inl ⟨g4, rfl⟩) (.inl rfl) volumeTree (by rw [g3, g5]; exact newest_root.1)
    (by
      rw [g3, g5]
      intro r hr
      rw [newest_root.2 r hr]
      exact holds) ⟨fun _ => FileExample.folds.1, fun _ => rfl⟩ rfl (has FileExample.plain_blocks)
  exact ⟨v, F, h1, h2, h3, h4 (mounted F) rfl rfl (libraries F) (fun _ _ => FileExample.compares _) requests asked⟩

/-- what `c70_asked_partial` says about it -/
example : ∃ v, Program.mount plain command (file VolumeExample.image) = ok v ∧ v.index + 1 = 1 ∧ 1 ≤ Container.numberOfVolumes v.container := by
  obtain ⟨v, _, h, _⟩ := mounts
  obtain ⟨h1, h2, _⟩ := c70_asked_partial (s := one) (n := 1) rfl numerals.1 (by decide) (by decide) (by decide) h
  exact ⟨v, h, h1, h2⟩

/-- fsapfsinfo works on all three volumes -/
example : ∃ l, Program.info plain command (file VolumeExample.image) = ok l ∧ l.selected = 1 ∧ l.volumes.length = 3 := by
  refine ⟨_, (c70_info_partial (k := VolumeExample.opened) starts VolumeExample.opens).2 one 1 rfl numerals.1 (by decide) (by decide) (by decide), rfl, ?_⟩
  rw [List.length_map, List.length_range, VolumeExample.number]

example : Program.indexOption command ≠ ub ∧ Program.offsetOption command ≠ ub ∧ ∀ s, command.offset = some s → Program.setOffset s ≠ ub :=
  c70_options_safe (fun s h => by cases h; exact ⟨by decide, by decide⟩) (fun s h => by cases h; exact ⟨by decide, by decide⟩)

/-- `fsapfsmount -o 512 -p password`, for a container with one volume -/
def unlocks : Options := { offset := some far, password := some [1, 2] }

theorem unlocks_starts : StartsAt unlocks 512 := .inr ⟨far, rfl, numerals.2.2.2.1, by decide, by decide⟩

open EncryptedExample in
theorem mounts_encrypted : ∃ v F, Program.mount secret unlocks (file EncryptedExample.image) = ok v ∧ v.index = 0 ∧
    FileRead.files secret.cipher v.image v.container v.obtained.volume v.obtained.state = ok F ∧ view.Trace Terms.shown [] requests (Mount.serveAll (mounted F) requests {}).1 := by
  obtain ⟨f1, f2, f3, f4, f5, f6, f7, f8⟩ := EncryptedExample.superblock_facts
  obtain ⟨g1, g2, g3, g4, g5, g6, g7⟩ := EncryptedExample.b10_facts
  obtain ⟨n1, n2⟩ := EncryptedExample.newest_volume
  obtain ⟨v, F, h1, h2, h3, h4⟩ := c70_encrypted_partial (m := secret) (o := unlocks) (source := file EncryptedExample.image) (at_ := 512) (index := 0) (img := EncryptedExample.image)
    (k := EncryptedExample.opened) (d0 := EncryptedExample.superblock) (enc := fun _ => List.reverse)
    (d := EncryptedExample.b10) (root := 8) (vs := []) (records := EncryptedExample.volumes)
    (mappings := VolumeExample.mappings) (files := VolumeExample.files) (plain := EncryptedExample.plain) (cb := cb) (vb := vb) (encX := encX) (S := fun _ => True) (keys := keys) (vk := List.replicate 32 6)
    (V := view) (c := FileExample.codec) exPrims_ok rfl rfl unlocks_starts rfl EncryptedExample.opens (.inr ⟨rfl, EncryptedExample.number, rfl⟩)
    (fun s h => by cases h; exact ⟨by decide, by decide, by decide⟩) (fun _ h => by cases h)
    cipher EncryptedExample.blocks rfl EncryptedExample.superblock_valid rfl EncryptedExample.containerTree (by rw [EncryptedExample.number]; omega)
    (by rw [f6]; omega)
    (by rw [f6, f5]; intro r hr; rw [n2 r hr]; exact EncryptedExample.storedVolume) (by rw [f6, f5]; exact n1) (.inl ⟨g4, rfl⟩) rfl encryptedVolume (by rw [g7]; exact secrets) EncryptedExample.volumeTree
    (by rw [g3, g5]; exact VolumeExample.newest_root.1)
    (by
      intro b d h
      unfold EncryptedExample.plain at h
      split at h
      · rename_i hb
        subst hb
        cases h
        exact storedEncrypted rfl EncryptedExample.lengths.2.2.2.2.2.1 e20_facts.1 e20_facts.2.1 e20_facts.2.2
      · cases h)
    (by
      intro b d h
      unfold EncryptedExample.plain at h
      split at h
      · rename_i hb
        subst hb
        exact ⟨by decide, by decide⟩
      · cases h)
    (by rw [g3, g5]; intro r hr; rw [VolumeExample.newest_root.2 r hr]; exact EncryptedExample.holds) ⟨fun _ => FileExample.folds.2, fun _ => rfl⟩ rfl (has FileExample.Encrypted.encrypted_blocks)
    (fun _ _ => trivial) (pw := [1, 2]) (.inl rfl) (isSecret _)
  exact ⟨v, F, h1, h2, h3, h4 (mounted F) rfl rfl (libraries F) (fun _ _ => FileExample.compares _) requests asked⟩

/-- what `c70_only` says about it -/
example : ∃ v, Program.mount secret unlocks (file EncryptedExample.image) = ok v ∧ Container.numberOfVolumes v.container = 1 ∧ v.index = 0 := by
  obtain ⟨v, _, h, _⟩ := mounts_encrypted
  obtain ⟨h1, h2, _⟩ := c70_only rfl h
  exact ⟨v, h, h1, h2⟩

theorem mounted_bag : (match Program.mount secret unlocks (file EncryptedExample.image) with | .ok v => v.obtained.volume.state.keyBag.isSome | _ => false) = true := by decide +kernel

/-- what `c70_secret_partial` says about it -/
example : ∃ v pw keys, Program.mount secret unlocks (file EncryptedExample.image) = ok v ∧ unlocks.password = some pw ∧ v.obtained.state.keys = some keys := by
  have h := mounted_bag
  split at h
  · rename_i v hv
    obtain ⟨es, he⟩ := Option.isSome_iff_exists.1 h
    obtain ⟨_, pw, keys, h1, h2, _⟩ := c70_secret_partial (m := secret) exPrims_ok rfl rfl ⟨fun s h => by cases h; decide, fun s h => by cases h⟩ hv he
    rcases h1 with h1 | h1
    · exact ⟨v, pw, keys, hv, h1, h2⟩
    · cases h1
  · cases h

/-! A container whose key bag was overwritten -/

namespace Damaged
open Verif.EncryptedExample (superblock b10 b5 b7 volumes lengths c decX superblock_facts superblock_valid b10_facts newest_volume)

def image (b : Nat) : Option Bytes := if b = 40 then some zeroBlock else EncryptedExample.image b

def opened : Container.Opened := { EncryptedExample.opened with keyBag := some none }

theorem opens : Container.openRead (fun k => decX (k, k)) (fun _ => true) image = ok opened := by decide +kernel

theorem blocks : Container.Blocks image := by
  intro b d h
  unfold image at h
  split at h
  · rw [← Option.some.inj h]; unfold zeroBlock; rw [List.length_replicate]; omega
  · exact EncryptedExample.blocks b d h

theorem stored_some {b : Nat} {d : Bytes} (h : image b = some d) (hl : d.length = 4096) (hb : b < 200) : containerBlocks image (200 * 4096) b = some d := by
  unfold containerBlocks
  rw [if_pos (by omega), h]
  simp only
  rw [if_pos hl]

theorem containerTree : OmTree (containerBlocks image (200 * 4096)) 5 volumes := by
  refine ⟨⟨b5, ⟨by decide, stored_some rfl lengths.1 (by omega), ⟨by decide +kernel, by decide +kernel, by decide +kernel, by decide +kernel, by decide +kernel, by decide +kernel, by decide +kernel, by decide +kernel⟩,
    by decide +kernel, by decide +kernel, by decide +kernel, by decide +kernel, by decide +kernel⟩, .inl (by decide +kernel)⟩, ?_⟩
  unfold Ascending omLt
  decide +kernel

theorem storedVolume : StoredVolume image 10 b10 8 := by
  obtain ⟨g1, g2, g3, g4, g5, g6, g7⟩ := b10_facts
  exact ⟨rfl, by omega, VolumeExample.valid_of_readsVolume lengths.2.2.2.1 g1, by rw [g2]; exact ⟨by decide, by decide, b7, rfl, lengths.2.1, EncryptedExample.map7⟩, by decide, by rw [g3]; decide⟩

/-- its encrypted volume is mounted without a password -/
example : ∃ v, Program.mount secret {} (fun _ => image) = ok v ∧ v.index = 0 ∧ v.obtained.volume.state.isLocked = true := by
  obtain ⟨f1, f2, f3, f4, f5, f6, f7, f8⟩ := superblock_facts
  obtain ⟨g1, g2, g3, g4, g5, g6, g7⟩ := b10_facts
  obtain ⟨n1, n2⟩ := newest_volume
  have hn : Container.numberOfVolumes opened = 1 := EncryptedExample.number
  exact c70_locked_container (m := secret) (o := {}) (source := fun _ => image) (at_ := 0) (index := 0) (img := image) (k := opened) (d0 := superblock) (d := b10) (root := 8) (vs := []) (records := volumes)
    (.inl ⟨rfl, rfl⟩) rfl opens (.inr ⟨rfl, hn, rfl⟩) rfl rfl blocks rfl superblock_valid rfl containerTree (by omega) (by rw [f6]; omega)
    (by rw [f6, f5]; intro r hr; rw [n2 r hr]; exact storedVolume) (by rw [f6, f5]; exact n1) (.inl ⟨g4, rfl⟩) rfl EncryptedExample.encryptedVolume.encrypted

end Damaged

example (source : Nat → Container.Image) (v : Selected) : Program.mount plain { password := some [] } source ≠ ok v :=
  c70_empty_password plain _ source (.inl rfl) ⟨fun s h => by cases h; decide, fun s h => by cases h⟩ v

end CommandLine
end Verif.Props
