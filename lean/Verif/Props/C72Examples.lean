import Verif.Props.C72Read
import Verif.Props.C70Examples
/-!
# C72: examples of what fsapfsinfo shows about containers

A container with two of the volumes of `VolumeExample`, one of them with two snapshots; all three of them, of which the last does not open; and the encrypted volume of `EncryptedExample` with and without a password.
-/
namespace Verif.Props
open Verif Res Spec BTree FsTree FileRead
open Verif.Info (ascii openSnapshot snapshotsOut volumeOut volumesOut)
open Verif.Program (Machine Options)
open Verif.Spec.Info (ShownVolume ShownContainer ShowsContainer)
open CommandLine (plain secret file far one two numerals command starts unlocks unlocks_starts)

namespace ListExample

/-- the superblocks of the two volumes, and those of the snapshots -/
def superblock : Bytes := exampleSuperblock 4 200 2 1 4 [1026, 1028] []
def kept : Bytes :=
  let p := toLE 8 1028 ++ toLE 8 9 ++ toLE 4 0x4000000d ++ toLE 4 0 ++ [0x41, 0x50, 0x53, 0x42] ++ List.replicate 4060 0
  match Checksum.fletcher64 p 0 with
  | ok v => toLE 8 v ++ p
  | _ => []

attribute [irreducible] superblock kept

def image (b : Nat) : Option Bytes := if b = 0 ∨ b = 2 then some superblock else if b = 500 ∨ b = 600 then some kept else VolumeExample.image b

def opened : Container.Opened := ⟨200 * 4096, Container.superblockOf superblock, 1, mapEntries exampleMap, 5, none⟩

theorem opens : Container.openRead (fun _ _ d => d) (fun _ => true) image = ok opened := by decide +kernel

theorem facts : superblock.length = 4096 ∧ readsSuperblock superblock = true ∧ objectXid superblock = 4 ∧ Nx.volume superblock 0 = 1026 ∧ Nx.volume superblock 1 = 1028 ∧
    Props.used (Nx.volume superblock) 100 = 2 ∧ kept.length = 4096 ∧ (match VolumeOpen.readSuperblock true kept with | ok _ => true | _ => false) = true := by decide +kernel

theorem number : Container.numberOfVolumes opened = 2 := by
  rw [Props.c29_number (d := superblock) rfl]
  exact facts.2.2.2.2.2.1

theorem valid : Nx.Valid superblock := valid_of_read facts.1 facts.2.1

theorem kept_valid : Apsb.Valid true kept := by
  have h := facts.2.2.2.2.2.2.2
  cases e : VolumeOpen.readSuperblock true kept with
  | ok s => exact ((VolumeOpen.readSuperblock_iff true kept facts.2.2.2.2.2.2.1 s).1 e).1
  | err => rw [e] at h; cases h
  | ub => rw [e] at h; cases h

theorem blocks : Container.Blocks image := by
  intro b d h
  unfold image at h
  split at h
  · rw [← Option.some.inj h, facts.1]; omega
  · split at h
    · rw [← Option.some.inj h, facts.2.2.2.2.2.2.1]; omega
    · exact VolumeExample.blocks b d h

theorem stored_some {b : Nat} {d : Bytes} (h : image b = some d) (hl : d.length = 4096) (hb : b < 200) : containerBlocks image (200 * 4096) b = some d := by
  unfold containerBlocks
  rw [if_pos (by omega), h]
  simp only
  rw [if_pos hl]

theorem containerTree : OmTree (containerBlocks image (200 * 4096)) 5 VolumeExample.volumes := by
  refine ⟨⟨VolumeExample.b5, ⟨by decide, stored_some rfl VolumeExample.lengths.1 (by omega), ⟨by decide +kernel, by decide +kernel, by decide +kernel, by decide +kernel, by decide +kernel, by decide +kernel,
    by decide +kernel, by decide +kernel⟩, by decide +kernel, by decide +kernel, by decide +kernel, by decide +kernel, by decide +kernel⟩, .inl (by decide +kernel)⟩, ?_⟩
  unfold Ascending omLt
  decide +kernel

theorem root30 : SnapRoot (containerBlocks image (200 * 4096)) 30 VolumeExample.b30 :=
  ⟨by decide, stored_some rfl VolumeExample.lengths.2.2.2.2.2.2.2.1 (by omega), ⟨by decide +kernel, by decide +kernel, by decide +kernel, by decide +kernel, by decide +kernel, by decide +kernel, by decide +kernel,
    by decide +kernel⟩, by decide +kernel, by decide +kernel, by decide +kernel, by decide +kernel, by decide +kernel⟩

theorem storedVolume {b : Nat} {d : Bytes} (hb : image b = some d) (h : b < 200) (hl : d.length = 4096) (h1 : VolumeExample.readsVolume d = true) (h2 : Apsb.objectMap d = 7) (h3 : Apsb.fsRoot d = 1000) :
    StoredVolume image b d 8 :=
  ⟨hb, by omega, VolumeExample.valid_of_readsVolume hl h1, by rw [h2]; exact ⟨by decide, by decide, VolumeExample.b7, rfl, VolumeExample.lengths.2.1, VolumeExample.map7⟩, by decide, by rw [h3]; decide⟩

/-- what is shown for the volumes -/
def first : ShownVolume := shownOf VolumeExample.b10 [68, 97, 116, 97] false []
def second : ShownVolume := shownOf VolumeExample.b11 (List.replicate 256 120) false [[97, 98], [99]]

theorem ascii_name {cs : List Nat} (h : ∀ c ∈ cs, c ≠ 0 ∧ c < 0x80) : PathString.Name cs := by
  intro c hc
  have := h c hc
  refine ⟨?_, this.1⟩
  unfold Scalar
  omega

theorem storedAs : StoredAs VolumeExample.b10 first ∧ StoredAs VolumeExample.b11 second :=
  ⟨shown_stored ⟨ascii_name (by decide), by decide +kernel, by decide +kernel⟩, shown_stored ⟨ascii_name (by decide +kernel), by decide +kernel, by decide +kernel⟩⟩

theorem snapshots : SnapshotsStored image [SnapExample.value 500 SnapExample.nameA, SnapExample.value 600 SnapExample.nameB] [[97, 98], [99]] :=
  .cons (s := kept) (by decide) (by decide +kernel) ⟨ascii_name (by decide), by decide +kernel, by decide +kernel⟩ rfl kept_valid (by decide)
    (.cons (s := kept) (by decide) (by decide +kernel) ⟨ascii_name (by decide), by decide +kernel, by decide +kernel⟩ rfl kept_valid (by decide) .nil)

theorem stored0 : StoredIn image opened superblock VolumeExample.volumes 0 VolumeExample.b10 first.name first.snapshots := by
  obtain ⟨_, _, f3, f4, f5, _⟩ := facts
  obtain ⟨g1, g2, g3, g4, g5, g6⟩ := VolumeExample.b10_facts
  obtain ⟨n1, n2⟩ := VolumeExample.newest_volume (oid := 1026) (block := 10) (by decide)
  refine ⟨by rw [f4]; omega, by rw [f4, f3]; exact n1, ⟨8, [], ?_, .inl ⟨g4, rfl⟩, .nil⟩, storedAs.1.name⟩
  rw [f4, f3]
  intro r hr
  rw [n2 r hr]
  exact storedVolume rfl (by omega) VolumeExample.lengths.2.2.2.1 g1 g2 g3

theorem stored1 : StoredIn image opened superblock VolumeExample.volumes 1 VolumeExample.b11 second.name second.snapshots := by
  obtain ⟨_, _, f3, f4, f5, _⟩ := facts
  obtain ⟨g1, g2, g3, g4, g5, g6⟩ := VolumeExample.b11_facts
  obtain ⟨n1, n2⟩ := VolumeExample.newest_volume (oid := 1028) (block := 11) (by decide)
  refine ⟨by rw [f5]; omega, by rw [f5, f3]; exact n1, ⟨8, _, ?_, .inr ⟨SnapExample.leafA ++ SnapExample.leafB,
    by rw [g4]; exact ⟨SnapExample.recordsOk, VolumeExample.b30, root30, .inl ⟨by decide +kernel, by decide +kernel⟩⟩, SnapExample.values, by rw [g4]; omega, by decide +kernel⟩, snapshots⟩, storedAs.2.name⟩
  rw [f5, f3]
  intro r hr
  rw [n2 r hr]
  exact storedVolume rfl (by omega) VolumeExample.lengths.2.2.2.2.1 g1 g2 g3

/-- `fsapfsinfo -o 512 -f 1` shows both volumes -/
theorem shows : ∃ text, Info.list plain ok command (file image) = (text, ok ()) ∧ ShowsContainer { uuid := slice superblock 72 16, locked := false, volumes := [first, second] } text := by
  have hl : Info.containerLocked opened = false := rfl
  have hi : ∃ index, Program.indexOption command = ok index := ⟨1, by decide +kernel⟩
  have hst : ∀ i (h : i < [VolumeExample.b10, VolumeExample.b11].length), StoredIn image opened superblock VolumeExample.volumes i [VolumeExample.b10, VolumeExample.b11][i] [first, second][i].name [first, second][i].snapshots ∧
      Protected plain command image opened [VolumeExample.b10, VolumeExample.b11][i] [first, second][i].locked ∧ StoredAs [VolumeExample.b10, VolumeExample.b11][i] [first, second][i] := by
    intro i hi
    by_cases h0 : i = 0
    · subst h0
      exact ⟨stored0, .plain (.inl rfl), storedAs.1⟩
    · have h1 : i = 1 := by simp only [List.length_cons, List.length_nil] at hi; omega
      subst h1
      exact ⟨stored1, .plain (.inl rfl), storedAs.2⟩
  have h := c72_volumes_partial (g := plain) (una := ok) (o := command) (img := image) (k := opened) (d0 := superblock) (records := VolumeExample.volumes) (ds := [VolumeExample.b10, VolumeExample.b11])
    (shown := [first, second]) (fun _ _ => rfl) rfl rfl (source := file image) starts rfl hi opens (fun _ h => by cases h) (fun _ h => by cases h) blocks rfl valid rfl containerTree
    (by rw [number]; rfl) rfl hst
  rwa [hl] at h

theorem second_opens : ∃ v, VolumeOpen.volumeByIndex plain.cipher plain.vector image opened ((1 : Nat) : Int) = ok v ∧ v.snapshots = [⟨500, SnapExample.nameA⟩, ⟨600, SnapExample.nameB⟩] := by
  have h : (match VolumeOpen.volumeByIndex plain.cipher plain.vector image opened ((1 : Nat) : Int) with | ok v => decide (v.snapshots = [⟨500, SnapExample.nameA⟩, ⟨600, SnapExample.nameB⟩]) | _ => false) = true := by
    decide +kernel
  cases e : VolumeOpen.volumeByIndex plain.cipher plain.vector image opened ((1 : Nat) : Int) with
  | ok v => rw [e] at h; exact ⟨v, rfl, of_decide_eq_true h⟩
  | err => rw [e] at h; cases h
  | ub => rw [e] at h; cases h

theorem first_opens : ∃ v, VolumeOpen.volumeByIndex plain.cipher plain.vector image opened ((0 : Nat) : Int) = ok v ∧ v.snapshots = [] := by
  have h : (match VolumeOpen.volumeByIndex plain.cipher plain.vector image opened ((0 : Nat) : Int) with | ok v => decide (v.snapshots = []) | _ => false) = true := by decide +kernel
  cases e : VolumeOpen.volumeByIndex plain.cipher plain.vector image opened ((0 : Nat) : Int) with
  | ok v => rw [e] at h; exact ⟨v, rfl, of_decide_eq_true h⟩
  | err => rw [e] at h; cases h
  | ub => rw [e] at h; cases h

theorem called : SnapshotsCalled [⟨500, SnapExample.nameA⟩, ⟨600, SnapExample.nameB⟩] [[97, 98], [99]] :=
  .cons (bytes := [97, 98]) (by decide +kernel) ⟨ascii_name (by decide), by decide, by decide +kernel⟩ (.cons (bytes := [99]) (by decide +kernel) ⟨ascii_name (by decide), by decide, by decide +kernel⟩ .nil)

/-- what `c72_shown_partial` and `c72_readable` say about it: the text is that of the container, and of no other one -/
example : ∃ text, Info.list plain ok command (file image) = (text, ok ()) ∧ ∀ c, ShowsContainer c text → (∀ v ∈ c.volumes, TextVolume v) →
    c = { uuid := slice superblock 72 16, locked := false, volumes := [first, second] } := by
  obtain ⟨text, h1, h2⟩ := shows
  refine ⟨text, h1, fun c hc ht => c72_readable hc h2 ht fun v hv => ?_⟩
  simp only [List.mem_cons, List.not_mem_nil, or_false] at hv
  rcases hv with rfl | rfl
  · exact ⟨ascii_name (by decide), nofun⟩
  · refine ⟨storedAs.2.name.1, fun s hs => ?_⟩
    have hs : s ∈ [[97, 98], [99]] := hs
    simp only [List.mem_cons, List.not_mem_nil, or_false] at hs
    rcases hs with rfl | rfl <;> exact ascii_name (by decide)

example : ∃ text c, Info.list plain ok command (file image) = (text, ok ()) ∧ ShowsContainer c text ∧ c.uuid = slice superblock 72 16 ∧ c.volumes.length = 2 := by
  obtain ⟨text, h1, _⟩ := shows
  obtain ⟨_, _, f3, f4, f5, _⟩ := facts
  have at_ : ∀ i, i < Container.numberOfVolumes opened → i = 0 ∨ i = 1 := by rw [number]; omega
  obtain ⟨c, c1, c2, c3, _⟩ := c72_shown_partial (g := plain) (una := ok) (o := command) (img := image) (k := opened) (d0 := superblock) (records := VolumeExample.volumes) (fun _ _ => rfl) (source := file image)
    starts rfl opens blocks rfl valid containerTree
    (fun i hi => by rcases at_ i hi with rfl | rfl; rw [f4]; omega; rw [f5]; omega)
    (fun i hi r d hr hd => by
      rcases at_ i hi with rfl | rfl
      · rw [f4, f3] at hr
        rw [(VolumeExample.newest_volume (oid := 1026) (block := 10) (by decide)).2 r hr] at hd
        rw [← Option.some.inj hd]
        exact ⟨_, storedAs.1.name⟩
      · rw [f5, f3] at hr
        rw [(VolumeExample.newest_volume (oid := 1028) (block := 11) (by decide)).2 r hr] at hd
        rw [← Option.some.inj hd]
        exact ⟨_, storedAs.2.name⟩)
    (fun i hi v hv => by
      rcases at_ i hi with rfl | rfl
      · obtain ⟨w, w1, w2⟩ := first_opens
        rw [w1] at hv
        rw [← ok.inj hv, w2]
        exact ⟨[], .nil⟩
      · obtain ⟨w, w1, w2⟩ := second_opens
        rw [w1] at hv
        rw [← ok.inj hv, w2]
        exact ⟨_, called⟩) h1
  rw [number] at c3
  exact ⟨text, c, h1, c1, c2, c3⟩

/-- the volume that is asked for makes no difference -/
example : Info.list plain ok { offset := some far, index := some two } (file image) = Info.list plain ok { offset := some far } (file image) :=
  c72_index_ignored (o := { offset := some far }) (file image) numerals.2.1 (by decide) (by decide) (by decide)

/-- snapshots that are called "a", then "b", then what is printed before a name, then "c" -/
def forgedName (a b : UInt8) : Bytes := [a] ++ ascii "\n\tSnapshot: 2 information:\n\t\tName\t\t\t: " ++ [b, 0]

example : ∃ text, snapshotsOut ok image 0 [⟨500, forgedName 97 98⟩, ⟨600, [99, 0]⟩] = (text, ok ()) ∧ snapshotsOut ok image 0 [⟨500, [97, 0]⟩, ⟨600, forgedName 98 99⟩] = (text, ok ()) := by
  refine c72_forged (a := [97]) (b := [98]) (c := [99]) (fun _ _ => rfl) (ascii_name (by decide)) (ascii_name (by decide)) (ascii_name (by decide)) (by decide +kernel) (by decide +kernel) (by decide +kernel)
    (by decide +kernel) (fun m hm => ?_)
  have h : ∀ b ∈ [500, 600], (match openSnapshot image ⟨b, []⟩ with | ok _ => true | _ => false) = true := by decide +kernel
  have hb : m.superblock ∈ [500, 600] := by
    simp only [List.mem_cons, List.not_mem_nil, or_false] at hm
    rcases hm with rfl | rfl | rfl | rfl <;> decide
  have h := h _ hb
  have e : openSnapshot image ⟨m.superblock, []⟩ = openSnapshot image m := rfl
  rw [e] at h
  cases ho : openSnapshot image m with
  | ok s => exact ⟨s, rfl⟩
  | err => rw [ho] at h; cases h
  | ub => rw [ho] at h; cases h

/-- a name without a zero at its end -/
example : ∃ s, openSnapshot image ⟨500, [97, 98]⟩ = ok s ∧ (snapshotsOut ok image 0 [⟨500, [97, 98]⟩]).2 = ub := by
  have h : (match openSnapshot image ⟨500, [97, 98]⟩ with | ok _ => true | _ => false) = true := by decide +kernel
  cases ho : openSnapshot image ⟨500, [97, 98]⟩ with
  | ok s => exact ⟨s, rfl, c72_snapshot_overread ho (by decide) (by decide)⟩
  | err => rw [ho] at h; cases h
  | ub => rw [ho] at h; cases h

/-- the superblocks of the snapshots are not stored in `VolumeExample` -/
example : snapshotsOut ok VolumeExample.image 0 [⟨500, SnapExample.nameA⟩, ⟨600, SnapExample.nameB⟩] = ([], err) := c72_snapshot_unreadable (by decide +kernel)

/-- its third volume does not open -/
example : (volumesOut plain ok command VolumeExample.image VolumeExample.opened 1 2).2 ≠ ok () := by
  refine ((c72_stops (g := plain) (una := ok) (o := command) (image := VolumeExample.image) (k := VolumeExample.opened) 0 2).1 _ rfl fun r h => ?_).2
  unfold Info.getVolume at h
  obtain ⟨v, hv, _⟩ := bind_eq_ok.1 h
  exact VolumeExample.third v hv

/-! An encrypted volume -/

open EncryptedExample in
theorem encrypted_stored (img : Nat → Option Bytes) (k : Container.Opened) (h : StoredVolume img 10 EncryptedExample.b10 8) :
    StoredIn img k EncryptedExample.superblock EncryptedExample.volumes 0 EncryptedExample.b10 [68, 97, 116, 97] [] := by
  obtain ⟨f1, f2, f3, f4, f5, f6, f7, f8⟩ := EncryptedExample.superblock_facts
  obtain ⟨g1, g2, g3, g4, g5, g6, g7⟩ := EncryptedExample.b10_facts
  obtain ⟨n1, n2⟩ := EncryptedExample.newest_volume
  exact ⟨by rw [f6]; omega, by rw [f6, f5]; exact n1, ⟨8, [], by rw [f6, f5]; intro r hr; rw [n2 r hr]; exact h, .inl ⟨g4, rfl⟩, .nil⟩, ⟨ascii_name (by decide), by decide +kernel, by decide +kernel⟩⟩

def encrypted (locked : Bool) : ShownVolume := shownOf EncryptedExample.b10 [68, 97, 116, 97] locked []

theorem encrypted_as (locked : Bool) : StoredAs EncryptedExample.b10 (encrypted locked) := shown_stored ⟨ascii_name (by decide), by decide +kernel, by decide +kernel⟩

theorem encrypted_shows {o : Options} {locked : Bool} (ho : StartsAt o 512) (hi : o.index = none) (hp : ∀ s, o.password = some s → s = [1, 2]) (hr : o.recovery = none)
    (h : Protected secret o EncryptedExample.image EncryptedExample.opened EncryptedExample.b10 locked) :
    ∃ text, Info.list secret ok o (file EncryptedExample.image) = (text, ok ()) ∧ ShowsContainer { uuid := slice EncryptedExample.superblock 72 16, locked := false, volumes := [encrypted locked] } text := by
  have hl : Info.containerLocked EncryptedExample.opened = false := rfl
  have hst : ∀ i (h : i < [EncryptedExample.b10].length), StoredIn EncryptedExample.image EncryptedExample.opened EncryptedExample.superblock EncryptedExample.volumes i [EncryptedExample.b10][i]
      [encrypted locked][i].name [encrypted locked][i].snapshots ∧
      Protected secret o EncryptedExample.image EncryptedExample.opened [EncryptedExample.b10][i] [encrypted locked][i].locked ∧ StoredAs [EncryptedExample.b10][i] [encrypted locked][i] := by
    intro i hi
    have h1 : i = 0 := by simp only [List.length_cons, List.length_nil] at hi; omega
    subst h1
    exact ⟨encrypted_stored _ _ EncryptedExample.storedVolume, h, encrypted_as locked⟩
  have h := c72_volumes_partial (g := secret) (una := ok) (o := o) (img := EncryptedExample.image) (k := EncryptedExample.opened) (d0 := EncryptedExample.superblock) (records := EncryptedExample.volumes)
    (ds := [EncryptedExample.b10]) (shown := [encrypted locked]) (fun _ _ => rfl) rfl rfl (source := file EncryptedExample.image) ho rfl ⟨0, by unfold Program.indexOption; rw [hi]⟩ EncryptedExample.opens
    (fun s h => by rw [hp s h]; exact ⟨by decide, by decide, by decide⟩) (fun _ h => by rw [hr] at h; cases h) EncryptedExample.blocks rfl EncryptedExample.superblock_valid rfl EncryptedExample.containerTree
    (by rw [EncryptedExample.number]; rfl) rfl hst
  rwa [hl] at h

/-- with its password -/
example : ∃ text, Info.list secret ok unlocks (file EncryptedExample.image) = (text, ok ()) ∧
    ShowsContainer { uuid := slice EncryptedExample.superblock 72 16, locked := false, volumes := [encrypted false] } text :=
  encrypted_shows unlocks_starts rfl (fun s h => by cases h; rfl) rfl (.unlocked (enc := fun _ => List.reverse) (encX := EncryptedExample.encX) (S := fun _ => True) (keys := EncryptedExample.keys)
    (vk := List.replicate 32 6) (pw := [1, 2]) exPrims_ok EncryptedExample.cipher rfl EncryptedExample.encryptedVolume (by rw [EncryptedExample.b10_facts.2.2.2.2.2.2]; exact EncryptedExample.secrets) (fun _ _ => trivial)
    (.inl rfl) (EncryptedExample.isSecret _))

/-- and without -/
example : ∃ text, Info.list secret ok { offset := some far } (file EncryptedExample.image) = (text, ok ()) ∧
    ShowsContainer { uuid := slice EncryptedExample.superblock 72 16, locked := false, volumes := [encrypted true] } text :=
  encrypted_shows (.inr ⟨far, rfl, numerals.2.2.2.1, by decide, by decide⟩) rfl (fun s h => by cases h) rfl (.locked (enc := fun _ => List.reverse) (encX := EncryptedExample.encX) (vb := EncryptedExample.vb)
    exPrims_ok EncryptedExample.cipher rfl EncryptedExample.encryptedVolume
    (fun e he ht => ⟨exKek 0 6, 32, ⟨EncryptedExample.exKek_wf (.inl rfl), EncryptedExample.entry_vb he ht⟩, rfl, by decide, by decide⟩)
    (fun pw h => by rcases h with h | h <;> cases h))

end ListExample
end Verif.Props
