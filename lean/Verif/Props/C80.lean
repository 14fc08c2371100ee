import Verif.Lemmas.Debug
import Verif.Lemmas.VolumeExample
/-!
# C80: diagnostic output does not change results

Full statement (false, see the theorems named `_differs` and `c80_kek_overread`): a library with diagnostic output, verbose or not, opens the containers and volumes, reads the
keys and reads the compressed files that a library without it does, with the same results, and stays within its buffers when it does so.

What holds is below: what is opened is the same; exactly which containers and volumes are refused; and what has to hold that a key and a compressed file are read as without.
-/
namespace Verif.Props
open Res Spec Debug Container

/-- without diagnostic output, only: a container is refused if its first superblock is that of a Fusion drive -/
theorem c80_fusion {xts : Bytes → Bytes → Bytes → Bytes} {vector : Nat → Bool} {image : Image} (hb : Blocks image) {c : Container.Opened} :
    Container.openRead xts vector image = ok c ↔ openContainer .quiet xts vector image = ok c ∧ ∀ d, image 0 = some d → Nx.incompatible d / 2 ^ 8 % 2 = 0 := by
  rw [← openContainer_plain]
  exact openContainer_quiet hb

/-- A container that is opened in verbose mode is the one that is opened when not verbose, for any image, and all that is printed is there: the maps in the area of the superblock in use
and the objects it refers to. -/
theorem c80_container_partial {xts : Bytes → Bytes → Bytes → Bytes} {vector : Nat → Bool} {image : Image} (hb : Blocks image) {c : Container.Opened}
    (h : openContainer .verbose xts vector image = ok c) :
    openContainer .quiet xts vector image = ok c ∧ Printable image c.superblock.fusionTree c.superblock.spaceManager c.superblock.reaper c.map ∧
    ∃ d, image 0 = some d ∧ MapsValid image (Nx.areaBlock d % 2 ^ 32) (c.superblock.areaBlocks + 1) := by
  obtain ⟨d0, s, hd, ha, h1, h2⟩ := (openContainer_iff (by decide) hb).1 h
  obtain ⟨h3, h4⟩ := (afterScan_iff ha.1.blockSize).1 (by simpa using h2)
  obtain ⟨h5, h6⟩ := scanLoop_sound (k := 0) hb h1
  refine ⟨(openContainer_iff (by decide) hb).2 ⟨d0, s, hd, ha, ?_, by simpa using h3⟩, h4, d0, hd, ?_⟩
  · rw [scanLoop_eq_of (by decide)]
    exact h5
  · have hs := afterScan_superblock h3
    obtain ⟨n, _, hn, hn2⟩ := scan_result hb ha h5
    intro j hj
    rw [hs] at hj
    exact h6 j (by omega) (by omega) (by omega)

/-- Which containers are opened in verbose mode, where all superblocks agree about the size of the checkpoint descriptor area. -/
theorem c80_container {xts : Bytes → Bytes → Bytes → Bytes} {vector : Nat → Bool} {image : Image} (hb : Blocks image) {d0 : Bytes} (h0 : image 0 = some d0)
    (hn : ∀ j ≤ Nx.areaBlocks d0, ∀ d, image (Nx.areaBlock d0 % 2 ^ 32 + j) = some d → objectType d = superblockType → Nx.areaBlocks d = Nx.areaBlocks d0) {c : Container.Opened} :
    openContainer .verbose xts vector image = ok c ↔ openContainer .quiet xts vector image = ok c ∧
      MapsValid image (Nx.areaBlock d0 % 2 ^ 32) (Nx.areaBlocks d0 + 1) ∧ Printable image c.superblock.fusionTree c.superblock.spaceManager c.superblock.reaper c.map := by
  have count : ∀ {s : Scan}, Container.scanLoop image (2 ^ 31) 0 ((Nx.areaBlock d0 % 2 ^ 32) * 4096) { superblock := superblockOf d0 } = ok s → s.superblock.areaBlocks = Nx.areaBlocks d0 :=
    fun h => scanLoop_count (k := 0) hb rfl hn h
  constructor
  · intro h
    obtain ⟨h1, h2, d, hd, h3⟩ := c80_container_partial hb h
    rw [h0] at hd
    cases hd
    obtain ⟨d0', s, hd, ha, h4, h5⟩ := (openContainer_iff (by decide) hb).1 h1
    rw [h0] at hd
    cases hd
    rw [scanLoop_eq_of (by decide)] at h4
    rw [afterScan_superblock h5, count h4] at h3
    exact ⟨h1, h3, h2⟩
  · rintro ⟨h1, h2, h3⟩
    obtain ⟨d0', s, hd, ha, h4, h5⟩ := (openContainer_iff (by decide) hb).1 h1
    rw [h0] at hd
    cases hd
    rw [scanLoop_eq_of (by decide)] at h4
    have := (scanLoop_complete' (k := 0) hb rfl hn h4 h2).1
    refine (openContainer_iff (by decide) hb).2 ⟨d0, s, h0, ha, this, ?_⟩
    simpa using (afterScan_iff ha.1.blockSize).2 ⟨by simpa using h5, h3⟩

/-- No file makes opening a container read outside of its buffers, in any mode. -/
theorem c80_container_safe (m : Mode) (xts : Bytes → Bytes → Bytes → Bytes) (hx : ∀ k t d, (xts k t d).length = d.length) (vector : Nat → Bool) (image : Image) (hb : Blocks image) :
    openContainer m xts vector image ≠ ub := safe_openContainer m xts hx vector image hb

/-- Which volumes are opened: with diagnostic output, verbose or not, those with an extent reference tree that can be read. What is opened is the same. -/
theorem c80_volume {m : Mode} {c : VolumeOpen.Cipher} {vector : Nat → Bool} {image : Image} {k : Container.Opened} {offset : Nat} {v : VolumeOpen.Opened} :
    openVolume m c vector image k offset = ok v ↔ VolumeOpen.openRead c vector image k offset = ok v ∧
      (m ≠ .plain → v.superblock.extentTree ≠ 0 → ObjectIn image v.superblock.extentTree 4096 0x40000002 0xf) := openVolume_iff

/-- No file makes opening a volume read outside of its buffers, in any mode. -/
theorem c80_volume_safe (m : Mode) {c : VolumeOpen.Cipher} (hc : c.Sized) (vector : Nat → Bool) (image : Image) (k : Container.Opened) (offset : Nat) :
    openVolume m c vector image k offset ≠ ub := safe_openVolume m hc vector image k offset

/-- A packed key is read as without diagnostic output, unless memory behind it is read. -/
theorem c80_kek_partial (mem : Bytes) (size : Nat) : Debug.readKek mem size = ub ∨ Debug.readKek mem size = KeyBag.readKek mem size := refines_readKek mem size

/-- It is read as without if 65540 bytes follow it, which is more than a size in a packed object can tell. -/
theorem c80_kek_room_partial (mem : Bytes) (size : Nat) (h : size + 65540 ≤ mem.length) : Debug.readKek mem size = KeyBag.readKek mem size := by
  rcases refines_readKek mem size with e | e
  · exact absurd e (safe_readKek h)
  · exact e

/-- A packed key that tells a size behind the end of the memory makes verbose mode read there. Without diagnostic output its size is compared first, and nothing behind 3 bytes is read. -/
theorem c80_kek_overread (mem : Bytes) (size : Nat) (tag lo hi : UInt8) (rest : Bytes) (hm : mem = tag :: 0x82 :: lo :: hi :: rest) (h2 : 2 ≤ size) (hs : size + 3 ≤ mem.length)
    (hl : mem.length < 2 ^ 63) (h : rest.length < lo.toNat + 256 * hi.toNat) : Debug.readKek mem size = ub ∧ KeyBag.readKek mem size ≠ ub := by
  refine ⟨?_, KeyBag.readKek_safe hs⟩
  have hsize : KeyBag.readSize mem false 1 = ok (lo.toNat + 256 * hi.toNat, 4) := by
    subst hm
    unfold KeyBag.readSize
    rw [rd_lt (by simp), ok_bind]
    simp [rdLE_le, leNat]
  exact readKek_overread h2 (by omega) (by omega) hsize (by subst hm; simp; omega)

/-- The table of a compressed file is read in verbose mode if it is read without, and the footer of the resource fork is there. -/
theorem c80_compressed {method : Nat} {stream : Bytes} {table : List Nat} :
    Debug.getOffsets method stream = ok table ↔
      Compressed.getOffsets method stream = ok table ∧ (method = methodDeflate → stream.take 4 ≠ [0x66, 0x70, 0x6d, 0x63] → FooterFits stream) := getOffsets_iff

/-- Verbose mode does not write outside of the buffer where it is not done without. -/
theorem c80_compressed_safe {method : Nat} {stream : Bytes} : Debug.getOffsets method stream = ub ↔ Compressed.getOffsets method stream = ub := getOffsets_ub

/-! ### Examples, and what differs -/

namespace DebugExample

def superblock (incompatible spaceManager reaper fusionTree : Nat) : Bytes :=
  let p := toLE 8 1 ++ toLE 8 3 ++ toLE 4 0x80000001 ++ toLE 4 0 ++ [0x4e, 0x58, 0x53, 0x42] ++ toLE 4 4096 ++ toLE 8 80 ++ List.replicate 16 0 ++ toLE 8 incompatible ++ List.replicate 32 0 ++
    toLE 4 2 ++ List.replicate 4 0 ++ toLE 8 1 ++ List.replicate 32 0 ++ toLE 8 spaceManager ++ toLE 8 4 ++ toLE 8 reaper ++ List.replicate 4 0 ++ toLE 4 100 ++ List.replicate 800 0 ++
    List.replicate 368 0 ++ toLE 8 fusionTree ++ List.replicate 24 0 ++ List.replicate 2712 0
  match Checksum.fletcher64 p 0 with
  | ok v => toLE 8 v ++ p
  | _ => []

/-- a block with the header of an object and nothing else -/
def object (type subtype : Nat) : Bytes := List.replicate 24 0 ++ toLE 4 type ++ toLE 4 subtype ++ List.replicate 4064 0

/-- superblock, area with a map, a superblock and a block `next`, object map and its tree, Fusion tree; the map tells 70 for 1024 and 71 for 1029 -/
def image (sb next : Bytes) : Image
  | 0 => some sb
  | 1 => some exampleMap
  | 2 => some sb
  | 3 => some next
  | 4 => some exampleObjectMap
  | 5 => some zeroBlock
  | 6 => some (object 0x40000002 0x15)
  | 70 => some (object 0x80000005 0)
  | 71 => some (object 0x80000011 0)
  | _ => none

def isOk {α : Type} : Res α → Bool
  | ok _ => true
  | _ => false

def open' (m : Mode) (sb next : Bytes) : Res Container.Opened := openContainer m (fun _ _ d => d) (fun _ => true) (image sb next)

def good : Bytes := superblock 0 1024 1029 6
def fusion : Bytes := superblock 0x100 1024 1029 6
def unmapped : Bytes := superblock 0 1030 0 0

attribute [irreducible] good fusion unmapped

theorem facts : good.length = 4096 ∧ fusion.length = 4096 ∧ unmapped.length = 4096 ∧ exampleMap.length = 4096 ∧ exampleObjectMap.length = 4096 ∧ zeroBlock.length = 4096 ∧
    (object 0x40000002 0x15).length = 4096 ∧ (object 0x80000005 0).length = 4096 ∧ (object 0x80000011 0).length = 4096 ∧ (object 0x4000000c 0).length = 4096 := by decide +kernel

theorem blocks {sb next : Bytes} (h1 : sb.length = 4096) (h2 : next.length = 4096) : Blocks (image sb next) := by
  intro b d h
  obtain ⟨_, _, _, h3, h4, h5, h6, h7, h8, _⟩ := facts
  unfold image at h
  split at h <;> first | (cases h; done) | (rw [← Option.some.inj h]; omega)

theorem isOk_iff {α : Type} {x : Res α} : isOk x = true ↔ ∃ a, x = ok a := by
  cases x <;> simp [isOk]

theorem isErr {α : Type} {x : Res α} (h : isOk x = false) (hu : x ≠ ub) : x = err := by
  cases x <;> simp_all [isOk]

/-- the hypotheses of `c80_container_partial` and, with the agreement on the area, of `c80_container` -/
theorem opens : isOk (open' .verbose good zeroBlock) = true := by decide +kernel

theorem agree : ∀ j ≤ Nx.areaBlocks good, ∀ d, image good zeroBlock (Nx.areaBlock good % 2 ^ 32 + j) = some d → objectType d = superblockType → Nx.areaBlocks d = Nx.areaBlocks good := by
  have h1 : Nx.areaBlocks good = 2 := by decide +kernel
  have h2 : Nx.areaBlock good % 2 ^ 32 = 1 := by decide +kernel
  have h3 : objectType zeroBlock ≠ superblockType := by decide +kernel
  intro j hj d hd ht
  rw [h1] at hj
  rw [h2] at hd
  have : j = 0 ∨ j = 1 ∨ j = 2 := by omega
  rcases this with rfl | rfl | rfl
  · cases hd; exact absurd ht exampleMap_type
  · cases hd; rfl
  · cases hd; exact absurd ht h3

/-- a volume superblock with an extent reference tree in a block -/
def volume (extents : Nat) : Bytes :=
  let p := toLE 8 1026 ++ toLE 8 9 ++ toLE 4 0xd ++ toLE 4 0 ++ [0x41, 0x50, 0x53, 0x42] ++ toLE 4 0 ++ toLE 8 1 ++ toLE 8 2 ++ toLE 8 3 ++ List.replicate 64 0 ++ toLE 8 7 ++ toLE 8 1000 ++
    toLE 8 extents ++ toLE 8 0 ++ List.replicate 16 0 ++ toLE 8 34 ++ List.replicate 56 0 ++ List.replicate 16 7 ++ List.replicate 8 0 ++ toLE 8 1 ++
    List.replicate 432 0 ++ [65] ++ List.replicate 255 0 ++ List.replicate 3136 0
  match Checksum.fletcher64 p 0 with
  | ok v => toLE 8 v ++ p
  | _ => []

def volumeImage (extents : Nat) : Image
  | 7 => some VolumeExample.b7
  | 10 => some (volume extents)
  | 13 => some (object 0x40000002 0xf)
  | 14 => some zeroBlock
  | _ => none

def cipher : VolumeOpen.Cipher := ⟨fun _ _ d => d, none⟩

def openVolume' (m : Mode) (extents : Nat) : Res VolumeOpen.Opened := openVolume m cipher (fun _ => true) (volumeImage extents) VolumeExample.opened (10 * 4096)

/-- a resource fork with one chunk of 4 bytes at 272; offset and size of the footer are in its header -/
def fork (offset size : Nat) : Bytes :=
  [0, 0, 1, 0] ++ (toLE 4 offset).reverse ++ [0, 0, 0, 0] ++ (toLE 4 size).reverse ++ List.replicate 240 0 ++ toLE 4 16 ++ toLE 4 1 ++ toLE 4 12 ++ toLE 4 4 ++ [1, 2, 3, 4] ++ List.replicate 50 9

end DebugExample
open DebugExample

example : Blocks (image good zeroBlock) ∧ image good zeroBlock 0 = some good ∧ ∃ c, openContainer .verbose (fun _ _ d => d) (fun _ => true) (image good zeroBlock) = ok c :=
  ⟨blocks facts.1 facts.2.2.2.2.2.1, rfl, isOk_iff.1 opens⟩
/-- the condition of `c80_container` for a container that has a space manager, a reaper and a Fusion tree -/
example : ∃ c : Container.Opened, MapsValid (image good zeroBlock) (Nx.areaBlock good % 2 ^ 32) (Nx.areaBlocks good + 1) ∧
    Printable (image good zeroBlock) c.superblock.fusionTree c.superblock.spaceManager c.superblock.reaper c.map := by
  obtain ⟨c, hc⟩ := isOk_iff.1 opens
  obtain ⟨_, h⟩ := (c80_container (blocks facts.1 facts.2.2.2.2.2.1) rfl agree).1 hc
  exact ⟨c, h⟩

/-- A Fusion drive is opened by a library with diagnostic output, and only by that. -/
theorem c80_fusion_differs : ∃ (image : Image) (c : Container.Opened), Blocks image ∧ Container.openRead (fun _ _ d => d) (fun _ => true) image = err ∧
    openContainer .quiet (fun _ _ d => d) (fun _ => true) image = ok c ∧ openContainer .verbose (fun _ _ d => d) (fun _ => true) image = ok c := by
  have hb : Blocks (image fusion zeroBlock) := blocks facts.2.1 facts.2.2.2.2.2.1
  obtain ⟨c, hc⟩ := isOk_iff.1 (show isOk (open' .verbose fusion zeroBlock) = true by decide +kernel)
  refine ⟨image fusion zeroBlock, c, hb, ?_, (c80_container_partial hb hc).1, hc⟩
  rw [← openContainer_plain]
  exact isErr (show isOk (open' .plain fusion zeroBlock) = false by decide +kernel) (c80_container_safe _ _ (fun _ _ _ => rfl) _ _ hb)

/-- Containers that are opened only if not verbose: one whose space manager is not in the checkpoint map, and one with an older checkpoint map that is damaged. -/
theorem c80_container_differs : ∃ image image' : Image, (∀ i ∈ [image, image'], Blocks i ∧ (∃ c, Container.openRead (fun _ _ d => d) (fun _ => true) i = ok c) ∧
    openContainer .verbose (fun _ _ d => d) (fun _ => true) i = err) ∧ image' 3 = some (object 0x4000000c 0) ∧ image 0 = some unmapped := by
  have h1 : Blocks (image unmapped zeroBlock) := blocks facts.2.2.1 facts.2.2.2.2.2.1
  have h2 : Blocks (image good (object 0x4000000c 0)) := blocks facts.1 facts.2.2.2.2.2.2.2.2.2
  refine ⟨image unmapped zeroBlock, image good (object 0x4000000c 0), ?_, rfl, rfl⟩
  intro i hi
  rw [← openContainer_plain]
  simp only [List.mem_cons, List.not_mem_nil, or_false] at hi
  rcases hi with rfl | rfl
  · exact ⟨h1, isOk_iff.1 (show isOk (open' .plain unmapped zeroBlock) = true by decide +kernel),
      isErr (show isOk (open' .verbose unmapped zeroBlock) = false by decide +kernel) (c80_container_safe _ _ (fun _ _ _ => rfl) _ _ h1)⟩
  · exact ⟨h2, isOk_iff.1 (show isOk (open' .plain good (object 0x4000000c 0)) = true by decide +kernel),
      isErr (show isOk (open' .verbose good (object 0x4000000c 0)) = false by decide +kernel) (c80_container_safe _ _ (fun _ _ _ => rfl) _ _ h2)⟩

/-- A volume whose extent reference tree is damaged is opened only without diagnostic output; with a good one it is opened. -/
theorem c80_volume_differs : isOk (VolumeOpen.openRead cipher (fun _ => true) (volumeImage 14) VolumeExample.opened (10 * 4096)) = true ∧
    isOk (openVolume' .quiet 14) = false ∧ isOk (openVolume' .verbose 14) = false ∧ isOk (openVolume' .quiet 13) = true ∧ isOk (openVolume' .verbose 13) = true := by
  decide +kernel

/-- a packed key of 8 bytes in memory of 11 bytes, which tells a size of 65535 -/
example : Debug.readKek [0x30, 0x82, 0xff, 0xff, 0, 0, 0, 0, 0, 0, 0] 8 = ub ∧ KeyBag.readKek [0x30, 0x82, 0xff, 0xff, 0, 0, 0, 0, 0, 0, 0] 8 ≠ ub :=
  c80_kek_overread _ 8 0x30 0xff 0xff [0, 0, 0, 0, 0, 0, 0] rfl (by decide) (by decide) (by decide) (by decide)

/-- A compressed file whose resource fork has no footer where the header tells is read only if not verbose. -/
theorem c80_compressed_differs : Compressed.getOffsets methodDeflate (fork 1000 50) = ok [272, 326] ∧ Debug.getOffsets methodDeflate (fork 1000 50) = err ∧
    Debug.getOffsets methodDeflate (fork 276 50) = ok [272, 326] := by
  decide +kernel

end Verif.Props
