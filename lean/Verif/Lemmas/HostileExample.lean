import Verif.Lemmas.Session
import Verif.Lemmas.FileExample
/-! Images that make the library leave its memory, and one that does not -/
namespace Verif
open Res Spec
namespace HostileExample
open Session
open VolumeExample (fsLeaf inode nameField sizeField)
open FsTree.TreeExample (key)
open NameLookup.DirectoryExample (readme)

/-- the example programs around the library: ciphers, key derivation, names and decompressors -/
def plain : External := ⟨⟨fun _ _ d => d, none⟩, fun _ => true, Props.exPrims, FileExample.compare, FileExample.codec, List.replicate 65536 0⟩
def crypted : External := { plain with cipher := EncryptedExample.c }

/-- a file with a size, attributes and extents -/
def fileWith (identifier size : Nat) (attributes : List XAttr) (extents : List (Nat × (Mapping × Nat))) : List Record :=
  (key 3 identifier [], inode 2 identifier 0 0x81a4 (some [nameField readme, sizeField size])) :: (attributes.map (·.record identifier) ++ extents.map (fun e => Mapping.record e.1 e.2))

def rootRecord : Record := (key 3 2 [], inode 1 2 0 0x41ed (some [{ type := 4, flags := 2, value := [0x72, 0x6f, 0x6f, 0x74, 0] }]))

/-- file 7 has an extent in block 2^63; file 8 has a resource fork of 65538 bytes with a table of 9000 blocks, in 17 blocks from block 100 on -/
def openFiles : Bytes := fsLeaf (rootRecord ::
  (fileWith 7 10 [] [(7, ({ logical := 0, block := 2 ^ 63, length := 4096, crypto := 0 }, 0))] ++
    fileWith 8 10 [{ name := resourceFork, value := List.replicate 65538 0, stream := some (17, List.replicate 32 0) }, { name := decmpfs, value := [0x66, 0x70, 0x6d, 0x63] ++ (toLE 4 4 ++ toLE 8 5) }]
      [(17, ({ logical := 0, block := 100, length := 69632, crypto := 0 }, 0))]))
def forkStart : Bytes := [0, 0, 1, 0] ++ List.replicate 256 0 ++ toLE 4 9000 ++ toLE 4 72004 ++ List.replicate 3828 0
def image : Container.Image := fun b =>
  if b = 20 then some openFiles
  else if b = 100 then some forkStart
  else if 100 < b ∧ b < 117 then some (List.replicate 4096 0)
  else VolumeExample.image b

/-- an encrypted volume: file 7 has an extent of 100 bytes, and behind the packed key of the user there is one of 3 bytes -/
def sealedFiles : Bytes := EncryptedExample.encrypt EncryptedExample.keys 20 (fsLeaf (rootRecord :: fileWith 7 10 [] [(7, ({ logical := 0, block := 60, length := 100, crypto := 100 }, 0))]))
def vb : List BagEntry := [EncryptedExample.entry 3 (Props.exKek 0 6).encode, EncryptedExample.entry 3 [0x30, 0x00, 0x81]]
def volumeBag : Bytes :=
  let b := bagBlock (List.replicate 24 0 ++ toLE 4 0x72656373 ++ toLE 4 0) 2 1000 (List.replicate 8 0) vb []
  b ++ List.replicate (4096 - b.length) 0
def sealedBag : Bytes := EncryptedExample.encrypt (EncryptedExample.uuid, EncryptedExample.uuid) 50 volumeBag
def sealedImage : Container.Image := fun b => if b = 20 then some sealedFiles else if b = 50 then some sealedBag else EncryptedExample.image b

def script (ops : List Volume.Op) (identifier : Nat) : Script UInt8 := ⟨0, ops, .identifier identifier, [(.size, {})], [.read 5]⟩
def unlocking (password : Bytes) : List Volume.Op := [.setUser (some password), .unlock (List.replicate 32 0) (List.replicate 32 0)]

theorem lengths : openFiles.length = 4096 ∧ forkStart.length = 4096 ∧ sealedFiles.length = 4096 ∧ sealedBag.length = 4096 := by decide +kernel

theorem replace_blocks {image : Container.Image} (hb : Container.Blocks image) {n : Nat} {d : Bytes} (hd : d.length = 4096) : Container.Blocks (fun b => if b = n then some d else image b) := by
  intro b d' h
  simp only at h
  split at h
  · cases h; omega
  · exact hb b d' h

theorem image_blocks : Container.Blocks image := by
  refine replace_blocks (image := fun b => if b = 100 then some forkStart else if 100 < b ∧ b < 117 then some (List.replicate 4096 0) else VolumeExample.image b) (replace_blocks ?_ lengths.2.1) lengths.1
  intro b d h
  simp only at h
  split at h
  · have : d = List.replicate 4096 0 := (Option.some.inj h).symm
    subst this; exact Nat.le_of_eq List.length_replicate
  · exact VolumeExample.blocks b d h

theorem sealed_blocks : Container.Blocks sealedImage := replace_blocks (replace_blocks EncryptedExample.blocks lengths.2.2.2) lengths.2.2.1

end HostileExample
end Verif
