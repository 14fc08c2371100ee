import Verif.Props.C67
import Verif.Lemmas.FileExample
/-!
# C67 Extents: examples

"Docs/readme" of the example volume has three extents, the second is a hole.
-/
namespace Verif.Props
open Verif Res Spec BTree FsTree FileRead
open Verif.VolumeExample (files readmeExtents readmeContent readmeFile superblock)
open Verif.FileExample (readme_stream readme_extents plain_blocks hasRoot fork_stream readme_length)

namespace ExtentsExample

def volume : Files := { disk := readBytes VolumeExample.image, xts := none, tree := volumeOf (plainStorage VolumeExample.image (200 * 4096) 8 20), xid := 9, folding := true }

theorem serves : Serves volume (plainStorage VolumeExample.image (200 * 4096) 8 20) 9 (dataBlocks VolumeExample.image) none :=
  ⟨rfl, rfl, rfl, fun _ _ h => readBytes_block h, fun _ _ h => (dataBlocks_some h).2.2, fun _ h => by cases h⟩

example (i : Records.Inode) (hi : ReadsAs i readmeFile 7) := c67_file_partial serves VolumeExample.holds hasRoot (f := readmeFile) (readme_stream plain_blocks) hi

/-- there is such an inode -/
example : ∃ i, ReadsAs i readmeFile 7 := by
  obtain ⟨r, _, h⟩ := (FileExample.readme_in plain_blocks).inode
  obtain ⟨i, _, h⟩ := readInode_of h (by decide)
  exact ⟨i, h⟩

/-- a resource fork in a data stream -/
example := c67_attribute_partial serves VolumeExample.holds hasRoot (fork_stream plain_blocks) (flags := 1) rfl

theorem magic : superblock.length = 4096 ∧ superblock[32]? = some 0x4e := by decide +kernel

theorem magic_at : byteAt (dataBlocks VolumeExample.image) 32 = some 0x4e := by
  have h : dataBlocks VolumeExample.image 0 = some superblock := by
    unfold dataBlocks
    rw [show VolumeExample.image 0 = some superblock from rfl]
    exact if_pos ⟨magic.1, by decide⟩
  unfold byteAt
  rw [show 32 / 4096 = 0 from rfl, h, Option.bind_some]
  exact magic.2

/-- the hole -/
example := c67_hole serves VolumeExample.holds hasRoot (readme_stream plain_blocks) (ms := readmeExtents) (m := ({ logical := 4096, block := 0, length := 4096, crypto := 0 }, 0))
  ⟨readme_extents.1, by
    intro m hm
    simp only [readmeExtents, List.mem_cons, List.not_mem_nil, or_false] at hm
    rcases hm with rfl | rfl | rfl <;> exact ⟨⟨by decide, by decide, by decide, by decide, by decide, by decide⟩, by decide⟩, by simp [readmeExtents, Contiguous]⟩
  (by simp [readmeExtents]) rfl (by rw [readme_length]; decide) magic_at

/-- the number, an index that is out of range, and the second extent after a failure -/
example : Extents.entryCalls [(.number, err), (.number, ok (readmeExtents.map readMapping)), (.extent 3, err), (.extent (-1), err), (.extent 2, err)] none =
    [err, ok (.number 3), err, err, ok (.piece { offset := 62 * 4096, size := 4096, flags := 0 })] := by decide

end ExtentsExample
end Verif.Props
