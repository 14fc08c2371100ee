import Verif.Lemmas.BrowseTold
import Verif.Props.C83
/-!
# C84: what a caller is told through a handle does not depend on what was asked, or failed, before
-/
namespace Verif.Props
open Res Spec Session
open Verif.Browse (Step Fault Answer browse steps)

/-- the files of the volume that the script opens -/
def Mounted (x : External) (image : Container.Image) (t : Browse.Script α) (f : FileRead.Files) : Prop :=
  ∃ k v s, Container.openRead (fun uuid => x.cipher.xts (uuid, uuid)) x.vector image = ok k ∧ VolumeOpen.volumeByIndex x.cipher x.vector image k t.index = ok v ∧
    Volume.run x.prims v.state t.ops = ok s ∧ FileRead.files x.cipher image k v s = ok f

/-- Partial: each handle stands for one inode, or one extended attribute of an inode, from the call that gave it on. Whatever calls came before, on this and on other handles, and whatever failed during them, the answer to a call
is what the file system tree of the volume has for it, see `Told`: a file entry found is that of the identifier, path, name or index asked for, or the parent; the number of sub file entries is that of the directory
records; extents are those of the data stream; an attribute is that of the index, or the first with the name; the size of an attribute is its own. A failure during a call makes that call an error, and no other one.
The full claim, for all images, is false: after one of the forms of data in `Checked` anything may happen, see C81. That attributes are found is in C40 and C47, for sound ones only. -/
theorem c84_told_partial {α : Type} [DecidableEq α] {x : External} {enc : Bytes → Bytes → Bytes} (hx : ExternalOk x enc) (dn : Name.Decoder UInt8) (dq : Name.Decoder α) (separator : α)
    {image : Container.Image} (t : Browse.Script α) (hi : Checked x image t.index t.ops) {answers : List (Res Answer)} (h : browse x dn dq separator image t = ok answers) :
    ∃ f, Mounted x image t f ∧ AllTold x dn dq separator f [] t.steps answers := by
  unfold browse at h
  obtain ⟨k, hk, h⟩ := bind_eq_ok.1 h
  obtain ⟨v, hv, h⟩ := bind_eq_ok.1 h
  obtain ⟨s, hs, h⟩ := bind_eq_ok.1 h
  obtain ⟨f, hf, h⟩ := bind_eq_ok.1 h
  cases h
  exact ⟨f, ⟨k, v, s, hk, hv, hs, hf⟩, Browse.steps_told ⟨(files_safe hx.cipher image k v s).2 f hf, hi.extents k v s f hk hv hs hf, hx.compare, hx.codec, hx.junk,
    fun i as a D h1 h2 h3 => hi.forks k v s f hk hv hs hf i as a D h1 h2 h3⟩ dn dq separator t.steps Browse.empty_rep⟩

/-- the calls of C83 on the example volume -/
example : ∃ f, Mounted HostileExample.plain VolumeExample.image browsing f ∧ ∃ answers, answers.length = 26 ∧ AllTold HostileExample.plain Name.utf8 Name.utf8 0x2f f [] browsing.steps answers := by
  obtain ⟨f, h1, h2⟩ := c84_told_partial plain_ok Name.utf8 Name.utf8 0x2f browsing (tidy_checked [] (fun _ h => nomatch h)) browsed
  exact ⟨f, h1, _, rfl, h2⟩

end Verif.Props
