import Verif.Lemmas.Browse
import Verif.Props.C81
/-!
# C83: going through a hostile volume with any number of handles does not leave the memory of the library
-/
namespace Verif.Props
open Res Spec Session
open Verif.Browse (Ok Step Fault Answer browse steps)

/-- Partial: whatever the blocks of the image are, a caller may open the container and any volume, set passwords and unlock in any order, and then get any number of file entries of the volume, their parents, sub file
entries by index or name and extended attributes by index or name, and use them in any order, with any of the calls failing for lack of memory or of storage: sizes, targets of links, numbers of attributes
and entries, extents, seeking and reading of files and of attributes. Nothing is read or written outside of an object and no signed number overflows, unless the image has one of the forms of data in `Checked`.
The full claim, for all images, is false: see C81. Handles are not freed, see C61. -/
theorem c83_browse_partial {α : Type} [DecidableEq α] {x : External} {enc : Bytes → Bytes → Bytes} (hx : ExternalOk x enc) (dn : Name.Decoder UInt8) (dq : Name.Decoder α) (separator : α)
    {image : Container.Image} (hb : Container.Blocks image) (t : Browse.Script α) (ho : ∀ o ∈ t.ops, OpOk o) (hi : Checked x image t.index t.ops) :
    browse x dn dq separator image t ≠ ub ∧ ∀ answers, browse x dn dq separator image t = ok answers → ∀ a ∈ answers, a ≠ ub := by
  have hopen : ∀ k, Container.openRead (fun uuid => x.cipher.xts (uuid, uuid)) x.vector image = ok k → ∀ v, VolumeOpen.volumeByIndex x.cipher x.vector image k t.index = ok v →
      Safe (Volume.run x.prims v.state t.ops) := by
    intro k hk v hv
    obtain ⟨k1, k2⟩ := hi.keys k v hk hv
    obtain ⟨p1, p2⟩ := opened_passwords hv
    exact (run_safe hx.prims t.ops ho v.state (by intro pw h; rw [p1] at h; cases h) (by intro pw h; rw [p2] at h; cases h) k2 k1).1
  unfold browse
  constructor
  · refine safe_bind (c46_open_safe _ (fun _ => hx.cipher.xts _) x.vector image hb) fun k hk => ?_
    refine safe_bind (c50_safe hx.cipher hb hk t.index) fun v hv => ?_
    refine safe_bind (hopen k hk v hv) fun s _ => ?_
    exact safe_bind (files_safe hx.cipher image k v s).1 fun f _ => safe_ok _
  · intro answers h
    obtain ⟨k, hk, h⟩ := bind_eq_ok.1 h
    obtain ⟨v, hv, h⟩ := bind_eq_ok.1 h
    obtain ⟨s, hs, h⟩ := bind_eq_ok.1 h
    obtain ⟨f, hf, h⟩ := bind_eq_ok.1 h
    cases h
    exact Browse.steps_safe ⟨(files_safe hx.cipher image k v s).2 f hf, hi.extents k v s f hk hv hs hf, hx.compare, hx.codec, hx.junk, fun i as a D h1 h2 h3 => hi.forks k v s f hk hv hs hf i as a D h1 h2 h3⟩
      dn dq separator t.steps Browse.empty_fine

/-- all that callers can do with the example volume -/
example {α : Type} [DecidableEq α] (dn : Name.Decoder UInt8) (dq : Name.Decoder α) (separator : α) (t : Browse.Script α) (h0 : t.index = 0) (ho : ∀ o ∈ t.ops, OpOk o) :
    browse HostileExample.plain dn dq separator VolumeExample.image t ≠ ub ∧ ∀ answers, browse HostileExample.plain dn dq separator VolumeExample.image t = ok answers → ∀ a ∈ answers, a ≠ ub :=
  c83_browse_partial plain_ok dn dq separator VolumeExample.blocks t ho (by rw [h0]; exact tidy_checked t.ops ho)

/-- one of them: the root directory has one sub file entry, which cannot be read at first, and is the parent of it; of two other file entries one has three extents, the second of which is a hole, the other one a
resource fork with an extent, of which the end is read, and another attribute -/
def browsing : Browse.Script UInt8 := ⟨0, [], [(.find (.identifier 2), {}), (.node 0 .number, { tree := true }), (.node 0 .number, {}), (.node 0 (.sub 0), {}), (.node 1 .parent, {}), (.find (.identifier 7), {}), (.find (.identifier 8), {}),
  (.extents 3 .number, {}), (.extents 3 (.extent 1), {}), (.content 3 (.read 4), {}), (.entry 4 .count, {}), (.attributeAt 3 0, {}), (.attributeAt 4 0, {}), (.attributeAt 4 1, {}), (.attributeAt 4 2, {}),
  (.attributeNamed 4 [0x63], {}), (.value 5 (.read 4), {}), (.value 6 (.seek (-3) 2), {}), (.value 6 (.read 4), { disk := fun _ _ => true }), (.value 6 (.read 4), {}), (.value 7 (.read 4), {}), (.value 8 (.read 4), {}),
  (.valueExtents 5 .number, {}), (.valueExtents 6 .number, {}), (.valueExtents 7 (.extent 0), {}), (.content 4 (.read 3), {})]⟩

theorem browsed : browse HostileExample.plain Name.utf8 Name.utf8 0x2f VolumeExample.image browsing = ok [ok .handle, err, ok (.number 1), ok .handle, ok .handle, ok .handle, ok .handle,
    ok (.extents (.number 3)), ok (.extents (.piece ⟨0, 4096, 0⟩)), ok (.bytes [0x61, 0x61, 0x61, 0x61]), ok .done, ok .handle, ok .handle, ok .handle, err,
    ok .none, ok (.value (.bytes [1, 2])), ok (.value (.position 285)), err, ok (.value (.bytes [44, 2, 21])), ok (.value (.bytes [102, 112, 109, 99])), err,
    ok (.extents (.number 0)), ok (.extents (.number 1)), err, ok (.bytes [104, 101, 108])] := by
  have h : Container.openRead (fun uuid => HostileExample.plain.cipher.xts (uuid, uuid)) HostileExample.plain.vector VolumeExample.image = ok VolumeExample.opened := VolumeExample.opens
  unfold browse
  rw [h, ok_bind]
  decide +kernel

end Verif.Props
