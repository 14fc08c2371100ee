import Verif.Lemmas.SealedSession
import Verif.Props.C46
import Verif.Props.C50
/-!
# C81: reading a hostile image does not leave the memory of the library
-/
namespace Verif.Props
open Res Spec Session

/-- what the library is linked with stays inside of the buffers it gets, and reports no sizes beyond them -/
structure ExternalOk (x : External) (enc : Bytes → Bytes → Bytes) : Prop where
  cipher : x.cipher.Sized
  prims : KeyBag.PrimsOk x.prims enc
  compare : ∀ a b, x.compare a b ≠ ub
  codec : CodecFits x.codec
  junk : x.junk.length = 65536

/-- an image without the four forms of data that the library does not check -/
structure Checked (x : External) (image : Container.Image) (index : Int) (ops : List Volume.Op) : Prop where
  /-- packed keys do not end in the middle of a tag or size -/
  keys : ∀ k v, Container.openRead (fun uuid => x.cipher.xts (uuid, uuid)) x.vector image = ok k → VolumeOpen.volumeByIndex x.cipher x.vector image k index = ok v →
    KeysFit 2 v.state.containerBag ∧ ∀ es, v.state.keyBag = some es → KeysFit 3 es
  /-- extents have numbers that fit, and whole sectors if they are encrypted -/
  extents : ∀ k v s f, Container.openRead (fun uuid => x.cipher.xts (uuid, uuid)) x.vector image = ok k → VolumeOpen.volumeByIndex x.cipher x.vector image k index = ok v →
    Volume.run x.prims v.state ops = ok s → FileRead.files x.cipher image k v s = ok f → ExtentsFit f
  /-- attributes that are resource forks have tables that fit -/
  forks : ∀ k v s f, Container.openRead (fun uuid => x.cipher.xts (uuid, uuid)) x.vector image = ok k → VolumeOpen.volumeByIndex x.cipher x.vector image k index = ok v →
    Volume.run x.prims v.state ops = ok s → FileRead.files x.cipher image k v s = ok f → ∀ i as a D, FsTree.extendedAttributes f.tree f.xid i.identifier = ok as → a ∈ as →
      FileEntry.content (FileRead.env f x.compare i) a = ok (some D) → ForkFits D

/-- Partial: whatever the blocks of the image are, a caller may open the container and any volume, set passwords and unlock in any order, look up any file entry, call the functions of the
file entry in any order with any of them failing for lack of memory or of storage, and seek and read: nothing is read or written outside of an object and no signed number overflows, unless the image
has one of the forms of data in `Checked`. The full claim, for all images, is false, see below. -/
theorem c81_session_partial {α : Type} [DecidableEq α] {x : External} {enc : Bytes → Bytes → Bytes} (hx : ExternalOk x enc) (dn : Name.Decoder UInt8) (dq : Name.Decoder α) (separator : α)
    {image : Container.Image} (hb : Container.Blocks image) (t : Script α) (ho : ∀ o ∈ t.ops, OpOk o) (hi : Checked x image t.index t.ops) :
    session x dn dq separator image t ≠ ub := by
  unfold session
  refine safe_bind (c46_open_safe _ (fun _ => hx.cipher.xts _) x.vector image hb) fun k hk => ?_
  refine safe_bind (c50_safe hx.cipher hb hk t.index) fun v hv => ?_
  obtain ⟨k1, k2⟩ := hi.keys k v hk hv
  obtain ⟨p1, p2⟩ := opened_passwords hv
  refine safe_bind (run_safe hx.prims t.ops ho v.state (by intro pw h; rw [p1] at h; cases h) (by intro pw h; rw [p2] at h; cases h) k2 k1).1 fun s hs => ?_
  obtain ⟨f1, f2⟩ := files_safe hx.cipher image k v s
  refine safe_bind f1 fun f hf => ?_
  have ff := f2 f hf
  have fe := hi.extents k v s f hk hv hs hf
  refine safe_bind (find_safe dn dq separator ff t.find) fun r _ => ?_
  cases r with
  | none => exact safe_err
  | some i =>
    have he := env_safe ff fe hx.compare i
    obtain ⟨c1, c2⟩ := calls_safe he t.calls (entryOf_safe _ i)
    refine safe_bind c1 fun e hee => ?_
    obtain ⟨o1, o2⟩ := openFile_safe ff fe hx.compare hx.junk (c2 e hee) (fun as a D h1 h2 h3 => hi.forks k v s f hk hv hs hf i as a D h1 h2 h3)
    exact safe_bind o1 fun r hr => collect_safe hx.codec t.reads (o2 r hr)

/-- the example programs around the library meet the conditions -/
theorem plain_ok : ExternalOk HostileExample.plain (fun _ => List.reverse) where
  cipher := VolumeExample.sized
  prims := exPrims_ok
  compare a b := by intro h; cases h
  codec := ⟨FileExample.codec_ok, fun d cap s j h => by
      have h : builtinZlib (fun _ _ => []) d cap = .fail s j := h
      unfold builtinZlib at h
      split at h
      · cases h
      · cases h; exact Nat.le_refl _, fun d cap s j h => by cases h⟩
  junk := List.length_replicate

/-- the example volume, with a sparse file, attributes and a compressed file in a resource fork, meets the conditions for all calls on the volume -/
theorem tidy_checked (ops : List Volume.Op) (ho : ∀ o ∈ ops, OpOk o) : Checked HostileExample.plain VolumeExample.image 0 ops := by
  have key : ∀ k v, Container.openRead (fun uuid => HostileExample.plain.cipher.xts (uuid, uuid)) HostileExample.plain.vector VolumeExample.image = ok k →
      VolumeOpen.volumeByIndex HostileExample.plain.cipher HostileExample.plain.vector VolumeExample.image k 0 = ok v → volumeTidy HostileExample.plain VolumeExample.image k v = true := by
    intro k v hk hv
    have : k = VolumeExample.opened := by
      have h := VolumeExample.opens
      have hk : Container.openRead (fun _ _ d => d) (fun _ => true) VolumeExample.image = ok k := hk
      rw [h] at hk
      exact (Res.ok.inj hk).symm
    subst this
    have h := HostileExample.tidy
    rw [hv] at h
    exact h
  have bags : ∀ k v, Container.openRead (fun uuid => HostileExample.plain.cipher.xts (uuid, uuid)) HostileExample.plain.vector VolumeExample.image = ok k →
      VolumeOpen.volumeByIndex HostileExample.plain.cipher HostileExample.plain.vector VolumeExample.image k 0 = ok v → v.state.keyBag = none ∧ v.state.containerBag = [] ∧
      ∀ s f, Volume.run HostileExample.plain.prims v.state ops = ok s → FileRead.files HostileExample.plain.cipher VolumeExample.image k v s = ok f → filesTidy f = true := by
    intro k v hk hv
    have h := key k v hk hv
    unfold volumeTidy at h
    simp only [Bool.and_eq_true, Option.isNone_iff_eq_none, List.isEmpty_iff] at h
    obtain ⟨⟨h1, h2⟩, h3⟩ := h
    refine ⟨h1, h2, fun s f hs hf => ?_⟩
    obtain ⟨p1, p2⟩ := opened_passwords hv
    have := (run_safe plain_ok.prims ops ho v.state (by intro pw h; rw [p1] at h; cases h) (by intro pw h; rw [p2] at h; cases h) (by intro es h; rw [h1] at h; cases h)
      (by rw [h2]; intro e he; cases he)).2 s hs
    rw [files_state (by rw [this, h1]) h1] at hf
    rw [hf] at h3
    exact h3
  refine ⟨fun k v hk hv => ?_, fun k v s f hk hv hs hf => tidy_extents ((bags k v hk hv).2.2 s f hs hf), fun k v s f hk hv hs hf i as a D h1 h2 h3 => tidy_forks ((bags k v hk hv).2.2 s f hs hf) h1 h2 h3⟩
  obtain ⟨h1, h2, _⟩ := bags k v hk hv
  exact ⟨by rw [h2]; (intro e he; cases he), fun es h => by rw [h1] at h; cases h⟩

/-- all sessions with the example volume -/
example {α : Type} [DecidableEq α] (dn : Name.Decoder UInt8) (dq : Name.Decoder α) (separator : α) (t : Script α) (h0 : t.index = 0) (ho : ∀ o ∈ t.ops, OpOk o) :
    session HostileExample.plain dn dq separator VolumeExample.image t ≠ ub :=
  c81_session_partial plain_ok dn dq separator VolumeExample.blocks t ho (by rw [h0]; exact tidy_checked t.ops ho)

/-- one of them: two calls on the file entry, the second of which cannot get the attributes, then reading before, in and behind the hole of the file -/
example : session HostileExample.plain Name.utf8 Name.utf8 0x2f VolumeExample.image HostileExample.reading = ok [ok [0x61, 0x61, 0x61], ok [], ok [0, 0], ok [], ok [0x62, 0x62]] :=
  HostileExample.reads

/-- Not so for all images: an extent in block 2^63 of a file makes reading the file compute a signed number that overflows. -/
theorem c81_far_extent : ∃ image, Container.Blocks image ∧ session HostileExample.plain Name.utf8 Name.utf8 0x2f image ⟨0, [], .identifier 7, [(.size, {})], [.read 5]⟩ = ub :=
  ⟨_, HostileExample.image_blocks, HostileExample.far_ub⟩

/-- A resource fork that announces 9000 blocks makes reading the file write behind the buffer for compressed data. -/
theorem c81_fork_table : ∃ image, Container.Blocks image ∧ session HostileExample.plain Name.utf8 Name.utf8 0x2f image ⟨0, [], .identifier 8, [(.size, {})], [.read 5]⟩ = ub :=
  ⟨_, HostileExample.image_blocks, HostileExample.fork_ub⟩

/-- An extent of 100 bytes of a file of an encrypted volume makes reading the file, after unlocking with the right password, decrypt 512 of them. -/
theorem c81_short_extent : ∃ image, Container.Blocks image ∧ session HostileExample.crypted Name.utf8 Name.utf8 0x2f image
    ⟨0, [.setUser (some [1, 2]), .unlock (List.replicate 32 0) (List.replicate 32 0)], .identifier 7, [(.size, {})], [.read 5]⟩ = ub :=
  ⟨_, HostileExample.sealed_blocks, HostileExample.short_ub⟩

/-- A packed key of 3 bytes makes unlocking, with a password that is not that of the key before it, read behind it. -/
theorem c81_packed_key : ∃ image, Container.Blocks image ∧ session HostileExample.crypted Name.utf8 Name.utf8 0x2f image
    ⟨0, [.setUser (some [3]), .unlock (List.replicate 32 0) (List.replicate 32 0)], .identifier 7, [(.size, {})], [.read 5]⟩ = ub :=
  ⟨_, HostileExample.sealed_blocks, HostileExample.packed_ub⟩

end Verif.Props
