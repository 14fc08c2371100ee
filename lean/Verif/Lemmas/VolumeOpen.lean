import Verif.Model.VolumeOpen
import Verif.Spec.Volume
import Verif.Lemmas.ContainerOpen
import Verif.Lemmas.Snapshot
import Verif.Lemmas.Volume
import Verif.Props.C29
import Verif.Props.C35
/-! Opening a volume -/
namespace Verif
open Res Spec
namespace VolumeOpen
open Container BTree

/-- the fields of a superblock -/
def superblockOf (d : Bytes) : Superblock :=
  { transaction := objectXid d, compatible := Apsb.compatible d, readOnlyCompatible := Apsb.readOnlyCompatible d, incompatible := Apsb.incompatible d, objectMap := Apsb.objectMap d,
    fsRoot := Apsb.fsRoot d, extentTree := field d 144 8, snapshotTree := Apsb.snapshotTree d, nextIdentifier := Apsb.nextIdentifier d, identifier := Apsb.uuid d,
    flags := Apsb.flags d, name := Apsb.nameField d }

theorem readSuperblock_iff (physical : Bool) (d : Bytes) (hl : d.length = 4096) (s : Superblock) :
    readSuperblock physical d = ok s ↔ Apsb.Valid physical d ∧ s = superblockOf d := by
  have hc := (Props.c01_object_accept_iff d (by omega) (by omega) (by omega)).1
  have hr : ∀ off n, off + n ≤ 4096 → rdLE d off n = ok (field d off n) := fun off n h => rdLE_field (by omega)
  have hn : ∀ off n, off + n ≤ 4096 → rdN d off n = ok (slice d off n) := fun off n h => rdN_slice (by omega)
  unfold readSuperblock
  rw [require_true (by omega), ok_bind, hr 16 8 (by omega), ok_bind, hr 24 4 (by omega), ok_bind, hr 28 4 (by omega), hn 32 4 (by omega), hr 40 8 (by omega), hr 48 8 (by omega),
    hr 56 8 (by omega), hr 128 8 (by omega), hr 136 8 (by omega), hr 144 8 (by omega), hr 152 8 (by omega), hr 176 8 (by omega), hn 240 16 (by omega), hr 264 8 (by omega),
    hn 704 256 (by omega)]
  simp only [ok_bind, unit_bind, require_unit, hc]
  constructor
  · rintro ⟨h1, h2, h3, h4, h5⟩
    exact ⟨⟨hl, h4, h1, h2, h3⟩, (Res.ok.inj h5).symm⟩
  · rintro ⟨v, rfl⟩
    exact ⟨v.type, v.subtype, v.signature, v.checked, rfl⟩

theorem safe_readSuperblock (physical : Bool) (d : Bytes) : Safe (readSuperblock physical d) := by
  unfold readSuperblock
  refine safe_bind safe_require fun _ h => ?_
  have h := (require_eq_ok _).1 h
  exact safe_bind (safe_rdLE (by omega)) fun _ _ => safe_bind (safe_rdLE (by omega)) fun _ _ => safe_bind safe_require fun _ _ =>
    safe_bind (safe_rdLE (by omega)) fun _ _ => safe_bind safe_require fun _ _ => safe_bind (safe_rdN (by omega)) fun _ _ => safe_bind safe_require fun _ _ =>
    safe_bind (safe_rdLE (by omega)) fun _ _ => safe_bind (safe_rdLE (by omega)) fun _ _ => safe_bind (safe_rdLE (by omega)) fun _ _ =>
    safe_bind (safe_rdLE (by omega)) fun _ _ => safe_bind (safe_rdLE (by omega)) fun _ _ => safe_bind (safe_rdLE (by omega)) fun _ _ =>
    safe_bind (safe_rdLE (by omega)) fun _ _ => safe_bind (safe_rdLE (by omega)) fun _ _ => safe_bind (safe_rdN (by omega)) fun _ _ =>
    safe_bind (safe_rdLE (by omega)) fun _ _ => safe_bind (safe_rdN (by omega)) fun _ _ => safe_bind (safe_checkObject _ (by omega)) fun _ _ => safe_ok _

theorem fetch_eq {image : Image} (hb : Blocks image) (size : Nat) : fetch image size = fetchOf (containerBlocks image size) := by
  funext b
  unfold fetch fetchOf containerBlocks
  by_cases h1 : b * 4096 < size
  · rw [if_pos h1]
    by_cases h2 : b * 4096 < 2 ^ 63
    · rw [if_pos ⟨h1, h2⟩]
      cases hi : image b with
      | none =>
        cases hr : readAt image (b * 4096) 4096 with
        | ok r =>
          obtain ⟨d, hd, _⟩ := readAt_ok hr (by omega) (by omega)
          rw [hi] at hd
          cases hd
        | err => rfl
        | ub => exact absurd hr (safe_readAt _ _ _)
      | some d =>
        simp only
        by_cases h3 : d.length = 4096
        · rw [if_pos h3, readAt_block hi h3 (by omega) (by omega) h2, List.take_of_length_le (by omega)]
        · rw [if_neg h3]
          cases hr : readAt image (b * 4096) 4096 with
          | ok r =>
            obtain ⟨d', hd, _, hl, _⟩ := readAt_ok hr (by omega) (by omega)
            rw [hi] at hd
            cases hd
            have := hb _ _ hi
            omega
          | err => rfl
          | ub => exact absurd hr (safe_readAt _ _ _)
    · rw [if_neg (by omega)]
      unfold readAt
      rw [if_pos (by omega)]
  · rw [if_neg h1, if_neg (by omega)]

theorem safe_fetch (image : Image) (size b : Nat) : Safe (fetch image size b) := by
  unfold fetch
  split
  · exact safe_readAt _ _ _
  · exact safe_err

theorem fetch_length {image : Image} {size b : Nat} {d : Bytes} (h : fetch image size b = ok d) : d.length = 4096 := by
  unfold fetch at h
  split at h
  · exact readAt_length h
  · cases h

/-- the ciphers do not change the size of their data -/
structure Cipher.Sized (c : Cipher) : Prop where
  xts : ∀ k t d, (c.xts k t d).length = d.length
  keyless : ∀ f, c.keyless = some f → ∀ t d, (f t d).length = d.length

theorem safe_readDataBlock {xts : Option (Bytes → Bytes → Bytes)} (hx : ∀ f, xts = some f → ∀ t d, (f t d).length = d.length) {d : Bytes} (hl : d.length = 4096) (out : Bytes) (b : Nat) :
    Safe (Crypto.readDataBlock xts d out b 512) := by
  unfold Crypto.readDataBlock
  refine safe_bind safe_require fun _ _ => ?_
  cases xts with
  | none => exact safe_ok _
  | some f => exact safe_crypt f (hx f rfl) d _ 512 (by omega) (by omega) _

theorem safe_fsFetch {c : Cipher} (hc : c.Sized) (x : Context) (image : Image) (size b : Nat) : Safe (fsFetch c x image size b) := by
  unfold fsFetch
  refine safe_bind (safe_fetch _ _ _) fun d hd => ?_
  have hl := fetch_length hd
  split
  · exact safe_readDataBlock (by intro f h; cases h) hl _ _
  · exact safe_readDataBlock (by intro f h; cases h; exact hc.xts _) hl _ _
  · split
    · exact safe_err
    · rename_i f hf
      exact safe_readDataBlock (by intro g h; cases h; exact hc.keyless _ hf) hl _ _

theorem safe_readVolumeKeyBag {c : Cipher} (hc : c.Sized) (image : Image) (uuid : Bytes) (block blocks : Nat) : Safe (readVolumeKeyBag c image uuid block blocks) := by
  unfold readVolumeKeyBag
  refine safe_bind safe_require fun _ _ => safe_bind (safe_readAt _ _ _) fun d hd => ?_
  have hl := readAt_length hd
  refine safe_bind (safe_crypt _ (hc.xts _) _ _ 512 (by omega) ?_ _) fun _ _ => Props.c16_volume_bag_safe _
  rw [hl]
  omega

theorem safe_getVolumeBagExtent (uuid : Bytes) (es : List KeyBag.Entry) : Safe (KeyBag.getVolumeBagExtent uuid es) := by
  induction es with
  | nil => exact safe_ok _
  | cons e es ih =>
    unfold KeyBag.getVolumeBagExtent
    split
    · exact ih
    · split
      · exact ih
      · refine safe_bind safe_require fun _ h => ?_
        have h := (require_eq_ok _).1 h
        exact safe_bind (safe_rdLE (by omega)) fun _ _ => safe_bind (safe_rdLE (by omega)) fun _ _ => safe_ok _

theorem safe_stateOpen (bag : Option (Bool × List KeyBag.Entry)) (flags : Nat) (uuid : Bytes) {readBag : Nat → Nat → Res (List KeyBag.Entry)} (h : ∀ b n, Safe (readBag b n)) :
    Safe (Volume.openRead bag flags uuid readBag) := by
  unfold Volume.openRead
  split
  · exact safe_ok _
  · split
    · refine safe_bind (safe_getVolumeBagExtent _ _) fun r _ => ?_
      split
      · exact safe_ok _
      · exact safe_bind safe_require fun _ _ => safe_bind (h _ _) fun _ _ => safe_ok _
    · exact safe_ok _

theorem safe_readSnapshots (image : Image) (size tree : Nat) (s : Superblock) : Safe (readSnapshots image size tree s) := by
  unfold readSnapshots
  split
  · exact Props.c35_safe _ (fun b => safe_fetch _ _ b) (fun b => safe_fetch _ _ b) _
  · exact safe_ok _

theorem safe_openRead {c : Cipher} (hc : c.Sized) (vector : Nat → Bool) (image : Image) (k : Container.Opened) (offset : Nat) : Safe (openRead c vector image k offset) := by
  unfold openRead
  exact safe_bind (safe_readAt _ _ _) fun _ _ => safe_bind (safe_readSuperblock _ _) fun _ _ => safe_bind safe_require fun _ _ => safe_bind safe_require fun _ _ =>
    safe_bind (safe_readAt _ _ _) fun _ _ => safe_bind (safe_readObjectMap _) fun _ _ => safe_bind safe_require fun _ _ =>
    safe_bind (safe_stateOpen _ _ _ fun b n => safe_readVolumeKeyBag hc _ _ b n) fun _ _ => safe_bind (safe_readSnapshots _ _ _ _) fun _ _ => safe_bind safe_require fun _ _ => safe_ok _

theorem readObjectMap_iff {o : Bytes} (hl : o.length = 88) {t : Nat} : readObjectMap o = ok t ↔ ObjectMapAt o t := by
  have hr : ∀ off n, off + n ≤ 88 → rdLE o off n = ok (field o off n) := fun off n h => rdLE_field (by omega)
  unfold readObjectMap
  rw [require_true (by omega), ok_bind, hr 24 4 (by omega), ok_bind, hr 28 4 (by omega), hr 48 8 (by omega)]
  simp only [ok_bind, unit_bind, require_unit, ok.injEq]
  exact ⟨fun ⟨h1, h2, h3⟩ => ⟨by omega, h1, h2, h3⟩, fun h => ⟨h.type, h.subtype, h.tree⟩⟩

/-- the parts of a successful open -/
structure OpenParts (c : Cipher) (vector : Nat → Bool) (image : Image) (k : Container.Opened) (offset : Nat) (d o : Bytes) (v : Opened) : Prop where
  reads : readAt image offset 4096 = ok d
  valid : Apsb.Valid false d
  superblock : v.superblock = superblockOf d
  vector : vector k.size = true
  objectMap : Apsb.objectMap d ≠ 0
  readsMap : readAt image (Apsb.objectMap d * 4096 % 2 ^ 64) 88 = ok o
  map : ObjectMapAt o v.tree
  root : v.tree ≠ 0
  state : Volume.openRead (containerBag k.keyBag) (Apsb.flags d) (Apsb.uuid d) (readVolumeKeyBag c image (Apsb.uuid d)) = ok v.state
  snapshots : readSnapshots image k.size v.tree (superblockOf d) = ok v.snapshots
  fsRoot : Apsb.fsRoot d ≠ 0

theorem openRead_iff {c : Cipher} {vector : Nat → Bool} {image : Image} {k : Container.Opened} {offset : Nat} {v : Opened} :
    openRead c vector image k offset = ok v ↔ ∃ d o, OpenParts c vector image k offset d o v := by
  constructor
  · intro h
    unfold openRead at h
    obtain ⟨d, h1, h⟩ := bind_eq_ok.1 h
    have hl := readAt_length h1
    obtain ⟨s, h2, h⟩ := bind_eq_ok.1 h
    obtain ⟨hv, rfl⟩ := (readSuperblock_iff false d hl s).1 h2
    obtain ⟨_, h3, h⟩ := bind_eq_ok.1 h
    obtain ⟨_, h4, h⟩ := bind_eq_ok.1 h
    obtain ⟨o, h5, h⟩ := bind_eq_ok.1 h
    obtain ⟨t, h6, h⟩ := bind_eq_ok.1 h
    obtain ⟨_, h7, h⟩ := bind_eq_ok.1 h
    obtain ⟨st, h8, h⟩ := bind_eq_ok.1 h
    obtain ⟨ss, h9, h⟩ := bind_eq_ok.1 h
    obtain ⟨_, h10, h⟩ := bind_eq_ok.1 h
    have := Res.ok.inj h
    subst this
    exact ⟨d, o, h1, hv, rfl, (require_eq_ok _).1 h3, (require_eq_ok _).1 h4, h5, (readObjectMap_iff (readAt_length h5)).1 h6, (require_eq_ok _).1 h7, h8, h9, (require_eq_ok _).1 h10⟩
  · rintro ⟨d, o, p⟩
    have e1 : (superblockOf d).objectMap = Apsb.objectMap d := rfl
    have e2 : (superblockOf d).flags = Apsb.flags d := rfl
    have e3 : (superblockOf d).identifier = Apsb.uuid d := rfl
    have e4 : (superblockOf d).fsRoot = Apsb.fsRoot d := rfl
    unfold openRead
    rw [p.reads, ok_bind, (readSuperblock_iff false d p.valid.size _).2 ⟨p.valid, rfl⟩, ok_bind, e1, e2, e3, e4, require_true p.vector, ok_bind, require_true p.objectMap, ok_bind, p.readsMap,
      ok_bind, (readObjectMap_iff (readAt_length p.readsMap)).2 p.map, ok_bind, require_true p.root, ok_bind, p.state, ok_bind, p.snapshots, ok_bind, require_true p.fsRoot, ok_bind, pure_eq,
      ← p.superblock]

end VolumeOpen
end Verif
