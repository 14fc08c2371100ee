import Verif.Lemmas.VolumeOpen
import Verif.Props.C20
/-!
# C50 Opening a volume of a container

Opening a volume of any container never has undefined behaviour; what the volume reports is what the superblock stores that the container has for it as of the checkpoint in use;
a well-formed volume that is not encrypted opens and lists its files. It does not hold that every well-formed volume opens: the snapshot metadata tree is enumerated
when the volume is opened, hence a volume with so many snapshots that this tree has two levels does not open.
-/
namespace Verif.Props
open Verif Res Container VolumeOpen Spec BTree FsTree
open Verif.Spec (cstring)

theorem wide {n : Nat} (h : n < 2 ^ 63) : n < 2 ^ 64 := by omega

variable {c : Cipher} {vector : Nat → Bool} {image : Image} {k : Container.Opened} {d0 d : Bytes} {records : List Record}

/-- Opening a volume of an open container, by any index, never has undefined behaviour, whatever is in the file. -/
theorem c50_safe {xts : Bytes → Bytes → Bytes → Bytes} (hc : c.Sized) (hb : Blocks image) (hk : Container.openRead xts vector image = ok k) (i : Int) :
    volumeByIndex c vector image k i ≠ ub := by
  obtain ⟨_, d, _, _, _, hs, _⟩ := c27_newest_superblock hb hk
  exact safe_bind (c29_index_safe hs (fun b => safe_fetch _ _ b) i) fun _ _ => safe_openRead hc _ _ _ _

theorem nameField_length (h : Apsb.Valid false d) : (Apsb.nameField d).length = 256 := by
  have := h.size
  unfold Apsb.nameField slice
  rw [List.length_take, List.length_drop]
  omega

theorem uuid_length (h : Apsb.Valid false d) : (Apsb.uuid d).length = 16 := by
  have := h.size
  unfold Apsb.uuid slice
  rw [List.length_take, List.length_drop]
  omega

theorem takeWhile_all : ∀ {n : Bytes}, (0 : UInt8) ∉ n → n.takeWhile (· ≠ 0) = n
  | [], _ => rfl
  | a :: n, h => by
    have h1 : a ≠ 0 := fun e => h (by rw [e]; exact List.mem_cons_self)
    rw [List.takeWhile_cons_of_pos (by simpa using h1), takeWhile_all (fun e => h (List.mem_cons_of_mem _ e))]

theorem takeWhile_lt : ∀ {n : Bytes}, (0 : UInt8) ∈ n → (n.takeWhile (· ≠ 0)).length < n.length
  | a :: n, h => by
    by_cases h1 : a = 0
    · rw [List.takeWhile_cons_of_neg (by simpa using h1)]
      exact Nat.succ_pos _
    · rw [List.takeWhile_cons_of_pos (by simpa using h1)]
      have h2 : (0 : UInt8) ∈ n := by
        rcases List.mem_cons.1 h with e | e
        · exact absurd e.symm h1
        · exact e
      have := takeWhile_lt h2
      simp only [List.length_cons]
      omega

theorem readStream_all {n : Bytes} (hl : n.length = 256) : Snapshot.readStream n 256 0 = ok (cstring n) := by
  by_cases h : (0 : UInt8) ∈ n
  · have hlt : (cstring n).length < 256 := by
      rw [← hl]
      exact takeWhile_lt h
    have := Snapshot.readStream_ok (mem := n) (size := 256) (off := 0) (by simpa using hlt) (by simpa using h)
    simpa using this
  · have := Snapshot.readStream_take (mem := n) (size := 256) (off := 0) (by omega) (by rw [List.drop_zero, List.take_of_length_le (by omega)]; exact h)
    rw [List.drop_zero, List.take_of_length_le (by omega)] at this
    rw [this]
    unfold cstring
    rw [takeWhile_all h]

/-- what the functions for the metadata of a volume return is what superblock `d` stores -/
structure Reports (v : VolumeOpen.Opened) (d : Bytes) : Prop where
  name : nameBytes v = ok (cstring (Apsb.nameField d))
  identifier : ∀ buffer : Bytes, 16 ≤ buffer.length → buffer.length < 2 ^ 63 → getIdentifier v buffer = ok (Apsb.uuid d ++ buffer.drop 16)
  small : ∀ buffer : Bytes, buffer.length < 16 → getIdentifier v buffer = err
  features : getFeaturesFlags v = (Apsb.compatible d, Apsb.incompatible d, Apsb.readOnlyCompatible d)
  next : getNextIdentifier v = Apsb.nextIdentifier d

theorem reports_of (hv : Apsb.Valid false d) {v : VolumeOpen.Opened} (hs : v.superblock = VolumeOpen.superblockOf d) : Reports v d := by
  refine ⟨?_, ?_, ?_, ?_, ?_⟩
  · unfold nameBytes
    rw [hs]
    exact readStream_all (nameField_length hv)
  · intro buffer h1 h2
    unfold getIdentifier
    have hu := uuid_length hv
    have e : v.superblock.identifier = Apsb.uuid d := by rw [hs]; rfl
    rw [require_true (by omega), ok_bind, e]
    unfold wrN
    rw [if_pos (by omega), List.take_zero, List.nil_append, Nat.zero_add, hu]
  · intro buffer h
    unfold getIdentifier
    rw [require_false (by omega)]
    rfl
  · unfold getFeaturesFlags; rw [hs]; rfl
  · unfold getNextIdentifier; rw [hs]; rfl

/-- If a volume opens, the functions for its metadata return what the superblock stores that the object map of the container has for the identifier in that slot, as of the
checkpoint in use; its checksum, type and signature are right. Numbers of blocks are used modulo 2^52. -/
theorem c50_metadata (hb : Blocks image) (hs : k.superblock = Container.superblockOf d0) (hv : Nx.Valid d0) (ht : OmTree (containerBlocks image k.size) k.tree records)
    {i : Nat} (hi : i < numberOfVolumes k) (h0 : Nx.volume d0 i ≠ 0) {v : VolumeOpen.Opened} (h : volumeByIndex c vector image k i = ok v) :
    ∃ r d, Newest records (Nx.volume d0 i) (objectXid d0) r ∧ image (field r.2 8 8 % 2 ^ 52) = some d ∧ Apsb.Valid false d ∧ Reports v d := by
  unfold volumeByIndex at h
  rw [fetch_eq hb] at h
  rcases c29_slot hs hv ht hi h0 with ⟨_, he⟩ | ⟨r, hr, he⟩
  · rw [he] at h; cases h
  rw [he, ok_bind] at h
  obtain ⟨d, o, p⟩ := openRead_iff.1 h
  have hp := p.reads
  rw [show field r.2 8 8 * 4096 % 2 ^ 64 = (field r.2 8 8 % 2 ^ 52) * 4096 by omega] at hp
  obtain ⟨d', hd', e, hl, _⟩ := readAt_ok hp (by omega) (by omega)
  have : d = d' := by rw [e, List.take_of_length_le (hb _ _ hd')]
  subst this
  exact ⟨r, d, hr, hd', p.valid, reports_of p.valid p.superblock⟩

/-- the snapshots a volume has: none, or those of a snapshot metadata tree of one level -/
def HasSnapshots (image : Nat → Option Bytes) (root : Nat) (d : Bytes) (vs : List SnapValue) : Prop :=
  (Apsb.snapshotTree d = 0 ∧ vs = []) ∨
  ∃ rs, SnapTree { omImage := image, omRoot := root, image := image, root := Apsb.snapshotTree d } 1 rs ∧ ValuesOf rs vs ∧ Apsb.snapshotTree d ≠ 0 ∧ ∀ v ∈ vs, v.superblock < 2 ^ 32

theorem readSnapshots_ok (hb : Blocks image) {size root : Nat} {vs : List SnapValue} (h : HasSnapshots (containerBlocks image size) root d vs) :
    readSnapshots image size root (VolumeOpen.superblockOf d) = ok (vs.map (fun v => { superblock := v.superblock, name := v.name })) := by
  unfold readSnapshots
  have e : (VolumeOpen.superblockOf d).snapshotTree = Apsb.snapshotTree d := rfl
  rw [e]
  rcases h with ⟨h0, rfl⟩ | ⟨rs, h1, h2, h3, h4⟩
  · rw [if_neg (by omega)]
    rfl
  · rw [if_pos h3, fetch_eq hb]
    exact c35_listed_partial _ _ _ h1 _ h2 h4

/-- A volume opens that is not encrypted, with its metadata, snapshots and without being locked. What is missing: a snapshot metadata tree of more than one level, see
`c50_snapshot_tree`, and encrypted volumes, see C51. -/
theorem c50_opens_partial (hb : Blocks image) (hs : k.superblock = Container.superblockOf d0) (hv : Nx.Valid d0) (hvec : vector k.size = true)
    (ht : OmTree (containerBlocks image k.size) k.tree records) {i : Nat} (hi : i < numberOfVolumes k) (h0 : Nx.volume d0 i ≠ 0) {root : Nat} {vs : List SnapValue}
    (hr : ∀ r, Newest records (Nx.volume d0 i) (objectXid d0) r → StoredVolume image (field r.2 8 8) d root) (hx : HasVersion records (Nx.volume d0 i) (objectXid d0))
    (hsn : HasSnapshots (containerBlocks image k.size) root d vs) (hun : k.keyBag = none ∨ Apsb.unencrypted d) :
    ∃ v, volumeByIndex c vector image k i = ok v ∧ Reports v d ∧ numberOfSnapshots v = vs.length ∧ v.snapshots.map (·.name) = vs.map (·.name) ∧ v.state.isLocked = false ∧
      v.state.keyBag = none ∧ v.tree = root ∧ v.superblock = VolumeOpen.superblockOf d := by
  unfold volumeByIndex
  rw [fetch_eq hb]
  rcases c29_slot hs hv ht hi h0 with ⟨hn, _⟩ | ⟨r, hr', he⟩
  · exact absurd hx hn
  obtain ⟨h1, h2, h3, ⟨h4, h5, o, h6, h7, h8⟩, h9, h10⟩ := hr r hr'
  have hst : ∃ st, Volume.openRead (containerBag k.keyBag) (Apsb.flags d) (Apsb.uuid d) (readVolumeKeyBag c image (Apsb.uuid d)) = ok st ∧ st.isLocked = false ∧ st.keyBag = none := by
    unfold Volume.openRead
    rcases hun with h | h
    · rw [h]
      exact ⟨_, rfl, rfl, rfl⟩
    · split
      · exact ⟨_, rfl, rfl, rfl⟩
      · rw [if_neg (by unfold Apsb.unencrypted at h; omega)]
        exact ⟨_, rfl, rfl, rfl⟩
  obtain ⟨st, hst, hl, hkb⟩ := hst
  rw [he, ok_bind, Nat.mod_eq_of_lt (wide h2)]
  refine ⟨⟨VolumeOpen.superblockOf d, root, vs.map (fun v => { superblock := v.superblock, name := v.name }), st⟩, openRead_iff.2 ⟨d, o.take 88, ?_, h3, rfl, hvec, h4, ?_, ?_, h9, hst,
    readSnapshots_ok hb hsn, h10⟩, reports_of h3 rfl, by simp [numberOfSnapshots], by simp, hl, hkb, rfl, rfl⟩
  · rw [readAt_block h1 h3.size (Nat.le_refl _) (by omega) h2, List.take_of_length_le (by rw [h3.size]; omega)]
  · rw [Nat.mod_eq_of_lt (wide h5)]
    exact readAt_block h6 h7 (by omega) (by omega) h5
  · exact ⟨by rw [List.length_take]; omega, by rw [← h8.type]; exact field_take o 88 24 4 (by omega), by rw [field_take o 88 28 4 (by omega)]; exact h8.subtype,
      by rw [field_take o 88 48 8 (by omega)]; exact h8.tree⟩

theorem fsFetch_none (c : Cipher) (image : Image) (size : Nat) : fsFetch c none image size = fetch image size := by
  funext b
  unfold fsFetch
  cases fetch image size b with
  | ok d => rfl
  | err => rfl
  | ub => rfl

/-- the storage of a volume that is not encrypted -/
def plainStorage (image : Image) (size root fsRoot : Nat) : Storage :=
  { omImage := containerBlocks image size, omRoot := root, fsImage := containerBlocks image size, fsRoot := fsRoot }

/-- The functions for files of a volume that is not encrypted use the file system tree that its object map has, as of the transaction of its superblock. -/
theorem c50_trees (hb : Blocks image) {v : VolumeOpen.Opened} {s : Volume.State} (hs : s.keyBag = none) (hv : v.superblock = VolumeOpen.superblockOf d) {mappings : List Record}
    (hm : OmTree (containerBlocks image k.size) v.tree mappings) (h0 : Apsb.fsRoot d ≠ 0) :
    (¬ HasVersion mappings (Apsb.fsRoot d) (objectXid d) ∧ trees c image k v s = ok none) ∨
    ∃ r, Newest mappings (Apsb.fsRoot d) (objectXid d) r ∧ trees c image k v s = ok (some (volumeOf (plainStorage image k.size v.tree (field r.2 8 8)))) := by
  unfold trees context
  have e1 : v.superblock.fsRoot = Apsb.fsRoot d := by rw [hv]; rfl
  have e2 : v.superblock.transaction = objectXid d := by rw [hv]; rfl
  rw [hs, Option.map_none, fsFetch_none, fetch_eq hb, e1, e2]
  rcases c18_lookup _ _ _ hm (Apsb.fsRoot d) (objectXid d) h0 with ⟨h1, h2⟩ | ⟨r, desc, h1, h2, _, _, _, _, h3⟩
  · exact .inl ⟨h1, by rw [h2]; rfl⟩
  · refine .inr ⟨r, h1, ?_⟩
    rw [h2, ok_bind, ← h3]
    rfl

/-- From a container to the file system tree of a volume: a volume that is not encrypted opens and, through any calls to the functions for passwords and locking, its file system tree is
the one that is stored. -/
theorem c50_reach_partial (hb : Blocks image) (hs : k.superblock = Container.superblockOf d0) (hv : Nx.Valid d0) (hvec : vector k.size = true)
    (ht : OmTree (containerBlocks image k.size) k.tree records) {i : Nat} (hi : i < numberOfVolumes k) (h0 : Nx.volume d0 i ≠ 0) {root : Nat} {vs : List SnapValue}
    (hr : ∀ r, Newest records (Nx.volume d0 i) (objectXid d0) r → StoredVolume image (field r.2 8 8) d root) (hx : HasVersion records (Nx.volume d0 i) (objectXid d0))
    (hsn : HasSnapshots (containerBlocks image k.size) root d vs) (hun : k.keyBag = none ∨ Apsb.unencrypted d)
    {mappings files : List Record} (hm : OmTree (containerBlocks image k.size) root mappings) (hrx : HasVersion mappings (Apsb.fsRoot d) (objectXid d))
    (hfs : ∀ r, Newest mappings (Apsb.fsRoot d) (objectXid d) r → FsHolds (plainStorage image k.size root (field r.2 8 8)) (objectXid d) files)
    (p : KeyBag.Prims) (ops : List Volume.Op) :
    ∃ v, volumeByIndex c vector image k i = ok v ∧ v.superblock = VolumeOpen.superblockOf d ∧ ∀ s, Volume.run p v.state ops = ok s → s.isLocked = false ∧ s.keyBag = none ∧
      ∃ t, trees c image k v s = ok (some (volumeOf t)) ∧ FsHolds t (objectXid d) files := by
  obtain ⟨v, h1, h2, _, _, h3, h4, h5, h6⟩ := c50_opens_partial (c := c) hb hs hv hvec ht hi h0 hr hx hsn hun
  subst h5
  have hf0 : Apsb.fsRoot d ≠ 0 := by
    obtain ⟨r, hr1, hr2, hr3⟩ := hx
    rcases c29_slot hs hv ht hi h0 with ⟨hn, _⟩ | ⟨r, hr', _⟩
    · exact absurd ⟨_, hr1, hr2, hr3⟩ hn
    · exact (hr r hr').fsRoot
  refine ⟨v, h1, h6, fun s hs => ?_⟩
  have inv : s.isLocked = false ∧ s.keyBag = none := by
    have : ∀ (ops : List Volume.Op) (a b : Volume.State), a.isLocked = false → a.keyBag = none → Volume.run p a ops = ok b → b.isLocked = false ∧ b.keyBag = none := by
      intro ops
      induction ops with
      | nil => intro a b h1 h2 h; cases h; exact ⟨h1, h2⟩
      | cons o os ih =>
        intro a b h1 h2 h
        unfold Volume.run at h
        obtain ⟨a', ha, h⟩ := bind_eq_ok.1 h
        have : a'.isLocked = false ∧ a'.keyBag = none := by
          cases o with
          | setUser _ => cases ha; exact ⟨h1, h2⟩
          | setRecovery _ => cases ha; exact ⟨h1, h2⟩
          | isLocked => cases ha; exact ⟨h1, h2⟩
          | unlock _ _ =>
            simp only [Volume.step, h1, Bool.false_eq_true, if_false] at ha
            cases ha; exact ⟨h1, h2⟩
          | getFileSystem _ _ found =>
            by_cases hfs : a.fileSystem = true
            · simp only [Volume.step, Volume.getFileSystem, hfs, if_true] at ha
              cases ha; exact ⟨h1, h2⟩
            · simp only [Volume.step, Volume.getFileSystem, hfs, h1, Bool.false_eq_true, if_false] at ha
              cases found <;> (cases ha; exact ⟨h1, h2⟩)
        exact ih a' b this.1 this.2 h
    exact this ops _ _ h3 h4 hs
  refine ⟨inv.1, inv.2, ?_⟩
  rcases c50_trees (c := c) (k := k) hb inv.2 h6 hm hf0 with ⟨hn, _⟩ | ⟨r, hr1, hr2⟩
  · exact absurd hrx hn
  exact ⟨_, hr2, hfs r hr1⟩

/-- From a container to the entries of a directory: a volume that is not encrypted opens and, through any calls to the functions for passwords and locking, lists for every directory
of its file system tree the directory records that the tree has, in order. -/
theorem c50_listing_partial (hb : Blocks image) (hs : k.superblock = Container.superblockOf d0) (hv : Nx.Valid d0) (hvec : vector k.size = true)
    (ht : OmTree (containerBlocks image k.size) k.tree records) {i : Nat} (hi : i < numberOfVolumes k) (h0 : Nx.volume d0 i ≠ 0) {root : Nat} {vs : List SnapValue}
    (hr : ∀ r, Newest records (Nx.volume d0 i) (objectXid d0) r → StoredVolume image (field r.2 8 8) d root) (hx : HasVersion records (Nx.volume d0 i) (objectXid d0))
    (hsn : HasSnapshots (containerBlocks image k.size) root d vs) (hun : k.keyBag = none ∨ Apsb.unencrypted d)
    {mappings files : List Record} (hm : OmTree (containerBlocks image k.size) root mappings) (hrx : HasVersion mappings (Apsb.fsRoot d) (objectXid d))
    (hfs : ∀ r, Newest mappings (Apsb.fsRoot d) (objectXid d) r → FsHolds (plainStorage image k.size root (field r.2 8 8)) (objectXid d) files)
    (p : KeyBag.Prims) (ops : List Volume.Op) :
    ∃ v, volumeByIndex c vector image k i = ok v ∧ ∀ s, Volume.run p v.state ops = ok s → s.isLocked = false ∧ ∃ t, trees c image k v s = ok (some t) ∧
      ∀ identifier < 2 ^ 60, (∃ r ∈ files, IsOf identifier 3 r) →
        directoryRecords t v.superblock.transaction identifier = readAll Records.readDirectoryRecord (recordsOf files identifier 9) := by
  obtain ⟨v, h1, h2, h3⟩ := c50_reach_partial (c := c) hb hs hv hvec ht hi h0 hr hx hsn hun hm hrx hfs p ops
  refine ⟨v, h1, fun s hs => ?_⟩
  obtain ⟨h4, _, t, h5, h6⟩ := h3 s hs
  refine ⟨h4, _, h5, fun identifier hid hin => ?_⟩
  rw [h2]
  exact c20_listing _ _ _ h6 identifier hid hin

/-- A volume that has a snapshot metadata tree with a branch node as root does not open: unless the object map of the volume happens to know the number of the block of the first child as
the identifier of an object. -/
theorem c50_snapshot_tree (hb : Blocks image) (hs : k.superblock = Container.superblockOf d0) (hv : Nx.Valid d0) (ht : OmTree (containerBlocks image k.size) k.tree records)
    {i : Nat} (hi : i < numberOfVolumes k) (h0 : Nx.volume d0 i ≠ 0) {root : Nat}
    (hr : ∀ r, Newest records (Nx.volume d0 i) (objectXid d0) r → StoredVolume image (field r.2 8 8) d root)
    {mappings : List Record} (hm : OmTree (containerBlocks image k.size) root mappings) {b : Bytes}
    (hd : SnapRoot (containerBlocks image k.size) (Apsb.snapshotTree d) b) (h1 : Apsb.snapshotTree d ≠ 0) (hl : BNode.leaf b = false) {e : Record} {es : List Record}
    (he : BNode.entries b = e :: es) (hk : 8 ≤ e.1.length) (hty : fsType e.1 = 1) (hbl : field e.2 0 8 ≠ 0) (hn : ¬ HasVersion mappings (field e.2 0 8) (objectXid d)) :
    ∀ v, volumeByIndex c vector image k i ≠ ok v := by
  intro v h
  unfold volumeByIndex at h
  rw [fetch_eq hb] at h
  rcases c29_slot hs hv ht hi h0 with ⟨_, he'⟩ | ⟨r, hr', he'⟩
  · rw [he'] at h; cases h
  rw [he', ok_bind] at h
  have sv := hr r hr'
  obtain ⟨d', o, p⟩ := openRead_iff.1 h
  have hrange := sv.range
  rw [Nat.mod_eq_of_lt (wide hrange)] at p
  have hd' : d' = d := by
    have := p.reads
    rw [readAt_block sv.stored sv.valid.size (Nat.le_refl _) (by omega) hrange, List.take_of_length_le (by rw [sv.valid.size]; omega)] at this
    exact (Res.ok.inj this).symm
  subst hd'
  obtain ⟨_, hor, o', ho1, ho2, ho3⟩ := sv.objectMap
  have hroot : v.tree = root := by
    have := p.readsMap
    rw [Nat.mod_eq_of_lt (wide hor), readAt_block ho1 ho2 (by omega) (by omega) hor] at this
    have e := Res.ok.inj this
    have h2 := p.map.tree
    rw [← e, field_take o' 88 48 8 (by omega)] at h2
    rw [← h2]
    exact ho3.tree
  have hsn := p.snapshots
  unfold readSnapshots at hsn
  rw [show (VolumeOpen.superblockOf d').snapshotTree = Apsb.snapshotTree d' from rfl, if_pos h1, fetch_eq hb, hroot] at hsn
  have := c35_branch_refused { omImage := containerBlocks image k.size, omRoot := root, image := containerBlocks image k.size, root := Apsb.snapshotTree d' } (objectXid d') mappings hm b hd
    hl e es he hk hty hbl hn
  exact absurd (this.symm.trans hsn) (by intro h; cases h)

end Verif.Props
