import Verif.Props.C72
import Verif.Props.C71Program
/-!
# C72, from the command line to what is shown about a container
-/
namespace Verif.Props
open Verif Res Spec BTree FsTree FileRead
open Verif.PathString (cString number_decimal)
open Verif.Info (ascii line heading uuidString uuidLine openSnapshot snapshotsOut volumeOut containerLocked volumesOut containerOut)
open Verif.Program (Machine Options Obtained)
open Verif.Spec.Info (chars ShownVolume ShownContainer uuidOf ShowsSnapshots ShowsVolume ShowsVolumes ShowsContainer)

/-! The loop over the volumes -/

section
variable {g : Machine} {una : Bytes → Res Bytes} {o : Options} {image : Container.Image} {k : Container.Opened}

/-- volume `i` is obtained, and what is printed about it shows `v` -/
def ShownAs (g : Machine) (una : Bytes → Res Bytes) (o : Options) (image : Container.Image) (k : Container.Opened) (i : Nat) (v : ShownVolume) : Prop :=
  ∃ r text ls, Info.getVolume g o image k (i : Int) = ok r ∧ volumeOut una image i r = (text, ok ()) ∧ LinesOf text ls ∧ ShowsVolume i v ls

theorem volumes_text : ∀ {vs : List ShownVolume} {index : Nat}, (∀ j (h : j < vs.length), ShownAs g una o image k (index + j) vs[j]) →
    ∃ text ls, volumesOut g una o image k vs.length index = (text, ok ()) ∧ LinesOf text ls ∧ ShowsVolumes index vs ls
  | [], index, _ => ⟨[], [], rfl, reads_nil, .nil index⟩
  | v :: vs, index, h => by
    obtain ⟨r, t1, l1, h1, h2, h3, h4⟩ := h 0 (by simp)
    obtain ⟨t2, l2, h5, h6, h7⟩ := volumes_text (vs := vs) (index := index + 1) (fun j hj => by
      have := h (j + 1) (by simpa using hj)
      rw [show index + 1 + j = index + (j + 1) by omega]
      exact this)
    exact ⟨_, _, andThen_eq.2 ⟨_, _, need_eq.2 ⟨r, h1, h2⟩, h5, rfl⟩, reads_append h3 h6, .cons h4 h7⟩

theorem volumesOut_ok : ∀ {count index : Nat} {text : Bytes}, volumesOut g una o image k count index = (text, ok ()) →
    ∀ i, index ≤ i → i < index + count → ∃ r t, Info.getVolume g o image k (i : Int) = ok r ∧ volumeOut una image i r = (t, ok ())
  | 0, index, _, _, i, h1, h2 => absurd h2 (by omega)
  | count + 1, index, text, h, i, h1, h2 => by
    rw [volumesOut] at h
    obtain ⟨t1, t2, a, b, _⟩ := andThen_eq.1 h
    obtain ⟨r, a1, a2⟩ := need_eq.1 a
    by_cases e : i = index
    · subst e
      exact ⟨r, t1, a1, a2⟩
    · exact volumesOut_ok b i (by omega) (by omega)

theorem snapshotsOut_ok {ms : List Snapshot.Metadata} {index : Nat} {text : Bytes} (h : snapshotsOut una image index ms = (text, ok ())) : ∀ m ∈ ms, ∃ s, openSnapshot image m = ok s := by
  induction ms generalizing index text with
  | nil => intro m hm; cases hm
  | cons x ms ih =>
    rw [snapshotsOut] at h
    obtain ⟨s, h1, h⟩ := need_eq.1 h
    obtain ⟨_, _, _, h, _⟩ := andThen_eq.1 h
    obtain ⟨_, _, h⟩ := need_eq.1 h
    obtain ⟨_, _, _, h, _⟩ := andThen_eq.1 h
    intro m hm
    rcases List.mem_cons.1 hm with rfl | hm
    · exact ⟨s, h1⟩
    · exact ih h m hm

theorem volumeOut_snapshots {r : Obtained} {index : Nat} {text : Bytes} (h : volumeOut una image index r = (text, ok ())) : ∀ m ∈ r.volume.snapshots, ∃ s, openSnapshot image m = ok s := by
  obtain ⟨_, _, _, h, _⟩ := andThen_eq.1 h
  obtain ⟨_, _, h⟩ := need_eq.1 h
  obtain ⟨_, _, _, h, _⟩ := andThen_eq.1 h
  obtain ⟨_, _, h⟩ := need_eq.1 h
  obtain ⟨_, _, _, h, _⟩ := andThen_eq.1 h
  exact snapshotsOut_ok h

theorem reads_container (hl : k.superblock.identifier.length = 16) {vs : List ShownVolume} (hn : Container.numberOfVolumes k = vs.length)
    (h : ∀ i (h : i < vs.length), ShownAs g una o image k i vs[i]) :
    ∃ text, containerOut g una o image k = (text, ok ()) ∧ ShowsContainer { uuid := k.superblock.identifier, locked := containerLocked k, volumes := vs } text := by
  obtain ⟨text, ls, h1, h2, h3⟩ := volumes_text (index := 0) (fun j hj => by rw [Nat.zero_add]; exact h j hj)
  refine ⟨_, andThen_eq.2 ⟨_, _, rfl, andThen_eq.2 ⟨_, _, hn ▸ h1, rfl, rfl⟩, rfl⟩, uuidString k.superblock.identifier, PathString.decimal (Container.numberOfVolumes k), ls, ?_, uuidOf_uuidString hl,
    by rw [number_decimal, hn], h3⟩
  have l1 : LinesOf heading ["Apple File System (APFS) information:".toList, []] := reads_text (by decide +kernel)
  have l2 : LinesOf (ascii "Container information:\n") ["Container information:".toList] := reads_text (by decide +kernel)
  have l3 : LinesOf (uuidLine "\tIdentifier\t\t\t" k.superblock.identifier) ["\tIdentifier\t\t\t: ".toList ++ chars (uuidString k.superblock.identifier)] := reads_value (by decide +kernel) (uuidString_line _)
  have l4 : LinesOf (line "\tNumber of volumes\t\t" (PathString.decimal (Container.numberOfVolumes k))) ["\tNumber of volumes\t\t: ".toList ++ chars (PathString.decimal (Container.numberOfVolumes k))] :=
    reads_value (by decide +kernel) (decimal_line _)
  have l5 : LinesOf (if containerLocked k then ascii "\tIs locked (uses hardware encryption)\n" else []) (if containerLocked k then ["\tIs locked (uses hardware encryption)".toList] else []) := by
    cases containerLocked k with
    | true => exact reads_text (by decide +kernel)
    | false => exact reads_nil
  have := reads_append (reads_append (reads_append (reads_append (reads_append l1 l2) l3) l4) l5) (reads_append h2 reads_empty) []
  rw [List.append_nil] at this
  rw [this]
  simp only [Escape.lines, List.map_nil, List.append_nil, List.append_assoc, List.cons_append, List.nil_append]

/-- what is found for each index makes a list -/
theorem collect {α : Type} {P : Nat → α → Prop} : ∀ {n : Nat}, (∀ i, i < n → ∃ a, P i a) → ∃ as : List α, as.length = n ∧ ∀ i (h : i < as.length), P i as[i]
  | 0, _ => ⟨[], rfl, fun i h => absurd h (by simp)⟩
  | n + 1, h => by
    obtain ⟨as, h1, h2⟩ := collect (P := P) (n := n) (fun i hi => h i (by omega))
    obtain ⟨a, ha⟩ := h n (by omega)
    refine ⟨as ++ [a], by simp [h1], fun i hi => ?_⟩
    by_cases e : i < as.length
    · rw [List.getElem_append_left e]
      exact h2 i e
    · have : i = as.length := by simp at hi; omega
      subst this
      rw [List.getElem_append_right (by omega)]
      simp only [Nat.sub_self, List.getElem_cons_zero]
      rw [h1]
      exact ha

theorem infoVolume_volume {i : Int} {r : Obtained} (h : Info.getVolume g o image k i = ok r) : VolumeOpen.volumeByIndex g.cipher g.vector image k i = ok r.volume := by
  unfold Info.getVolume at h
  split at h
  · obtain ⟨v, h1, h⟩ := bind_eq_ok.1 h
    obtain ⟨_, _, h⟩ := bind_eq_ok.1 h
    obtain ⟨_, _, h⟩ := bind_eq_ok.1 h
    rw [← ok.inj h]
    exact h1
  · exact getVolume_volume h

theorem infoList_of {source : Nat → Container.Image} {at_ : Nat} (ha : StartsAt o at_) (hopen : Container.openRead g.xts g.vector (source at_) = ok k) (hi : ∃ index, Program.indexOption o = ok index) :
    Info.list g una o source = containerOut g una o (source at_) k := by
  obtain ⟨index, hi⟩ := hi
  have hoff : Program.offsetOption o = ok (at_ : Int) := by
    unfold Program.offsetOption
    rcases ha with ⟨e, rfl⟩ | ⟨t, e, ht, hl, hn⟩
    · rw [e]; rfl
    · rw [e]
      dsimp only
      have : Program.setOffset t = ok (at_ : Int) := by
        unfold Program.setOffset Program.off64
        rw [decimal_numeral ht hl, ok_bind, Nat.mod_eq_of_lt (by omega), if_pos hn]
        rfl
      rw [this]
  have hat : Program.openAt g source (at_ : Int) = ok (source at_, k) := by
    unfold Program.openAt
    rw [require_true (by omega), ok_bind]
    simp only [Int.toNat_natCast]
    rw [hopen, ok_bind]
  unfold Info.list
  rw [hi, hoff]
  unfold Out.need
  dsimp only
  rw [hat]

theorem list_index {source : Nat → Container.Image} {text : Bytes} (h : Info.list g una o source = (text, ok ())) : ∃ index, Program.indexOption o = ok index := by
  obtain ⟨index, h1, _⟩ := need_eq.1 h
  exact ⟨index, h1⟩

end

/-! What is shown is stored -/

section
open Container VolumeOpen
variable {g : Machine} {una : Bytes → Res Bytes} {o : Options} {img : Container.Image} {k : Container.Opened} {d0 d : Bytes} {records : List Record}

/-- a volume is shown with what superblock `d` stores -/
structure StoredAs (d : Bytes) (s : ShownVolume) : Prop where
  uuid : s.uuid = Apsb.uuid d
  name : Called (cstring (Apsb.nameField d)) s.name
  compatible : s.compatible = Apsb.compatible d
  incompatible : s.incompatible = Apsb.incompatible d
  readOnlyCompatible : s.readOnlyCompatible = Apsb.readOnlyCompatible d

theorem shown_stored {name : List Nat} {locked : Bool} {names : List (List Nat)} (h : Called (cstring (Apsb.nameField d)) name) : StoredAs d (shownOf d name locked names) := ⟨rfl, h, rfl, rfl, rfl⟩

theorem nx_uuid_length (hv : Nx.Valid d0) : (Container.superblockOf d0).identifier.length = 16 := by
  show (slice d0 72 16).length = 16
  unfold slice
  rw [List.length_take, List.length_drop, hv.size]
  decide

theorem stored_superblock {c : VolumeOpen.Cipher} {vector : Nat → Bool} (hb : Blocks img) (hs : k.superblock = Container.superblockOf d0) (hv : Nx.Valid d0) (ht : OmTree (containerBlocks img k.size) k.tree records)
    {i : Nat} (hi : i < numberOfVolumes k) (h0 : Nx.volume d0 i ≠ 0) {v : VolumeOpen.Opened} (h : volumeByIndex c vector img k i = ok v) :
    ∃ r d, Newest records (Nx.volume d0 i) (objectXid d0) r ∧ img (field r.2 8 8 % 2 ^ 52) = some d ∧ Apsb.Valid false d ∧ v.superblock = VolumeOpen.superblockOf d := by
  unfold volumeByIndex at h
  rw [fetch_eq hb] at h
  rcases c29_slot hs hv ht hi h0 with ⟨_, he⟩ | ⟨r, hr, he⟩
  · rw [he] at h; cases h
  rw [he, ok_bind] at h
  obtain ⟨d, o, p⟩ := openRead_iff.1 h
  have hp := p.reads
  rw [show field r.2 8 8 * 4096 % 2 ^ 64 = (field r.2 8 8 % 2 ^ 52) * 4096 by omega] at hp
  obtain ⟨d', hd', e, hl, _⟩ := readAt_ok hp (by omega) (by omega)
  have : d = d' := by rw [e, List.take_of_length_le (hb _ _ hd')]
  subst this
  exact ⟨r, d, hr, hd', p.valid, p.superblock⟩

/-- a volume that is shown as not locked has no key bag, or was unlocked with a password that was given -/
theorem shown_unlocked {enc : Bytes → Bytes → Bytes} (hp : KeyBag.PrimsOk g.prims enc) (hvk : g.volumeKey.length = 32) (hmk : g.masterKey.length = 32) (ho : Passwords o) {i : Int} {r : Obtained}
    (h : Info.getVolume g o img k i = ok r) (hl : r.state.isLocked = false) {es : List KeyBag.Entry} (hb : r.volume.state.keyBag = some es) :
    ∃ pw keys, (o.password = some pw ∨ o.recovery = some pw) ∧ r.state.keys = some keys ∧ Opens g.prims enc es r.volume.state.containerBag r.volume.superblock.identifier pw keys := by
  have hv := infoVolume_volume h
  unfold Info.getVolume at h
  split at h
  · rename_i hc
    obtain ⟨v, h1, h⟩ := bind_eq_ok.1 h
    obtain ⟨_, _, h⟩ := bind_eq_ok.1 h
    obtain ⟨_, _, h⟩ := bind_eq_ok.1 h
    rw [← ok.inj h] at hl hb
    have hs := volumeByIndex_state h1
    have : k.keyBag = some none := by
      unfold containerLocked at hc
      split at hc
      · assumption
      · cases hc
    rw [this] at hs
    unfold VolumeOpen.containerBag Volume.openRead at hs
    dsimp only at hs
    split at hs
    · rw [KeyBag.getVolumeBagExtent, ok_bind] at hs
      rw [← ok.inj hs] at hb
      cases hb
    · rw [← ok.inj hs] at hb
      cases hb
  · obtain ⟨c1, c2, c3⟩ := getVolume_calls ho h
    obtain ⟨d1, d2⟩ := callsOf_ok hvk hmk c2 c3
    obtain ⟨pw, hpw, keys, h1, h2⟩ := c32_only_secret_partial hp _ _ _ _ _ _ es (volumeByIndex_state hv) hb _ d1 c1 hl
    exact ⟨pw, keys, d2 pw hpw, h1, h2⟩

/-- **C72, what is shown is stored.** If fsapfsinfo without options for files ends without an error, its output shows the container that the options name with the identifier that it stores, and
each of its volumes, in order, with the identifier, the name and the features that the superblock stores which the object map of the container has for the volume, and with the names of the snapshots that libfsapfs
has for it. A volume with a key bag is shown as not locked only if one of the passwords that were given opens it.

What is missing: names that are not text or contain a line feed, see `c72_forged`, and volumes behind an empty slot, see C29. -/
theorem c72_shown_partial (hu : ReadsText una) {source : Nat → Container.Image} {at_ : Nat} (ha : StartsAt o at_) (himg : source at_ = img) (hopen : Container.openRead g.xts g.vector img = ok k) (hb : Blocks img)
    (hs : k.superblock = Container.superblockOf d0) (hv : Nx.Valid d0) (ht : OmTree (containerBlocks img k.size) k.tree records) (h0 : ∀ i, i < numberOfVolumes k → Nx.volume d0 i ≠ 0)
    (hn : ∀ i, i < numberOfVolumes k → ∀ r d, Newest records (Nx.volume d0 i) (objectXid d0) r → img (field r.2 8 8 % 2 ^ 52) = some d → ∃ name, Called (cstring (Apsb.nameField d)) name)
    (hsn : ∀ i : Nat, i < numberOfVolumes k → ∀ v, volumeByIndex g.cipher g.vector img k i = ok v → ∃ names, SnapshotsCalled v.snapshots names)
    {text : Bytes} (h : Info.list g una o source = (text, ok ())) :
    ∃ c, ShowsContainer c text ∧ c.uuid = slice d0 72 16 ∧ c.volumes.length = numberOfVolumes k ∧
      ∀ (i : Nat) (h : i < c.volumes.length), ∃ r d v s, Newest records (Nx.volume d0 i) (objectXid d0) r ∧ img (field r.2 8 8 % 2 ^ 52) = some d ∧ Apsb.Valid false d ∧ StoredAs d c.volumes[i] ∧
        volumeByIndex g.cipher g.vector img k i = ok v ∧ SnapshotsCalled v.snapshots c.volumes[i].snapshots ∧
        Info.getVolume g o img k i = ok ⟨v, s⟩ ∧ c.volumes[i].locked = s.isLocked ∧
        ∀ enc, KeyBag.PrimsOk g.prims enc → g.volumeKey.length = 32 → g.masterKey.length = 32 → Passwords o → c.volumes[i].locked = false → ∀ es, v.state.keyBag = some es →
          ∃ pw keys, (o.password = some pw ∨ o.recovery = some pw) ∧ s.keys = some keys ∧ Opens g.prims enc es v.state.containerBag (Apsb.uuid d) pw keys := by
  subst himg
  rw [infoList_of ha hopen (list_index h)] at h
  obtain ⟨t1, t2, _, h', _⟩ := andThen_eq.1 h
  obtain ⟨t3, t4, h', _, _⟩ := andThen_eq.1 h'
  have got := volumesOut_ok h'
  obtain ⟨vs, hl, hvs⟩ := collect (n := numberOfVolumes k) (P := fun i s => ShownAs g una o (source at_) k i s ∧
      ∃ r d v st, Newest records (Nx.volume d0 i) (objectXid d0) r ∧ source at_ (field r.2 8 8 % 2 ^ 52) = some d ∧ Apsb.Valid false d ∧ StoredAs d s ∧
        volumeByIndex g.cipher g.vector (source at_) k i = ok v ∧ SnapshotsCalled v.snapshots s.snapshots ∧ Info.getVolume g o (source at_) k i = ok ⟨v, st⟩ ∧ s.locked = st.isLocked ∧
        ∀ enc, KeyBag.PrimsOk g.prims enc → g.volumeKey.length = 32 → g.masterKey.length = 32 → Passwords o → s.locked = false → ∀ es, v.state.keyBag = some es →
          ∃ pw keys, (o.password = some pw ∨ o.recovery = some pw) ∧ st.keys = some keys ∧ Opens g.prims enc es v.state.containerBag (Apsb.uuid d) pw keys) (by
    intro i hi
    obtain ⟨r, t, g1, g2⟩ := got i (by omega) (by omega)
    have gv := infoVolume_volume g1
    obtain ⟨rec_, d, n1, n2, n3, n5⟩ := stored_superblock hb hs hv ht hi (h0 i hi) gv
    obtain ⟨name, hname⟩ := hn i hi rec_ d n1 n2
    obtain ⟨names, hnames⟩ := hsn i hi r.volume gv
    obtain ⟨t', ls, g3, g4, g5⟩ := volume_text hu (uuid_length n3) (reports_of n3 n5) hname hnames (volumeOut_snapshots g2) i
    refine ⟨shownOf d name r.state.isLocked names, ⟨r, t', ls, g1, g3, g4, g5⟩, rec_, d, r.volume, r.state, n1, n2, n3, shown_stored hname, gv, hnames, g1, rfl, ?_⟩
    intro enc e1 e2 e3 e4 e5 es e6
    rw [show Apsb.uuid d = r.volume.superblock.identifier from by rw [n5]; rfl]
    exact shown_unlocked e1 e2 e3 e4 g1 e5 e6)
  obtain ⟨text', r1, r2⟩ := reads_container (g := g) (una := una) (o := o) (image := source at_) (k := k) (by rw [hs]; exact nx_uuid_length hv) hl.symm (fun i hi => (hvs i hi).1)
  rw [h] at r1
  cases r1
  refine ⟨_, r2, by rw [hs]; rfl, hl, fun i hi => (hvs i hi).2⟩

/-! What is stored is shown -/

/-- a volume opens, with a locking state -/
theorem volume_opens {c : VolumeOpen.Cipher} {vector : Nat → Bool} (hb : Blocks img) (hs : k.superblock = Container.superblockOf d0) (hv : Nx.Valid d0) (hvec : vector k.size = true)
    (ht : OmTree (containerBlocks img k.size) k.tree records) {i : Nat} (hi : i < numberOfVolumes k) (h0 : Nx.volume d0 i ≠ 0) {root : Nat} {vs : List SnapValue}
    (hr : ∀ r, Newest records (Nx.volume d0 i) (objectXid d0) r → StoredVolume img (field r.2 8 8) d root) (hx : HasVersion records (Nx.volume d0 i) (objectXid d0))
    (hsn : HasSnapshots (containerBlocks img k.size) root d vs) {st : Volume.State}
    (hst : Volume.openRead (VolumeOpen.containerBag k.keyBag) (Apsb.flags d) (Apsb.uuid d) (readVolumeKeyBag c img (Apsb.uuid d)) = ok st) :
    volumeByIndex c vector img k i = ok ⟨VolumeOpen.superblockOf d, root, vs.map (fun v => { superblock := v.superblock, name := v.name }), st⟩ := by
  unfold volumeByIndex
  rw [fetch_eq hb]
  rcases c29_slot hs hv ht hi h0 with ⟨hn, _⟩ | ⟨r, hr', he⟩
  · exact absurd hx hn
  obtain ⟨h1, h2, h3, ⟨h4, h5, o, h6, h7, h8⟩, h9, h10⟩ := hr r hr'
  rw [he, ok_bind, Nat.mod_eq_of_lt (wide h2)]
  refine openRead_iff.2 ⟨d, o.take 88, ?_, h3, rfl, hvec, h4, ?_, ?_, h9, hst, readSnapshots_ok hb hsn, h10⟩
  · rw [readAt_block h1 h3.size (Nat.le_refl _) (by omega) h2, List.take_of_length_le (by rw [h3.size]; omega)]
  · rw [Nat.mod_eq_of_lt (wide h5)]
    exact readAt_block h6 h7 (by omega) (by omega) h5
  · exact ⟨by rw [List.length_take]; omega, by rw [← h8.type]; exact field_take o 88 24 4 (by omega), by rw [field_take o 88 28 4 (by omega)]; exact h8.subtype,
      by rw [field_take o 88 48 8 (by omega)]; exact h8.tree⟩

/-- snapshots are stored with names on one line, and their superblocks are in order -/
inductive SnapshotsStored (image : Nat → Option Bytes) : List SnapValue → List (List Nat) → Prop
  | nil : SnapshotsStored image [] []
  | cons {v : SnapValue} {vs : List SnapValue} {name : List Nat} {names : List (List Nat)} {s : Bytes} (ended : (0 : UInt8) ∈ v.name) (short : (cstring v.name).length < 256)
    (called : Called (cstring v.name) name) (stored : image v.superblock = some s) (valid : Apsb.Valid true s) (range : v.superblock * 4096 < 2 ^ 63) (rest : SnapshotsStored image vs names) :
    SnapshotsStored image (v :: vs) (name :: names)

theorem snapshots_stored {vs : List SnapValue} {names : List (List Nat)} (h : SnapshotsStored img vs names) :
    SnapshotsCalled (vs.map (fun v => { superblock := v.superblock, name := v.name })) names ∧
    ∀ m ∈ vs.map (fun v => ({ superblock := v.superblock, name := v.name } : Snapshot.Metadata)), ∃ s, openSnapshot img m = ok s := by
  induction h with
  | nil => exact ⟨.nil, fun m hm => by cases hm⟩
  | @cons v vs name names s h1 h2 h3 h4 h5 h6 _ ih =>
    refine ⟨.cons (c35_name_partial _ h1 h2) h3 ih.1, fun m hm => ?_⟩
    rw [List.map_cons] at hm
    rcases List.mem_cons.1 hm with rfl | hm
    · refine ⟨VolumeOpen.superblockOf s, ?_⟩
      unfold openSnapshot Snapshot.Metadata.offset
      dsimp only
      rw [Nat.mod_eq_of_lt (wide h6), readAt_block h4 h5.size (Nat.le_refl _) (by omega) h6, List.take_of_length_le (by rw [h5.size]; omega), ok_bind]
      exact (VolumeOpen.readSuperblock_iff true s h5.size _).2 ⟨h5, rfl⟩
    · exact ih.2 m hm

/-- how a volume is protected: not at all, with key bags, or with a key bag of the container that cannot be read; and if it is shown as locked when the options have certain passwords -/
inductive Protected (g : Machine) (o : Options) (image : Nat → Option Bytes) (k : Container.Opened) (d : Bytes) : Bool → Prop
  | plain (h : k.keyBag = none ∨ Apsb.unencrypted d) : Protected g o image k d false
  | unreadable (h : k.keyBag = some none) (he : ¬ Apsb.unencrypted d) : Protected g o image k d true
  | unlocked {enc : Bytes → Bytes → Bytes} {encX : Bytes × Bytes → Bytes → Bytes → Bytes} {cb vb : List BagEntry} {S : Bytes → Prop} {vk : Bytes} {keys : Bytes × Bytes} {pw : Bytes}
    (prims : KeyBag.PrimsOk g.prims enc) (cipher : ∀ ks, TweakableCipher 512 (encX ks) (g.cipher.xts ks)) (bag : k.keyBag = some (some (entriesOf cb)))
    (encrypted : EncryptedVolume encX image cb vb d) (secrets : Secrets g.prims.prf enc g.prims.sha vb cb (Apsb.uuid d) S vk keys) (hS : ∀ s, o.password = some s ∨ o.recovery = some s → S s)
    (given : o.password = some pw ∨ o.recovery = some pw) (secret : IsSecret g.prims.prf enc vb pw) : Protected g o image k d false
  | locked {enc : Bytes → Bytes → Bytes} {encX : Bytes × Bytes → Bytes → Bytes → Bytes} {cb vb : List BagEntry}
    (prims : KeyBag.PrimsOk g.prims enc) (cipher : ∀ ks, TweakableCipher 512 (encX ks) (g.cipher.xts ks)) (bag : k.keyBag = some (some (entriesOf cb)))
    (encrypted : EncryptedVolume encX image cb vb d) (understood : ∀ e ∈ vb, e.type = 3 → ∃ o n, HasKek e o ∧ secretBytes o.method = some n ∧ 0 < beNat o.iterations ∧ beNat o.iterations < 2 ^ 32)
    (none_ : ∀ pw, o.password = some pw ∨ o.recovery = some pw → ¬ IsSecret g.prims.prf enc vb pw) : Protected g o image k d true

open KeyBag in
/-- looking for a volume key with understood entries is no error -/
theorem getVolumeKey_total {p : Prims} {enc : Bytes → Bytes → Bytes} (hp : PrimsOk p enc) (user recovery : Option Bytes) (key : Bytes) (hkey : key.length = 32)
    (hu : ∀ pw, user = some pw → pw.length ≤ 2 ^ 63 - 1) (hr : ∀ pw, recovery = some pw → pw.length ≤ 2 ^ 63 - 1) (es : List KeyBag.Entry)
    (hes : ∀ e ∈ es, e.type = 3 → ∃ k n, readKek e.data e.data.length = ok k ∧ PwSize k.method n ∧ k.iterations % 2 ^ 32 ≠ 0) : ∃ r, getVolumeKey p user recovery key es = ok r := by
  induction es with
  | nil => exact ⟨none, rfl⟩
  | cons x es ih =>
    have ih := ih (fun y hy => hes y (by simp [hy]))
    rw [getVolumeKey]
    by_cases hx : x.type ≠ 3
    · rw [if_pos hx]; exact ih
    · rw [if_neg hx]
      obtain ⟨kx, m, r1, r2, r3⟩ := hes x (by simp) (by omega)
      have hs := readKek_sized r1
      rw [r1, ok_bind]
      have tot : ∀ q, (user = some q ∨ recovery = some q) → ∃ w, unlockWithPassword p kx q key = ok w := by
        intro q hq
        obtain ⟨iv, bs, _, _, _, _, ee⟩ := unlockWithPassword_eq hp hs q key (by rcases hq with h | h; exact hu q h; exact hr q h) hkey r2 r3
        rw [ee]
        split
        · exact ⟨_, rfl⟩
        · exact ⟨_, rfl⟩
      cases user with
      | none =>
        cases recovery with
        | none => exact ih
        | some q =>
          obtain ⟨w, hw⟩ := tot q (.inr rfl)
          simp only [ok_bind, hw]
          cases w with
          | some v => exact ⟨_, rfl⟩
          | none => exact ih
      | some q =>
        obtain ⟨w, hw⟩ := tot q (.inl rfl)
        simp only [hw, ok_bind]
        cases w with
        | some v => cases recovery <;> exact ⟨_, rfl⟩
        | none =>
          cases recovery with
          | none => exact ih
          | some q =>
            obtain ⟨w, hw⟩ := tot q (.inr rfl)
            simp only [hw, ok_bind]
            cases w with
            | some v => exact ⟨_, rfl⟩
            | none => exact ih

theorem setPassword_given {given : Option Bytes} (h : ∀ s, given = some s → Passphrase s) : Program.setPassword given none = ok given := by
  cases given with
  | none => rfl
  | some s =>
    rcases setPassword_eq (h s rfl).1 none with h' | h'
    · exact h'.2
    · exact absurd (h s rfl) h'.1

theorem encrypted_state {c : VolumeOpen.Cipher} {encX : Bytes × Bytes → Bytes → Bytes → Bytes} (hX : ∀ ks, TweakableCipher 512 (encX ks) (c.xts ks)) {cb vb : List BagEntry}
    (hkb : k.keyBag = some (some (entriesOf cb))) (he : EncryptedVolume encX img cb vb d) :
    Volume.openRead (VolumeOpen.containerBag k.keyBag) (Apsb.flags d) (Apsb.uuid d) (readVolumeKeyBag c img (Apsb.uuid d)) =
      ok { uuid := Apsb.uuid d, containerBag := entriesOf cb, keyBag := some (entriesOf vb), isLocked := true } := by
  obtain ⟨b, n, data, x1, x2, x3, x4, x5, x6, x7⟩ := he.bag
  rw [hkb]
  unfold VolumeOpen.containerBag Volume.openRead
  have := he.encrypted
  unfold Apsb.unencrypted at this
  simp only
  rw [if_pos (by omega), extent_of x1 (fits x5).2.2.1 (fits x5).2.2.2, ok_bind]
  simp only
  rw [require_true (by omega), ok_bind, readsVolumeBag (hX _) x3 x4 x5 x6 x7, ok_bind]

/-- the locking state of a volume that is obtained -/
theorem protected_state (hvk : g.volumeKey.length = 32) (hmk : g.masterKey.length = 32) (hp1 : ∀ s, o.password = some s → Passphrase s) (hp2 : ∀ s, o.recovery = some s → Passphrase s) {locked : Bool}
    (h : Protected g o img k d locked) :
    ∃ st, Volume.openRead (VolumeOpen.containerBag k.keyBag) (Apsb.flags d) (Apsb.uuid d) (readVolumeKeyBag g.cipher img (Apsb.uuid d)) = ok st ∧
      ∀ (i : Int) (v : VolumeOpen.Opened), v.state = st → volumeByIndex g.cipher g.vector img k i = ok v → ∃ s, Info.getVolume g o img k i = ok ⟨v, s⟩ ∧ s.isLocked = locked := by
  have le : ∀ {s : Bytes}, Passphrase s → s.length ≤ 2 ^ 63 - 1 := fun h => Nat.le_trans h.2.2 (by decide)
  have l1 : ∀ s, o.password = some s → s.length ≤ 2 ^ 63 - 1 := fun s e => le (hp1 s e)
  have l2 : ∀ s, o.recovery = some s → s.length ≤ 2 ^ 63 - 1 := fun s e => le (hp2 s e)
  cases h with
  | plain h =>
    have hst : ∃ st, Volume.openRead (VolumeOpen.containerBag k.keyBag) (Apsb.flags d) (Apsb.uuid d) (readVolumeKeyBag g.cipher img (Apsb.uuid d)) = ok st ∧ st.isLocked = false ∧ st.user = none ∧
        st.recovery = none := by
      unfold Volume.openRead
      rcases h with h | h
      · rw [h]
        exact ⟨_, rfl, rfl, rfl, rfl⟩
      · split
        · exact ⟨_, rfl, rfl, rfl, rfl⟩
        · rw [if_neg (by unfold Apsb.unencrypted at h; omega)]
          exact ⟨_, rfl, rfl, rfl, rfl⟩
    obtain ⟨st, hst, a1, a2, a3⟩ := hst
    refine ⟨st, hst, fun i v hv hvol => ?_⟩
    unfold Info.getVolume
    split
    · refine ⟨_, bind_eq_ok.2 ⟨v, hvol, bind_eq_ok.2 ⟨o.password, by rw [hv, a2]; exact setPassword_given hp1, bind_eq_ok.2 ⟨o.recovery, by rw [hv, a3]; exact setPassword_given hp2, rfl⟩⟩⟩, ?_⟩
      rw [hv]; exact a1
    · unfold Program.getVolume
      refine ⟨{ v.state with user := o.password, recovery := o.recovery }, bind_eq_ok.2 ⟨v, hvol, bind_eq_ok.2 ⟨o.password, by rw [hv, a2]; exact setPassword_given hp1, bind_eq_ok.2 ⟨o.recovery, by rw [hv, a3]; exact setPassword_given hp2, ?_⟩⟩⟩, ?_⟩
      · dsimp only
        rw [hv, if_neg (by rw [a1]; decide)]
      · rw [hv]; exact a1
  | unreadable h he =>
    have hst : Volume.openRead (VolumeOpen.containerBag k.keyBag) (Apsb.flags d) (Apsb.uuid d) (readVolumeKeyBag g.cipher img (Apsb.uuid d)) =
        ok { uuid := Apsb.uuid d, containerBag := [], keyBag := none, isLocked := true } := by
      rw [h]
      unfold VolumeOpen.containerBag Volume.openRead
      unfold Apsb.unencrypted at he
      simp only
      rw [if_pos (by omega)]
      rfl
    refine ⟨_, hst, fun i v hv hvol => ?_⟩
    unfold Info.getVolume
    rw [if_pos (by unfold containerLocked; rw [h])]
    refine ⟨_, bind_eq_ok.2 ⟨v, hvol, bind_eq_ok.2 ⟨o.password, by rw [hv]; exact setPassword_given hp1, bind_eq_ok.2 ⟨o.recovery, by rw [hv]; exact setPassword_given hp2, rfl⟩⟩⟩, ?_⟩
    rw [hv]
  | @unlocked enc encX cb vb S vk keys pw prims cipher bag encrypted secrets hS given secret =>
    refine ⟨_, encrypted_state cipher bag encrypted, fun i v hv hvol => ?_⟩
    unfold Info.getVolume
    rw [if_neg (by unfold containerLocked; rw [bag]; nofun)]
    unfold Program.getVolume
    have hun := c51_unlock (s := { v.state with user := o.password, recovery := o.recovery }) prims secrets (by rw [hv]) (by rw [hv]) (by rw [hv])
      (fun q hq => ⟨hS q hq, by rcases hq with h | h; exact l1 q h; exact l2 q h⟩) given secret g.volumeKey g.masterKey hvk hmk
    refine ⟨{ v.state with user := o.password, recovery := o.recovery, isLocked := false, keys := some keys }, bind_eq_ok.2 ⟨v, hvol, bind_eq_ok.2 ⟨o.password, by rw [hv]; exact setPassword_given hp1, bind_eq_ok.2 ⟨o.recovery, by rw [hv]; exact setPassword_given hp2, ?_⟩⟩⟩, ?_⟩
    · dsimp only
      rw [if_pos (by rw [hv]), hun]
      rfl
    · rfl
  | @locked enc encX cb vb prims cipher bag encrypted understood none_ =>
    refine ⟨_, encrypted_state cipher bag encrypted, fun i v hv hvol => ?_⟩
    unfold Info.getVolume
    rw [if_neg (by unfold containerLocked; rw [bag]; nofun)]
    unfold Program.getVolume
    have hes : ∀ e ∈ entriesOf vb, e.type = 3 → ∃ k n, KeyBag.readKek e.data e.data.length = ok k ∧ KeyBag.PwSize k.method n ∧ k.iterations % 2 ^ 32 ≠ 0 := by
      intro e he ht
      obtain ⟨b, hb, _, b2, b3⟩ := mem_entriesOf.1 he
      obtain ⟨o, n, ho, hm, hi0, hi1⟩ := understood b hb (by omega)
      refine ⟨kekOf o, n, by rw [← b3]; exact readKek_of ho, pwSize_iff.2 hm, ?_⟩
      show beNat o.iterations % 2 ^ 32 ≠ 0
      rw [Nat.mod_eq_of_lt hi1]
      omega
    obtain ⟨r, hr⟩ := getVolumeKey_total prims o.password o.recovery g.volumeKey hvk l1 l2 (entriesOf vb) hes
    have hnone : r = none := by
      cases r with
      | none => rfl
      | some key =>
        obtain ⟨e1, he1, ht1, pw1, hpw1, k1, hk1, n1, x1, hn1, hx1, hw1, hv1⟩ := getVolumeKey_some prims l1 l2 hvk hr
        obtain ⟨b, hb, _, b2, b3⟩ := mem_entriesOf.1 he1
        obtain ⟨o1, _, ho1, _, hi0, hi1⟩ := understood b hb (by omega)
        have hk2 := readKek_of ho1
        rw [b3, hk1] at hk2
        have hk2 := Res.ok.inj hk2
        subst hk2
        refine absurd ⟨b, hb, by omega, o1, ho1, x1, ?_, ?_⟩ (none_ pw1 hpw1)
        · rw [hx1]; exact pwSize_iff.1 hn1
        · rw [hx1]
          have : (kekOf o1).iterations % 2 ^ 32 = beNat o1.iterations := Nat.mod_eq_of_lt hi1
          rw [this] at hw1
          exact hw1
    subst hnone
    have hun : Volume.unlock g.prims g.volumeKey g.masterKey { v.state with user := o.password, recovery := o.recovery } = ok ({ v.state with user := o.password, recovery := o.recovery }, false) := by
      unfold Volume.unlock
      rw [hv]
      dsimp only
      rw [hr]
      rfl
    refine ⟨{ v.state with user := o.password, recovery := o.recovery }, bind_eq_ok.2 ⟨v, hvol, bind_eq_ok.2 ⟨o.password, by rw [hv]; exact setPassword_given hp1, bind_eq_ok.2 ⟨o.recovery, by rw [hv]; exact setPassword_given hp2, ?_⟩⟩⟩, ?_⟩
    · dsimp only
      rw [if_pos (by rw [hv]), hun]
      rfl
    · rw [hv]

/-- volume `i` of a container is stored with superblock `d` -/
structure StoredIn (img : Nat → Option Bytes) (k : Container.Opened) (d0 : Bytes) (records : List Record) (i : Nat) (d : Bytes) (name : List Nat) (snapshots : List (List Nat)) : Prop where
  slot : Nx.volume d0 i ≠ 0
  version : HasVersion records (Nx.volume d0 i) (objectXid d0)
  stored : ∃ root vs, (∀ r, Newest records (Nx.volume d0 i) (objectXid d0) r → StoredVolume img (field r.2 8 8) d root) ∧ HasSnapshots (containerBlocks img k.size) root d vs ∧ SnapshotsStored img vs snapshots
  name : Called (cstring (Apsb.nameField d)) name

/-- **C72, what is stored is shown.** fsapfsinfo without options for files shows the container that the options name, and each of its volumes with identifier, name, features and the names of all snapshots;
volumes without encryption are shown as not locked, encrypted volumes as locked unless one of the passwords given is correct.

What is missing: as in `c72_shown_partial`, and snapshots in a tree of more than one level, see C50. -/
theorem c72_volumes_partial (hu : ReadsText una) (hvk : g.volumeKey.length = 32) (hmk : g.masterKey.length = 32) {source : Nat → Container.Image} {at_ : Nat} (ha : StartsAt o at_) (himg : source at_ = img)
    (hindex : ∃ index, Program.indexOption o = ok index) (hopen : Container.openRead g.xts g.vector img = ok k)
    (hp1 : ∀ s, o.password = some s → Passphrase s) (hp2 : ∀ s, o.recovery = some s → Passphrase s) (hb : Blocks img)
    (hs : k.superblock = Container.superblockOf d0) (hv : Nx.Valid d0) (hvec : g.vector k.size = true) (ht : OmTree (containerBlocks img k.size) k.tree records)
    {ds : List Bytes} {shown : List ShownVolume} (hds : ds.length = numberOfVolumes k) (hl : shown.length = ds.length)
    (hst : ∀ i (h : i < ds.length), StoredIn img k d0 records i ds[i] shown[i].name shown[i].snapshots ∧ Protected g o img k ds[i] shown[i].locked ∧ StoredAs ds[i] shown[i]) :
    ∃ text, Info.list g una o source = (text, ok ()) ∧ ShowsContainer { uuid := slice d0 72 16, locked := containerLocked k, volumes := shown } text := by
  subst himg
  rw [infoList_of ha hopen hindex]
  have := reads_container (g := g) (una := una) (o := o) (image := source at_) (k := k) (vs := shown) (by rw [hs]; exact nx_uuid_length hv) (by omega) (fun i hi => by
    obtain ⟨h1, h2, h3⟩ := hst i (by omega)
    obtain ⟨root, vs, r1, r2, r3⟩ := h1.stored
    obtain ⟨st, s1, s2⟩ := protected_state hvk hmk hp1 hp2 h2
    have hvol := volume_opens (c := g.cipher) hb hs hv hvec ht (i := i) (by omega) h1.slot r1 h1.version r2 s1
    obtain ⟨s, t1, t2⟩ := s2 i _ rfl hvol
    obtain ⟨r, hr⟩ : ∃ r, Newest records (Nx.volume d0 i) (objectXid d0) r := by
      obtain ⟨r, _, hr, _⟩ := stored_superblock hb hs hv ht (by omega) h1.slot hvol
      exact ⟨r, hr⟩
    have valid := (r1 r hr).valid
    obtain ⟨c1, c2⟩ := snapshots_stored r3
    obtain ⟨text, ls, x1, x2, x3⟩ := volume_text (image := source at_) (r := ⟨⟨VolumeOpen.superblockOf ds[i], root, vs.map (fun v => { superblock := v.superblock, name := v.name }), st⟩, s⟩) hu (uuid_length valid) (reports_of valid rfl) h1.name c1 c2 i
    refine ⟨_, text, ls, t1, x1, x2, ?_⟩
    have e : shownOf ds[i] shown[i].name s.isLocked shown[i].snapshots = shown[i] := by
      unfold shownOf
      rw [t2, ← h3.uuid, ← h3.compatible, ← h3.incompatible, ← h3.readOnlyCompatible]
    rw [← e]
    exact x3)
  rwa [hs] at this

end

end Verif.Props
