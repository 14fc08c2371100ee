import Verif.Model.Mount
import Verif.Spec.Mount
import Verif.Props.C54
import Verif.Props.C55
import Verif.Props.C48
/-!
# C56 A mounted volume

Programs that use a volume mounted with fsapfsmount see the files of the volume, whatever they ask and in whatever order: attributes, contents, directories, symbolic links and extended attributes.
-/
namespace Verif.Props
open Verif Res Spec BTree FsTree FileRead
open Verif.PathString (escaped Lawful copyFrom_escaped ssizeMax cString slashed mountCopyTo_names mountCopyTo)
open Verif.Mount (Mounted Handle Session fileAt nodeAt nameOf statOf setStat)
open Verif.Spec.Fuse (Errno Reply Stat Value Request Answer)

/-- what is expected of libuna and of decompression -/
structure Libraries (m : Mounted) : Prop where
  text : Lawful m.text
  nul : ∀ b, m.text.decoder.isNul b = decide (b = 0)
  names : ReadsNames m.una
  codec : Compressed.CodecOk m.unpack
  junk : m.junk.length = 65536

/-- The records and blocks of a volume hold the files that are seen: directories, and for each file below the root directory an inode with a name, records of extended attributes and contents. -/
structure VolumeHas (c : Codec) (rs : List Record) (image : Nat → Option Bytes) (enc : Option (Bytes → Bytes → Bytes)) (V : View) : Prop where
  hierarchy : FileHierarchy rs V.format V.dirs
  unique : ∀ i, Reach V.dirs i → (V.dirs i).Pairwise (fun a b => ¬ SameName V.format.caseInsensitive a.name b.name)
  findable : ∀ i, Reach V.dirs i → ∀ e ∈ V.dirs i, Findable V.format e.name
  types : ∀ r ∈ rs, 3 ≤ fsType r.1
  identifier : ∀ i, Reach V.dirs i → (V.file i).identifier = i
  reserved : ∀ i, Reach V.dirs i → i ≠ 2 → 2 < i
  parent : ∀ i, Reach V.dirs i → i ≠ 2 → Reach V.dirs (V.file i).fixed.parent
  inode : ∀ i, Reach V.dirs i → ∃ r ∈ rs, InodeRecord r (V.file i)
  file : ∀ i, Reach V.dirs i → FileIn rs image enc (V.file i).stored (V.file i).fixed.dataStream
  size : ∀ i, Reach V.dirs i → ∃ n, (V.file i).stored.size? = some n ∧ n < 2 ^ 63
  named : ∀ i, Reach V.dirs i → (V.file i).name ≠ [] ∧ (∀ x ∈ (V.file i).name, Scalar x ∧ x ≠ 0) ∧ (Utf8.encode (V.file i).name).length < 65535
  attributes : ∀ i, Reach V.dirs i → ∀ x ∈ (V.file i).attributes, ∃ name, (∀ x ∈ name, Scalar x ∧ x ≠ 0) ∧ x.name = Utf8.encode name
  content : ∀ i, Reach V.dirs i → ∀ content, (V.file i).content = some content → HasContent c rs image enc (V.file i).stored (V.file i).fixed.dataStream content

/-- a volume that is mounted, and what it has -/
structure Mounts (m : Mounted) (s : Storage) (xid : Nat) (rs : List Record) (image : Nat → Option Bytes) (cipher : Option (Cipher × Cipher)) (V : View) : Prop where
  serves : Serves m.files s xid image cipher
  folding : m.files.folding = V.format.caseInsensitive
  holds : FsHolds s xid rs
  has : VolumeHas m.unpack rs image (cipher.map (·.1)) V
  compares : ∀ i, Reach V.dirs i → Compares m.compare (V.file i).stored

variable {m : Mounted} {s : Storage} {xid : Nat} {rs : List Record} {image : Nat → Option Bytes} {cipher : Option (Cipher × Cipher)} {V : View}

/-! ## inodes -/

/-- the inode of a file as it is read -/
structure Mirrors (n : Records.Inode) (v : VolumeFile) : Prop where
  identifier : n.identifier = v.identifier
  parent : n.parent = v.fixed.parent
  dataStream : n.dataStream = v.fixed.dataStream
  modification : n.modification = v.fixed.created
  change : n.change = v.fixed.changed
  access : n.access = v.fixed.accessed
  flags : n.flags = v.fixed.flags
  mode : n.mode = v.fixed.mode
  name : n.name = some (storedName v.name)
  size : n.size = v.size
  fits : v.fixed.Fits

theorem isOf_record {r : Record} {v : VolumeFile} (h : InodeRecord r v) (hi : v.identifier < 2 ^ 60) : IsOf v.identifier 3 r := by
  have : field r.1 0 8 = 3 * 2 ^ 60 + v.identifier := NodeImage.field_mid (a := []) ⟨[], by rw [h.key]; simp⟩ rfl (wide8 (by omega))
  unfold IsOf fsId fsType
  rw [this]
  omega

theorem record_mirrors {r : Record} {v : VolumeFile} (h : InodeRecord r v) (hi : v.identifier < 2 ^ 60) : ∃ n, Records.readInode r = ok n ∧ Mirrors n v := by
  obtain ⟨fields, h1, h2, h3, h4, h5⟩ := h.value
  have hk : r.1.length = 8 := by rw [h.key, length_toLE]
  have := c37_stored_partial r.1 (by omega) (by omega) v.fixed h.fits fields h2 h3
  rw [← h1] at this
  exact ⟨_, this, (isOf_record h hi).1, rfl, rfl, rfl, rfl, rfl, rfl, rfl, h4, h5, h.fits⟩

theorem Mirrors.readsAs {n : Records.Inode} {v : VolumeFile} (h : Mirrors n v) : ReadsAs n v.stored v.fixed.dataStream :=
  ⟨h.identifier, h.dataStream, h.size, by unfold FileRead.sparse VolumeFile.stored; rw [h.flags]⟩

theorem Mounts.fits (hS : Mounts m s xid rs image cipher V) {i : Nat} (hr : Reach V.dirs i) : i < 2 ^ 60 := by
  have := (hS.has.file i hr).identifier
  rwa [show (V.file i).stored.identifier = (V.file i).identifier from rfl, hS.has.identifier i hr] at this

theorem Mounts.record (hS : Mounts m s xid rs image cipher V) {i : Nat} (hr : Reach V.dirs i) : ∃ r ∈ rs, IsOf i 3 r ∧ ∃ n, Records.readInode r = ok n ∧ Mirrors n (V.file i) := by
  have hid := hS.has.identifier i hr
  have hlt : (V.file i).identifier < 2 ^ 60 := by rw [hid]; exact hS.fits hr
  obtain ⟨r, h1, h2⟩ := hS.has.inode i hr
  refine ⟨r, h1, ?_, record_mirrors h2 hlt⟩
  have := isOf_record h2 hlt
  rwa [hid] at this

theorem Mounts.one (hS : Mounts m s xid rs image cipher V) {i : Nat} (hr : Reach V.dirs i) : rs.Pairwise (fun a b => ¬ (IsOf i 3 a ∧ IsOf i 3 b)) := by
  have := (hS.has.file i hr).one
  rwa [show (V.file i).stored.identifier = (V.file i).identifier from rfl, hS.has.identifier i hr] at this

theorem Mounts.found (hS : Mounts m s xid rs image cipher V) {i : Nat} (hr : Reach V.dirs i) : ∃ n, (lookups m.files).inode i = ok (some n) ∧ Mirrors n (V.file i) := by
  obtain ⟨r, h1, h2, n, h3, h4⟩ := hS.record hr
  refine ⟨n, ?_, h4⟩
  show inodeByIdentifier m.files.tree m.files.xid i = _
  rw [hS.serves.tree, hS.serves.xid, (c19_lookup_partial s xid rs hS.holds i (hS.fits hr) (hS.one hr) hS.has.types).1 r h1 h2, h3]
  rfl

theorem Mounts.ofTree (hS : Mounts m s xid rs image cipher V) : OfTree m.files s xid := ⟨hS.serves.tree, hS.serves.xid⟩

theorem Mounts.root (hS : Mounts m s xid rs image cipher V) : ∃ r ∈ rs, IsOf 2 3 r := by
  obtain ⟨r, h1, h2, _⟩ := hS.record .root
  exact ⟨r, h1, h2⟩

theorem Mounts.healthy (hS : Mounts m s xid rs image cipher V) {i : Nat} (hr : Reach V.dirs i) {n : Records.Inode} (hn : Mirrors n (V.file i)) :
    FileEntry.Healthy (V.file i).stored (FileRead.env m.files m.compare n) :=
  healthy_env hS.serves hS.holds hS.root (hS.has.file i hr) (hS.compares i hr) hn.readsAs

/-! ## open files -/

/-- an open file gives its contents, from a position on -/
def GoodReader (c : Codec) (content : Bytes) (pos : Nat) (r : Reader) : Prop :=
  ∀ ops, (∀ x ∈ FileRead.run c ops r, x ≠ ub) ∧ FileTrace content pos (seen ops (FileRead.run c ops r))

theorem goodReader_cons {c : Codec} {content : Bytes} {pos : Nat} {r : Reader} (h : GoodReader c content pos r) (op : FileOp) (ops : List FileOp) :
    (FileRead.step c op r).1 ≠ ub ∧ (∀ x ∈ FileRead.run c ops (FileRead.step c op r).2, x ≠ ub) ∧ ∃ pos', FileStep content False pos op (match (FileRead.step c op r).1 with | .ok b => some b | _ => none) pos' ∧
      FileTrace content pos' (seen ops (FileRead.run c ops (FileRead.step c op r).2)) := by
  obtain ⟨h1, h2⟩ := h (op :: ops)
  simp only [FileRead.run] at h1 h2
  refine ⟨h1 _ (by simp), fun x hx => h1 x (by simp [hx]), ?_⟩
  unfold seen at h2
  rw [List.zipWith_cons_cons] at h2
  cases h2 with
  | cons hs ht => exact ⟨_, hs, ht⟩

theorem goodReader_seek {c : Codec} {content : Bytes} {pos : Nat} {r : Reader} (h : GoodReader c content pos r) (o : Nat) :
    FileRead.step c (.seek o) r = (ok [], (FileRead.step c (.seek o) r).2) ∧ GoodReader c content o (FileRead.step c (.seek o) r).2 := by
  cases hs : FileRead.step c (.seek o) r with
  | mk a r' =>
    have hc := fun ops => goodReader_cons h (.seek o) ops
    rw [hs] at hc
    simp only at hc
    constructor
    · obtain ⟨h1, _, pos', h3, _⟩ := hc []
      cases a with
      | ub => exact absurd rfl h1
      | err =>
        generalize hO : (match (err : Res Bytes) with | .ok b => some b | _ => none) = O at h3
        generalize hop : FileOp.seek (o : Int) = op at h3
        cases h3 with
        | seek => cases hO
        | seekNegative z hz => cases hop; omega
        | read => cases hop
        | readFault _ hf => cases hop
      | ok b =>
        generalize hO : (match (ok b : Res Bytes) with | .ok b => some b | _ => none) = O at h3
        generalize hop : FileOp.seek (o : Int) = op at h3
        cases h3 with
        | seek => cases hO; rfl
        | seekNegative z hz => cases hO
        | read => cases hop
        | readFault _ hf => cases hop
    · intro ops
      obtain ⟨_, h2, pos', h3, h4⟩ := hc ops
      refine ⟨h2, ?_⟩
      generalize (match a with | .ok b => some b | _ => none) = O at h3
      generalize hop : FileOp.seek (o : Int) = op at h3
      cases h3 with
      | seek =>
        have : pos' = o := by injection hop with hop; omega
        rw [this] at h4
        exact h4
      | seekNegative z hz => cases hop; omega
      | read => cases hop
      | readFault _ hf => cases hop

theorem goodReader_negative {c : Codec} {content : Bytes} {pos : Nat} {r : Reader} (h : GoodReader c content pos r) {o : Int} (ho : o < 0) :
    FileRead.step c (.seek o) r = (err, (FileRead.step c (.seek o) r).2) ∧ GoodReader c content pos (FileRead.step c (.seek o) r).2 := by
  cases hs : FileRead.step c (.seek o) r with
  | mk a r' =>
    have hc := fun ops => goodReader_cons h (.seek o) ops
    rw [hs] at hc
    simp only at hc
    constructor
    · obtain ⟨h1, _, pos', h3, _⟩ := hc []
      cases a with
      | ub => exact absurd rfl h1
      | err => rfl
      | ok b =>
        generalize hO : (match (ok b : Res Bytes) with | .ok b => some b | _ => none) = O at h3
        generalize hop : FileOp.seek o = op at h3
        cases h3 with
        | seek p => injection hop with hop; omega
        | seekNegative z hz => cases hO
        | read => cases hop
        | readFault _ hf => cases hop
    · intro ops
      obtain ⟨_, h2, pos', h3, h4⟩ := hc ops
      refine ⟨h2, ?_⟩
      generalize (match a with | .ok b => some b | _ => none) = O at h3
      generalize hop : FileOp.seek o = op at h3
      cases h3 with
      | seek p => injection hop with hop; omega
      | seekNegative z hz => exact h4
      | read => cases hop
      | readFault _ hf => cases hop

theorem goodReader_read {c : Codec} {content : Bytes} {pos : Nat} {r : Reader} (h : GoodReader c content pos r) (n : Nat) :
    FileRead.step c (.read n) r = (ok ((content.drop pos).take n), (FileRead.step c (.read n) r).2) ∧
      GoodReader c content (pos + ((content.drop pos).take n).length) (FileRead.step c (.read n) r).2 := by
  cases hs : FileRead.step c (.read n) r with
  | mk a r' =>
    have hc := fun ops => goodReader_cons h (.read n) ops
    rw [hs] at hc
    simp only at hc
    constructor
    · obtain ⟨h1, _, pos', h3, _⟩ := hc []
      cases a with
      | ub => exact absurd rfl h1
      | err =>
        generalize hO : (match (err : Res Bytes) with | .ok b => some b | _ => none) = O at h3
        generalize hop : FileOp.read n = op at h3
        cases h3 with
        | seek => cases hop
        | seekNegative z hz => cases hop
        | read => cases hO
        | readFault _ hf => exact hf.elim
      | ok b =>
        generalize hO : (match (ok b : Res Bytes) with | .ok b => some b | _ => none) = O at h3
        generalize hop : FileOp.read n = op at h3
        cases h3 with
        | seek => cases hop
        | seekNegative z hz => cases hop
        | read k =>
          injection hop with hop
          subst hop
          injection hO with hO
          rw [hO]
        | readFault _ hf => exact hf.elim
    · intro ops
      obtain ⟨_, h2, pos', h3, h4⟩ := hc ops
      refine ⟨h2, ?_⟩
      generalize (match a with | .ok b => some b | _ => none) = O at h3
      generalize hop : FileOp.read n = op at h3
      cases h3 with
      | seek => cases hop
      | seekNegative z hz => cases hop
      | read k =>
        injection hop with hop
        subst hop
        exact h4
      | readFault _ hf => exact hf.elim

/-- an open file as it is after requests -/
structure Good (m : Mounted) (v : VolumeFile) (h : Handle) : Prop where
  mirrors : Mirrors h.node.inode v
  kept : KeptEntries (lookups m.files) h.node.inode h.node
  entry : FileEntry.Reached v.stored h.entry
  reader : ∀ content, v.content = some content → ∀ r, h.reader = some r → ∃ pos, GoodReader m.unpack content pos r

theorem good_new {v : VolumeFile} {n : FileNode} (name : Bytes) (hn : Mirrors n.inode v) (hc : n.children = none) : Good m v (.new name n) := by
  refine ⟨hn, ⟨rfl, .inl hc⟩, ?_, fun _ _ r hr => by cases hr⟩
  have := FileEntry.Reached.new (f := v.stored) n.inode.flags (by show decide _ = decide _; rw [hn.flags])
  rwa [show v.stored.size = n.inode.size from hn.size.symm] at this

theorem posixTime {t : Nat} (h : t < 2 ^ 63) : PosixTime t (Mount.timePair (Mount.signed64 t)) := by
  unfold PosixTime Mount.timePair Mount.signed64
  rw [if_pos h]
  simp only
  have h1 : (t : Int).tdiv 1000000000 = (t : Int) / 1000000000 := Int.tdiv_eq_ediv_of_nonneg (by omega)
  have h2 : (t : Int).tmod 1000000000 = (t : Int) % 1000000000 := Int.tmod_eq_emod_of_nonneg (by omega)
  rw [h1, h2]
  omega

theorem stat_good (hS : Mounts m s xid rs image cipher V) {i : Nat} (hr : Reach V.dirs i) {h : Handle} (hg : Good m (V.file i) h) :
    ∃ st h', statOf m h = (ok st, h') ∧ StatShown (V.file i) st ∧ Good m (V.file i) h' ∧ h'.node = h.node := by
  have hh := hS.healthy hr hg.mirrors
  have hv := (hS.has.file i hr).valid
  obtain ⟨n, hn, hlt⟩ := hS.has.size i hr
  have hk : ∀ mt k, (V.file i).stored.kind = .compressed mt k → k ≠ 2 ^ 64 - 1 := by
    intro mt k hk
    unfold StoredFile.size? at hn
    rw [hk] at hn
    have := Option.some.inj hn
    omega
  have hz := c40_size_available _ hv h.entry hg.entry _ hh hk n hn
  have hre : FileEntry.Reached (V.file i).stored (FileEntry.getSize (h.env m) h.entry).2 := .call (h.env m) .size hg.entry hh.faithful
  have hz : (FileEntry.getSize (h.env m) h.entry).1 = ok n := hz
  unfold statOf
  cases he : FileEntry.getSize (h.env m) h.entry with
  | mk a e =>
    rw [he] at hz hre
    simp only at hz hre
    subst hz
    simp only
    unfold setStat
    rw [require_true (by omega), ok_bind]
    refine ⟨_, _, rfl, ⟨hn, fun ht => ?_, fun hl => ?_, fun ht => ?_, fun ht => ?_, fun he ht => ?_⟩, ⟨hg.mirrors, hg.kept, hre, hg.reader⟩, rfl⟩
    · have hm := hg.mirrors.fits.mode
      unfold VolumeFile.type at ht
      show Mount.fileMode h.node.inode.mode = _
      unfold Mount.fileMode
      rw [hg.mirrors.mode, if_neg (by omega)]
    · have hm := hg.mirrors.fits.mode
      unfold VolumeFile.type at hl
      show (if Mount.fileMode h.node.inode.mode / 0x4000 % 2 ≠ 0 then 2 else 1) = _
      unfold Mount.fileMode
      rw [hg.mirrors.mode]
      rw [if_neg (show ¬ (V.file i).fixed.mode / 0x1000 % 16 = 0xe by omega)]
      rcases hl with ⟨h1, h2⟩ | ⟨h1, h2⟩
      · rw [if_pos (by omega), h2]
      · rw [if_neg (by omega), h2]
    · show PosixTime _ (Mount.timePair (Mount.signed64 h.node.inode.access))
      rw [hg.mirrors.access]
      exact posixTime ht
    · show PosixTime _ (Mount.timePair (Mount.signed64 h.node.inode.change))
      rw [hg.mirrors.change]
      exact posixTime ht
    · show PosixTime _ (Mount.timePair (Mount.signed64 h.node.inode.modification))
      rw [hg.mirrors.modification, ← he]
      exact posixTime ht

/-! ## paths -/

theorem decodes_lawful {k : PathString.Codec} (hk : Lawful k) (cs : List Nat) (hc : ∀ c ∈ cs, Scalar c) (r : Bytes) : Name.Decodes k.decoder (Utf8.encode cs ++ r) cs r := by
  induction cs with
  | nil => exact .done r
  | cons c cs ih =>
    have hs : Utf8.encode (c :: cs) ++ r = Utf8.encodeChar c ++ (Utf8.encode cs ++ r) := by simp [Utf8.encode]
    rw [hs]
    exact .step (hk.reads c (hc c (List.mem_cons_self ..)) _) (ih (fun c h => hc c (List.mem_cons_of_mem _ h)))

theorem lawful_readsUtf8 (hL : Libraries m) : NameLookup.ReadsUtf8 m.text.decoder :=
  ⟨fun cs h => by simpa using decodes_lawful hL.text cs (fun c hc => (h c hc).1) [], by rw [hL.nul]; rfl⟩

theorem lawful_separator {k : PathString.Codec} (hk : Lawful k) (r : Bytes) : k.decoder.next (0x2f :: r) = some (0x2f, r) := by
  have := hk.reads 0x2f (by decide) r
  simpa [Utf8.encodeChar] using this

theorem nameOf_lawful (hL : Libraries m) {name : List Nat} (h : ∀ c ∈ name, Scalar c ∧ c ≠ 0) : Name.NameOf m.text.decoder (Utf8.encode name) name := by
  unfold Name.NameOf Name.stripNul
  have hd := decodes_lawful hL.text name (fun c hc => (h c hc).1) []
  rw [List.append_nil] at hd
  cases hl : (Utf8.encode name).getLast? with
  | none => exact hd
  | some b =>
    have hb : b ≠ 0 := encode_nonzero (fun c hc => h c hc) b (List.mem_of_getLast? hl)
    simp only
    rw [hL.nul, decide_eq_false hb]
    exact hd

theorem component_query (hL : Libraries m) (hS : Mounts m s xid rs image cipher V) {i : Nat} (hr : Reach V.dirs i) {name : List Nat} (hn : Component V.format name) :
    ∃ strHash, NameLookup.Query m.text.decoder V.format (V.dirs i) (Utf8.encode name) name strHash := by
  have hc : ∀ c ∈ name, Scalar c ∧ c ≠ 0 := fun c h => ⟨(hn.characters c h).1, (hn.characters c h).2.1⟩
  have hd := decodes_lawful hL.text name (fun c h => (hc c h).1) []
  rw [List.append_nil] at hd
  exact c21_query _ _ _ _ name (nameOf_lawful hL hc) ⟨fun c h => (hc c h).2, [], hd, .inl rfl⟩ hn.findable.tables hn.findable.order hn.findable.folded
    (fun hh => ⟨hn.findable.hash hh, fun e he => (hS.has.findable i hr e he).hash hh⟩) (fun e he _ => (hS.has.findable i hr e he).tables)

theorem component_segment (hL : Libraries m) {f : NameFormat} {name : List Nat} (hn : Component f name) : NameLookup.IsSegment m.text.decoder (Utf8.encode name) := by
  refine ⟨fun he => ?_, name, fun c hc => ⟨(hn.characters c hc).2.2, (hn.characters c hc).2.1⟩, fun r => decodes_lawful hL.text name (fun c hc => (hn.characters c hc).1) r⟩
  cases name with
  | nil => exact hn.nonempty rfl
  | cons c cs =>
    have := PathString.encode_length (c :: cs)
    rw [he] at this
    simp at this

/-- where names lead -/
theorem leads_found (hL : Libraries m) (hS : Mounts m s xid rs image cipher V) {i : Nat} {names : List (List Nat)} {t : Option Nat} (hl : V.Leads i names t) (hr : Reach V.dirs i)
    (hn : ∀ n ∈ names, Component V.format n) (record : Option Records.DirectoryRecord) :
    match t with
    | some j => Reach V.dirs j ∧ ∃ es, Hierarchy m.text.decoder rs V.format i (names.map Utf8.encode) es ∧ (lastEntry V.format i record es).1 = j
    | none => ∃ pre q more es, names = pre ++ q :: more ∧ Hierarchy m.text.decoder rs V.format i (pre.map Utf8.encode) es ∧ Reach V.dirs (lastEntry V.format i record es).1 ∧
        ∀ e ∈ V.dirs (lastEntry V.format i record es).1, ¬ SameName V.format.caseInsensitive q e.name := by
  induction hl generalizing record with
  | here i => exact ⟨hr, [], .here i, rfl⟩
  | @step i e names t he rest ih =>
    have hr' : Reach V.dirs e.identifier := .step hr he
    have hi := ih hr' (fun n h => hn n (List.mem_cons_of_mem _ h)) (some (NameLookup.recordOf V.format e))
    obtain ⟨strHash, hq⟩ := component_query hL hS hr (hn e.name (by simp))
    have hstep : ∀ {strs es}, Hierarchy m.text.decoder rs V.format e.identifier strs es → Hierarchy m.text.decoder rs V.format i (Utf8.encode e.name :: strs) (e :: es) :=
      fun h => .step (hS.fits hr) (hS.has.hierarchy.directory i hr) he hq (hS.has.unique i hr) h
    cases t with
    | some j =>
      obtain ⟨h1, es, h2, h3⟩ := hi
      exact ⟨h1, e :: es, hstep h2, h3⟩
    | none =>
      obtain ⟨pre, q, more, es, h1, h2, h3, h4⟩ := hi
      exact ⟨e.name :: pre, q, more, e :: es, by rw [h1]; rfl, hstep h2, h3, h4⟩
  | @missing i name names h => exact ⟨[], name, names, [], rfl, .here i, hr, h⟩

/-- how names are shown -/
def shownName (name : List Nat) : Bytes := name.flatMap (escaped .mount)

theorem shownNames : ShownNames shownName where
  nonempty name h0 e := by
    cases name with
    | nil => exact h0 rfl
    | cons c cs => exact PathString.escaped_ne_nil .mount c _ e
  slash name hc h := (PathString.mem_flatMap_escaped hc h).2.2 rfl rfl
  zero name hc h := absurd (PathString.mem_flatMap_escaped hc h).1 (by decide)
  means name hc := by
    have := PathString.unescape_flatMap .mount name hc []
    rw [List.append_nil] at this
    unfold shownName
    rw [this]
    simp [Escape.unescape]

theorem lastSlash_lt (path : Bytes) : ∀ n, n < path.length → Mount.lastSlash path n ≤ n
  | 0, _ => Nat.le_refl _
  | n + 1, h => by
    unfold Mount.lastSlash
    split
    · exact Nat.le_refl _
    · have := lastSlash_lt path n (by omega)
      omega

theorem lastSlash_length {path : Bytes} (h : 0 < path.length) : Mount.lastSlash path path.length + 1 ≤ path.length := by
  cases hl : path.length with
  | zero => omega
  | succ n =>
    unfold Mount.lastSlash
    rw [if_neg (by rw [List.getElem?_eq_none (by omega)]; simp)]
    have := lastSlash_lt path n (by omega)
    omega

theorem nameLength_le {path : Bytes} (h : 0 < path.length) (hl : Mount.pathLength path = path.length) (hm : path.length < ssizeMax) : Mount.nameLength path ≤ ssizeMax - 1 := by
  have := lastSlash_length h
  unfold Mount.nameLength
  rw [hl]
  unfold ssizeMax at *
  omega

theorem joined {names : List (List Nat)} (h0 : names ≠ []) : slashed (names.map Utf8.encode) = pathString 0x2f true false (names.map Utf8.encode) := by
  unfold slashed pathString
  simp only [if_true, Bool.false_eq_true, if_false, List.append_nil]
  have : ∀ l : List Bytes, l ≠ [] → l.flatMap (0x2f :: ·) = [0x2f] ++ joinNames 0x2f l := by
    intro l
    induction l with
    | nil => intro h; exact absurd rfl h
    | cons n l ih =>
      intro _
      cases l with
      | nil => simp [joinNames]
      | cons n' l =>
        rw [List.flatMap_cons, ih (by simp)]
        simp [joinNames]
  exact this _ (by simpa using h0)

theorem shown_path {names : List (List Nat)} (h0 : names ≠ []) (hn : ∀ n ∈ names, Component V.format n) :
    0x2f ∉ (slashed (names.map shownName)).getLast? ∧ (∀ b ∈ slashed (names.map shownName), b ≠ 0) ∧ 2 ≤ (slashed (names.map shownName)).length := by
  have hc : ∀ n ∈ names, ∀ c ∈ n, Scalar c ∧ c ≠ 0 := fun n h c hc => ⟨((hn n h).characters c hc).1, ((hn n h).characters c hc).2.1⟩
  refine ⟨?_, ?_, ?_⟩
  · obtain ⟨a, n, rfl⟩ : ∃ a n, names = a ++ [n] := ⟨names.dropLast, names.getLast h0, (List.dropLast_concat_getLast h0).symm⟩
    have h1 := shownNames.nonempty n (hn n (by simp)).nonempty
    have h2 := shownNames.slash n (hc n (by simp))
    unfold slashed
    rw [List.map_append, List.flatMap_append]
    simp only [List.map_cons, List.map_nil, List.flatMap_cons, List.flatMap_nil, List.append_nil]
    rw [List.getLast?_append, List.getLast?_cons_of_ne_nil h1]
    cases hg : (shownName n).getLast? with
    | none => exact absurd (List.getLast?_eq_none_iff.1 hg) h1
    | some b =>
      intro h
      have h : b = 0x2f := Option.some.inj h
      exact h2 (h ▸ List.mem_of_getLast? hg)
  · intro b hb
    obtain ⟨x, h1, h2⟩ := List.mem_flatMap.1 hb
    obtain ⟨n, h3, rfl⟩ := List.mem_map.1 h1
    rcases List.mem_cons.1 h2 with rfl | h2
    · decide
    · exact fun h => shownNames.zero n (hc n h3) (h ▸ h2)
  · cases names with
    | nil => exact absurd rfl h0
    | cons n l =>
      have h1 := List.length_pos_iff.2 (shownNames.nonempty n (hn n (by simp)).nonempty)
      simp only [slashed, List.map_cons, List.flatMap_cons, List.length_append, List.length_cons]
      omega

theorem fileAt_plain {path : Bytes} (hcs : cString path = path) (h0 : 0 < path.length) (hpl : Mount.pathLength path = path.length) (hlen : path.length < ssizeMax) :
    ∃ name, fileAt m path = (do
      let n ← nodeAt m path
      match n with
      | none => return none
      | some n => return some (.new name n)) := by
  have hnl := nameLength_le h0 hpl hlen
  unfold fileAt
  simp only
  rw [hcs, require_true (by omega), ok_bind, hpl, List.take_length]
  generalize Mount.nameLength path = nl at hnl
  generalize ((path.drop (Mount.lastSlash path path.length + 1)).take nl) = name
  refine ⟨name, ?_⟩
  cases nodeAt m path with
  | err => rw [err_bind, err_bind]
  | ub => rw [ub_bind, ub_bind]
  | ok n =>
    simp only [ok_bind]
    cases n with
    | none => rfl
    | some n =>
      simp only
      rw [require_true hnl]
      rfl

/-- a path leads to its file, or to none -/
def Finds (m : Mounted) (V : View) (path : Bytes) : Option Nat → Prop
  | some i => Reach V.dirs i ∧ ∃ h, fileAt m path = ok (some h) ∧ Good m (V.file i) h
  | none => fileAt m path = ok none

theorem fileAt_path (hL : Libraries m) (hS : Mounts m s xid rs image cipher V) (hT : V.text = shownName) {path : Bytes} {t : Option Nat} (hp : V.Path path t) : Finds m V path t := by
  obtain ⟨names, rfl, hlen, hn, hl⟩ := hp
  obtain ⟨_, _, d, hfr, _⟩ := hS.holds.tree
  have hroot := fsRootNode_ok hfr
  by_cases h0 : names = []
  · subst h0
    cases hl
    refine ⟨.root, ?_⟩
    obtain ⟨r, h1, h2, n, h3, h4⟩ := hS.record .root
    have hcopy := mountCopyTo_names hL.text [[]] (by simp) (fun cs h => by simp at h; subst h; intro c hc; cases hc) (by decide)
    have hcopy : mountCopyTo m.text [0x2f] = ok [0x2f] := hcopy
    have hnode : nodeAt m [0x2f] = ok (some { inode := n, record := none }) := by
      unfold nodeAt
      rw [hcopy, ok_bind, show cString [0x2f] = [0x2f] by decide]
      unfold byPath NameLookup.lookupPath
      rw [require_true (by simp), ok_bind, hS.serves.tree, hroot, ok_bind]
      simp only [List.length_singleton, or_true, if_true, pure_eq, ok_bind]
      have hi := (c19_lookup_partial s xid rs hS.holds 2 (by decide) (hS.one .root) hS.has.types).1 r h1 h2
      unfold inodeByIdentifier at hi
      rw [hS.serves.xid]
      cases he : fsEntry (volumeOf s) xid 2 3 with
      | err => rw [he, h3] at hi; cases hi
      | ub => rw [he, h3] at hi; cases hi
      | ok e =>
        rw [he, ok_bind] at hi
        rw [ok_bind]
        cases e with
        | none => rw [h3] at hi; cases hi
        | some e =>
          simp only at hi ⊢
          rw [h3] at hi
          cases hre : Records.readInode e with
          | err => rw [hre] at hi; cases hi
          | ub => rw [hre] at hi; cases hi
          | ok x => rw [hre] at hi; cases hi; rfl
    refine ⟨.new (([0x2f] : Bytes).drop 1 |>.take 0) { inode := n, record := none }, ?_, good_new _ h4 rfl⟩
    have e1 : V.pathOf [] = [0x2f] := rfl
    have e2 : cString [0x2f] = [0x2f] := by decide
    have e3 : ([0x2f] : Bytes).take (Mount.pathLength [0x2f]) = [0x2f] := by decide
    have e5 : Mount.lastSlash [0x2f] (Mount.pathLength [0x2f]) = 0 := by decide
    have e4 : Mount.nameLength [0x2f] = 0 := by
      unfold Mount.nameLength
      rw [e5, show Mount.pathLength [0x2f] = 1 by decide]
    unfold fileAt
    simp only [e1, e2, e3, e4, e5]
    rw [require_true (by simp), ok_bind, hnode, ok_bind]
    simp only
    rw [require_true (by simp)]
    rfl
  · have hpath : V.pathOf names = slashed (names.map shownName) := by
      unfold View.pathOf slashed
      rw [if_neg h0, hT, List.flatMap_map]
    rw [hpath] at hlen ⊢
    obtain ⟨hlast, hzero, h2⟩ := shown_path h0 hn
    have hcs : cString (slashed (names.map shownName)) = slashed (names.map shownName) := PathString.cString_eq hzero
    have hpl : Mount.pathLength (slashed (names.map shownName)) = (slashed (names.map shownName)).length := by
      unfold Mount.pathLength
      rw [if_neg]
      rintro ⟨_, h⟩
      rw [← List.getLast?_eq_getElem?] at h
      exact hlast h
    have hcopy := mountCopyTo_names hL.text names h0 (fun n h c hc => ⟨((hn n h).characters c hc).1, ((hn n h).characters c hc).2.1⟩) hlen
    have hcopy : mountCopyTo m.text (slashed (names.map shownName)) = ok (slashed (names.map Utf8.encode)) := hcopy
    have hcs' : cString (slashed (names.map Utf8.encode)) = slashed (names.map Utf8.encode) := by
      refine PathString.cString_eq fun b hb => ?_
      obtain ⟨x, h1, h2⟩ := List.mem_flatMap.1 hb
      obtain ⟨n, h3, rfl⟩ := List.mem_map.1 h1
      rcases List.mem_cons.1 h2 with rfl | h2
      · decide
      · exact encode_nonzero (fun c hc => ⟨((hn n h3).characters c hc).1, ((hn n h3).characters c hc).2.1⟩) b h2
    have hle : (slashed (names.map Utf8.encode)).length ≤ (slashed (names.map shownName)).length := PathString.slashed_le names
    have hlen2 : 2 ≤ (slashed (names.map Utf8.encode)).length := by
      cases names with
      | nil => exact absurd rfl h0
      | cons n l =>
        have h1 := List.length_pos_iff.2 (component_segment hL (hn n (by simp))).nonempty
        simp only [slashed, List.map_cons, List.flatMap_cons, List.length_append, List.length_cons]
        omega
    have hseg : ∀ n ∈ names.map Utf8.encode, NameLookup.IsSegment m.text.decoder n := by
      intro n hm
      obtain ⟨x, h1, rfl⟩ := List.mem_map.1 hm
      exact component_segment hL (hn x h1)
    obtain ⟨name, hfile⟩ := fileAt_plain (m := m) hcs (by omega) hpl hlen
    have hnode : nodeAt m (slashed (names.map shownName)) = (do
        let r ← byPath m.text.decoder m.text.decoder 0x2f m.files (pathString 0x2f true false (names.map Utf8.encode))
        return r.map fun r => { inode := r.1, record := r.2 }) := by
      unfold nodeAt
      rw [hcopy, ok_bind, hcs', joined h0]
    rw [joined h0] at hlen2 hle
    have hlen3 : (pathString 0x2f true false (names.map Utf8.encode)).length < 2 ^ 63 := by omega
    have hlead := leads_found hL hS hl .root hn none
    cases t with
    | some j =>
      obtain ⟨hr, es, hh, hj⟩ := hlead
      refine ⟨hr, ?_⟩
      obtain ⟨r, h1, h2, n, h3, h4⟩ := hS.record hr
      have hes : es ≠ [] := by
        rintro rfl
        cases names with
        | nil => exact h0 rfl
        | cons => cases hh
      obtain ⟨a, e, rfl⟩ : ∃ a e, es = a ++ [e] := ⟨es.dropLast, es.getLast hes, (List.dropLast_concat_getLast hes).symm⟩
      rw [lastEntry_append] at hj
      simp only at hj
      subst hj
      have hb : byPath m.text.decoder m.text.decoder 0x2f m.files (pathString 0x2f true false (names.map Utf8.encode)) = ok (some (n, some (NameLookup.recordOf V.format e))) := by
        unfold byPath
        rw [hS.serves.tree, hS.serves.xid, hS.folding, c22_resolves (lawful_readsUtf8 hL) _ (lawful_separator hL.text) hS.holds hroot hh hseg true false hlen2 hlen3 (hS.fits hr)
          (hS.one hr) hS.has.types h1 h2, h3]
        rfl
      rw [hfile, hnode, hb]
      exact ⟨_, rfl, good_new _ h4 rfl⟩
    | none =>
      obtain ⟨pre, q, more, es, rfl, hh, hr, hno⟩ := hlead
      obtain ⟨strHash, hq⟩ := component_query hL hS hr (hn q (by simp))
      simp only [List.map_append, List.map_cons] at hseg hlen2 hlen3 hnode
      have hb : byPath m.text.decoder m.text.decoder 0x2f m.files (pathString 0x2f true false (pre.map Utf8.encode ++ Utf8.encode q :: more.map Utf8.encode)) = ok none := by
        unfold byPath
        rw [hS.serves.tree, hS.serves.xid, hS.folding]
        exact c22_missing (lawful_readsUtf8 hL) _ (lawful_separator hL.text) hS.holds hroot hh (hS.fits hr) (hS.has.hierarchy.directory _ hr) hq hno hseg true false hlen2 hlen3
      simp only [List.map_append, List.map_cons]
      rw [hb] at hnode
      simp only [List.map_append, List.map_cons] at hfile
      show fileAt m _ = ok none
      rw [hfile, hnode]
      rfl

/-! ## reading -/

theorem read_kept (hS : Mounts m s xid rs image cipher V) {i : Nat} (hr : Reach V.dirs i) {h : Handle} (hg : Good m (V.file i) h) (hc : (V.file i).content = none) (size : Nat) (offset : Int) :
    Good m (V.file i) (Mount.read m h size offset).2 := by
  have hno : ∀ {x : Option Reader} content, (V.file i).content = some content → ∀ r, x = some r → ∃ pos, GoodReader m.unpack content pos r :=
    fun content h => by rw [hc] at h; cases h
  have hre : FileEntry.Reached (V.file i).stored (FileEntry.openStream (h.env m) h.entry).2 := .call (h.env m) .content hg.entry (hS.healthy hr hg.mirrors).faithful
  have hready : Good m (V.file i) (Mount.ready m h).2 := by
    unfold Mount.ready
    cases h.reader with
    | some r => exact hg
    | none =>
      simp only
      cases FileRead.openFile m.files m.compare m.junk h.node.inode h.entry with
      | ok r => exact ⟨hg.mirrors, hg.kept, hre, hno⟩
      | err => exact ⟨hg.mirrors, hg.kept, hre, hno⟩
      | ub => exact ⟨hg.mirrors, hg.kept, hre, hno⟩
  unfold Mount.read
  split
  · exact hg
  · simp only
    unfold Mount.readAt
    cases hd : Mount.ready m h with
    | mk a h' =>
      rw [hd] at hready
      have hready : Good m (V.file i) h' := hready
      cases a with
      | err => exact hready
      | ub => exact hready
      | ok r =>
        simp only
        cases FileRead.step m.unpack (.seek offset) r with
        | mk b r' =>
          cases b with
          | ok _ => exact ⟨hready.mirrors, hready.kept, hready.entry, hno⟩
          | err => exact ⟨hready.mirrors, hready.kept, hready.entry, hno⟩
          | ub => exact ⟨hready.mirrors, hready.kept, hready.entry, hno⟩

theorem ready_good (hL : Libraries m) (hS : Mounts m s xid rs image cipher V) {i : Nat} (hr : Reach V.dirs i) {h : Handle} (hg : Good m (V.file i) h) {content : Bytes}
    (hc : (V.file i).content = some content) : ∃ r h' pos, Mount.ready m h = (ok r, h') ∧ GoodReader m.unpack content pos r ∧ Good m (V.file i) h' := by
  unfold Mount.ready
  cases hrd : h.reader with
  | some r =>
    obtain ⟨pos, hp⟩ := hg.reader content hc r hrd
    exact ⟨r, h, pos, rfl, hp, hg⟩
  | none =>
    obtain ⟨r, h1, h2⟩ := c53_opened_partial hS.serves hS.holds hS.root (hS.has.file i hr) hL.codec (hS.has.content i hr content hc) (hS.compares i hr) hg.mirrors.readsAs hg.entry hL.junk
    simp only
    rw [h1]
    refine ⟨r, _, 0, rfl, h2, hg.mirrors, hg.kept, .call (h.env m) .content hg.entry (hS.healthy hr hg.mirrors).faithful, fun content' hc' r' hr' => ?_⟩
    rw [hc] at hc'
    cases hc'
    cases hr'
    exact ⟨0, h2⟩

theorem read_good (hL : Libraries m) (hS : Mounts m s xid rs image cipher V) {i : Nat} (hr : Reach V.dirs i) {h : Handle} (hg : Good m (V.file i) h) {content : Bytes}
    (hc : (V.file i).content = some content) {size : Nat} (hs : size < 2 ^ 31) (offset : Int) :
    (∀ o : Nat, offset = o → (Mount.read m h size offset).1 = .value ((content.drop o).take size)) ∧ (offset < 0 → (Mount.read m h size offset).1 = .fails .eio) ∧
      Good m (V.file i) (Mount.read m h size offset).2 := by
  obtain ⟨r, h', pos, h1, h2, h3⟩ := ready_good hL hS hr hg hc
  have hgood : ∀ {r : Reader} {pos : Nat}, GoodReader m.unpack content pos r → Good m (V.file i) { h' with reader := some r } := by
    intro r pos hg
    refine ⟨h3.mirrors, h3.kept, h3.entry, fun content' hc' r' hr' => ?_⟩
    rw [hc] at hc'
    cases hc'
    cases hr'
    exact ⟨pos, hg⟩
  unfold Mount.read Mount.readAt
  rw [if_neg (by unfold Mount.intMax; omega), h1]
  simp only
  by_cases ho : offset < 0
  · obtain ⟨e1, e2⟩ := goodReader_negative h2 ho
    cases hst : FileRead.step m.unpack (.seek offset) r with
    | mk a r' =>
      rw [hst] at e1 e2
      cases e1
      exact ⟨fun o he => by omega, fun _ => rfl, hgood e2⟩
  · obtain ⟨o, rfl⟩ : ∃ o : Nat, offset = o := ⟨offset.toNat, by omega⟩
    obtain ⟨e1, e2⟩ := goodReader_seek h2 o
    cases hst : FileRead.step m.unpack (.seek (o : Int)) r with
    | mk a r' =>
      rw [hst] at e1 e2
      cases e1
      obtain ⟨e3, e4⟩ := goodReader_read e2 size
      refine ⟨fun o' he => ?_, fun h => absurd h ho, hgood e4⟩
      have : o' = o := by omega
      subst this
      show Mount.reply .eio (FileRead.step m.unpack (.read size) r').1 = _
      rw [e3]
      rfl

/-! ## directories -/

theorem shown_name (hL : Libraries m) {name : List Nat} (hc : ∀ c ∈ name, Scalar c ∧ c ≠ 0) (h0 : name ≠ []) (hl : (Utf8.encode name).length < 65535) :
    PathString.copyFrom m.text .mount (Utf8.encode name) = ok (shownName name) := copyFrom_escaped hL.text .mount name hc h0 (by unfold ssizeMax; omega)

theorem nameOf_inode (hL : Libraries m) (hS : Mounts m s xid rs image cipher V) {i : Nat} (hr : Reach V.dirs i) {n : Records.Inode} (hn : Mirrors n (V.file i)) :
    nameOf m { inode := n, record := none } = ok (shownName (V.file i).name) := by
  obtain ⟨h1, h2, h3⟩ := hS.has.named i hr
  unfold nameOf FileRead.nodeName
  simp only
  rw [hn.name]
  simp only
  rw [hL.names _ h2, ok_bind, shown_name hL h2 h1 h3]

theorem sub_good (hL : Libraries m) (hS : Mounts m s xid rs image cipher V) {i : Nat} (hr : Reach V.dirs i) {e : DirEntry} (he : e ∈ V.dirs i) :
    ∃ n st, subNode (lookups m.files) (NameLookup.recordOf V.format e) = ok n ∧ Mount.subFilled m n = ok (shownName e.name, st) ∧ StatShown (V.file e.identifier) st := by
  have hr' : Reach V.dirs e.identifier := .step hr he
  have hv := (hS.has.hierarchy.directory i hr).valid e he
  obtain ⟨n, h1, h2⟩ := hS.found hr'
  have hname : nameOf m { inode := n, record := some (NameLookup.recordOf V.format e) } = ok (shownName e.name) := by
    unfold nameOf FileRead.nodeName
    simp only
    rw [show (NameLookup.recordOf V.format e).name = storedName e.name from rfl, hL.names _ hv.name, ok_bind,
      shown_name hL hv.name (hS.has.hierarchy.named i hr e he) (by have := hv.size; omega)]
  obtain ⟨st, h', g1, g2, _⟩ := stat_good hS hr' (good_new (m := m) (n := { inode := n, record := some (NameLookup.recordOf V.format e) }) (shownName e.name) h2 rfl)
  refine ⟨{ inode := n, record := some (NameLookup.recordOf V.format e) }, st, ?_, ?_, g2⟩
  · unfold subNode
    rw [show (NameLookup.recordOf V.format e).identifier = e.identifier from rfl, h1]
  · unfold Mount.subFilled
    rw [hname, ok_bind, g1]
    simp only [ok_bind, pure_eq]
    rw [PathString.cString_eq fun b hb h0 => shownNames.zero e.name hv.name (h0 ▸ hb)]

theorem determine_listed {g : Lookups} {inode : Records.Inode} {n : FileNode} (hn : KeptEntries g inode n) {c : List Records.DirectoryRecord} (hc : g.directory inode.identifier = ok c) :
    ∃ n', determine g n = (ok c, n') ∧ KeptEntries g inode n' := by
  have h1 := determine_same hn
  have h2 := (determine_kept ⟨fun _ => .inl rfl, fun _ => .inl rfl⟩ hn).1
  cases hd : determine g n with
  | mk a n' =>
    rw [hd] at h1 h2
    simp only at h1 h2
    rw [h1, hc]
    exact ⟨n', rfl, h2⟩

theorem fillSubs_good (hL : Libraries m) (hS : Mounts m s xid rs image cipher V) (hT : V.text = shownName) {i : Nat} (hr : Reach V.dirs i) {inode : Records.Inode} (hi : inode.identifier = i) :
    ∀ (left index : Nat) (n : FileNode), index + left = (V.dirs i).length → KeptEntries (lookups m.files) inode n →
      ∃ l n', Mount.fillSubs m left index n = (ok l, n') ∧ V.Listed Terms.shown ((V.dirs i).drop index) l ∧ KeptEntries (lookups m.files) inode n' := by
  have hlist := directory_listed hS.ofTree hS.holds (hS.has.hierarchy.directory i hr)
  rw [← hi] at hlist
  intro left
  induction left with
  | zero =>
    intro index n hl hk
    refine ⟨[], n, rfl, ?_, hk⟩
    rw [List.drop_eq_nil_of_le (by omega)]
    exact .nil
  | succ left ih =>
    intro index n hl hk
    have hlt : index < (V.dirs i).length := by omega
    obtain ⟨n', h1, h2⟩ := determine_listed hk hlist
    obtain ⟨x, st, g1, g2, g3⟩ := sub_good hL hS hr (List.getElem_mem hlt)
    have hel : elementAt ((V.dirs inode.identifier).map (NameLookup.recordOf V.format)) (index : Int) = ok (NameLookup.recordOf V.format (V.dirs i)[index]) := by
      unfold elementAt
      rw [if_neg (by omega), Int.toNat_natCast, hi, List.getElem?_map, List.getElem?_eq_getElem hlt]
      rfl
    have hcall : FileRead.call (lookups m.files) (.sub index) n = (ok (.node x), n') := by
      unfold FileRead.call
      simp only [h1]
      rw [hel, ok_bind, g1]
      rfl
    obtain ⟨l, n'', e1, e2, e3⟩ := ih (index + 1) n' (by omega) h2
    unfold Mount.fillSubs
    rw [hcall]
    simp only
    rw [g2]
    simp only
    rw [e1]
    refine ⟨_, _, rfl, ?_, e3⟩
    rw [List.drop_eq_getElem_cons hlt, ← hT]
    exact .cons g3 e2

theorem readDirectory_good (hL : Libraries m) (hS : Mounts m s xid rs image cipher V) (hT : V.text = shownName) {i : Nat} (hr : Reach V.dirs i) {h : Handle} (hg : Good m (V.file i) h) :
    ∃ st st' l h', Mount.readDirectory m h = (.value (([0x2e], st) :: ([0x2e, 0x2e], st') :: l), h') ∧ StatShown (V.file i) st ∧
      (i ≠ 2 → StatShown (V.file (V.file i).fixed.parent) st') ∧ V.Listed Terms.shown (V.dirs i) l ∧ Good m (V.file i) h' := by
  obtain ⟨st, h1, e1, e2, e3, e4⟩ := stat_good hS hr hg
  have hid : h1.node.inode.identifier = i := by rw [e3.mirrors.identifier, hS.has.identifier i hr]
  have hpar : ∃ st', Mount.parentStat m h1 = ok st' ∧ (i ≠ 2 → StatShown (V.file (V.file i).fixed.parent) st') := by
    by_cases h2 : i = 2
    · unfold Mount.parentStat parentNode
      rw [if_neg (by omega)]
      exact ⟨_, rfl, fun h => absurd h2 h⟩
    · have hp := hS.has.parent i hr h2
      obtain ⟨n, g1, g2⟩ := hS.found hp
      obtain ⟨st', _, f1, f2, _⟩ := stat_good hS hp (good_new (m := m) (n := { inode := n, record := none }) (shownName (V.file (V.file i).fixed.parent).name) g2 rfl)
      refine ⟨st', ?_, fun _ => f2⟩
      unfold Mount.parentStat parentNode
      rw [if_pos (by rw [hid]; exact hS.has.reserved i hr h2), e3.mirrors.parent, g1]
      simp only
      rw [nameOf_inode hL hS hp g2, ok_bind, f1]
  obtain ⟨st', p1, p2⟩ := hpar
  have hlist := directory_listed hS.ofTree hS.holds (hS.has.hierarchy.directory i hr)
  rw [← hid] at hlist
  obtain ⟨n1, d1, d2⟩ := determine_listed e3.kept hlist
  obtain ⟨l, n2, f1, f2, f3⟩ := fillSubs_good hL hS hT hr hid (V.dirs i).length 0 n1 (by omega) d2
  have hall : Mount.fillAll m h1.node = (ok l, n2) := by
    unfold Mount.fillAll FileRead.call
    simp only [d1, List.length_map, hid]
    exact f1
  refine ⟨st, st', l, { h1 with node := n2 }, ?_, e2, p2, f2, ?_⟩
  · unfold Mount.readDirectory
    rw [e1]
    simp only
    rw [p1]
    simp only
    rw [hall]
  · have hin : n2.inode = h1.node.inode := f3.1
    refine ⟨by show Mirrors n2.inode _; rw [hin]; exact e3.mirrors, ?_, e3.entry, e3.reader⟩
    show KeptEntries _ n2.inode n2
    rw [hin]
    exact f3

/-! ## symbolic links and extended attributes -/

theorem readlink_good (hL : Libraries m) (hS : Mounts m s xid rs image cipher V) {path : Bytes} {i : Nat} (hf : Finds m V path (some i)) (hp : V.Path path (some i)) (size : Nat) (hs : List (Option Nat)) :
    V.Step Terms.shown hs (.readlink path size) (Mount.mapReply .bytes (Mount.readlink m path size)) hs := by
  obtain ⟨hr, h, h1, h2⟩ := hf
  have hv := (hS.has.file i hr).valid
  have hh := hS.healthy hr h2.mirrors
  have hsp := (FileEntry.symlinkTarget_spec hv (h2.entry.inv hv) hh.faithful).2.2.2 hh
  have hsp : ∀ t, FileEntry.target? (V.file i).stored = some t → (FileEntry.symlinkTarget (h.env m) h.entry).1 = ok t := hsp
  unfold Mount.readlink
  rw [h1]
  simp only
  cases ha : (V.file i).stored.attribute? symlink with
  | none =>
    rw [hsp none (by unfold FileEntry.target?; rw [ha])]
    exact .readlinkNone hp ha
  | some v =>
    by_cases hl : ∃ target, LinksTo (V.file i) target
    · obtain ⟨target, ht⟩ := hl
      have hval := ht.value
      rw [ha] at hval
      cases hval
      rw [hsp (some (storedName target)) (by
        unfold FileEntry.target?
        rw [ha]
        have h3 := ht.size
        have h4 : 0 < (storedName target).length := by simp [storedName]
        simp only
        rw [if_neg (by omega)]), ok_bind]
      simp only
      rw [hL.names _ ht.characters, ok_bind]
      have hlen : (storedName target).length = (Utf8.encode target).length + 1 := by simp [storedName]
      by_cases hsz : (storedName target).length ≤ size
      · rw [require_true (by omega), ok_bind]
        exact .readlink hp ht hsz
      · rw [require_false (by omega), err_bind]
        exact .readlinkShort hp ht (by omega) rfl
    · exact .readlinkOther hp (fun target ht => hl ⟨target, ht⟩) (by rw [ha]; simp)

theorem getxattr_good (hS : Mounts m s xid rs image cipher V) {path : Bytes} {i : Nat} (hf : Finds m V path (some i)) (hp : V.Path path (some i)) {name : Bytes} (hn : 0 ∉ name) (size : Nat)
    (hs : List (Option Nat)) : V.Step Terms.shown hs (.getxattr path name size) (Mount.mapReply .value (Mount.getxattr m path name size).1) hs := by
  obtain ⟨hr, h, h1, h2⟩ := hf
  have hv := (hS.has.file i hr).valid
  have hh := hS.healthy hr h2.mirrors
  have hsp := (FileEntry.attributeByName_spec hv (h2.entry.inv hv) hh.faithful name).2.2.2 hh
  have hsp : (FileEntry.attributeByName (h.env m) name h.entry).1 = ok ((FileEntry.named (V.file i).stored name).map FileEntry.attr) := hsp
  unfold Mount.getxattr
  by_cases hsz : 2 ^ 31 ≤ size
  · rw [if_pos (by unfold Mount.intMax; omega)]
    exact .getxattrLarge hsz
  · rw [if_neg (by unfold Mount.intMax; omega), h1, PathString.cString_eq fun b hb h0 => hn (h0 ▸ hb)]
    simp only
    rw [hsp]
    cases hna : FileEntry.named (V.file i).stored name with
    | none => exact .getxattrNone hp (by rw [FileEntry.attribute?_eq, hna]; rfl) (by omega)
    | some x =>
      have hx : (V.file i).stored.attribute? name = some x.value := by rw [FileEntry.attribute?_eq, hna]; rfl
      have hc := (FileEntry.content_spec hv hh.faithful (FileEntry.named_mem hna)).2 hh
      have hc : FileEntry.content (h.env m) (FileEntry.attr x) = ok (some x.value) := hc
      simp only [Option.map_some]
      unfold Mount.attributeValue
      rw [show (FileEntry.attr x).size = x.value.length from rfl]
      by_cases h3 : 2 ^ 31 ≤ x.value.length
      · rw [if_pos (by unfold Mount.intMax; omega)]
        exact .getxattrHuge hp hx (by omega) h3
      · rw [if_neg (by unfold Mount.intMax; omega)]
        by_cases h0 : size = 0
        · subst h0
          rw [if_pos rfl]
          exact .getxattrSize hp hx (by omega)
        · rw [if_neg h0]
          by_cases h4 : size < x.value.length
          · rw [if_pos h4]
            exact .getxattrShort hp hx (by omega) h4 (by omega)
          · rw [if_neg h4]
            unfold Mount.attributeBytes
            rw [hc, ok_bind]
            simp only [Option.getD_some, pure_eq]
            rw [List.take_of_length_le (by omega)]
            exact .getxattr hp hx (by omega) (by omega) (by omega)

theorem listNames_good (hL : Libraries m) (size : Nat) : ∀ (xs : List XAttr), (∀ x ∈ xs, ∃ name, (∀ c ∈ name, Scalar c ∧ c ≠ 0) ∧ x.name = Utf8.encode name) → ∀ list : Bytes,
    (0 < size → list.length ≤ size) →
    (size = 0 ∨ (list ++ xs.flatMap (fun x : XAttr => x.name ++ [0])).length ≤ size → Mount.listNames m size (xs.map FileEntry.attr) list = ok (list ++ xs.flatMap (fun x : XAttr => x.name ++ [0]))) ∧
    (0 < size ∧ size < (list ++ xs.flatMap (fun x : XAttr => x.name ++ [0])).length → Mount.listNames m size (xs.map FileEntry.attr) list = err)
  | [], _, list, hl => ⟨fun _ => by simp [Mount.listNames], fun h => by have := hl h.1; simp at h; omega⟩
  | x :: xs, hx, list, hl => by
    obtain ⟨name, hc, hn⟩ := hx x (List.mem_cons_self ..)
    have hu : m.una (FileEntry.attr x).name = ok x.name := by
      rw [show (FileEntry.attr x).name = x.name ++ [0] from rfl, hn]
      exact hL.names name hc
    have hlen : (list ++ (x :: xs).flatMap (fun x : XAttr => x.name ++ [0])).length = list.length + (x.name.length + 1) + (xs.flatMap (fun x : XAttr => x.name ++ [0])).length := by
      simp only [List.flatMap_cons, List.length_append, List.length_cons, List.length_nil]
      omega
    simp only [List.map_cons]
    unfold Mount.listNames
    rw [hu, ok_bind]
    by_cases hfit : size > 0 ∧ x.name.length + 1 > size - list.length
    · have h1 := hl hfit.1
      rw [require_false (by simpa using hfit), err_bind]
      exact ⟨fun h => by omega, fun _ => rfl⟩
    · rw [require_true hfit, ok_bind]
      have ih := listNames_good hL size xs (fun x h => hx x (List.mem_cons_of_mem _ h)) (list ++ (x.name ++ [0])) (fun h => by
        have := hl h
        simp only [List.length_append, List.length_cons, List.length_nil]
        omega)
      have he : list ++ (x.name ++ [0]) ++ xs.flatMap (fun x : XAttr => x.name ++ [0]) = list ++ (x :: xs).flatMap (fun x : XAttr => x.name ++ [0]) := by simp
      rw [he] at ih
      exact ih

theorem listxattr_good (hL : Libraries m) (hS : Mounts m s xid rs image cipher V) {path : Bytes} {i : Nat} (hf : Finds m V path (some i)) (hp : V.Path path (some i)) (size : Nat)
    (hs : List (Option Nat)) : V.Step Terms.shown hs (.listxattr path size) (Mount.mapReply .value (Mount.listxattr m path size)) hs := by
  obtain ⟨hr, h, h1, h2⟩ := hf
  have hv := (hS.has.file i hr).valid
  have hh := hS.healthy hr h2.mirrors
  have hnum : (FileEntry.numberOfAttributes (h.env m) h.entry).1 = ok (V.file i).attributes.length ∧
      (FileEntry.numberOfAttributes (h.env m) h.entry).2.attributes = some ((V.file i).attributes.map FileEntry.attr) := by
    obtain ⟨r, e', g1, _, g3, g4, _, g6⟩ := FileEntry.needAttributes_spec hv (h2.entry.inv hv) hh.faithful
    have g1 : FileEntry.needAttributes (h.env m) h.entry = (r, e') := g1
    have h3 := (FileEntry.numberOfAttributes_spec hv (h2.entry.inv hv) hh.faithful).2.2.2 hh
    refine ⟨h3, ?_⟩
    unfold FileEntry.numberOfAttributes
    rw [g1, g3 hh]
    have := g6 (g3 hh)
    simp only
    rw [this]
    exact this
  unfold Mount.listxattr
  by_cases hsz : 2 ^ 31 ≤ size
  · rw [if_pos (by unfold Mount.intMax; omega)]
    exact .listxattrLarge hsz
  · rw [if_neg (by unfold Mount.intMax; omega), h1]
    simp only
    rw [hnum.1, ok_bind, hnum.2]
    simp only
    rw [ok_bind, List.take_of_length_le (by simp)]
    obtain ⟨n1, n2⟩ := listNames_good hL size (V.file i).attributes (hS.has.attributes i hr) [] (fun _ => by simp)
    rw [List.nil_append] at n1 n2
    by_cases h0 : size = 0
    · subst h0
      rw [n1 (.inl rfl), ok_bind, if_pos rfl]
      exact .listxattrSize hp
    · by_cases hfit : ((V.file i).attributes.flatMap fun x : XAttr => x.name ++ [0]).length ≤ size
      · rw [n1 (.inr hfit), ok_bind, if_neg h0]
        exact .listxattr hp (by omega) hfit (by omega)
      · rw [n2 ⟨by omega, by omega⟩, err_bind]
        exact .listxattrShort hp (by omega) (by show _ < ((V.file i).attributes.flatMap fun x : XAttr => x.name ++ [0]).length; omega) (by omega) rfl

/-! ## sessions -/

/-- open files are those of the volume -/
structure Matches (m : Mounted) (V : View) (hs : List (Option Nat)) (s : Session) : Prop where
  length : hs.length = s.handles.length
  each : ∀ n, (s.get n = none ∧ ∀ i, hs[n]? ≠ some (some i)) ∨ ∃ i h, hs[n]? = some (some i) ∧ s.get n = some h ∧ Reach V.dirs i ∧ Good m (V.file i) h

theorem Matches.add {hs : List (Option Nat)} {ss : Session} (hm : Matches m V hs ss) {i : Nat} {h : Handle} (hr : Reach V.dirs i) (hg : Good m (V.file i) h) :
    Matches m V (hs ++ [some i]) { ss with handles := ss.handles ++ [some h] } := by
  have hl := hm.length
  refine ⟨by simp [hl], fun n => ?_⟩
  unfold Session.get
  simp only
  by_cases h1 : n < hs.length
  · rw [List.getElem?_append_left h1, List.getElem?_append_left (by omega)]
    exact hm.each n
  · by_cases h2 : n = hs.length
    · subst h2
      rw [List.getElem?_append_right (Nat.le_refl _), List.getElem?_append_right (by omega), hl, Nat.sub_self]
      exact .inr ⟨i, h, rfl, rfl, hr, hg⟩
    · rw [List.getElem?_eq_none (by simp; omega), List.getElem?_eq_none (by simp; omega)]
      exact .inl ⟨rfl, by simp⟩

theorem Matches.keep {hs : List (Option Nat)} {ss : Session} (hm : Matches m V hs ss) {n i : Nat} {h : Handle} (hi : hs[n]? = some (some i)) (hr : Reach V.dirs i) (hg : Good m (V.file i) h) :
    Matches m V hs (ss.set n (some h)) := by
  refine ⟨by simp [Session.set, hm.length], fun k => ?_⟩
  by_cases hk : n = k
  · subst hk
    refine .inr ⟨i, h, hi, ?_, hr, hg⟩
    have : n < ss.handles.length := by
      rw [← hm.length]
      exact (List.getElem?_eq_some_iff.1 hi).1
    unfold Session.get Session.set
    simp only
    rw [List.getElem?_set_self this]
    rfl
  · have := hm.each k
    unfold Session.get Session.set at *
    simp only
    rw [List.getElem?_set_ne hk]
    exact this

theorem Matches.close {hs : List (Option Nat)} {ss : Session} (hm : Matches m V hs ss) (n : Nat) : Matches m V (hs.set n none) (ss.set n none) := by
  refine ⟨by simp [Session.set, hm.length], fun k => ?_⟩
  by_cases hk : n = k
  · subst hk
    refine .inl ?_
    unfold Session.get Session.set
    simp only
    by_cases hlt : n < hs.length
    · rw [List.getElem?_set_self (by rw [← hm.length]; exact hlt), List.getElem?_set_self hlt]
      exact ⟨rfl, by simp⟩
    · rw [List.getElem?_eq_none (by simp; have := hm.length; omega), List.getElem?_eq_none (by simp; omega)]
      exact ⟨rfl, by simp⟩
  · have := hm.each k
    unfold Session.get Session.set at *
    simp only
    rw [List.getElem?_set_ne hk, List.getElem?_set_ne hk]
    exact this

/-- requests about files that the volume has or that are missing, with names that are C strings -/
structure Asked (V : View) (r : Request) : Prop where
  path : ∀ p, r.path? = some p → ∃ t, V.Path p t
  name : ∀ path name size, r = .getxattr path name size → 0 ∉ name

theorem open_good (hL : Libraries m) (hS : Mounts m s xid rs image cipher V) (hT : V.text = shownName) {hs : List (Option Nat)} {ss : Session} (hm : Matches m V hs ss) {path : Bytes} {t : Option Nat}
    (hp : V.Path path t) {flags : Nat} (hf : flags % 4 = 0) :
    (∃ i h, t = some i ∧ ss.add (Mount.openFile m path flags) = (.value (.handle hs.length), { ss with handles := ss.handles ++ [some h] }) ∧ Reach V.dirs i ∧ Good m (V.file i) h) ∨
      (t = none ∧ ss.add (Mount.openFile m path flags) = (.fails .enoent, ss)) := by
  have hfind := fileAt_path hL hS hT hp
  unfold Mount.openFile
  rw [if_neg (by omega)]
  cases t with
  | some i =>
    obtain ⟨hr, h, h1, h2⟩ := hfind
    refine .inl ⟨i, h, rfl, ?_, hr, h2⟩
    rw [h1, hm.length]
    rfl
  | none =>
    refine .inr ⟨rfl, ?_⟩
    have hfind : fileAt m path = ok none := hfind
    rw [hfind]
    rfl

theorem serve_good (hL : Libraries m) (hS : Mounts m s xid rs image cipher V) (hT : V.text = shownName) {hs : List (Option Nat)} {ss : Session} (hm : Matches m V hs ss) {r : Request}
    (ha : Asked V r) : ∃ hs', V.Step Terms.shown hs r (Mount.serve m ss r).1 hs' ∧ Matches m V hs' (Mount.serve m ss r).2 := by
  cases r with
  | getattr path =>
    obtain ⟨t, hp⟩ := ha.path path rfl
    have hfind := fileAt_path hL hS hT hp
    refine ⟨hs, ?_, hm⟩
    show V.Step _ hs _ (Mount.mapReply .stat (Mount.getattr m path)) hs
    unfold Mount.getattr
    cases t with
    | some i =>
      obtain ⟨hr, h, h1, h2⟩ := hfind
      obtain ⟨st, h', e1, e2, _⟩ := stat_good hS hr h2
      rw [h1]
      simp only
      rw [e1]
      exact .getattr hp e2
    | none =>
      have hfind : fileAt m path = ok none := hfind
      rw [hfind]
      exact .getattrMissing hp
  | open_ path flags =>
    by_cases hf : flags % 4 = 0
    · obtain ⟨t, hp⟩ := ha.path path rfl
      rcases open_good hL hS hT hm hp hf with ⟨i, h, rfl, h1, h2, h3⟩ | ⟨rfl, h1⟩
      · refine ⟨hs ++ [some i], ?_, ?_⟩
        · show V.Step _ hs _ (ss.add (Mount.openFile m path flags)).1 _
          rw [h1]
          exact .open_ hf hp
        · show Matches m V _ (ss.add (Mount.openFile m path flags)).2
          rw [h1]
          exact hm.add h2 h3
      · refine ⟨hs, ?_, ?_⟩
        · show V.Step _ hs _ (ss.add (Mount.openFile m path flags)).1 _
          rw [h1]
          exact .openMissing hf hp
        · show Matches m V _ (ss.add (Mount.openFile m path flags)).2
          rw [h1]
          exact hm
    · have : ss.add (Mount.openFile m path flags) = (.fails .eacces, ss) := by
        unfold Mount.openFile
        rw [if_pos hf]
        rfl
      refine ⟨hs, ?_, ?_⟩
      · show V.Step _ hs _ (ss.add (Mount.openFile m path flags)).1 _
        rw [this]
        exact .openWrite hf
      · show Matches m V _ (ss.add (Mount.openFile m path flags)).2
        rw [this]
        exact hm
  | read n size offset =>
    rcases hm.each n with ⟨h1, h2⟩ | ⟨i, h, h1, h2, h3, h4⟩
    · unfold Mount.serve
      simp only [h1]
      exact ⟨hs, .readClosed h2, hm⟩
    · unfold Mount.serve
      simp only [h2]
      cases hc : (V.file i).content with
      | none => exact ⟨hs, .readUnknown h1 hc, hm.keep h1 h3 (read_kept hS h3 h4 hc size offset)⟩
      | some content =>
        by_cases hsz : size < 2 ^ 31
        · obtain ⟨e1, e2, e3⟩ := read_good hL hS h3 h4 hc hsz offset
          refine ⟨hs, ?_, hm.keep h1 h3 e3⟩
          by_cases ho : offset < 0
          · rw [e2 ho]
            exact .readNegative h1 hsz hc ho
          · obtain ⟨o, rfl⟩ : ∃ o : Nat, offset = o := ⟨offset.toNat, by omega⟩
            rw [e1 o rfl]
            exact .read h1 hsz hc
        · have : Mount.read m h size offset = (.fails .einval, h) := by
            unfold Mount.read
            rw [if_pos (by unfold Mount.intMax; omega)]
          rw [this]
          exact ⟨hs, .readLarge h1 (by omega), hm.keep h1 h3 h4⟩
  | release n => exact ⟨hs.set n none, .release, hm.close n⟩
  | opendir path =>
    obtain ⟨t, hp⟩ := ha.path path rfl
    rcases open_good hL hS hT hm hp (flags := 0) rfl with ⟨i, h, rfl, h1, h2, h3⟩ | ⟨rfl, h1⟩
    · refine ⟨hs ++ [some i], ?_, ?_⟩
      · show V.Step _ hs _ (ss.add (Mount.openFile m path 0)).1 _
        rw [h1]
        exact .opendir hp
      · show Matches m V _ (ss.add (Mount.openFile m path 0)).2
        rw [h1]
        exact hm.add h2 h3
    · refine ⟨hs, ?_, ?_⟩
      · show V.Step _ hs _ (ss.add (Mount.openFile m path 0)).1 _
        rw [h1]
        exact .opendirMissing hp
      · show Matches m V _ (ss.add (Mount.openFile m path 0)).2
        rw [h1]
        exact hm
  | readdir n =>
    rcases hm.each n with ⟨h1, h2⟩ | ⟨i, h, h1, h2, h3, h4⟩
    · unfold Mount.serve
      simp only [h1]
      exact ⟨hs, .readdirClosed h2, hm⟩
    · obtain ⟨st, st', l, h', e1, e2, e3, e4, e5⟩ := readDirectory_good hL hS hT h3 h4
      unfold Mount.serve
      simp only [h2]
      rw [e1]
      exact ⟨hs, .readdir h1 e2 (fun _ => trivial) e3 e4, hm.keep h1 h3 e5⟩
  | releasedir n =>
    refine ⟨hs.set n none, ?_⟩
    unfold Mount.serve
    simp only
    rcases hm.each n with ⟨h1, h2⟩ | ⟨i, h, h1, h2, h3, h4⟩
    · rw [h1]
      refine ⟨.releasedir, by simp [hm.length], fun k => ?_⟩
      by_cases hk : n = k
      · subst hk
        refine .inl ⟨h1, fun i => ?_⟩
        rw [List.getElem?_set]
        simp only [if_true]
        split <;> simp
      · rw [List.getElem?_set_ne hk]
        exact hm.each k
    · rw [h2]
      have := hm.close n
      exact ⟨.releasedir, this.length, this.each⟩
  | readlink path size =>
    obtain ⟨t, hp⟩ := ha.path path rfl
    have hfind := fileAt_path hL hS hT hp
    refine ⟨hs, ?_, hm⟩
    cases t with
    | some i => exact readlink_good hL hS hfind hp size hs
    | none =>
      show V.Step _ hs _ (Mount.mapReply .bytes (Mount.readlink m path size)) hs
      have hfind : fileAt m path = ok none := hfind
      unfold Mount.readlink
      rw [hfind]
      exact .readlinkMissing hp
  | getxattr path name size =>
    obtain ⟨t, hp⟩ := ha.path path rfl
    have hfind := fileAt_path hL hS hT hp
    refine ⟨hs, ?_, hm.length, hm.each⟩
    cases t with
    | some i => exact getxattr_good hS hfind hp (ha.name path name size rfl) size hs
    | none =>
      show V.Step _ hs _ (Mount.mapReply .value (Mount.getxattr m path name size).1) hs
      have hfind : fileAt m path = ok none := hfind
      unfold Mount.getxattr
      by_cases hsz : 2 ^ 31 ≤ size
      · rw [if_pos (by unfold Mount.intMax; omega)]
        exact .getxattrLarge hsz
      · rw [if_neg (by unfold Mount.intMax; omega), hfind]
        exact .getxattrMissing hp (by omega)
  | listxattr path size =>
    obtain ⟨t, hp⟩ := ha.path path rfl
    have hfind := fileAt_path hL hS hT hp
    refine ⟨hs, ?_, hm⟩
    cases t with
    | some i => exact listxattr_good hL hS hfind hp size hs
    | none =>
      show V.Step _ hs _ (Mount.mapReply .value (Mount.listxattr m path size)) hs
      have hfind : fileAt m path = ok none := hfind
      unfold Mount.listxattr
      by_cases hsz : 2 ^ 31 ≤ size
      · rw [if_pos (by unfold Mount.intMax; omega)]
        exact .listxattrLarge hsz
      · rw [if_neg (by unfold Mount.intMax; omega), hfind]
        exact .listxattrMissing hp (by omega)

theorem serveAll_good (hL : Libraries m) (hS : Mounts m s xid rs image cipher V) (hT : V.text = shownName) (requests : List Request) (ha : ∀ r ∈ requests, Asked V r) :
    V.Trace Terms.shown [] requests (Mount.serveAll m requests {}).1 := by
  have : ∀ (requests : List Request) (hs : List (Option Nat)) (ss : Session), (∀ r ∈ requests, Asked V r) → Matches m V hs ss → V.Trace Terms.shown hs requests (Mount.serveAll m requests ss).1 := by
    intro requests
    induction requests with
    | nil => intro hs ss _ _; exact .nil
    | cons r requests ih =>
      intro hs ss ha hm
      obtain ⟨hs', h1, h2⟩ := serve_good hL hS hT hm (ha r (by simp))
      exact .cons h1 (ih hs' _ (fun r h => ha r (List.mem_cons_of_mem _ h)) h2)
  exact this requests [] {} ha ⟨rfl, fun n => .inl ⟨rfl, by simp⟩⟩

/-- Programs that use a mounted volume see the files of the volume, whatever they ask and in whatever order: every history of requests has the answers that the volume gives. Names are shown in such a
way that the names of the files are seen from them.

The full statement is with `Terms.posix` instead of `Terms.shown`, and for all names and volumes. It is false: for the number of links and the time of modification see `c56_links` and `c56_modification`, for
times before 1970 `c56_before_1970`, for names with a slash `c56_slash`, for `..` of the root directory `c56_root_parent`, for buffers that are too small `c56_short_list` and `c56_short_link`, for
inodes without name `c56_unnamed_parent`, for names that differ in case from the stored ones `c21_case_variant`, and for memory `c56_leak` and `c56_getxattr_leak`. -/
theorem c56_session_partial : ShownNames shownName ∧ ∀ (m : Mounted), Libraries m → ∀ (s : Storage) (xid : Nat) (rs : List Record) (image : Nat → Option Bytes) (cipher : Option (Cipher × Cipher)) (V : View),
    Mounts m s xid rs image cipher V → V.text = shownName → ∀ requests : List Request, (∀ r ∈ requests, Asked V r) → V.Trace Terms.shown [] requests (Mount.serveAll m requests {}).1 :=
  ⟨shownNames, fun _ hL _ _ _ _ _ _ hS hT requests ha => serveAll_good hL hS hT requests ha⟩

end Verif.Props
