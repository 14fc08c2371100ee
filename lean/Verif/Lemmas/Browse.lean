import Verif.Model.Browse
import Verif.Lemmas.Session
import Verif.Lemmas.AttributeRead
/-!
# Memory safety of a caller that goes through a volume
-/
namespace Verif
open Res
namespace Browse
open DataStream (Extent)
open FileRead (Files FileNode NodeCall NodeResult Reader Lookups)
open Session (External Failures Find FilesOk ExtentsFit ExtentFits EntryOk ReaderOk HandleOk DiskOk ForkFits CodecFits)
open Spec (ExtentAsk ExtentAnswer FileOp ValueOp ValueAnswer)

variable {x : External} {f : Files}

/-- what the calls need -/
structure Ok (x : External) (f : Files) : Prop where
  files : FilesOk f
  extents : ExtentsFit f
  compare : ∀ a b, Safe (x.compare a b)
  codec : CodecFits x.codec
  junk : x.junk.length = 65536
  forks : ∀ i as a D, FsTree.extendedAttributes f.tree f.xid i.identifier = ok as → a ∈ as → FileEntry.content (FileRead.env f x.compare i) a = ok (some D) → ForkFits D

/-- extents that fit -/
def Fit (f : Files) (es : Option (List Extent)) : Prop := ∀ l, es = some l → ∀ e ∈ l, ExtentFits f.xts.isSome e

/-- a data stream of an extended attribute -/
def StreamFine (s : AttributeRead.Stream) : Prop := ∀ h, s.source = .extents h → HandleOk h

/-- an attribute that has as much data as it says -/
def Sized (a : Records.Attribute) : Prop := ∀ d, a.data = some d → a.size ≤ d.length

structure FileFine (x : External) (f : Files) (h : FileHandle) : Prop where
  entry : EntryOk (FileRead.env f x.compare h.node.inode) h.entry
  reader : ∀ r, h.reader = some r → ReaderOk r

structure ValueFine (h : ValueHandle) : Prop where
  sized : Sized h.value
  stream : ∀ s, h.stream = some s → StreamFine s

def ObjectFine (x : External) (f : Files) : Object → Prop
  | .file h => FileFine x f h
  | .value h => ValueFine h

structure StateFine (x : External) (f : Files) (s : State) : Prop where
  objects : ∀ o ∈ s.objects, ObjectFine x f o
  values : ∀ n a, Fit f (s.values n a)

theorem StateFine.set {s : State} (hs : StateFine x f s) {k : Nat} {o : Object} (ho : ObjectFine x f o) : StateFine x f (s.set k o) where
  objects o' h := by
    rcases List.mem_or_eq_of_mem_set h with h | h
    · exact hs.objects _ h
    · rw [h]; exact ho
  values := hs.values

theorem newFile_fine (i : Records.Inode) (r : Option Records.DirectoryRecord) : ObjectFine x f (newFile i r) :=
  ⟨Session.entryOf_safe _ i, fun _ h => nomatch h⟩

theorem StateFine.push {s : State} (hs : StateFine x f s) {o : Object} (ho : ObjectFine x f o) : StateFine x f { s with objects := s.objects ++ [o] } where
  objects o' h := by
    rcases List.mem_append.1 h with h | h
    · exact hs.objects _ h
    · rw [List.mem_singleton.1 h]; exact ho
  values := hs.values

theorem StateFine.add {s : State} (hs : StateFine x f s) {r : Res (Option (Records.Inode × Option Records.DirectoryRecord))} (hr : Safe r) :
    (s.add r).1 ≠ ub ∧ StateFine x f (s.add r).2 := by
  unfold State.add
  split
  · exact ⟨by simp, hs.push (newFile_fine _ _)⟩
  · exact ⟨by simp, hs⟩
  · exact ⟨by simp, hs⟩
  · exact absurd rfl hr

theorem lookup_safe (fault : Fault) {r : Res α} (hr : Safe r) : Safe (fault.lookup r) := by
  unfold Fault.lookup
  split
  · exact safe_err
  · exact hr

theorem find_safe {α : Type} [DecidableEq α] (dn : Name.Decoder UInt8) (dq : Name.Decoder α) (separator : α) (hf : FilesOk f) (q : Find α) : Safe (find dn dq separator f q) := by
  cases q with
  | identifier n => exact safe_bind (Props.c42_safe f.tree hf.tree f.xid n).1 fun _ _ => safe_ok _
  | path s => exact Props.c22_safe dn dq separator f.folding hf.tree f.xid 2 s

/-! ## Sub file entries and parents -/

structure LookupsSafe (l : Lookups) : Prop where
  directory : ∀ n, Safe (l.directory n)
  inode : ∀ n, Safe (l.inode n)

theorem lookups_safe (hf : FilesOk f) (fault : Fault) : LookupsSafe (lookups f fault) := by
  unfold lookups
  split
  · exact ⟨fun _ => safe_err, fun _ => safe_err⟩
  · exact ⟨fun n => (Props.c42_safe f.tree hf.tree f.xid n).2.1, fun n => (Props.c42_safe f.tree hf.tree f.xid n).1⟩

theorem determine_safe {l : Lookups} (hl : LookupsSafe l) (n : FileNode) : (FileRead.determine l n).1 ≠ ub ∧ (FileRead.determine l n).2.inode = n.inode := by
  unfold FileRead.determine
  split
  · exact ⟨by simp, rfl⟩
  · have := hl.directory n.inode.identifier
    cases h : l.directory n.inode.identifier with
    | ub => exact absurd h this
    | err => exact ⟨by simp, rfl⟩
    | ok c => exact ⟨by simp, rfl⟩

theorem nodeCall_safe {l : Lookups} (hl : LookupsSafe l) (c : NodeCall) (n : FileNode) : (FileRead.call l c n).1 ≠ ub ∧ (FileRead.call l c n).2.inode = n.inode := by
  have hd := determine_safe hl n
  revert hd
  cases c with
  | parent =>
    intro _
    refine ⟨?_, rfl⟩
    show FileRead.parentNode l n ≠ ub
    unfold FileRead.parentNode
    have := hl.inode n.inode.parent
    split
    · cases h : l.inode n.inode.parent with
      | ub => exact absurd h this
      | err => simp
      | ok r => cases r <;> simp
    · simp
  | number =>
    simp only [FileRead.call]
    generalize FileRead.determine l n = r
    intro hd
    obtain ⟨r, m⟩ := r
    cases r with
    | ub => exact absurd rfl hd.1
    | err => exact ⟨by simp, hd.2⟩
    | ok c => exact ⟨by simp, hd.2⟩
  | sub index =>
    simp only [FileRead.call]
    generalize FileRead.determine l n = r
    intro hd
    obtain ⟨r, m⟩ := r
    cases r with
    | ub => exact absurd rfl hd.1
    | err => exact ⟨by simp, hd.2⟩
    | ok c =>
      refine ⟨safe_bind ?_ fun r _ => safe_bind ?_ fun _ _ => safe_ok _, hd.2⟩
      · unfold FileRead.elementAt
        split
        · exact safe_err
        · split
          · exact safe_err
          · exact safe_ok _
      · unfold FileRead.subNode
        have := hl.inode r.identifier
        cases h : l.inode r.identifier with
        | ub => exact absurd h this
        | err => exact safe_err
        | ok r => cases r with
          | none => exact safe_err
          | some i => exact safe_ok _

/-! ## File entries -/

theorem openReader_safe (hx : Ok x f) (fault : Fault) {h : FileHandle} (hh : FileFine x f h) :
    (openReader x f fault h).1 ≠ ub ∧ FileFine x f (openReader x f fault h).2 ∧ (openReader x f fault h).2.node = h.node ∧ ∀ r, (openReader x f fault h).1 = ok r → ReaderOk r := by
  unfold openReader
  cases hr : h.reader with
  | some r => exact ⟨by simp, hh, rfl, fun r' h' => by cases h'; exact hh.reader r hr⟩
  | none =>
    have hs := Session.openStream_safe (Session.env_safe hx.files hx.extents hx.compare h.node.inode) (Session.weaker_failing _ fault.entry) hh.entry
    simp only [entryEnv]
    cases ho : (FileEntry.openStream (Session.failing (FileRead.env f x.compare h.node.inode) fault.entry) h.entry).1 with
    | ub => exact absurd ho hs.1
    | err => exact ⟨by simp, ⟨hs.2.1, fun _ h => nomatch h⟩, rfl, fun _ h => nomatch h⟩
    | ok s =>
      have hst := hs.2.2 s ho
      cases s with
      | extents size sparse =>
        have he := Session.extentStream_safe hx.files hx.extents h.node.inode.dataStream sparse
        simp only
        cases hd : FileRead.extentStream f h.node.inode.dataStream sparse with
        | ub => exact absurd hd he.1
        | err => exact ⟨by simp, ⟨hs.2.1, fun _ h => nomatch h⟩, rfl, fun _ h => nomatch h⟩
        | ok d => exact ⟨by simp, ⟨hs.2.1, fun r h' => by cases h'; exact he.2 d hd⟩, rfl, fun r h' => by cases h'; exact he.2 d hd⟩
      | compressed D n m =>
        obtain ⟨as, a, h1, h2, h3⟩ := hs.2.1.stream D n m hst
        have hfit := hx.forks _ as a D h1 h2 h3
        simp only
        cases hd : Compressed.Handle.init n m x.junk with
        | ub =>
          unfold Compressed.Handle.init at hd
          split at hd <;> cases hd
        | err => exact ⟨by simp, ⟨hs.2.1, fun _ h => nomatch h⟩, rfl, fun _ h => nomatch h⟩
        | ok d =>
          have hok : ReaderOk (.compressed D d) := by
            unfold Compressed.Handle.init at hd
            split at hd
            · cases hd
            · cases hd
              exact ⟨hx.junk, Nat.zero_le _, fun _ h => (nomatch h), fun _ => hfit⟩
          exact ⟨by simp, ⟨hs.2.1, fun r h' => by cases h'; exact hok⟩, rfl, fun r h' => by cases h'; exact hok⟩

theorem entries_safe (es : List Extent) (a : ExtentAsk) : Safe (Extents.entries es a) := by
  cases a with
  | number => exact safe_ok _
  | extent i =>
    refine safe_bind safe_require fun _ _ => ?_
    split
    · exact safe_err
    · exact safe_ok _

theorem fileCall_safe (hx : Ok x f) (fault : Fault) {h : FileHandle} (hh : FileFine x f h) (c : FileCall) : (fileCall x f fault h c).1 ≠ ub ∧ FileFine x f (fileCall x f fault h c).2 := by
  cases c with
  | entry c =>
    have := Session.call_safe (Session.env_safe hx.files hx.extents hx.compare h.node.inode) (Session.weaker_failing _ fault.entry) hh.entry c
    exact ⟨safe_bind (β := Answer) this.1 fun _ _ => safe_ok _, ⟨this.2, hh.reader⟩⟩
  | content o =>
    have := openReader_safe hx fault hh
    simp only [fileCall]
    revert this
    generalize openReader x f fault h = r
    intro this
    obtain ⟨r, h'⟩ := r
    cases r with
    | ub => exact absurd rfl this.1
    | err => exact ⟨by simp, this.2.1⟩
    | ok r =>
      have hs := Session.step_safe hx.codec (this.2.2.2 r rfl) o
      exact ⟨safe_bind (β := Answer) hs.1 fun _ _ => safe_ok _, ⟨this.2.1.entry, fun r' h' => by cases h'; exact hs.2⟩⟩
  | extents a =>
    refine ⟨safe_bind (β := Answer) ?_ fun _ _ => safe_ok _, ⟨hh.entry, hh.reader⟩⟩
    have hb : Safe (fault.lookup (Extents.btree f h.node.inode.dataStream)) := lookup_safe fault (Props.c42_safe f.tree hx.files.tree f.xid _).2.2.2
    unfold Extents.entryCall
    split
    · exact entries_safe _ _
    · split
      · exact entries_safe _ _
      · exact safe_err
      · rename_i h; exact absurd h hb

theorem attributeOf_safe (hx : Ok x f) (fault : Fault) {h : FileHandle} (hh : FileFine x f h) (q : Int ⊕ Bytes) :
    (attributeOf x f fault h q).1 ≠ ub ∧ FileFine x f (attributeOf x f fault h q).2 ∧ ∀ a, (attributeOf x f fault h q).1 = ok (some a) → Sized a := by
  have he := Session.env_safe hx.files hx.extents hx.compare h.node.inode
  have hw := Session.weaker_failing (FileRead.env f x.compare h.node.inode) fault.entry
  have hn := Session.need_safe he hw hh.entry
  cases q with
  | inl index =>
    simp only [attributeOf, entryEnv, AttributeRead.attributeByIndex]
    revert hn
    generalize FileEntry.needAttributes (Session.failing (FileRead.env f x.compare h.node.inode) fault.entry) h.entry = r
    intro hn
    obtain ⟨r, e⟩ := r
    cases r with
    | ub => exact absurd rfl hn.1
    | err => exact ⟨by simp [Res.bind], ⟨hn.2.1, hh.reader⟩, fun a h => by simp [Res.bind] at h⟩
    | ok u =>
      have ha : e.attributes.isSome := hn.2.2 rfl
      simp only
      cases hea : e.attributes with
      | none => rw [hea] at ha; cases ha
      | some as =>
        simp only
        by_cases h0 : index < 0
        · rw [if_pos h0]
          exact ⟨by simp [Res.bind], ⟨hn.2.1, hh.reader⟩, fun a h => by simp [Res.bind] at h⟩
        · rw [if_neg h0]
          cases hg : as[index.toNat]? with
          | none => exact ⟨by simp [Res.bind], ⟨hn.2.1, hh.reader⟩, fun a h => by simp [Res.bind] at h⟩
          | some a =>
            refine ⟨by simp [Res.bind], ⟨hn.2.1, hh.reader⟩, fun b h => ?_⟩
            simp [Res.bind] at h
            subst h
            exact he.data as (hn.2.1.attributes as hea) a (List.mem_of_getElem? hg)
  | inr name =>
    simp only [attributeOf, entryEnv, FileEntry.attributeByName]
    revert hn
    generalize FileEntry.needAttributes (Session.failing (FileRead.env f x.compare h.node.inode) fault.entry) h.entry = r
    intro hn
    obtain ⟨r, e⟩ := r
    cases r with
    | ub => exact absurd rfl hn.1
    | err => exact ⟨by simp, ⟨hn.2.1, hh.reader⟩, fun a h => nomatch h⟩
    | ok u =>
      have ha : e.attributes.isSome := hn.2.2 rfl
      simp only
      cases hea : e.attributes with
      | none => rw [hea] at ha; cases ha
      | some as =>
        refine ⟨Session.findNamed_safe he hw _ _, ⟨hn.2.1, hh.reader⟩, fun a hfound => ?_⟩
        have hmem : ∀ as, FileEntry.findNamed (Session.failing (FileRead.env f x.compare h.node.inode) fault.entry) name as = ok (some a) → a ∈ as := by
          intro as
          induction as with
          | nil => intro h; cases h
          | cons b as ih =>
            intro h
            obtain ⟨eq, _, h⟩ := bind_eq_ok.1 h
            cases eq with
            | true => cases h; exact List.mem_cons_self ..
            | false => exact List.mem_cons_of_mem _ (ih h)
        exact he.data as (hn.2.1.attributes as hea) a (hmem as hfound)

theorem addAttribute_safe (hx : Ok x f) (fault : Fault) {s : State} (hs : StateFine x f s) (k : Nat) {h : FileHandle} (hh : FileFine x f h) (q : Int ⊕ Bytes) :
    (addAttribute x f fault s k h q).1 ≠ ub ∧ StateFine x f (addAttribute x f fault s k h q).2 := by
  have := attributeOf_safe hx fault hh q
  unfold addAttribute
  revert this
  generalize attributeOf x f fault h q = r
  intro this
  obtain ⟨r, h'⟩ := r
  have hset : StateFine x f (s.set k (.file h')) := hs.set this.2.1
  cases r with
  | ub => exact absurd rfl this.1
  | err => exact ⟨by simp, hset⟩
  | ok a =>
    cases a with
    | none => exact ⟨by simp, hset⟩
    | some a =>
      simp only
      split
      · exact ⟨by simp, hset⟩
      · exact ⟨by simp, hset.push ⟨this.2.2 a rfl, fun _ h => nomatch h⟩⟩

/-! ## Extended attributes -/

theorem bufferOf_safe {a : Records.Attribute} (ha : Sized a) : Safe (AttributeRead.bufferOf a) := by
  unfold AttributeRead.bufferOf
  cases hd : a.data with
  | none => exact safe_bind safe_require fun _ _ => safe_ok _
  | some d =>
    refine safe_bind safe_require fun _ _ => ?_
    rw [if_pos (ha d hd)]
    exact safe_ok _

theorem valueDisk_ok (hf : FilesOk f) (fault : Fault) (a : Records.Attribute) : DiskOk (valueEnv f fault a).disk := by
  constructor
  · intro o n
    show Safe (if _ then _ else _)
    split
    · exact safe_err
    · exact hf.disk.safe o n
  · intro o n d h
    have h : (if fault.disk o n then err else f.disk o n) = ok d := h
    split at h
    · cases h
    · exact hf.disk.size o n d h

theorem readSource_safe (hf : FilesOk f) (fault : Fault) (a : Records.Attribute) {s : AttributeRead.Stream} (hs : StreamFine s) (off n : Nat) :
    Safe (AttributeRead.readSource (valueEnv f fault a) s off n) := by
  unfold AttributeRead.readSource
  cases hsrc : s.source with
  | extents h =>
    have hh := hs h hsrc
    exact Session.streamRead_safe (h := { h with disk := (valueEnv f fault a).disk }) ⟨valueDisk_ok hf fault a, hh.bs, hh.bps, hh.xts, hh.segs⟩ _ _ _
  | buffer d =>
    simp only
    split
    · exact safe_ok _
    · refine safe_bind ?_ fun r hr => ?_
      · simp only [DataStream.bufferStep]
        split
        · exact safe_ok _
        · split <;> exact safe_ok _
      · obtain ⟨_, cur⟩ := r
        refine safe_bind ?_ fun r _ => ?_
        · simp only [DataStream.bufferStep]
          split
          · exact safe_ok _
          split
          · exact safe_ok _
          split
          · exact safe_ok _
          split
          · exact safe_ok _
          · refine safe_bind (safe_rdN ?_) fun _ _ => safe_ok _
            split <;> omega
        · split
          · exact safe_ok _
          · exact safe_err

theorem streamStep_safe (hf : FilesOk f) (fault : Fault) (a : Records.Attribute) {s : AttributeRead.Stream} (hs : StreamFine s) (o : ValueOp) :
    (AttributeRead.streamStep (valueEnv f fault a) o s).1 ≠ ub ∧ StreamFine (AttributeRead.streamStep (valueEnv f fault a) o s).2 := by
  have hread : ∀ {s : AttributeRead.Stream} (n : Nat), StreamFine s → (AttributeRead.readStream (valueEnv f fault a) s n).1 ≠ ub ∧ StreamFine (AttributeRead.readStream (valueEnv f fault a) s n).2 := by
    intro s n hs
    unfold AttributeRead.readStream
    split
    · exact ⟨by simp, hs⟩
    · have := readSource_safe hf fault a hs s.pos n
      cases hr : AttributeRead.readSource (valueEnv f fault a) s s.pos n with
      | ub => exact absurd hr this
      | err => exact ⟨by simp, hs⟩
      | ok d => exact ⟨by simp, hs⟩
  have hseek : ∀ (offset : Int) (whence : Nat), (AttributeRead.seekStream s offset whence).1 ≠ ub ∧ StreamFine (AttributeRead.seekStream s offset whence).2 := by
    intro offset whence
    simp only [AttributeRead.seekStream]
    generalize (if whence = 1 then offset + (s.pos : Int) else if whence = 2 then offset + (s.size : Int) else offset) = t
    by_cases hc : whence > 2 ∨ t < 0
    · rw [if_pos hc]; exact ⟨by simp, hs⟩
    · rw [if_neg hc]; exact ⟨by simp, hs⟩
  cases o with
  | read n => exact hread n hs
  | readAt n offset =>
    have := hseek offset 0
    simp only [AttributeRead.streamStep]
    revert this
    generalize AttributeRead.seekStream s offset 0 = r
    intro this
    obtain ⟨r, s'⟩ := r
    cases r with
    | ub => exact absurd rfl this.1
    | err => exact ⟨by simp, this.2⟩
    | ok p => exact hread n this.2
  | seek offset whence =>
    have := hseek offset whence
    simp only [AttributeRead.streamStep]
    revert this
    generalize AttributeRead.seekStream s offset whence = r
    intro this
    obtain ⟨r, s'⟩ := r
    cases r with
    | ub => exact absurd rfl this.1
    | err => exact ⟨by simp, this.2⟩
    | ok p => exact ⟨by simp, this.2⟩
  | offset => exact ⟨by simp [AttributeRead.streamStep], hs⟩
  | size => exact ⟨by simp [AttributeRead.streamStep], hs⟩

theorem getStream_safe (hx : Ok x f) (fault : Fault) {a : Records.Attribute} (ha : Sized a) {es : Option (List Extent)} (he : Fit f es) :
    (AttributeRead.getStream f a (valueEnv f fault a) es).1 ≠ ub ∧ Fit f (AttributeRead.getStream f a (valueEnv f fault a) es).2 ∧
      ∀ s, (AttributeRead.getStream f a (valueEnv f fault a) es).1 = ok (some s) → StreamFine s := by
  have halloc : Safe (valueEnv f fault a).alloc := by
    show Safe (if _ then _ else _)
    split
    · exact safe_err
    · exact safe_ok _
  unfold AttributeRead.getStream
  by_cases h1 : a.flags % 2 ≠ 0
  · rw [if_pos h1]
    have hg : (AttributeRead.getExtents (valueEnv f fault a) es).1 ≠ ub ∧ Fit f (AttributeRead.getExtents (valueEnv f fault a) es).2 ∧
        ∀ l, (AttributeRead.getExtents (valueEnv f fault a) es).1 = ok l → ∀ e ∈ l, ExtentFits f.xts.isSome e := by
      cases es with
      | some l => exact ⟨by simp [AttributeRead.getExtents], he, fun l' h => by cases h; exact he l rfl⟩
      | none =>
        have hb : Safe (valueEnv f fault a).btree := lookup_safe fault (Props.c42_safe f.tree hx.files.tree f.xid a.stream).2.2.2
        have hfit : ∀ l, (valueEnv f fault a).btree = ok l → ∀ e ∈ l, ExtentFits f.xts.isSome e := by
          intro l h
          have h : (if fault.tree then err else Extents.btree f a.stream) = ok l := h
          split at h
          · cases h
          · exact hx.extents _ l h
        unfold AttributeRead.getExtents
        simp only
        cases h2 : (valueEnv f fault a).alloc with
        | ub => exact absurd h2 halloc
        | err => exact ⟨by simp, he, fun l h => nomatch h⟩
        | ok u =>
          cases h3 : (valueEnv f fault a).btree with
          | ub => exact absurd h3 hb
          | err => exact ⟨by simp, he, fun l h => nomatch h⟩
          | ok l => exact ⟨by simp, fun l' h => by cases h; exact hfit l h3, fun l' h => by cases h; exact hfit l h3⟩
    revert hg
    generalize AttributeRead.getExtents (valueEnv f fault a) es = r
    intro hg
    obtain ⟨r, es'⟩ := r
    cases r with
    | ub => exact absurd rfl hg.1
    | err => exact ⟨by simp, hg.2.1, fun s h => nomatch h⟩
    | ok l =>
      have hi := Session.initHandle_safe hx.files.disk hx.files.xts (hg.2.2 l rfl) false
      refine ⟨safe_bind hi.1 fun _ _ => safe_bind halloc fun _ _ => safe_ok _, hg.2.1, fun s h => ?_⟩
      obtain ⟨d, hd, h⟩ := bind_eq_ok.1 h
      obtain ⟨_, _, h⟩ := bind_eq_ok.1 h
      cases h
      intro d' h'
      cases h'
      exact hi.2 d hd
  · rw [if_neg h1]
    by_cases h2 : a.flags / 2 % 2 ≠ 0
    · rw [if_pos h2]
      refine ⟨safe_bind (bufferOf_safe ha) fun _ _ => safe_bind halloc fun _ _ => safe_ok _, he, fun s h => ?_⟩
      obtain ⟨d, hd, h⟩ := bind_eq_ok.1 h
      obtain ⟨_, _, h⟩ := bind_eq_ok.1 h
      cases h
      intro d' h'
      cases h'
    · rw [if_neg h2]
      exact ⟨by simp, he, fun s h => by cases h⟩

theorem attrEntries_safe (es : Option (List Extent)) (q : ExtentAsk) : Safe (Extents.attrEntries es q) := by
  unfold Extents.attrEntries
  split
  · exact entries_safe _ _
  · exact safe_ok _
  · exact safe_err

theorem valueCall_safe (hx : Ok x f) (fault : Fault) {a : Records.Attribute} (ha : Sized a) {es : Option (List Extent)} (he : Fit f es) {h : AttributeRead.Handle}
    (hh : ∀ s, h = some s → StreamFine s) (c : ValueCall) :
    (valueCall f fault a es h c).1 ≠ ub ∧ Fit f (valueCall f fault a es h c).2.1 ∧ ∀ s, (valueCall f fault a es h c).2.2 = some s → StreamFine s := by
  have hg := getStream_safe hx fault ha he
  cases c with
  | ask o =>
    have key : (AttributeRead.call f a (valueEnv f fault a) o es h).1 ≠ ub ∧ Fit f (AttributeRead.call f a (valueEnv f fault a) o es h).2.1 ∧
        ∀ s, (AttributeRead.call f a (valueEnv f fault a) o es h).2.2 = some s → StreamFine s := by
      unfold AttributeRead.call
      by_cases ho : o = .size
      · rw [if_pos ho]; exact ⟨by simp, he, hh⟩
      rw [if_neg ho]
      cases h with
      | some s =>
        have := streamStep_safe hx.files fault a (hh s rfl) o
        exact ⟨this.1, he, fun s' h => by cases h; exact this.2⟩
      | none =>
        simp only
        revert hg
        generalize AttributeRead.getStream f a (valueEnv f fault a) es = r
        intro hg
        obtain ⟨r, es'⟩ := r
        cases r with
        | ub => exact absurd rfl hg.1
        | err => exact ⟨by simp, hg.2.1, fun s h => nomatch h⟩
        | ok m =>
          cases m with
          | none => exact ⟨by simp, hg.2.1, fun s h => nomatch h⟩
          | some s =>
            have := streamStep_safe hx.files fault a (hg.2.2 s rfl) o
            exact ⟨this.1, hg.2.1, fun s' h => by cases h; exact this.2⟩
    exact ⟨safe_bind (β := Answer) key.1 fun _ _ => safe_ok _, key.2⟩
  | extents q =>
    cases h with
    | some s => exact ⟨safe_bind (β := Answer) (attrEntries_safe _ _) fun _ _ => safe_ok _, he, hh⟩
    | none =>
      simp only [valueCall]
      revert hg
      generalize AttributeRead.getStream f a (valueEnv f fault a) es = r
      intro hg
      obtain ⟨r, es'⟩ := r
      cases r with
      | ub => exact absurd rfl hg.1
      | err => exact ⟨by simp, hg.2.1, fun s h => nomatch h⟩
      | ok m => exact ⟨safe_bind (β := Answer) (attrEntries_safe _ _) fun _ _ => safe_ok _, hg.2.1, fun s h => by subst h; exact hg.2.2 s rfl⟩

/-! ## All calls -/

theorem onFile_safe {s : State} (hs : StateFine x f s) (k : Nat) {g : FileHandle → Res Answer × State} (hg : ∀ h, FileFine x f h → (g h).1 ≠ ub ∧ StateFine x f (g h).2) :
    (onFile s k g).1 ≠ ub ∧ StateFine x f (onFile s k g).2 := by
  unfold onFile
  split
  · rename_i h hk
    exact hg h (hs.objects (.file h) (List.mem_of_getElem? hk))
  · exact ⟨by simp, hs⟩

theorem onValue_safe (hx : Ok x f) (fault : Fault) {s : State} (hs : StateFine x f s) (k : Nat) (c : ValueCall) : (onValue f fault s k c).1 ≠ ub ∧ StateFine x f (onValue f fault s k c).2 := by
  unfold onValue
  split
  · rename_i h hk
    have hv : ValueFine h := hs.objects (.value h) (List.mem_of_getElem? hk)
    have := valueCall_safe hx fault hv.sized (hs.values h.owner h.value) hv.stream c
    refine ⟨this.1, ⟨fun o ho => ?_, fun n a => ?_⟩⟩
    · rcases List.mem_or_eq_of_mem_set ho with ho | ho
      · exact hs.objects _ ho
      · rw [ho]; exact ⟨hv.sized, this.2.2⟩
    · show Fit f (if _ then _ else _)
      split
      · exact this.2.1
      · exact hs.values n a
  · exact ⟨by simp, hs⟩

theorem step_safe {α : Type} [DecidableEq α] (hx : Ok x f) (dn : Name.Decoder UInt8) (dq : Name.Decoder α) (separator : α) (fault : Fault) {s : State} (hs : StateFine x f s) (c : Step α) :
    (step x dn dq separator f fault s c).1 ≠ ub ∧ StateFine x f (step x dn dq separator f fault s c).2 := by
  cases c with
  | find q => exact hs.add (lookup_safe fault (find_safe dn dq separator hx.files q))
  | node k c =>
    refine onFile_safe hs k fun h hh => ?_
    have hn := nodeCall_safe (lookups_safe hx.files fault) c h.node
    simp only
    revert hn
    generalize FileRead.call (lookups f fault) c h.node = r
    intro hn
    obtain ⟨r, m⟩ := r
    have hset : StateFine x f (s.set k (.file { h with node := m })) := hs.set ⟨by
      have : m.inode = h.node.inode := hn.2
      show EntryOk (FileRead.env f x.compare m.inode) h.entry
      rw [this]; exact hh.entry, hh.reader⟩
    cases r with
    | ub => exact absurd rfl hn.1
    | err => exact ⟨by simp, hset⟩
    | ok r =>
      cases r with
      | number n => exact ⟨by simp, hset⟩
      | none => exact ⟨by simp, hset⟩
      | node n => exact ⟨by simp, hset.push (newFile_fine _ _)⟩
  | named k name => exact onFile_safe hs k fun h hh => hs.add (lookup_safe fault (Props.c22_safe dn dq separator f.folding hx.files.tree f.xid _ name))
  | entry k c => exact onFile_safe hs k fun h hh => ⟨(fileCall_safe hx fault hh _).1, hs.set (fileCall_safe hx fault hh _).2⟩
  | content k o => exact onFile_safe hs k fun h hh => ⟨(fileCall_safe hx fault hh _).1, hs.set (fileCall_safe hx fault hh _).2⟩
  | extents k a => exact onFile_safe hs k fun h hh => ⟨(fileCall_safe hx fault hh _).1, hs.set (fileCall_safe hx fault hh _).2⟩
  | attributeAt k index => exact onFile_safe hs k fun h hh => addAttribute_safe hx fault hs k hh _
  | attributeNamed k name => exact onFile_safe hs k fun h hh => addAttribute_safe hx fault hs k hh _
  | value k o => exact onValue_safe hx fault hs k _
  | valueExtents k a => exact onValue_safe hx fault hs k _

theorem steps_safe {α : Type} [DecidableEq α] (hx : Ok x f) (dn : Name.Decoder UInt8) (dq : Name.Decoder α) (separator : α) (cs : List (Step α × Fault)) {s : State} (hs : StateFine x f s) :
    ∀ r ∈ steps x dn dq separator f cs s, r ≠ ub := by
  induction cs generalizing s with
  | nil => intro r h; cases h
  | cons c cs ih =>
    obtain ⟨c, fault⟩ := c
    have := step_safe hx dn dq separator fault hs c
    intro r h
    unfold steps at h
    rcases List.mem_cons.1 h with h | h
    · rw [h]; exact this.1
    · exact ih this.2 r h

theorem empty_fine : StateFine x f {} := ⟨fun _ h => (nomatch h), fun _ _ _ h => nomatch h⟩

end Browse
end Verif
