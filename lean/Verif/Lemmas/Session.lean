import Verif.Lemmas.SessionEntry
/-!
# Memory safety of a session
-/
namespace Verif
open Res
namespace Session
open FileRead

theorem readBytes_safe (image : Container.Image) : DiskOk (readBytes image) := by
  constructor
  · intro o n
    unfold readBytes
    split
    · exact safe_err
    · split
      · exact safe_err
      · split
        · exact safe_ok _
        · exact safe_err
  · intro o n d h
    unfold readBytes at h
    split at h
    · cases h
    · split at h
      · cases h
      · split at h
        · cases h
          rw [List.length_take, List.length_drop]
          omega
        · cases h

/-- files whose storage and trees are read without leaving what was read -/
structure FilesOk (f : Files) : Prop where
  disk : DiskOk f.disk
  xts : ∀ g, f.xts = some g → ∀ t d, (g t d).length = d.length
  tree : FsTree.SafeVolume f.tree

theorem storage_safe {c : VolumeOpen.Cipher} (hc : c.Sized) {disk : Nat → Nat → Res Bytes} (hd : DiskOk disk) (x : VolumeOpen.Context) :
    DiskOk (storage c disk x).1 ∧ ∀ g, (storage c disk x).2 = some g → ∀ t d, (g t d).length = d.length := by
  unfold storage
  split
  · exact ⟨hd, fun g h => by cases h⟩
  · exact ⟨hd, fun g h => by cases h; exact hc.xts _⟩
  · split
    · exact ⟨⟨fun _ _ => safe_err, fun _ _ _ h => by cases h⟩, fun g h => by cases h⟩
    · rename_i f hf
      exact ⟨hd, fun g h => by cases h; exact hc.keyless _ hf⟩

theorem files_safe {c : VolumeOpen.Cipher} (hc : c.Sized) (image : Container.Image) (k : Container.Opened) (v : VolumeOpen.Opened) (s : Volume.State) :
    Safe (files c image k v s) ∧ ∀ f, files c image k v s = ok f → FilesOk f := by
  have ht : Safe (VolumeOpen.trees c image k v s) ∧ ∀ t, VolumeOpen.trees c image k v s = ok (some t) → FsTree.SafeVolume t := by
    unfold VolumeOpen.trees
    constructor
    · refine safe_bind (FsTree.safe_omDescriptor (fun b => VolumeOpen.safe_fetch _ _ b) _ _ _) fun r _ => ?_
      cases r <;> exact safe_ok _
    · intro t h
      obtain ⟨r, _, h⟩ := bind_eq_ok.1 h
      cases r with
      | none => cases h
      | some d =>
        cases h
        exact ⟨fun b => VolumeOpen.safe_fetch _ _ b, fun b => VolumeOpen.safe_fsFetch hc _ _ _ b⟩
  unfold files
  constructor
  · refine safe_bind ht.1 fun t _ => ?_
    cases t with
    | none => exact safe_err
    | some t => exact safe_ok _
  · intro f h
    obtain ⟨t, h1, h⟩ := bind_eq_ok.1 h
    cases t with
    | none => cases h
    | some t =>
      cases h
      have := storage_safe hc (readBytes_safe image) (VolumeOpen.context s)
      exact ⟨this.1, this.2, ht.2 t h1⟩

theorem find_safe {α : Type} [DecidableEq α] (dn : Name.Decoder UInt8) (dq : Name.Decoder α) (separator : α) {f : Files} (hf : FilesOk f) (q : Find α) :
    Safe (find dn dq separator f q) := by
  cases q with
  | identifier n => exact (Props.c42_safe f.tree hf.tree f.xid n).1
  | path s => exact safe_bind (Props.c22_safe dn dq separator f.folding hf.tree f.xid 2 s) fun _ _ => safe_ok _

/-- the extents of all data streams fit -/
def ExtentsFit (f : Files) : Prop := ∀ identifier es, FsTree.fileExtents f.tree f.xid identifier = ok es → ∀ e ∈ es, ExtentFits f.xts.isSome e

theorem extentStream_safe {f : Files} (hf : FilesOk f) (he : ExtentsFit f) (identifier : Nat) (sparse : Bool) :
    Safe (extentStream f identifier sparse) ∧ ∀ h, extentStream f identifier sparse = ok h → HandleOk h := by
  unfold extentStream
  constructor
  · exact safe_bind (Props.c42_safe f.tree hf.tree f.xid identifier).2.2.2 fun es hes => (initHandle_safe hf.disk hf.xts (he identifier es hes) sparse).1
  · intro h hh
    obtain ⟨es, hes, hh⟩ := bind_eq_ok.1 hh
    exact (initHandle_safe hf.disk hf.xts (he identifier es hes) sparse).2 h hh

theorem attribute_data {e : Bytes × Bytes} {a : Records.Attribute} (h : Records.readAttribute e = ok a) : ∀ d, a.data = some d → a.size ≤ d.length := by
  intro d hd
  obtain ⟨name, _, h⟩ := bind_eq_ok.1 h
  obtain ⟨⟨flags, data, stream, size⟩, h1, h⟩ := bind_eq_ok.1 h
  cases h
  unfold Records.readAttributeValue at h1
  obtain ⟨_, _, h1⟩ := bind_eq_ok.1 h1
  obtain ⟨_, _, h1⟩ := bind_eq_ok.1 h1
  obtain ⟨_, _, h1⟩ := bind_eq_ok.1 h1
  obtain ⟨_, _, h1⟩ := bind_eq_ok.1 h1
  split at h1
  · obtain ⟨_, _, h1⟩ := bind_eq_ok.1 h1
    obtain ⟨_, _, h1⟩ := bind_eq_ok.1 h1
    obtain ⟨_, _, h1⟩ := bind_eq_ok.1 h1
    cases h1; cases hd
  · split at h1
    · obtain ⟨v, hv, h1⟩ := bind_eq_ok.1 h1
      cases h1; cases hd
      rw [rdN_length hv]
      exact Nat.le_refl _
    · cases h1; cases hd

theorem env_safe {f : Files} (hf : FilesOk f) (he : ExtentsFit f) {compare : Bytes → Bytes → Res Bool} (hc : ∀ a b, Safe (compare a b)) (i : Records.Inode) : EnvOk (env f compare i) where
  attributes := (Props.c42_safe f.tree hf.tree f.xid i.identifier).2.2.1
  compare := hc
  extentData identifier size := safe_bind (extentStream_safe hf he identifier false).1 fun h hh => streamRead_safe ((extentStream_safe hf he identifier false).2 h hh) _ _ _
  buffer := safe_ok _
  extents := safe_bind (extentStream_safe hf he i.dataStream (sparse i)).1 fun _ _ => safe_ok _
  stream := safe_ok _
  data as has a ha := by
    have has : FsTree.extendedAttributes f.tree f.xid i.identifier = ok as := has
    unfold FsTree.extendedAttributes FsTree.enumerate at has
    obtain ⟨r, _, has⟩ := bind_eq_ok.1 has
    cases r with
    | none => cases has; cases ha
    | some n =>
      obtain ⟨_, _, _, _, _, e, _, h⟩ := (FsTree.enumNode_walk has).2 a ha
      exact attribute_data h

theorem entryOf_safe (env : FileEntry.Env) (i : Records.Inode) : EntryOk env (entryOf i) :=
  ⟨fun _ h => (nomatch h), fun _ h => (nomatch h), fun _ h => (nomatch h), fun _ h => (nomatch h), fun h => (nomatch h), fun _ _ _ h => (nomatch h)⟩

/-- an open data stream -/
def ReaderOk : Reader → Prop
  | .extents h _ _ => HandleOk h
  | .compressed D h => CompOk D h

theorem openFile_safe {f : Files} (hf : FilesOk f) (he : ExtentsFit f) {compare : Bytes → Bytes → Res Bool} (hc : ∀ a b, Safe (compare a b)) {junk : Bytes} (hj : junk.length = 65536)
    {i : Records.Inode} {e : FileEntry.Entry} (hi : EntryOk (env f compare i) e)
    (hk : ∀ as a D, (env f compare i).attributes = ok as → a ∈ as → FileEntry.content (env f compare i) a = ok (some D) → ForkFits D) :
    Safe (openFile f compare junk i e) ∧ ∀ r, openFile f compare junk i e = ok r → ReaderOk r := by
  have hs := openStream_safe (env_safe hf he hc i) (weaker_self _) hi
  unfold openFile
  cases hr : (FileEntry.openStream (env f compare i) e).1 with
  | ub => exact absurd hr hs.1
  | err => exact ⟨safe_err, fun _ h => nomatch h⟩
  | ok s =>
    have hst := hs.2.2 s hr
    cases s with
    | extents size sparse =>
      have := extentStream_safe hf he i.dataStream sparse
      refine ⟨safe_bind this.1 fun _ _ => safe_ok _, fun r h => ?_⟩
      obtain ⟨h', h1, h⟩ := bind_eq_ok.1 h
      cases h
      exact this.2 h' h1
    | compressed D n m =>
      obtain ⟨as, a, h1, h2, h3⟩ := hs.2.1.stream D n m hst
      have hfit := hk as a D h1 h2 h3
      simp only
      unfold Compressed.Handle.init
      split
      · exact ⟨safe_err, fun _ h => nomatch h⟩
      · refine ⟨safe_ok _, fun r h => ?_⟩
        cases h
        exact ⟨hj, Nat.zero_le _, fun _ h => (nomatch h), fun _ => hfit⟩

theorem step_safe {c : Codec} (hc : CodecFits c) {r : Reader} (hr : ReaderOk r) (o : Spec.FileOp) : (step c o r).1 ≠ ub ∧ ReaderOk (step c o r).2 := by
  cases r with
  | extents h size pos =>
    cases o with
    | seek o =>
      simp only [step]
      split <;> exact ⟨by simp, hr⟩
    | read n =>
      simp only [step]
      have := streamRead_safe (h := h) hr size pos n
      cases hs : DataStream.streamRead h size pos n with
      | ub => exact absurd hs this
      | err => exact ⟨by simp, hr⟩
      | ok b => exact ⟨by simp, hr⟩
  | compressed D h =>
    have hr : CompOk D h := hr
    cases o with
    | seek o =>
      simp only [step, Compressed.seek]
      by_cases ho : o < 0
      · simp only [if_pos ho]
        exact ⟨by simp, hr⟩
      · simp only [if_neg ho]
        exact ⟨by simp, ⟨hr.seg, hr.size, hr.table, hr.fits⟩⟩
    | read n => exact compRead_safe hc _ n hr

theorem collect_safe {c : Codec} (hc : CodecFits c) (os : List Spec.FileOp) {r : Reader} (hr : ReaderOk r) : Safe (collect (FileRead.run c os r)) := by
  induction os generalizing r with
  | nil => exact safe_ok _
  | cons o os ih =>
    unfold FileRead.run
    have := step_safe hc hr o
    cases hs : (step c o r).1 with
    | ub => exact absurd hs this.1
    | err => exact safe_bind (ih this.2) fun _ _ => safe_ok _
    | ok b => exact safe_bind (ih this.2) fun _ _ => safe_ok _

/-- a new volume has no passwords -/
theorem opened_passwords {c : VolumeOpen.Cipher} {vector : Nat → Bool} {image : Container.Image} {k : Container.Opened} {i : Int} {v : VolumeOpen.Opened}
    (h : VolumeOpen.volumeByIndex c vector image k i = ok v) : v.state.user = none ∧ v.state.recovery = none := by
  obtain ⟨_, _, h⟩ := bind_eq_ok.1 h
  unfold VolumeOpen.openRead at h
  obtain ⟨_, _, h⟩ := bind_eq_ok.1 h
  obtain ⟨_, _, h⟩ := bind_eq_ok.1 h
  obtain ⟨_, _, h⟩ := bind_eq_ok.1 h
  obtain ⟨_, _, h⟩ := bind_eq_ok.1 h
  obtain ⟨_, _, h⟩ := bind_eq_ok.1 h
  obtain ⟨_, _, h⟩ := bind_eq_ok.1 h
  obtain ⟨_, _, h⟩ := bind_eq_ok.1 h
  obtain ⟨s, hs, h⟩ := bind_eq_ok.1 h
  obtain ⟨_, _, h⟩ := bind_eq_ok.1 h
  obtain ⟨_, _, h⟩ := bind_eq_ok.1 h
  cases h
  unfold Volume.openRead at hs
  split at hs
  · cases hs; exact ⟨rfl, rfl⟩
  · split at hs
    · obtain ⟨r, _, hs⟩ := bind_eq_ok.1 hs
      split at hs
      · cases hs; exact ⟨rfl, rfl⟩
      · obtain ⟨_, _, hs⟩ := bind_eq_ok.1 hs
        obtain ⟨_, _, hs⟩ := bind_eq_ok.1 hs
        cases hs; exact ⟨rfl, rfl⟩
    · cases hs; exact ⟨rfl, rfl⟩

end Session
end Verif
