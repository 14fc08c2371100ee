import Verif.Model.FileRead
import Verif.Spec.FileInVolume
import Verif.Lemmas.NodeImage
import Verif.Props.C25
import Verif.Props.C24
import Verif.Props.C23
import Verif.Props.C22
import Verif.Props.C37
import Verif.Props.C40
import Verif.Props.C51
/-!
# C53 The contents of a file, from a container image to the bytes that are read

A file that is found by path or identifier and opened, after any calls on its file entry, gives for any seeks and reads the bytes that its records and blocks store: plain, sparse, compressed with zlib or
LZVN, with attributes that are embedded or in data streams, in volumes with and without encryption.
-/
namespace Verif.Props
open Verif Res Spec BTree FsTree FileRead
open Verif.NodeImage (field_mid)

/-- the volume has a file system tree with storage `s` and blocks `image`, which are decrypted with `cipher` -/
structure Serves (F : Files) (s : Storage) (xid : Nat) (image : Nat → Option Bytes) (cipher : Option (Cipher × Cipher)) : Prop where
  tree : F.tree = volumeOf s
  xid : F.xid = xid
  xts : F.xts = cipher.map (·.2)
  reads : ∀ b raw, image b = some raw → F.disk (b * 4096) 4096 = ok raw
  range : ∀ b raw, image b = some raw → (b + 1) * 4096 < 2 ^ 63
  cipherOk : ∀ c, cipher = some c → TweakableCipher 512 c.1 c.2

variable {F : Files} {s : Storage} {xid : Nat} {files : List Record} {image : Nat → Option Bytes} {cipher : Option (Cipher × Cipher)}

theorem contiguous_lower : ∀ {ms : List Mapping} {at_ : Nat}, Contiguous at_ ms → ∀ m ∈ ms, at_ ≤ m.logical
  | [], _, _, _, h => by cases h
  | x :: xs, at_, h, m, hm => by
    rcases List.mem_cons.1 hm with rfl | hm
    · exact Nat.le_of_eq h.1.symm
    · exact Nat.le_trans (Nat.le_add_right _ _) (contiguous_lower h.2 m hm)

theorem contiguous_ascending : ∀ {ms : List Mapping} {at_ : Nat}, Contiguous at_ ms → (∀ m ∈ ms, 0 < m.length) → ms.Pairwise (fun a b => a.logical < b.logical)
  | [], _, _, _ => .nil
  | x :: xs, at_, h, hp => by
    refine List.Pairwise.cons (fun m hm => ?_) (contiguous_ascending h.2 (fun m hm => hp m (List.mem_cons_of_mem _ hm)))
    have h1 := contiguous_lower h.2 m hm
    have h2 := hp x (by simp)
    have h3 := h.1
    omega

theorem flags_bound {a b : Nat} (h1 : a < 256) (h2 : b < 2 ^ 56) : a * 2 ^ 56 + b < 256 ^ 8 := by
  have h3 : (256 : Nat) ^ 8 = 256 * 2 ^ 56 := by decide
  rw [h3]
  have : (a + 1) * 2 ^ 56 ≤ 256 * 2 ^ 56 := Nat.mul_le_mul_right _ h1
  rw [Nat.succ_mul] at this
  exact Nat.lt_of_lt_of_le (Nat.add_lt_add_left h2 _) this

theorem flags_mod {a b : Nat} (h2 : b < 2 ^ 56) : (a * 2 ^ 56 + b) % 2 ^ 56 = b := by
  rw [Nat.add_comm, Nat.add_mul_mod_self_right, Nat.mod_eq_of_lt h2]

theorem three_fields {x y z : Nat} {d : Bytes} (hd : d = toLE 8 x ++ (toLE 8 y ++ toLE 8 z)) (hx : x < 256 ^ 8) (hy : y < 256 ^ 8) (hz : z < 256 ^ 8) :
    field d 0 8 = x ∧ field d 8 8 = y ∧ field d 16 8 = z := by
  subst hd
  exact ⟨field_mid (a := []) ⟨toLE 8 y ++ toLE 8 z, by simp⟩ rfl hx, field_mid (a := toLE 8 x) ⟨toLE 8 z, rfl⟩ (by simp) hy,
    field_mid (a := toLE 8 x ++ toLE 8 y) ⟨[], by simp⟩ (by simp) hz⟩

theorem second_field {x y : Nat} {d : Bytes} (hd : d = toLE 8 x ++ toLE 8 y) (hy : y < 256 ^ 8) : field d 8 8 = y := by
  subst hd
  exact field_mid (a := toLE 8 x) ⟨[], by simp⟩ (by simp) hy

theorem wide8 {n : Nat} (h : n < 2 ^ 64) : n < 256 ^ 8 := h
theorem block8 {n : Nat} (h : n * 4096 < 2 ^ 63) : n < 256 ^ 8 := wide8 (by omega)

theorem extentOf_record {identifier : Nat} {m : Mapping × Nat} (h : m.1.Fits) (hf : m.2 < 256) :
    extentOf (Mapping.record identifier m) = { logical := m.1.logical, physical := m.1.block, size := m.1.length, encId := m.1.crypto } := by
  obtain ⟨e2, e3, e4⟩ := three_fields (d := (Mapping.record identifier m).2) rfl (flags_bound hf h.length) (block8 h.block) (wide8 h.crypto)
  have e1 := second_field (d := (Mapping.record identifier m).1) rfl (wide8 h.logical)
  unfold extentOf
  rw [e1, e2, e3, e4, flags_mod h.length]

/-- the bytes of a data stream that are read -/
theorem extentStream_reads (hF : Serves F s xid image cipher) (h : FsHolds s xid files) (hroot : ∃ r ∈ files, IsOf 2 3 r) {identifier : Nat} {sparse : Bool} {bytes : Bytes}
    (hs : StreamIn files image (cipher.map (·.1)) identifier sparse bytes) :
    ∃ hd, extentStream F identifier sparse = ok hd ∧ (bytes.length < 2 ^ 63 → ∀ off n, DataStream.streamRead hd bytes.length off n = ok ((bytes.drop off).take n)) := by
  obtain ⟨ms, plain, h1, h2, h3, h4, h5, h6, h7⟩ := hs.extents
  have hi := hs.identifierFits
  have hmem : ∀ r ∈ files, IsOf identifier 8 r → ∃ m ∈ ms, Mapping.record identifier m = r := by
    intro r hr ho
    have : r ∈ recordsOf files identifier 8 := List.mem_filter.2 ⟨hr, decide_eq_true ho⟩
    rw [h1] at this
    exact List.mem_map.1 this
  have hlog : ∀ m : Mapping × Nat, m.1.Fits → field (Mapping.record identifier m).1 8 8 = m.1.logical := by
    intro m hm
    exact second_field rfl (wide8 hm.logical)
  have hok : ExtentsOk files identifier := by
    refine ⟨fun r hr ho => ?_, ?_⟩
    · obtain ⟨m, _, rfl⟩ := hmem r hr ho
      simp [Mapping.record, extentKey, extentValue]
    · have : (recordsOf files identifier 8).Pairwise (fun a b => field a.1 8 8 < field b.1 8 8) := by
        rw [h1, List.pairwise_map]
        have hp := contiguous_ascending h3 (fun m hm => by obtain ⟨m', hm', rfl⟩ := List.mem_map.1 hm; exact (h2 m' hm').1.nonempty)
        rw [List.pairwise_map] at hp
        exact hp.imp_of_mem (fun {a b} ha hb hlt => by rw [hlog a (h2 a ha).1, hlog b (h2 b hb).1]; exact hlt)
      unfold recordsOf at this
      rw [List.pairwise_filter] at this
      exact this.imp (fun hlt ha hb => hlt (decide_eq_true ha) (decide_eq_true hb))
  have hover : ∃ r ∈ files, ¬ fsOver identifier 8 r.1 := by
    obtain ⟨r, hr, e1, e2⟩ := hroot
    refine ⟨r, hr, ?_⟩
    unfold fsOver
    rw [e1, e2]
    have := hs.first
    omega
  have hes := c24_listing s xid files h identifier hi hok hover
  rw [h1, List.map_map] at hes
  have hmap : ms.map (extentOf ∘ Mapping.record identifier) = ms.map (fun m => ({ logical := m.1.logical, physical := m.1.block, size := m.1.length, encId := m.1.crypto } : DataStream.Extent)) :=
    List.map_congr_left fun m hm => extentOf_record (h2 m hm).1 (h2 m hm).2
  rw [hmap] at hes
  generalize hE : ms.map (fun m => ({ logical := m.1.logical, physical := m.1.block, size := m.1.length, encId := m.1.crypto } : DataStream.Extent)) = es at hes
  have hm1 : es.map DataStream.mapping = ms.map (·.1) := by
    rw [← hE, List.map_map]
    rfl
  have hm2 : es.map (·.size) = ms.map (·.1.length) := by
    rw [← hE, List.map_map]
    rfl
  have hmem2 : ∀ e ∈ es, ∃ m ∈ ms, e = ({ logical := m.1.logical, physical := m.1.block, size := m.1.length, encId := m.1.crypto } : DataStream.Extent) := by
    intro e he
    rw [← hE] at he
    obtain ⟨m, hm, rfl⟩ := List.mem_map.1 he
    exact ⟨m, hm, rfl⟩
  have w : OnImage image F.disk 4096 512 cipher sparse es plain := by
    refine ⟨by decide, by decide, hF.reads, hF.range, hF.cipherOk, ?_, by rw [hm2]; exact h4, ?_, ?_⟩
    · intro e he
      obtain ⟨m, hm, rfl⟩ := hmem2 e he
      exact (h2 m hm).1.whole
    · intro e he
      obtain ⟨m, hm, rfl⟩ := hmem2 e he
      exact (h2 m hm).1.block
    · intro e he hne k hk
      obtain ⟨m, hm, rfl⟩ := hmem2 e he
      obtain ⟨g1, g2⟩ := h5 m hm hne k hk
      exact ⟨fun hc => g1 (by cases cipher with | none => exact absurd rfl hc | some _ => simp), g2⟩
  have hc : Contiguous 0 (es.map DataStream.mapping) := by rw [hm1]; exact h3
  have hinit : ∃ hd, DataStream.initHandle F.disk 4096 512 (cipher.map (·.2)) es sparse = ok hd := by
    have ht := w.total
    unfold DataStream.initHandle
    rw [DataStream.buildVector_eq hc (by omega) (fun e he => by rw [Nat.mod_eq_of_lt] <;> have := w.offsets e he <;> omega)]
    exact ⟨_, rfl⟩
  obtain ⟨hd, hinit⟩ := hinit
  refine ⟨hd, ?_, fun hlen off n => ?_⟩
  · unfold extentStream
    rw [hF.tree, hF.xid, hes, ok_bind, hF.xts, hinit]
  · have key : ∀ n, n < 2 ^ 63 → DataStream.streamRead hd bytes.length off n = ok ((bytes.drop off).take n) := by
      intro n hn
      obtain ⟨out, r1, r2, r3⟩ := c25_read_partial w (fun _ => hc) hinit bytes.length off n hn
      rw [r1]
      rw [hm2] at r2
      have hol : out.length = min n (bytes.length - off) := by rw [r2]; omega
      refine congrArg ok (List.ext_getElem (by rw [hol, List.length_take, List.length_drop]) fun i hi1 hi2 => ?_)
      rw [List.getElem_take, List.getElem_drop]
      have hb := r3 i hi1
      rw [hm1] at hb
      exact c25_byte_unique h3 hb (h7 (off + i) (by omega))
    by_cases hn : n < 2 ^ 63
    · exact key n hn
    · have e1 : DataStream.streamRead hd bytes.length off n = DataStream.streamRead hd bytes.length off bytes.length := by
        unfold DataStream.streamRead
        rw [show min n (bytes.length - off) = min bytes.length (bytes.length - off) by omega]
      rw [e1, key _ hlen, List.take_of_length_le (by rw [List.length_drop]; omega), List.take_of_length_le (by rw [List.length_drop]; omega)]

/-- the inode of a file -/
structure ReadsAs (i : Records.Inode) (f : StoredFile) (stream : Nat) : Prop where
  identifier : i.identifier = f.identifier
  dataStream : i.dataStream = stream
  size : i.size = f.size
  sparse : FileRead.sparse i = f.sparse

theorem isOf_inode {r : Record} {f : StoredFile} {stream : Nat} (h : InodeOf r f stream) (hi : f.identifier < 2 ^ 60) : IsOf f.identifier 3 r := by
  have : field r.1 0 8 = 3 * 2 ^ 60 + f.identifier := field_mid (a := []) ⟨[], by rw [h.key]; simp⟩ rfl (wide8 (by omega))
  unfold IsOf fsId fsType
  rw [this]
  omega

theorem readInode_of {r : Record} {f : StoredFile} {stream : Nat} (h : InodeOf r f stream) (hi : f.identifier < 2 ^ 60) : ∃ i, Records.readInode r = ok i ∧ ReadsAs i f stream := by
  obtain ⟨fixed, fields, h1, h2, h3, h4, h5, h6, h7⟩ := h.value
  have hk : r.1.length = 8 := by rw [h.key, length_toLE]
  have := c37_faithful_partial r.1 (by omega) (by omega) fixed h2 fields h3 h4
  rw [← h1] at this
  exact ⟨_, this, (isOf_inode h hi).1, h5, h7, h6⟩

/-- chunks of compressed data are stored as the algorithm has them, and hold contents -/
def Encodes (c : Codec) (algorithm : Algorithm) (D content : Bytes) : Prop :=
  algorithm ≠ .lzfse ∧ ∃ blocks, Verif.Props.Stored (if algorithm = .zlib then methodDeflate else methodLzvn) D blocks ∧
    Holds (Compressed.plain c (if algorithm = .zlib then methodDeflate else methodLzvn)) blocks content

/-- the contents of a file: the bytes of its data stream, or what its compressed data holds -/
def HasContent (c : Codec) (files : List Record) (image : Nat → Option Bytes) (enc : Option (Bytes → Bytes → Bytes)) (f : StoredFile) (stream : Nat) (content : Bytes) : Prop :=
  (f.source? = some (.plain content.length f.sparse) ∧ content.length < 2 ^ 63 ∧ StreamIn files image enc stream f.sparse content) ∨
  ∃ algorithm D, f.source? = some (.decoded algorithm D content.length) ∧ Encodes c algorithm D content

/-- what libuna tells about the names of the extended attributes of a file -/
def Compares (compare : Bytes → Bytes → Res Bool) (f : StoredFile) : Prop := ∀ x ∈ f.attributes, ∀ s, compare (x.name ++ [0]) s = ok (decide (x.name = s))

theorem healthy_env (hF : Serves F s xid image cipher) (h : FsHolds s xid files) (hroot : ∃ r ∈ files, IsOf 2 3 r) {f : StoredFile} {stream : Nat}
    (hf : FileIn files image (cipher.map (·.1)) f stream) {compare : Bytes → Bytes → Res Bool} (hc : Compares compare f) {i : Records.Inode} (hi : ReadsAs i f stream) :
    FileEntry.Healthy f (FileRead.env F compare i) := by
  obtain ⟨r, hr, hri⟩ := hf.inode
  refine ⟨?_, hc, ?_, rfl, ?_, rfl⟩
  · show extendedAttributes F.tree F.xid i.identifier = _
    rw [hF.tree, hF.xid, hi.identifier, c23_listing s xid files h _ hf.identifier ⟨r, hr, isOf_inode hri hf.identifier⟩, hf.attributes]
  · intro x hx st hst
    obtain ⟨h1, h2⟩ := hf.values x hx st hst
    obtain ⟨hd, g1, g2⟩ := extentStream_reads hF h hroot h2
    show (extentStream F st.1 false >>= fun hd => DataStream.streamRead hd x.value.length 0 x.value.length) = _
    rw [g1, ok_bind, g2 h1, List.drop_zero, List.take_length]
  · obtain ⟨bytes, hb⟩ := hf.stream
    obtain ⟨hd, g1, _⟩ := extentStream_reads hF h hroot hb
    show (extentStream F i.dataStream (FileRead.sparse i) >>= fun _ => ok ()) = _
    rw [hi.dataStream, hi.sparse, g1]
    rfl

/-- what a user sees of operations on an open file, whose storage does not fail -/
def seen (ops : List FileOp) (rs : List (Res Bytes)) : List (FileOp × Prop × Option Bytes) :=
  List.zipWith (fun o r => (o, False, match r with | .ok b => some b | _ => none)) ops rs

theorem run_compressed (c : Codec) (D : Bytes) : ∀ (ops : List FileOp) (h : Compressed.Handle),
    FileRead.run c ops (.compressed D h) = Compressed.run c D (ops.map (fun o => (o, fun _ _ => true))) h
  | [], _ => rfl
  | o :: ops, h => by
    have hs : FileRead.step c o (.compressed D h) = ((Compressed.step c D (fun _ _ => true) o h).1, .compressed D (Compressed.step c D (fun _ _ => true) o h).2) := by
      cases o with
      | seek o =>
        unfold FileRead.step Compressed.step
        cases hk : Compressed.seek o h with
        | mk r h' =>
          simp only [hk]
          cases r <;> rfl
      | read n => rfl
    simp only [FileRead.run, Compressed.run, List.map_cons, hs]
    rw [run_compressed c D ops]

theorem seen_observed (ops : List FileOp) (rs : List (Res Bytes)) : seen ops rs = Compressed.observed (ops.map (fun o => (o, fun _ _ => true))) rs := by
  unfold seen Compressed.observed
  rw [List.zipWith_map_left]
  have : (∃ a b : Nat, (fun _ _ => true : Nat → Nat → Bool) a b = false) = False := by simp
  simp only [this]
  congr 1

theorem run_extents {hd : DataStream.Handle} {content : Bytes} (hr : ∀ off n, DataStream.streamRead hd content.length off n = ok ((content.drop off).take n)) (c : Codec) :
    ∀ (ops : List FileOp) (pos : Nat), (∀ r ∈ FileRead.run c ops (.extents hd content.length pos), r ≠ ub) ∧
      FileTrace content pos (seen ops (FileRead.run c ops (.extents hd content.length pos)))
  | [], _ => ⟨by simp [FileRead.run], .nil⟩
  | .seek o :: ops, pos => by
    by_cases ho : o < 0
    · obtain ⟨h1, h2⟩ := run_extents hr c ops pos
      simp only [FileRead.run, FileRead.step, if_pos ho]
      exact ⟨by simpa using h1, .cons (.seekNegative o ho) h2⟩
    · obtain ⟨h1, h2⟩ := run_extents hr c ops o.toNat
      simp only [FileRead.run, FileRead.step, if_neg ho]
      refine ⟨by simpa using h1, .cons ?_ h2⟩
      have := FileStep.seek (content := content) (fault := False) (pos := pos) o.toNat
      rwa [Int.toNat_of_nonneg (by omega)] at this
  | .read n :: ops, pos => by
    obtain ⟨h1, h2⟩ := run_extents hr c ops (pos + ((content.drop pos).take n).length)
    simp only [FileRead.run, FileRead.step, hr]
    exact ⟨by simpa using h1, .cons (.read n) h2⟩

/-- An open file, after any calls on its file entry, gives for any seeks and reads the bytes of its contents.

What is missing: data compressed with LZFSE, see `c40_lzfse_refused`; damaged compressed data, see `c11_stale_segment`; sparse files with gaps between extents, see `c25_read_sparse_partial`; and inodes with
certain extended fields, see `c37_valid_fields_refused`. -/
theorem c53_opened_partial (hF : Serves F s xid image cipher) (h : FsHolds s xid files) (hroot : ∃ r ∈ files, IsOf 2 3 r) {f : StoredFile} {stream : Nat}
    (hf : FileIn files image (cipher.map (·.1)) f stream) {c : Codec} (hc : Compressed.CodecOk c) {content : Bytes} (hcon : HasContent c files image (cipher.map (·.1)) f stream content)
    {compare : Bytes → Bytes → Res Bool} (hcmp : Compares compare f) {i : Records.Inode} (hi : ReadsAs i f stream) {e : FileEntry.Entry} (he : FileEntry.Reached f e)
    {junk : Bytes} (hj : junk.length = 65536) :
    ∃ reader, openFile F compare junk i e = ok reader ∧ ∀ ops, (∀ r ∈ FileRead.run c ops reader, r ≠ ub) ∧ FileTrace content 0 (seen ops (FileRead.run c ops reader)) := by
  have hh := healthy_env hF h hroot hf hcmp hi
  have hsize : ∀ algorithm D, Encodes c algorithm D content → content.length ≤ 16383 * 65536 := by
    rintro algorithm D ⟨_, blocks, hS, hH, _⟩
    have : blocks.length ≤ 16383 := by
      generalize (if algorithm = .zlib then methodDeflate else methodLzvn) = method at hS
      cases hS with
      | lzvn _ _ h => exact h
      | zlib _ _ _ _ _ _ _ _ h => omega
      | inline => simp
    exact Nat.le_trans hH (Nat.mul_le_mul_right _ this)
  unfold openFile
  rcases hcon with ⟨h1, h2, h3⟩ | ⟨algorithm, D, h1, h2⟩
  · obtain ⟨st, g1, g2⟩ := c40_source_available_partial f hf.valid e he _ hh (fun m n hk => by
      intro _
      unfold StoredFile.source? at h1
      rw [hk] at h1
      simp only at h1
      split at h1 <;> first | (cases h1; done) | (obtain ⟨_, _, h⟩ := Option.map_eq_some_iff.1 h1; cases h)) _ h1 (by simp)
    rw [g1]
    cases g2
    obtain ⟨hd, r1, r2⟩ := extentStream_reads hF h hroot h3
    simp only
    rw [hi.dataStream, r1, ok_bind]
    exact ⟨_, rfl, fun ops => run_extents (r2 h2) c ops 0⟩
  · have hz := hsize _ _ h2
    obtain ⟨st, g1, g2⟩ := c40_source_available_partial f hf.valid e he _ hh (fun m n hk => by
      unfold StoredFile.source? at h1
      rw [hk] at h1
      simp only at h1
      have : n = content.length := by
        split at h1 <;> first | (cases h1; done) | (obtain ⟨_, _, h⟩ := Option.map_eq_some_iff.1 h1; cases h; rfl)
      omega) _ h1 (by
        intro d n hd
        cases hd
        exact h2.1 rfl)
    rw [g1]
    obtain ⟨_, blocks, hS, hH⟩ := h2
    obtain ⟨data, size, method, handle, rfl, k2, k3⟩ := c40_contents_partial f hf.valid e he _ hh.faithful algorithm D content h1 st g1 c hc blocks hS hH junk hj
    simp only
    rw [k2, ok_bind]
    refine ⟨_, rfl, fun ops => ?_⟩
    rw [run_compressed, seen_observed]
    exact k3 _

/-- a path leads to the entry of a file, whose names are found in directories inside each other, starting at the root directory with identifier 2 -/
structure PathTo {α : Type} (dq : Name.Decoder α) (files : List Record) (fmt : NameFormat) (names : List (List α)) (e : DirEntry) : Prop where
  entries : ∃ es, Hierarchy dq files fmt 2 names (es ++ [e])
  names : ∀ n ∈ names, NameLookup.IsSegment dq n

/-- The file is found by path and by identifier; its entry, after any calls during which storage and memory allocation may fail, gives for any seeks and reads what a file with that content gives. -/
def Readable {α : Type} [DecidableEq α] (dn : Name.Decoder UInt8) (dq : Name.Decoder α) (separator : α) (compare : Bytes → Bytes → Res Bool) (c : Codec) (F : Files) (path : List α)
    (record : Records.DirectoryRecord) (f : StoredFile) (content : Bytes) : Prop :=
  ∃ i, byPath dn dq separator F path = ok (some (i, some record)) ∧ byIdentifier F f.identifier = ok (some i) ∧ i.identifier = f.identifier ∧ FileEntry.Reached f (entryOf i) ∧
    ∀ e, FileEntry.Reached f e → ∀ junk : Bytes, junk.length = 65536 → ∃ reader, openFile F compare junk i e = ok reader ∧
      ∀ ops, (∀ r ∈ FileRead.run c ops reader, r ≠ ub) ∧ FileTrace content 0 (seen ops (FileRead.run c ops reader))

/-- A file of a file system tree of any shape is found by its path and by its identifier and has the contents that are stored. -/
theorem c53_tree_partial {α : Type} [DecidableEq α] {dn : Name.Decoder UInt8} (hd : NameLookup.ReadsUtf8 dn) (dq : Name.Decoder α) {separator : α}
    (hsep : ∀ r, dq.next (separator :: r) = some (0x2f, r)) (hF : Serves F s xid image cipher) (h : FsHolds s xid files) (ht : ∀ r ∈ files, 3 ≤ fsType r.1) (hroot : ∃ r ∈ files, IsOf 2 3 r)
    {fmt : NameFormat} (hfold : F.folding = fmt.caseInsensitive) {names : List (List α)} {e : DirEntry} (hp : PathTo dq files fmt names e) (leading trailing : Bool)
    (hlen : 2 ≤ (pathString separator leading trailing names).length) (hmax : (pathString separator leading trailing names).length < 2 ^ 63)
    {f : StoredFile} (hid : e.identifier = f.identifier) {stream : Nat} (hf : FileIn files image (cipher.map (·.1)) f stream)
    {c : Codec} (hc : Compressed.CodecOk c) {content : Bytes} (hcon : HasContent c files image (cipher.map (·.1)) f stream content)
    {compare : Bytes → Bytes → Res Bool} (hcmp : Compares compare f) :
    Readable dn dq separator compare c F (pathString separator leading trailing names) (NameLookup.recordOf fmt e) f content := by
  obtain ⟨r, hr, hri⟩ := hf.inode
  obtain ⟨i, hi, hia⟩ := readInode_of hri hf.identifier
  have hof := isOf_inode hri hf.identifier
  obtain ⟨es, hes⟩ := hp.entries
  obtain ⟨_, _, d, hfr, _⟩ := h.tree
  refine ⟨i, ?_, ?_, hia.identifier, ?_, fun e he junk hj => c53_opened_partial hF h hroot hf hc hcon hcmp hia he hj⟩
  · unfold byPath
    rw [hF.tree, hF.xid, hfold, c22_resolves hd dq hsep h (fsRootNode_ok hfr) hes hp.names leading trailing hlen hmax (by rw [hid]; exact hf.identifier) (by rw [hid]; exact hf.one) ht hr
      (by rw [hid]; exact hof), hi]
    rfl
  · unfold byIdentifier
    rw [hF.tree, hF.xid, (c19_lookup_partial s xid files h f.identifier hf.identifier hf.one ht).1 r hr hof, hi]
    rfl
  · unfold entryOf
    rw [hia.size]
    exact .new i.flags hia.sparse

/-- the blocks of an image that are used for data: whole ones, at offsets of less than 2^63 -/
def dataBlocks (image : Nat → Option Bytes) (b : Nat) : Option Bytes :=
  match image b with
  | none => none
  | some d => if d.length = 4096 ∧ (b + 1) * 4096 < 2 ^ 63 then some d else none

theorem dataBlocks_some {image : Nat → Option Bytes} {b : Nat} {d : Bytes} (h : dataBlocks image b = some d) : image b = some d ∧ d.length = 4096 ∧ (b + 1) * 4096 < 2 ^ 63 := by
  unfold dataBlocks at h
  split at h
  · cases h
  · rename_i hd
    split at h
    · rename_i hc
      cases h
      exact ⟨hd, hc⟩
    · cases h

theorem readBytes_block {image : Container.Image} {b : Nat} {d : Bytes} (h : dataBlocks image b = some d) : readBytes image (b * 4096) 4096 = ok d := by
  obtain ⟨h1, h2, h3⟩ := dataBlocks_some h
  unfold readBytes
  rw [if_neg (by omega), Nat.mul_div_cancel _ (by omega), Nat.mul_mod_left, show (0 + 4096 + 4095) / 4096 = 1 by omega]
  simp only [Container.blocksFrom, h1, Option.pure_def, Option.bind_eq_bind, Option.bind_some, List.append_nil]
  rw [if_pos (by omega), List.drop_zero, List.take_of_length_le (by omega)]

section
open Container VolumeOpen
variable {cx : VolumeOpen.Cipher} {vector : Nat → Bool} {img : Container.Image} {k : Container.Opened} {d0 d : Bytes} {records : List Record}

/-- From the image of a container to the contents of a file of a volume that is not encrypted, through any calls to the functions for passwords and locking.

What is missing: as in `c50_reach_partial` and `c53_opened_partial`. -/
theorem c53_volume_partial (hb : Blocks img) (hs : k.superblock = Container.superblockOf d0) (hv : Nx.Valid d0) (hvec : vector k.size = true)
    (ht : OmTree (containerBlocks img k.size) k.tree records) {index : Nat} (hi : index < numberOfVolumes k) (h0 : Nx.volume d0 index ≠ 0) {root : Nat} {vs : List SnapValue}
    (hr : ∀ r, Newest records (Nx.volume d0 index) (objectXid d0) r → StoredVolume img (field r.2 8 8) d root) (hx : HasVersion records (Nx.volume d0 index) (objectXid d0))
    (hsn : HasSnapshots (containerBlocks img k.size) root d vs) (hun : k.keyBag = none ∨ Apsb.unencrypted d)
    {mappings : List Record} (hm : OmTree (containerBlocks img k.size) root mappings) (hrx : HasVersion mappings (Apsb.fsRoot d) (objectXid d))
    (hfs : ∀ r, Newest mappings (Apsb.fsRoot d) (objectXid d) r → FsHolds (plainStorage img k.size root (field r.2 8 8)) (objectXid d) files)
    {α : Type} [DecidableEq α] {dn : Name.Decoder UInt8} (hd : NameLookup.ReadsUtf8 dn) (dq : Name.Decoder α) {separator : α}
    (hsep : ∀ r, dq.next (separator :: r) = some (0x2f, r)) (hty : ∀ r ∈ files, 3 ≤ fsType r.1) (hroot : ∃ r ∈ files, IsOf 2 3 r)
    {fmt : NameFormat} (hfold : fmt.caseInsensitive = true ↔ Apsb.incompatible d % 2 = 1) {names : List (List α)} {e : DirEntry} (hp : PathTo dq files fmt names e) (leading trailing : Bool)
    (hlen : 2 ≤ (pathString separator leading trailing names).length) (hmax : (pathString separator leading trailing names).length < 2 ^ 63)
    {f : StoredFile} (hid : e.identifier = f.identifier) {stream : Nat} (hf : FileIn files (dataBlocks img) none f stream)
    {c : Codec} (hc : Compressed.CodecOk c) {content : Bytes} (hcon : HasContent c files (dataBlocks img) none f stream content)
    {compare : Bytes → Bytes → Res Bool} (hcmp : Compares compare f) (p : KeyBag.Prims) (ops : List Volume.Op) :
    ∃ v, volumeByIndex cx vector img k index = ok v ∧ ∀ s, Volume.run p v.state ops = ok s → ∃ F, FileRead.files cx img k v s = ok F ∧
      Readable dn dq separator compare c F (pathString separator leading trailing names) (NameLookup.recordOf fmt e) f content := by
  obtain ⟨v, h1, h2, h3⟩ := c50_reach_partial (c := cx) hb hs hv hvec ht hi h0 hr hx hsn hun hm hrx hfs p ops
  refine ⟨v, h1, fun s hs => ?_⟩
  obtain ⟨_, h4, t, h5, h6⟩ := h3 s hs
  unfold FileRead.files
  rw [h5, ok_bind]
  refine ⟨_, rfl, c53_tree_partial (xid := objectXid d) (image := dataBlocks img) (cipher := none) hd dq hsep ⟨rfl, ?_, ?_, ?_, ?_, fun _ h => nomatch h⟩ h6 hty hroot ?_ hp leading trailing hlen hmax hid hf hc
    hcon hcmp⟩
  · show v.superblock.transaction = _
    rw [h2]
    rfl
  · show (storage cx (readBytes img) (context s)).2 = none
    unfold context
    rw [h4]
    rfl
  · intro b raw hraw
    show (storage cx (readBytes img) (context s)).1 _ _ = _
    unfold context
    rw [h4]
    exact readBytes_block hraw
  · exact fun b raw hraw => (dataBlocks_some hraw).2.2
  · show decide (v.superblock.incompatible % 2 ≠ 0) = _
    rw [h2]
    have e : (VolumeOpen.superblockOf d).incompatible = Apsb.incompatible d := rfl
    rw [e]
    cases hci : fmt.caseInsensitive with
    | true => exact decide_eq_true (by have := hfold.1 hci; omega)
    | false => exact decide_eq_false (by intro hne; have := hfold.2 (by omega); rw [hci] at this; cases this)

/-- From the image of a container to the contents of a file of an encrypted volume: whenever the volume reports not to be locked, after any calls with passwords among `S`, the file has the contents that are
stored in encrypted form; and unlocking succeeds with a correct password.

What is missing: as in `c51_reach_partial` and `c53_opened_partial`. -/
theorem c53_encrypted_partial {p : KeyBag.Prims} {enc : Bytes → Bytes → Bytes} (hpr : KeyBag.PrimsOk p enc) {encX : Bytes × Bytes → Bytes → Bytes → Bytes}
    (hX : ∀ ks, TweakableCipher 512 (encX ks) (cx.xts ks)) (hb : Blocks img) (hs : k.superblock = Container.superblockOf d0) (hv : Nx.Valid d0) (hvec : vector k.size = true)
    (ht : OmTree (containerBlocks img k.size) k.tree records) {index : Nat} (hi : index < numberOfVolumes k) (h0 : Nx.volume d0 index ≠ 0) {root : Nat} {vs : List SnapValue}
    (hr : ∀ r, Newest records (Nx.volume d0 index) (objectXid d0) r → StoredVolume img (field r.2 8 8) d root) (hx : HasVersion records (Nx.volume d0 index) (objectXid d0))
    (hsn : HasSnapshots (containerBlocks img k.size) root d vs) {cb vb : List BagEntry} (hkb : k.keyBag = some (some (entriesOf cb))) (he : EncryptedVolume encX img cb vb d)
    {S : Bytes → Prop} {vk : Bytes} {keys : Bytes × Bytes} (hsec : Secrets p.prf enc p.sha vb cb (Apsb.uuid d) S vk keys) {mappings : List Record}
    (hm : OmTree (containerBlocks img k.size) root mappings) (hrx : HasVersion mappings (Apsb.fsRoot d) (objectXid d)) {plain : Nat → Option Bytes}
    (hpl : EncryptedBlocks (encX keys) img plain) (hrange : ∀ b d, plain b = some d → b * 4096 < k.size ∧ b < 2 ^ 31)
    (hfs : ∀ r, Newest mappings (Apsb.fsRoot d) (objectXid d) r → FsHolds (encryptedStorage img plain k.size root (field r.2 8 8)) (objectXid d) files)
    {α : Type} [DecidableEq α] {dn : Name.Decoder UInt8} (hd : NameLookup.ReadsUtf8 dn) (dq : Name.Decoder α) {separator : α}
    (hsep : ∀ r, dq.next (separator :: r) = some (0x2f, r)) (hty : ∀ r ∈ files, 3 ≤ fsType r.1) (hroot : ∃ r ∈ files, IsOf 2 3 r)
    {fmt : NameFormat} (hfold : fmt.caseInsensitive = true ↔ Apsb.incompatible d % 2 = 1) {names : List (List α)} {e : DirEntry} (hp : PathTo dq files fmt names e) (leading trailing : Bool)
    (hlen : 2 ≤ (pathString separator leading trailing names).length) (hmax : (pathString separator leading trailing names).length < 2 ^ 63)
    {f : StoredFile} (hid : e.identifier = f.identifier) {stream : Nat} (hf : FileIn files (dataBlocks img) (some (encX keys)) f stream)
    {c : Codec} (hc : Compressed.CodecOk c) {content : Bytes} (hcon : HasContent c files (dataBlocks img) (some (encX keys)) f stream content)
    {compare : Bytes → Bytes → Res Bool} (hcmp : Compares compare f) :
    ∃ v, volumeByIndex cx vector img k index = ok v ∧ v.state.isLocked = true ∧
      ∀ ops, (∀ o ∈ ops, OpOk o) → (∀ q ∈ secretsOf ops, S q) → ∀ s, Volume.run p v.state ops = ok s →
        (∀ pw, s.user = some pw ∨ s.recovery = some pw → IsSecret p.prf enc vb pw → ∀ bk bm : Bytes, bk.length = 32 → bm.length = 32 →
          ∃ s', Volume.run p v.state (ops ++ [.unlock bk bm]) = ok s' ∧ s'.isLocked = false) ∧
        (s.isLocked = false → ∃ F, FileRead.files cx img k v s = ok F ∧
          Readable dn dq separator compare c F (pathString separator leading trailing names) (NameLookup.recordOf fmt e) f content) := by
  obtain ⟨v, h1, hl, h2, h3⟩ := c51_reach_partial (c := cx) hpr hX hb hs hv hvec ht hi h0 hr hx hsn hkb he hsec hm hrx hpl hrange hfs
  refine ⟨v, h1, hl, fun ops hops hS s hrun => ⟨(h3 ops hops hS s hrun).1, fun hl => ?_⟩⟩
  obtain ⟨hb1, hb2, t, h5, h6⟩ := (h3 ops hops hS s hrun).2 hl
  have hctx : context s = some (some keys) := by
    unfold context
    rw [hb1, hb2]
    rfl
  unfold FileRead.files
  rw [h5, ok_bind]
  refine ⟨_, rfl, c53_tree_partial (xid := objectXid d) (image := dataBlocks img) (cipher := some (encX keys, cx.xts keys)) hd dq hsep ⟨rfl, ?_, ?_, ?_, ?_, ?_⟩ h6 hty hroot ?_ hp leading trailing hlen hmax
    hid hf hc hcon hcmp⟩
  · show v.superblock.transaction = _
    rw [h2]
    rfl
  · show (storage cx (readBytes img) (context s)).2 = _
    rw [hctx]
    rfl
  · intro b raw hraw
    show (storage cx (readBytes img) (context s)).1 _ _ = _
    rw [hctx]
    exact readBytes_block hraw
  · exact fun b raw hraw => (dataBlocks_some hraw).2.2
  · intro c hc
    cases hc
    exact hX keys
  · show decide (v.superblock.incompatible % 2 ≠ 0) = _
    rw [h2]
    have e : (VolumeOpen.superblockOf d).incompatible = Apsb.incompatible d := rfl
    rw [e]
    cases hci : fmt.caseInsensitive with
    | true => exact decide_eq_true (by have := hfold.1 hci; omega)
    | false => exact decide_eq_false (by intro hne; have := hfold.2 (by omega); rw [hci] at this; cases this)

end

/-! Bytes of the image -/

/-- the byte of an image of blocks at an offset -/
def imageByte (image : Container.Image) (offset : Nat) : Option UInt8 := (image (offset / 4096)).bind fun d => d[offset % 4096]?

theorem blocksFrom_byte {image : Container.Image} (hb : ∀ b d, image b = some d → d.length = 4096) : ∀ (n b : Nat) {d : Bytes}, Container.blocksFrom image b n = some d →
    d.length = n * 4096 ∧ ∀ i < n * 4096, imageByte image (b * 4096 + i) = d[i]? := by
  intro n
  induction n with
  | zero => intro b d h; cases h; exact ⟨rfl, fun i hi => by omega⟩
  | succ n ih =>
    intro b d h
    unfold Container.blocksFrom at h
    cases h1 : image b with
    | none => simp [h1] at h
    | some x =>
      cases h2 : Container.blocksFrom image (b + 1) n with
      | none => simp [h1, h2] at h
      | some y =>
        simp only [h1, h2, Option.pure_def, Option.bind_eq_bind, Option.bind_some, Option.some.injEq] at h
        subst h
        obtain ⟨l1, l2⟩ := ih (b + 1) h2
        have lx := hb _ _ h1
        refine ⟨by rw [List.length_append, lx, l1]; omega, fun i hi => ?_⟩
        by_cases hlt : i < 4096
        · rw [List.getElem?_append_left (by omega)]
          unfold imageByte
          rw [show (b * 4096 + i) / 4096 = b by omega, show (b * 4096 + i) % 4096 = i by omega, h1]
          rfl
        · rw [List.getElem?_append_right (by omega), lx, ← l2 (i - 4096) (by omega), show b * 4096 + i = (b + 1) * 4096 + (i - 4096) by omega]

theorem blocksFrom_some {image : Container.Image} : ∀ (n b : Nat), (∀ i < n, image (b + i) ≠ none) → ∃ d, Container.blocksFrom image b n = some d := by
  intro n
  induction n with
  | zero => intro b _; exact ⟨[], rfl⟩
  | succ n ih =>
    intro b h
    obtain ⟨y, hy⟩ := ih (b + 1) (fun i hi => by have := h (i + 1) (by omega); rwa [show b + (i + 1) = b + 1 + i by omega] at this)
    have h0 := h 0 (by omega)
    rw [Nat.add_zero] at h0
    obtain ⟨x, hx⟩ := Option.ne_none_iff_exists'.1 h0
    exact ⟨x ++ y, by simp [Container.blocksFrom, hx, hy]⟩

/-- Reading from the image succeeds exactly where all bytes are there, and gives these bytes. -/
theorem c53_disk {image : Container.Image} (hb : ∀ b d, image b = some d → d.length = 4096) {offset n : Nat} (h0 : 0 < n) (d : Bytes) :
    readBytes image offset n = ok d ↔ offset < 2 ^ 63 ∧ d.length = n ∧ ∀ i < n, imageByte image (offset + i) = d[i]? := by
  have hk : ∀ i, offset + i = offset / 4096 * 4096 + (offset % 4096 + i) := by omega
  constructor
  · intro h
    unfold readBytes at h
    split at h
    · cases h
    rename_i hoff
    split at h
    · cases h
    rename_i x hx
    split at h
    · rename_i hlen
      have := Res.ok.inj h
      subst this
      obtain ⟨l1, l2⟩ := blocksFrom_byte hb _ _ hx
      refine ⟨by omega, by rw [List.length_take, List.length_drop]; omega, fun i hi => ?_⟩
      rw [hk, l2 _ (by omega), List.getElem?_take_of_lt hi, List.getElem?_drop]
    · cases h
  · rintro ⟨h1, h2, h3⟩
    have hex : ∀ i < (offset % 4096 + n + 4095) / 4096, image (offset / 4096 + i) ≠ none := by
      intro i hi hn
      have : ∃ j < n, (offset + j) / 4096 = offset / 4096 + i := by
        by_cases hi0 : i = 0
        · exact ⟨0, h0, by rw [hi0]; rfl⟩
        · exact ⟨i * 4096 - offset % 4096, by omega, by omega⟩
      obtain ⟨j, hj, hji⟩ := this
      have hj' := h3 j hj
      unfold imageByte at hj'
      rw [hji, hn] at hj'
      have : j < d.length := by omega
      rw [List.getElem?_eq_getElem this] at hj'
      cases hj'
    obtain ⟨x, hx⟩ := blocksFrom_some _ _ hex
    obtain ⟨l1, l2⟩ := blocksFrom_byte hb _ _ hx
    unfold readBytes
    rw [if_neg (by omega), hx]
    show (if _ then _ else _) = _
    rw [if_pos (by omega)]
    congr 1
    apply List.ext_getElem?
    intro i
    by_cases hi : i < n
    · rw [List.getElem?_take_of_lt hi, List.getElem?_drop, ← l2 _ (by omega), ← hk, h3 i hi]
    · rw [List.getElem?_eq_none (by rw [List.length_take]; omega), List.getElem?_eq_none (by omega)]

/-- across the border of two blocks -/
example : ∃ d, readBytes (fun b => if b < 2 then some (List.replicate 4096 (UInt8.ofNat b)) else none) 4000 200 = ok d := by
  refine ⟨List.replicate 96 0 ++ List.replicate 104 1, (c53_disk (fun b d h => ?_) (by decide) _).2 ⟨by decide, by rw [List.length_append, List.length_replicate, List.length_replicate], fun i hi => ?_⟩⟩
  · have h : (if b < 2 then some (List.replicate 4096 (UInt8.ofNat b)) else none) = some d := h
    split at h
    · rw [← Option.some.inj h, List.length_replicate]
    · cases h
  · unfold imageByte
    by_cases h : i < 96
    · rw [show (4000 + i) / 4096 = 0 by omega]
      rw [List.getElem?_append_left (by rw [List.length_replicate]; exact h)]
      simp only [Nat.zero_lt_succ, if_true, Option.bind_some]
      rw [List.getElem?_replicate, List.getElem?_replicate, if_pos (by omega), if_pos h]
      rfl
    · rw [show (4000 + i) / 4096 = 1 by omega]
      rw [List.getElem?_append_right (by rw [List.length_replicate]; omega)]
      simp only [Nat.lt_add_one, if_true, Option.bind_some]
      rw [List.getElem?_replicate, List.getElem?_replicate, if_pos (by omega), if_pos (by rw [List.length_replicate]; omega)]
      rfl
end Verif.Props
