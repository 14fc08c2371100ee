import Verif.Lemmas.FileEntryHistory
import Verif.Props.C11
/-!
# C40 A compressed file's contents are taken from where its compression method stores them

Full statement: after any calls, whatever failed during them, the size that is returned is `size?` and the contents are those of `source?`; a file without one
is refused. Where storage and memory allocation do not fail, the size and the contents are returned.

False for method 5, whose contents are returned as zeros (`c40_method5_zeros`), and for LZFSE (`c40_lzfse_refused`).
-/
namespace Verif.Props
open Verif Res Spec FileEntry Compressed

/-- the stream reads the source: compression methods of libfsapfs are 1 for zlib and 3 for LZVN -/
inductive Shows : Stream → Source → Prop
  | plain (n : Nat) (sparse : Bool) : Shows (.extents n sparse) (.plain n sparse)
  | zlib (d : Bytes) (n : Nat) : Shows (.compressed d n methodDeflate) (.decoded .zlib d n)
  | lzvn (d : Bytes) (n : Nat) : Shows (.compressed d n methodLzvn) (.decoded .lzvn d n)

/-- No call uses memory that was freed, however the calls before failed. -/
theorem c40_safe (f : StoredFile) (hv : f.Valid) (e : Entry) (h : Reached f e) (env : Env) (he : Faithful f env) :
    (getSize env e).1 ≠ ub ∧ (openStream env e).1 ≠ ub ∧ (symlinkTarget env e).1 ≠ ub ∧ (numberOfAttributes env e).1 ≠ ub ∧ ∀ name, (attributeByName env name e).1 ≠ ub :=
  ⟨(getSize_spec hv (h.inv hv) he).1, (openStream_spec hv (h.inv hv) he).1, (symlinkTarget_spec hv (h.inv hv) he).1, (numberOfAttributes_spec hv (h.inv hv) he).1,
    fun name => (attributeByName_spec hv (h.inv hv) he name).1⟩

/-- A size that is returned is the size of the contents: the uncompressed size of a compressed file. -/
theorem c40_size (f : StoredFile) (hv : f.Valid) (e : Entry) (h : Reached f e) (env : Env) (he : Faithful f env) (n : Nat) (hn : (getSize env e).1 = ok n) :
    f.size? = some n :=
  (getSize_spec hv (h.inv hv) he).2.2.1 n hn

/-- The size is returned if nothing fails now, whatever failed before. The size 2^64 - 1 is excluded, it means unknown. -/
theorem c40_size_available (f : StoredFile) (hv : f.Valid) (e : Entry) (h : Reached f e) (env : Env) (he : Healthy f env) (hk : ∀ m n, f.kind = .compressed m n → n ≠ 2 ^ 64 - 1)
    (n : Nat) (hn : f.size? = some n) : (getSize env e).1 = ok n :=
  (getSize_spec hv (h.inv hv) he.faithful).2.2.2 he hk n hn

/-- With that size: the first call returns it and all that follow fail. -/
theorem c40_size_unknown (f : StoredFile) (hv : f.Valid) (e : Entry) (h : Reached f e) (env env' : Env) (he : Faithful f env) (m : Nat) (hk : f.kind = .compressed m (2 ^ 64 - 1))
    (n : Nat) (hn : (getSize env e).1 = ok n) : (getSize env' (getSize env e).2).1 = err := by
  have hs := c40_size f hv e h env he n hn
  have hi := h.inv hv
  have hn' : n = 2 ^ 64 - 1 := by
    unfold StoredFile.size? at hs
    rw [hk] at hs
    exact (Option.some.inj hs).symm
  have hcase : e.size = 2 ^ 64 - 1 ∨ e.size ≠ 2 ^ 64 - 1 := by omega
  have hfinal : ∃ h', (getSize env e).2.header = some h' ∧ (getSize env e).2.size = 2 ^ 64 - 1 := by
    unfold getSize at hn ⊢
    rcases hcase with hc | hc
    · rw [if_pos hc] at hn ⊢
      obtain ⟨r, e', hg, h1, h2, _, h3, _⟩ := getDataSize_spec hv hi he
      rw [hg] at hn ⊢
      cases r with
      | ub => cases hn
      | err => cases hn
      | ok u =>
        refine ⟨_, (h3 rfl).2.2.1 _ _ hk, ?_⟩
        have := (h3 rfl).1
        rw [hs, hn'] at this
        exact (Option.some.inj this).symm
    · rw [if_neg hc] at hn
      rw [← Res.ok.inj hn] at hn'
      exact absurd hn' hc
  obtain ⟨h', hh, hsz⟩ := hfinal
  generalize (getSize env e).2 = e2 at hh hsz
  unfold getSize
  rw [if_pos hsz]
  unfold getDataSize
  rw [if_pos (by rw [hh]; rfl)]

/-- Contents that are returned come from where the method stores them, are decoded with its algorithm and have the uncompressed size; files that are damaged
or have another method are refused.

Missing for the full statement: compression method 5, see `c40_method5_zeros`. -/
theorem c40_source_partial (f : StoredFile) (hv : f.Valid) (e : Entry) (h : Reached f e) (env : Env) (he : Faithful f env) (h5 : ∀ n, f.kind ≠ .compressed 5 n)
    (s : Stream) (hs : (openStream env e).1 = ok s) : ∃ src, f.source? = some src ∧ Shows s src := by
  have ha := (openStream_spec hv (h.inv hv) he).2.2.1 s hs
  unfold actual at ha
  unfold StoredFile.source?
  cases hk : f.kind with
  | plain =>
    rw [hk] at ha
    cases ha
    exact ⟨_, rfl, .plain _ _⟩
  | damaged => rw [hk] at ha; cases ha
  | compressed m n =>
    rw [hk] at ha
    simp only at ha ⊢
    have hm5 : m ≠ 5 := fun h => h5 n (by rw [hk, h])
    by_cases h3 : m = 3
    · subst h3
      rw [if_pos rfl] at ha
      obtain ⟨d, hd, rfl⟩ := Option.map_eq_some_iff.1 ha
      exact ⟨_, by rw [hd]; rfl, .zlib _ _⟩
    by_cases h4 : m = 4
    · subst h4
      rw [if_neg (by decide), if_pos rfl] at ha
      obtain ⟨d, hd, rfl⟩ := Option.map_eq_some_iff.1 ha
      exact ⟨_, by rw [hd]; rfl, .zlib _ _⟩
    by_cases h7 : m = 7
    · subst h7
      rw [if_neg (by decide), if_neg (by decide), if_neg (by decide), if_pos rfl] at ha
      obtain ⟨d, hd, rfl⟩ := Option.map_eq_some_iff.1 ha
      exact ⟨_, by rw [hd]; rfl, .lzvn _ _⟩
    by_cases h8 : m = 8
    · subst h8
      rw [if_neg (by decide), if_neg (by decide), if_neg (by decide), if_neg (by decide), if_pos rfl] at ha
      obtain ⟨d, hd, rfl⟩ := Option.map_eq_some_iff.1 ha
      exact ⟨_, by rw [hd]; rfl, .lzvn _ _⟩
    rw [if_neg h3, if_neg h4, if_neg hm5, if_neg h7, if_neg h8] at ha
    cases ha

/-- The contents are available if nothing fails now, whatever failed before.

Missing for the full statement: LZFSE, see `c40_lzfse_refused`. -/
theorem c40_source_available_partial (f : StoredFile) (hv : f.Valid) (e : Entry) (h : Reached f e) (env : Env) (he : Healthy f env)
    (hk : ∀ m n, f.kind = .compressed m n → n ≠ 2 ^ 64 - 1) (src : Source) (hsrc : f.source? = some src) (hz : ∀ d n, src ≠ .decoded .lzfse d n) :
    ∃ s, (openStream env e).1 = ok s ∧ Shows s src := by
  have hav := (openStream_spec hv (h.inv hv) he.faithful).2.2.2 he hk
  unfold StoredFile.source? at hsrc
  cases hkk : f.kind with
  | plain =>
    rw [hkk] at hsrc
    cases hsrc
    exact ⟨_, hav (.extents f.size f.sparse) (by unfold actual; rw [hkk]), .plain _ _⟩
  | damaged => rw [hkk] at hsrc; cases hsrc
  | compressed m n =>
    rw [hkk] at hsrc
    simp only at hsrc
    split at hsrc
    all_goals try cases hsrc
    · obtain ⟨d, hd, rfl⟩ := Option.map_eq_some_iff.1 hsrc
      exact ⟨_, hav (.compressed d n 1) (by unfold actual; rw [hkk, hd]; rfl), .zlib _ _⟩
    · obtain ⟨d, hd, rfl⟩ := Option.map_eq_some_iff.1 hsrc
      exact ⟨_, hav (.compressed d n 1) (by unfold actual; rw [hkk, hd]; rfl), .zlib _ _⟩
    · obtain ⟨d, hd, rfl⟩ := Option.map_eq_some_iff.1 hsrc
      exact ⟨_, hav (.compressed d n 3) (by unfold actual; rw [hkk, hd]; rfl), .lzvn _ _⟩
    · obtain ⟨d, hd, rfl⟩ := Option.map_eq_some_iff.1 hsrc
      exact ⟨_, hav (.compressed d n 3) (by unfold actual; rw [hkk, hd]; rfl), .lzvn _ _⟩
    · obtain ⟨d, hd, rfl⟩ := Option.map_eq_some_iff.1 hsrc
      exact absurd rfl (hz _ _)
    · obtain ⟨d, hd, rfl⟩ := Option.map_eq_some_iff.1 hsrc
      exact absurd rfl (hz _ _)

/-- The contents of files compressed with LZFSE (methods 11 and 12) are never returned. -/
theorem c40_lzfse_refused (f : StoredFile) (hv : f.Valid) (e : Entry) (h : Reached f e) (env : Env) (he : Faithful f env) (m n : Nat) (hm : m = 11 ∨ m = 12)
    (hk : f.kind = .compressed m n) : (openStream env e).1 = err := by
  obtain ⟨h1, _, h2, _⟩ := openStream_spec hv (h.inv hv) he
  have hn : actual f = none := by
    unfold actual
    rw [hk]
    simp only
    rw [if_neg (by omega), if_neg (by omega), if_neg (by omega), if_neg (by omega), if_neg (by omega)]
  cases hr : (openStream env e).1 with
  | ub => exact absurd hr h1
  | err => rfl
  | ok s =>
    have := h2 s hr
    rw [hn] at this
    cases this

/-- Reading a compressed file from the attributes on: whatever failed before the contents were opened, the file then behaves like a plain file with the
decompressed contents; errors are returned only when the storage fails.

Missing for the full statement: as in `c11_history_partial`, damaged chunks and forks with too many blocks. -/
theorem c40_contents_partial (f : StoredFile) (hv : f.Valid) (e : Entry) (h : Reached f e) (env : Env) (he : Faithful f env)
    (algorithm : Algorithm) (D content : Bytes) (hsrc : f.source? = some (.decoded algorithm D content.length)) (s : Stream) (hs : (openStream env e).1 = ok s)
    (c : Codec) (hc : CodecOk c) (blocks : List Bytes) (hS : Stored (if algorithm = .zlib then methodDeflate else methodLzvn) D blocks)
    (hH : Holds (plain c (if algorithm = .zlib then methodDeflate else methodLzvn)) blocks content) (junk : Bytes) (hj : junk.length = 65536) :
    ∃ data size method handle, s = .compressed data size method ∧ Handle.init size method junk = ok handle ∧
      ∀ ops, (∀ r ∈ run c data ops handle, r ≠ ub) ∧ FileTrace content 0 (observed ops (run c data ops handle)) := by
  have h5 : ∀ n, f.kind ≠ .compressed 5 n := by
    intro n hk
    unfold StoredFile.source? at hsrc
    rw [hk] at hsrc
    cases hsrc
  obtain ⟨src, hsrc', hsh⟩ := c40_source_partial f hv e h env he h5 s hs
  rw [hsrc] at hsrc'
  cases hsrc'
  cases hsh with
  | zlib =>
    exact ⟨D, content.length, _, _, rfl, rfl, fun ops => c11_history_partial c hc methodDeflate D blocks content junk _ hS hH hj rfl ops⟩
  | lzvn =>
    exact ⟨D, content.length, _, _, rfl, rfl, fun ops => c11_history_partial c hc methodLzvn D blocks content junk _ hS hH hj rfl ops⟩

theorem offsets5 (v : Bytes) (h1 : 16 ≤ v.length) (h2 : v.length ≤ 65537) (h3 : v.take 4 = [0x66, 0x70, 0x6d, 0x63]) : getOffsets methodUnknown5 v = ok [16, v.length] := by
  have hb : bufferSize = 65537 := rfl
  unfold getOffsets
  rw [readInto0, ok_bind, h3, require_true (by simp), ok_bind, if_pos rfl, require_true (by omega), ok_bind]
  simp only [pure_eq, ok_bind, List.getLast?_singleton, ofMem_some]
  rw [require_true (by omega), ok_bind, if_pos trivial, require_true (by omega), ok_bind]
  have hr : readInto v 0 (v.length - 16) 16 = ok (v.drop 16) := by
    unfold readInto
    rw [if_neg (by omega)]
    simp only [Nat.zero_add]
    rw [List.take_of_length_le (by simp), if_neg (by simp; omega)]
  rw [hr, ok_bind, require_true (by simp), ok_bind, Nat.mod_eq_of_lt (by omega)]
  rfl

/-- A file with compression method 5, which is not a method that stores contents, is not refused: it is a file of zeros, whatever it holds.
So "unknown methods are refused" is false. -/
theorem c40_method5_zeros (f : StoredFile) (hv : f.Valid) (e : Entry) (h : Reached f e) (env : Env) (he : Healthy f env) (n : Nat) (hn : n < 2 ^ 63)
    (hk : f.kind = .compressed 5 n) (v : Bytes) (ha : f.attribute? decmpfs = some v) (hl : v.length ≤ 65537) (c : Codec) (junk : Bytes) :
    f.source? = none ∧ (openStream env e).1 = ok (.compressed v n methodUnknown5) ∧ ∃ handle, Handle.init n methodUnknown5 junk = ok handle ∧
      ∀ ops, (∀ r ∈ run c v ops handle, r ≠ ub) ∧ FileTrace (List.replicate n 0) 0 (observed ops (run c v ops handle)) := by
  have hv16 : 16 ≤ v.length ∧ v.take 4 = [0x66, 0x70, 0x6d, 0x63] := by
    unfold StoredFile.kind at hk
    rw [ha] at hk
    simp only at hk
    split at hk
    · cases hk
    · rename_i h16
      split at hk
      · rename_i h4
        rw [fpmc] at h4
        exact ⟨by omega, h4⟩
      · cases hk
  have hO := offsets5 v hv16.1 hl hv16.2
  refine ⟨by unfold StoredFile.source?; rw [hk]; rfl, ?_, ⟨0, n, methodUnknown5, none, junk, 0, none⟩, rfl, ?_⟩
  · refine (openStream_spec hv (h.inv hv) he.faithful).2.2.2 he ?_ _ ?_
    · intro m n' hk'
      rw [hk] at hk'
      cases hk'
      omega
    · unfold actual
      rw [hk, ha]
      rfl
  · intro ops
    suffices hs : ∀ hd : Handle, hd.size = n → hd.method = methodUnknown5 → (hd.table = none ∨ hd.table = some [16, v.length]) →
        (∀ r ∈ run c v ops hd, r ≠ ub) ∧ FileTrace (List.replicate n 0) hd.pos (observed ops (run c v ops hd)) from
      hs _ rfl rfl (Or.inl rfl)
    induction ops with
    | nil => intro hd _ _ _; exact ⟨by simp [run], FileTrace.nil⟩
    | cons oi ops ih =>
      obtain ⟨op, io⟩ := oi
      intro hd hz hm ht
      suffices hs : ∃ r h', step c v io op hd = (r, h') ∧ r ≠ ub ∧ (h'.size = n ∧ h'.method = methodUnknown5 ∧ (h'.table = none ∨ h'.table = some [16, v.length])) ∧
          FileStep (List.replicate n 0) (∃ a b, io a b = false) hd.pos op (match r with | .ok b => some b | _ => none) h'.pos by
        obtain ⟨r, h', e, hr, hI', hstep⟩ := hs
        obtain ⟨i1, i2⟩ := ih h' hI'.1 hI'.2.1 hI'.2.2
        simp only [run, e]
        refine ⟨?_, ?_⟩
        · intro x hx
          rcases List.mem_cons.1 hx with rfl | hx
          · exact hr
          · exact i1 x hx
        · exact FileTrace.cons hstep i2
      cases op with
      | seek o =>
        rcases seek_spec o hd with ⟨h0, e⟩ | ⟨h0, e⟩
        · refine ⟨ok [], { hd with pos := o.toNat }, by simp only [step, e], by simp, ⟨hz, hm, ht⟩, ?_⟩
          have := FileStep.seek (content := List.replicate n 0) (fault := ∃ a b, io a b = false) (pos := hd.pos) o.toNat
          rw [Int.toNat_of_nonneg h0] at this
          exact this
        · exact ⟨err, hd, by simp only [step, e], by simp, ⟨hz, hm, ht⟩, FileStep.seekNegative o h0⟩
      | read k =>
        simp only [step]
        have hbytes : ((List.replicate n (0 : UInt8)).drop hd.pos).take k = List.replicate (min k (n - hd.pos)) 0 := by
          rw [List.drop_replicate, List.take_replicate]
        have hread : FileStep (List.replicate n 0) (∃ a b, io a b = false) hd.pos (.read k) (some (List.replicate (min k (n - hd.pos)) 0)) (hd.pos + min k (n - hd.pos)) := by
          have := FileStep.read (content := List.replicate n 0) (fault := ∃ a b, io a b = false) (pos := hd.pos) k
          rw [hbytes, List.length_replicate] at this
          exact this
        unfold streamRead
        by_cases hp : hd.pos ≥ hd.size
        · rw [if_pos hp]
          refine ⟨ok [], hd, rfl, by simp, ⟨hz, hm, ht⟩, ?_⟩
          rw [show min k (n - hd.pos) = 0 by omega] at hread
          exact hread
        · rw [if_neg hp]
          unfold Compressed.read
          rw [if_neg (by omega)]
          have hgo : ∀ table, table = [16, v.length] → ∃ r h', (let h := { hd with table := some table }
              if h.pos ≥ h.size then (ok [], h)
              else if h.method = methodUnknown5 then
                let read_size := if min k (hd.size - hd.pos) > h.size - h.pos then h.size - h.pos else min k (hd.size - hd.pos)
                (ok (List.replicate read_size 0), { h with pos := h.pos + read_size })
              else
                match readLoop c v io table (h.pos / blockSize % 2 ^ 32) (h.pos % blockSize) (min k (hd.size - hd.pos)) [] h with
                | (.ok bs, h) => (ok bs, { h with pos := h.pos + bs.length })
                | (r, h) => (r, h)) = (r, h') ∧ r ≠ ub ∧ (h'.size = n ∧ h'.method = methodUnknown5 ∧ (h'.table = none ∨ h'.table = some [16, v.length])) ∧
              FileStep (List.replicate n 0) (∃ a b, io a b = false) hd.pos (.read k) (match r with | .ok b => some b | _ => none) h'.pos := by
            intro table htab
            simp only
            rw [if_neg hp, if_pos hm]
            refine ⟨_, _, rfl, by simp, ⟨hz, hm, Or.inr (by rw [htab])⟩, ?_⟩
            simp only
            rw [if_neg (by omega), hz]
            exact hread
          rcases ht with ht | ht
          · rw [ht]
            by_cases hio : io 0 4 = true
            · simp only [hio, ↓reduceIte]
              rw [hm, hO]
              have := hgo _ rfl
              rw [hm] at this
              exact this
            · simp only [hio]
              exact ⟨err, hd, rfl, by simp, ⟨hz, hm, Or.inl ht⟩, FileStep.readFault k ⟨0, 4, by simpa using hio⟩⟩
          · rw [ht]
            exact hgo _ rfl

/-! Cases that meet the hypotheses. -/

/-- a file compressed with zlib in its resource fork, with another attribute in a data stream -/
def sampleFile : StoredFile where
  identifier := 17
  attributes := [
    { name := Spec.resourceFork, value := [1, 2, 3], stream := some (99, List.replicate 32 7) },
    { name := Spec.decmpfs, value := [0x66, 0x70, 0x6d, 0x63, 4, 0, 0, 0, 44, 1, 0, 0, 0, 0, 0, 0] }]
  size := 0
  sparse := false

/-- the same with method 5 -/
def sampleFile5 : StoredFile where
  identifier := 17
  attributes := [{ name := Spec.decmpfs, value := [0x66, 0x70, 0x6d, 0x63, 5, 0, 0, 0, 44, 1, 0, 0, 0, 0, 0, 0] }]
  size := 0
  sparse := false

/-- storage and memory allocation that do not fail -/
def sampleEnv (f : StoredFile) (extents : Nat → Bytes) : Env where
  attributes := FsTree.readAll Records.readAttribute (f.attributes.map (·.record f.identifier))
  compare n s := ok (decide (n = s ++ [0]))
  extentData id _ := ok (extents id)
  buffer := ok ()
  extents := ok ()
  stream := ok ()

theorem sampleFile_valid : sampleFile.Valid := by
  refine ⟨?_, ?_, by decide⟩
  · intro x hx
    simp only [sampleFile, List.mem_cons, List.not_mem_nil, or_false] at hx
    rcases hx with rfl | rfl
    · exact ⟨by decide +kernel, by decide, by decide, by decide⟩
    · exact ⟨by decide +kernel, by show _ < _; decide⟩
  · simp only [sampleFile, List.pairwise_cons, List.mem_cons, List.not_mem_nil, or_false, forall_eq, false_imp_iff, implies_true, List.Pairwise.nil, and_true]
    decide +kernel

theorem sampleFile_healthy : Healthy sampleFile (sampleEnv sampleFile fun _ => [1, 2, 3]) := by
  refine ⟨rfl, ?_, ?_, rfl, rfl, rfl⟩
  · intro x _ s
    show ok (decide (x.name ++ [0] = s ++ [0])) = _
    congr 1
    exact decide_eq_decide.2 ⟨List.append_cancel_right, fun h => by rw [h]⟩
  · intro x hx s hs
    simp only [sampleFile, List.mem_cons, List.not_mem_nil, or_false] at hx
    rcases hx with rfl | rfl
    · rfl
    · cases hs

/-- an environment in which the second comparison fails -/
def failingEnv : Env := { sampleEnv sampleFile fun _ => [1, 2, 3] with compare := fun n s => if n = Spec.decmpfs ++ [0] then err else ok (decide (n = s ++ [0])) }

theorem failingEnv_faithful : Faithful sampleFile failingEnv := by
  refine ⟨Or.inr rfl, ?_, fun x hx s hs => Or.inr (sampleFile_healthy.extentData x hx s hs), by simp [failingEnv, sampleEnv], by simp [failingEnv, sampleEnv], by simp [failingEnv, sampleEnv]⟩
  intro x hx s
  by_cases hn : x.name ++ [0] = Spec.decmpfs ++ [0]
  · exact Or.inl (if_pos hn)
  · exact Or.inr ((if_neg hn).trans (sampleFile_healthy.compare x hx s))

/-- after a call that failed with a pointer into attributes that are freed, the contents come from the resource fork -/
example : (after failingEnv .size { inodeSize := 0, inodeFlags := 0 }).fork.isSome = true ∧ (after failingEnv .size { inodeSize := 0, inodeFlags := 0 }).attributes = none ∧
    (openStream (sampleEnv sampleFile fun _ => [1, 2, 3]) (after failingEnv .size { inodeSize := 0, inodeFlags := 0 })).1 = ok (.compressed [1, 2, 3] 300 1) := by
  decide +kernel

example : Reached sampleFile (after failingEnv .size { inodeSize := 0, inodeFlags := 0 }) := .call failingEnv .size (.new 0 rfl) failingEnv_faithful

example : sampleFile.source? = some (.decoded .zlib [1, 2, 3] 300) ∧ sampleFile.size? = some 300 := by decide +kernel

example : sampleFile5.kind = .compressed 5 300 ∧ sampleFile5.source? = none := by decide +kernel

end Verif.Props
