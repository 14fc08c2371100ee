import Verif.Model.Session
import Verif.Props.C42
import Verif.Props.C22
import Verif.Props.C50
import Verif.Props.C32
import Verif.Lemmas.CompressionTable
/-!
# Memory safety of the parts of a session: locking state, data streams and compressed data
-/
namespace Verif
open Res
namespace Session

/-! ## Locking state -/
section Locking
open KeyBag Volume

/-- the packed keys of a key bag are parsed without leaving them -/
def KeysFit (type : Nat) (es : List KeyBag.Entry) : Prop := ∀ e ∈ es, e.type = type → readKek e.data e.data.length ≠ ub

def Short (o : Option Bytes) : Prop := ∀ pw, o = some pw → pw.length ≤ 2 ^ 63 - 1

theorem safe_try {p : Prims} (hp : PrimsOk p enc) {k : Kek} (hk : k.Sized) {o : Option Bytes} (ho : Short o) {key : Bytes} (hkey : key.length = 32) :
    Safe (match o with | some pw => unlockWithPassword p k pw key | none => ok none) := by
  cases o with
  | none => exact safe_ok _
  | some pw => exact unlockWithPassword_safe hp hk pw key (ho pw rfl) hkey

theorem pw_length {p : Prims} (hp : PrimsOk p enc) {k : Kek} (hk : k.Sized) {o : Option Bytes} {key v : Bytes} (hkey : key.length = 32)
    (h : (match o with | some pw => unlockWithPassword p k pw key | none => ok none) = ok (some v)) (ho : Short o) : v.length = 32 := by
  cases o with
  | none => cases h
  | some pw =>
    obtain ⟨n, vk, h1, _, h3, h4⟩ := unlockWithPassword_some hp hk pw key (ho pw rfl) hkey h
    rcases h1.le with h1 | h1 <;> (rw [h4, List.length_append, List.length_drop]; omega)

theorem volumeKey_safe {p : Prims} (hp : PrimsOk p enc) {user recovery : Option Bytes} (hu : Short user) (hr : Short recovery) {key : Bytes} (hkey : key.length = 32) (es : List KeyBag.Entry)
    (h : KeysFit 3 es) : Safe (getVolumeKey p user recovery key es) ∧ ∀ v, getVolumeKey p user recovery key es = ok (some v) → v.length = 32 := by
  induction es with
  | nil => exact ⟨safe_ok _, fun v h => by cases h⟩
  | cons e es ih =>
    have ih := ih fun e' he' => h e' (List.mem_cons_of_mem _ he')
    unfold getVolumeKey
    by_cases ht : e.type = 3
    case neg => rw [if_pos ht]; exact ih
    rw [if_neg (by simp [ht])]
    constructor
    · refine safe_bind (h e (List.mem_cons_self ..) ht) fun k hk => ?_
      have hk := readKek_sized hk
      refine safe_bind (safe_try hp hk hu hkey) fun r _ => ?_
      refine safe_bind ?_ fun r _ => ?_
      · cases r with
        | none =>
          have := safe_try hp hk hr hkey
          cases recovery <;> exact this
        | some v => exact safe_ok _
      · cases r with
        | none => exact ih.1
        | some v => exact safe_ok _
    · intro v hv
      obtain ⟨k, hk, hv⟩ := bind_eq_ok.1 hv
      have hk := readKek_sized hk
      obtain ⟨r, h1, hv⟩ := bind_eq_ok.1 hv
      obtain ⟨r', h2, hv⟩ := bind_eq_ok.1 hv
      cases r' with
      | none => exact ih.2 v hv
      | some w =>
        cases hv
        cases r with
        | none =>
          refine pw_length (o := recovery) hp hk hkey (v := v) ?_ hr
          cases recovery <;> exact h2
        | some u =>
          have : ok (some u) = ok (some v) := by cases recovery <;> exact h2
          cases this
          exact pw_length hp hk hkey h1 hu

theorem masterKey_safe {p : Prims} (hp : PrimsOk p enc) (uuid : Bytes) {vkey key : Bytes} (hv : vkey.length = 32) (hkey : key.length = 32) (es : List KeyBag.Entry)
    (h : KeysFit 2 es) : Safe (getMasterKey p uuid vkey key es) ∧ ∀ v, getMasterKey p uuid vkey key es = ok (some v) → v.length = 32 := by
  induction es with
  | nil => exact ⟨safe_ok _, fun v h => by cases h⟩
  | cons e es ih =>
    have ih := ih fun e' he' => h e' (List.mem_cons_of_mem _ he')
    unfold getMasterKey
    by_cases ht : e.type = 2
    case neg => rw [if_pos ht]; exact ih
    rw [if_neg (by simp [ht])]
    by_cases hi : e.identifier = uuid
    case neg => rw [if_pos hi]; exact ih
    rw [if_neg (by simp [hi])]
    constructor
    · refine safe_bind (h e (List.mem_cons_self ..) ht) fun k hk => ?_
      have hk := readKek_sized hk
      refine safe_bind (unlockWithKey_safe hp hk _ _ hv hkey) fun r _ => ?_
      cases r with
      | none => exact ih.1
      | some v => exact safe_ok _
    · intro v h
      obtain ⟨k, hk, h⟩ := bind_eq_ok.1 h
      have hk := readKek_sized hk
      obtain ⟨r, h1, h⟩ := bind_eq_ok.1 h
      cases r with
      | none => exact ih.2 v h
      | some w =>
        cases h
        obtain ⟨n, mk, h2, _, h4, h5⟩ := unlockWithKey_some hp hk _ _ hv hkey h1
        rcases h2.le with hn | hn
        · rw [h5, if_neg (by omega), List.length_append, List.length_take, hp.sha]; omega
        · rw [h5, if_pos hn]; omega

theorem unlock_safe {p : Prims} (hp : PrimsOk p enc) {vk mk : Bytes} (hv : vk.length = 32) (hm : mk.length = 32) {s : State} (hu : Short s.user) (hr : Short s.recovery)
    (hk : ∀ es, s.keyBag = some es → KeysFit 3 es) (hc : KeysFit 2 s.containerBag) : Safe (unlock p vk mk s) := by
  unfold unlock
  split
  · exact safe_ok _
  · rename_i es hes
    obtain ⟨h1, h2⟩ := volumeKey_safe hp hu hr hv es (hk es hes)
    refine safe_bind h1 fun r hr => ?_
    cases r with
    | none => exact safe_ok _
    | some v =>
      obtain ⟨h3, h4⟩ := masterKey_safe hp s.uuid (h2 v hr) hm s.containerBag hc
      refine safe_bind h3 fun r hr => ?_
      cases r with
      | none => exact safe_err
      | some m =>
        have := h4 m hr
        exact safe_bind (safe_rdN (by omega)) fun _ _ => safe_bind (safe_rdN (by omega)) fun _ _ => safe_ok _

/-- what unlocking leaves as it was -/
structure Kept (s s' : State) : Prop where
  bag : s'.keyBag = s.keyBag
  cbag : s'.containerBag = s.containerBag

theorem unlock_kept {p : Prims} {vk mk : Bytes} {s : State} {r : State × Bool} (h : unlock p vk mk s = ok r) : Kept s r.1 ∧ r.1.user = s.user ∧ r.1.recovery = s.recovery := by
  unfold unlock at h
  split at h
  · cases h; exact ⟨⟨rfl, rfl⟩, rfl, rfl⟩
  · obtain ⟨r1, _, h⟩ := bind_eq_ok.1 h
    cases r1 with
    | none => cases h; exact ⟨⟨rfl, rfl⟩, rfl, rfl⟩
    | some v =>
      obtain ⟨r2, _, h⟩ := bind_eq_ok.1 h
      cases r2 with
      | none => cases h
      | some m =>
        obtain ⟨_, _, h⟩ := bind_eq_ok.1 h
        obtain ⟨_, _, h⟩ := bind_eq_ok.1 h
        cases h; exact ⟨⟨rfl, rfl⟩, rfl, rfl⟩

theorem getFileSystem_kept {p : Prims} {vk mk : Bytes} {b : Bool} {s s' : State} (h : getFileSystem p vk mk b s = ok s') : Kept s s' ∧ s'.user = s.user ∧ s'.recovery = s.recovery := by
  unfold getFileSystem at h
  split at h
  · cases h; exact ⟨⟨rfl, rfl⟩, rfl, rfl⟩
  · obtain ⟨s1, h1, h⟩ := bind_eq_ok.1 h
    have h1 : Kept s s1 ∧ s1.user = s.user ∧ s1.recovery = s.recovery := by
      split at h1
      · obtain ⟨r, h2, h1⟩ := bind_eq_ok.1 h1
        cases h1
        exact unlock_kept h2
      · cases h1; exact ⟨⟨rfl, rfl⟩, rfl, rfl⟩
    obtain ⟨⟨a, b⟩, c, d⟩ := h1
    split at h <;> (cases h; exact ⟨⟨a, b⟩, c, d⟩)

theorem getFileSystem_safe {p : Prims} (hp : PrimsOk p enc) {vk mk : Bytes} (hv : vk.length = 32) (hm : mk.length = 32) {s : State} (hu : Short s.user) (hr : Short s.recovery)
    (hk : ∀ es, s.keyBag = some es → KeysFit 3 es) (hc : KeysFit 2 s.containerBag) (b : Bool) : Safe (getFileSystem p vk mk b s) := by
  unfold getFileSystem
  split
  · exact safe_ok _
  · refine safe_bind ?_ fun _ _ => ?_
    · split
      · exact safe_bind (unlock_safe hp hv hm hu hr hk hc) fun _ _ => safe_ok _
      · exact safe_ok _
    · split <;> exact safe_ok _

theorem run_safe {p : Prims} (hp : PrimsOk p enc) (ops : List Op) (ho : ∀ o ∈ ops, Props.OpOk o) (s : State) (hu : Short s.user) (hr : Short s.recovery)
    (hk : ∀ es, s.keyBag = some es → KeysFit 3 es) (hc : KeysFit 2 s.containerBag) : Safe (run p s ops) ∧ ∀ s', run p s ops = ok s' → s'.keyBag = s.keyBag := by
  induction ops generalizing s with
  | nil => exact ⟨safe_ok _, fun s' h => by cases h; rfl⟩
  | cons o ops ih =>
    have ho1 := ho o (List.mem_cons_self ..)
    have ih := ih fun o h => ho o (List.mem_cons_of_mem _ h)
    have hstep : ∃ s1, step p s o = ok s1 ∧ Kept s s1 ∧ Short s1.user ∧ Short s1.recovery := by
      cases o with
      | setUser pw =>
        refine ⟨_, rfl, ⟨rfl, rfl⟩, ?_, hr⟩
        intro q hq
        cases pw with
        | none => cases hq
        | some pw => cases hq; exact ho1
      | setRecovery pw =>
        refine ⟨_, rfl, ⟨rfl, rfl⟩, hu, ?_⟩
        intro q hq
        cases pw with
        | none => cases hq
        | some pw => cases hq; exact ho1
      | unlock vk mk =>
        show ∃ s1, (if s.isLocked = true then _ else _) = _ ∧ _
        split
        · have := unlock_safe hp ho1.1 ho1.2 hu hr hk hc
          cases h : unlock p vk mk s with
          | ok r =>
            obtain ⟨h1, h2, h3⟩ := unlock_kept h
            exact ⟨_, rfl, h1, by rw [h2]; exact hu, by rw [h3]; exact hr⟩
          | err => exact ⟨_, rfl, ⟨rfl, rfl⟩, hu, hr⟩
          | ub => exact absurd h this
        · exact ⟨_, rfl, ⟨rfl, rfl⟩, hu, hr⟩
      | getFileSystem vk mk b =>
        have := getFileSystem_safe hp ho1.1 ho1.2 hu hr hk hc b
        show ∃ s1, (match getFileSystem p vk mk b s with | .ok s => ok s | .err => ok s | .ub => ub) = _ ∧ _
        cases h : getFileSystem p vk mk b s with
        | ok r =>
          obtain ⟨h1, h2, h3⟩ := getFileSystem_kept h
          exact ⟨_, rfl, h1, by rw [h2]; exact hu, by rw [h3]; exact hr⟩
        | err => exact ⟨_, rfl, ⟨rfl, rfl⟩, hu, hr⟩
        | ub => exact absurd h this
      | isLocked => exact ⟨_, rfl, ⟨rfl, rfl⟩, hu, hr⟩
    obtain ⟨s1, h1, h2, h3, h4⟩ := hstep
    unfold run
    rw [h1, ok_bind]
    obtain ⟨i1, i2⟩ := ih s1 h3 h4 (by rw [h2.bag]; exact hk) (by rw [h2.cbag]; exact hc)
    exact ⟨i1, fun s' h => by rw [i2 s' h, h2.bag]⟩

end Locking

/-! ## Data streams -/
section Streams
open DataStream

/-- an extent whose numbers fit: blocks before 2^63 and bytes that end before 2^63; sectors are whole if they are encrypted -/
def ExtentFits (encrypted : Bool) (e : Extent) : Prop := e.physical < 2 ^ 63 ∧ e.physical * 4096 % 2 ^ 64 + e.size ≤ 2 ^ 63 ∧ (encrypted = true → e.size % 512 = 0)

/-- what reading the storage gives -/
structure DiskOk (disk : Nat → Nat → Res Bytes) : Prop where
  safe : ∀ o n, Safe (disk o n)
  size : ∀ o n d, disk o n = ok d → d.length = n

theorem buildVector_safe (bs : Nat) (sparse : Bool) (es : List Extent) (i l : Nat) : Safe (buildVector bs sparse es i l) := by
  induction es generalizing i l with
  | nil => exact safe_ok _
  | cons e es ih => exact safe_bind safe_require fun _ _ => safe_bind safe_require fun _ _ => safe_bind (ih _ _) fun _ _ => safe_ok _

/-- each segment is made from an extent -/
theorem buildVector_mem {bs : Nat} {sparse : Bool} {es : List Extent} {i l : Nat} {segs : List Segment} (h : buildVector bs sparse es i l = ok segs) {s : Segment} (hs : s ∈ segs) :
    ∃ j e, es[j]? = some e ∧ s.fileIndex = i + j ∧ s.offset = e.physical * bs % 2 ^ 64 ∧ s.size = e.size := by
  induction es generalizing i l segs with
  | nil => cases h; cases hs
  | cons e es ih =>
    obtain ⟨_, _, h⟩ := bind_eq_ok.1 h
    obtain ⟨_, _, h⟩ := bind_eq_ok.1 h
    obtain ⟨r, h1, h⟩ := bind_eq_ok.1 h
    cases h
    rcases List.mem_cons.1 hs with rfl | hs
    · exact ⟨0, e, rfl, rfl, rfl, rfl⟩
    · obtain ⟨j, e', a, b, c, d⟩ := ih h1 hs
      exact ⟨j + 1, e', a, by omega, c, d⟩

theorem findSegment_mem {segs : List Segment} {off : Nat} {s : Segment} {o : Nat} (h : findSegment segs off = some (s, o)) : s ∈ segs ∧ o < s.size := by
  induction segs generalizing off with
  | nil => cases h
  | cons a as ih =>
    unfold findSegment at h
    split at h
    · cases h; exact ⟨List.mem_cons_self .., by assumption⟩
    · have := ih h
      exact ⟨List.mem_cons_of_mem _ this.1, this.2⟩

/-- offsets of elements are multiples of the block size if the sizes of the segments before are; what matters here: a whole block or the rest of a segment -/
structure HandleOk (h : Handle) : Prop where
  disk : DiskOk h.disk
  bs : h.bs = 4096
  bps : h.bps = 512
  xts : ∀ f, h.xts = some f → ∀ t d, (f t d).length = d.length
  segs : ∀ s ∈ h.segs, ∃ e, h.extents[s.fileIndex]? = some e ∧ s.offset = e.physical * 4096 % 2 ^ 64 ∧ s.size = e.size ∧ ExtentFits h.xts.isSome e

theorem initHandle_safe {disk : Nat → Nat → Res Bytes} (hd : DiskOk disk) {xts : Option (Bytes → Bytes → Bytes)} (hx : ∀ f, xts = some f → ∀ t d, (f t d).length = d.length)
    {es : List Extent} (he : ∀ e ∈ es, ExtentFits xts.isSome e) (sparse : Bool) :
    Safe (initHandle disk 4096 512 xts es sparse) ∧ ∀ h, initHandle disk 4096 512 xts es sparse = ok h → HandleOk h := by
  refine ⟨safe_bind (buildVector_safe _ _ _ _ _) fun _ _ => safe_ok _, fun h hh => ?_⟩
  obtain ⟨segs, h1, hh⟩ := bind_eq_ok.1 hh
  cases hh
  refine ⟨hd, rfl, rfl, hx, fun s hs => ?_⟩
  obtain ⟨j, e, a, b, c, d⟩ := buildVector_mem h1 hs
  exact ⟨e, by simpa [b] using a, c, d, he e (List.mem_of_getElem? a)⟩

theorem findSegment_mod {segs : List Segment} {off : Nat} {s : Segment} {o : Nat} (h : findSegment segs off = some (s, o)) (hs : ∀ s ∈ segs, s.size % 512 = 0) (ho : off % 512 = 0) :
    o % 512 = 0 := by
  induction segs generalizing off with
  | nil => cases h
  | cons a as ih =>
    have := hs a (List.mem_cons_self ..)
    unfold findSegment at h
    split at h
    · cases h; exact ho
    · exact ih h (fun s h => hs s (List.mem_cons_of_mem _ h)) (by omega)

theorem toInt64_small {n : Nat} (h : n < 2 ^ 63) : toInt64 n = n := by
  unfold toInt64
  rw [Nat.mod_eq_of_lt (by omega), if_pos h]

theorem readBlock_safe {h : Handle} (hh : HandleOk h) {off : Nat} {s : Segment} {o : Nat} (hf : findSegment h.segs (off / 4096 * 4096) = some (s, o)) :
    Safe (readBlock h s o (min 4096 (s.size - o))) := by
  obtain ⟨hm, ho⟩ := findSegment_mem hf
  obtain ⟨e, h1, h2, h3, h4, h5, h6⟩ := hh.segs s hm
  unfold readBlock
  split
  · exact safe_ok _
  split
  · omega
  simp only [h1]
  rw [toInt64_small h4]
  have hd : (s.offset + o) / (min 4096 (s.size - o)) ≤ s.offset + o := Nat.div_le_self _ _
  generalize (s.offset + o) / (min 4096 (s.size - o)) = q at hd ⊢
  rw [if_pos (by omega)]
  refine safe_bind (safe_ok _) fun id _ => safe_bind (hh.disk.safe _ _) fun d hd => ?_
  have hl := hh.disk.size _ _ _ hd
  unfold Crypto.readDataBlock
  refine safe_bind safe_require fun _ _ => ?_
  cases hx : h.xts with
  | none => exact safe_ok _
  | some f =>
    rw [hh.bps]
    have hmod := findSegment_mod hf (fun s' hs' => by
      obtain ⟨e', _, _, g3, _, _, g6⟩ := hh.segs s' hs'
      rw [g3]; exact g6 (by rw [hx]; rfl)) (by omega)
    have := h6 (by rw [hx]; rfl)
    exact Container.safe_crypt f (hh.xts f hx) d _ 512 (by omega) (by omega) _

theorem blockAt_safe {h : Handle} (hh : HandleOk h) (off : Nat) : Safe (blockAt h off) := by
  unfold blockAt element
  rw [hh.bs]
  cases hf : findSegment h.segs (off / 4096 * 4096) with
  | none => exact safe_err
  | some r => exact safe_bind (readBlock_safe hh hf) fun _ _ => safe_ok _

theorem readLoop_safe {blockAt : Nat → Res (Bytes × Nat)} (hb : ∀ o, Safe (blockAt o)) (size off n : Nat) : Safe (DataStream.readLoop blockAt size off n) := by
  induction n using Nat.strongRecOn generalizing off with
  | _ n ih =>
    unfold DataStream.readLoop
    split
    · exact safe_ok _
    · have := hb off
      cases hr : blockAt off with
      | err => exact safe_err
      | ub => exact absurd hr this
      | ok r =>
        obtain ⟨b, bo⟩ := r
        simp only
        split
        · exact safe_err
        · split
          · exact safe_ok _
          · have := ih (n - min (b.length - bo) n) (by omega) (off + min (b.length - bo) n)
            cases hr : DataStream.readLoop blockAt size (off + min (b.length - bo) n) (n - min (b.length - bo) n) with
            | ok r => exact safe_ok _
            | err => exact safe_err
            | ub => exact absurd hr this

theorem streamRead_safe {h : Handle} (hh : HandleOk h) (size off n : Nat) : Safe (DataStream.streamRead h size off n) := by
  unfold DataStream.streamRead
  split
  · exact safe_ok _
  · refine safe_bind (safe_bind safe_require fun _ _ => ?_) fun _ _ => safe_ok _
    split
    · exact safe_ok _
    · exact readLoop_safe (blockAt_safe hh) _ _ _

end Streams

/-! ## Compressed data -/
section Compressed
open Verif.Compressed

/-- a resource fork with zlib compressed data whose table of blocks fits in the buffer of the handle, or is refused before it is read -/
def ForkFits (D : Bytes) : Prop := D.length ≤ 65537 ∨ forkCount D ≤ 8159 ∨ 2 ^ 25 - 1 < forkCount D

/-- decompressors that stay inside of the output buffer and never report more than its size -/
structure CodecFits (c : Codec) : Prop where
  ok : CodecOk c
  zlib : ∀ d cap s j, c.zlib d cap = .fail s j → s ≤ cap
  lzvn : ∀ d cap s j, c.lzvn d cap = .fail s j → s ≤ cap

theorem fail_le {c : Codec} (hc : CodecFits c) {m : Nat} {d : Bytes} {cap s : Nat} {j : Bytes} (h : decompressData c m d cap = .fail s j) : s ≤ cap := by
  have hraw : rawChunk d cap = .fail s j → s ≤ cap := by
    unfold rawChunk
    repeat' split
    all_goals (intro h; cases h)
    all_goals exact Nat.le_refl _
  unfold decompressData at h
  repeat' split at h
  · exact hraw h
  · exact hc.zlib _ _ _ _ h
  · exact hraw h
  · exact hc.lzvn _ _ _ _ h
  · cases h; exact Nat.le_refl _

structure CompOk (D : Bytes) (h : Verif.Compressed.Handle) : Prop where
  seg : h.seg.length = blockSize
  size : h.segSize ≤ blockSize
  table : ∀ T, h.table = some T → Steps T
  fits : h.method = methodDeflate → ForkFits D

theorem offsets_safe {D : Bytes} {method : Nat} (hf : method = methodDeflate → ForkFits D) : Safe (getOffsets method D) ∧ ∀ T, getOffsets method D = ok T → Steps T := by
  rcases getOffsets_spec method D hf with h | ⟨f, r, h, hm⟩
  · rw [h]; exact ⟨safe_err, fun _ h => by cases h⟩
  · rw [h]
    exact ⟨safe_ok _, fun T hT => by cases hT; exact hm.steps _ (Nat.mod_le _ _)⟩

theorem loadBlock_safe {c : Codec} (hc : CodecFits c) {D : Bytes} {io : Nat → Nat → Bool} {T : List Nat} (hT : Steps T) {i : Nat} (hi : i + 1 < T.length)
    {h : Verif.Compressed.Handle} (hh : CompOk D h) : (loadBlock c D io T i h).1 ≠ ub ∧ CompOk D (loadBlock c D io T i h).2 := by
  have h1 : T[i]? = some T[i] := List.getElem?_eq_getElem (by omega)
  have h2 : T[i + 1]? = some T[i + 1] := List.getElem?_eq_getElem hi
  have hs := hT i _ _ h1 h2
  unfold loadBlock
  simp only [h1, h2]
  split
  · exact ⟨by simp, hh⟩
  split
  · exact ⟨by simp, hh⟩
  rw [readInto_le hs]
  simp only
  split
  · exact ⟨by simp, hh⟩
  generalize ((D.drop T[i]).take (T[i + 1] - T[i])) = bs
  have hle := decompressData_le hc.ok h.method bs blockSize
  cases hd : decompressData c h.method bs blockSize with
  | fail s j => exact ⟨by simp, ⟨by rw [← hh.seg]; exact length_overwrite (by rw [hh.seg]; exact hle.2 s j hd), fail_le hc hd, hh.table, hh.fits⟩⟩
  | ok out =>
    have ho : CompOk D { h with seg := overwrite h.seg out, segSize := out.length } :=
      ⟨by rw [← hh.seg]; exact length_overwrite (by rw [hh.seg]; exact hle.1 out hd), hle.1 out hd, hh.table, hh.fits⟩
    simp only
    split
    · exact ⟨by simp, ho⟩
    · exact ⟨by simp, ⟨ho.seg, ho.size, ho.table, ho.fits⟩⟩

theorem compLoop_safe {c : Codec} (hc : CodecFits c) {D : Bytes} {io : Nat → Nat → Bool} {T : List Nat} (hT : Steps T) (n i off : Nat) (acc : Bytes)
    {h : Verif.Compressed.Handle} (hh : CompOk D h) :
    (Verif.Compressed.readLoop c D io T i off n acc h).1 ≠ ub ∧ CompOk D (Verif.Compressed.readLoop c D io T i off n acc h).2 := by
  induction n using Nat.strongRecOn generalizing i off acc h with
  | _ n ih =>
    unfold Verif.Compressed.readLoop
    split
    · exact ⟨by simp, hh⟩
    split
    · exact ⟨by simp, hh⟩
    have hl : (if h.cur = some i then (ok (), h) else loadBlock c D io T i h).1 ≠ ub ∧ CompOk D (if h.cur = some i then (ok (), h) else loadBlock c D io T i h).2 := by
      split
      · exact ⟨by simp, hh⟩
      · exact loadBlock_safe hc hT (by omega) hh
    revert hl
    generalize (if h.cur = some i then (ok (), h) else loadBlock c D io T i h) = r
    intro hl
    obtain ⟨r, h'⟩ := r
    cases r with
    | ub => exact absurd rfl hl.1
    | err => exact ⟨by simp, hl.2⟩
    | ok u =>
      have hh' : CompOk D h' := hl.2
      have e1 := hh'.seg
      have e2 := hh'.size
      simp only
      split
      · exact ⟨by simp, hh'⟩
      · rw [rdN_le (by split <;> omega)]
        simp only
        rw [dif_pos (by split <;> omega)]
        exact ih _ (by split <;> omega) _ _ _ hh'

/-- the part of `read` behind the table of blocks -/
theorem afterTable_safe {c : Codec} (hc : CodecFits c) {D : Bytes} (io : Nat → Nat → Bool) (n : Nat) {h : Verif.Compressed.Handle} (hh : CompOk D h) (r : Res (List Nat))
    (out : Res Bytes × Verif.Compressed.Handle)
    (ho : out = match r with
      | .ub => (ub, h)
      | .err => (err, h)
      | .ok table =>
        let h := { h with table := some table }
        if h.pos ≥ h.size then (ok [], h)
        else if h.method = methodUnknown5 then
          let read_size := if n > h.size - h.pos then h.size - h.pos else n
          (ok (List.replicate read_size 0), { h with pos := h.pos + read_size })
        else
          match Verif.Compressed.readLoop c D io table (h.pos / blockSize % 2 ^ 32) (h.pos % blockSize) n [] h with
          | (.ok bs, h) => (ok bs, { h with pos := h.pos + bs.length })
          | (r, h) => (r, h)) (hr : r ≠ ub) (hT : ∀ T, r = ok T → Steps T) : out.1 ≠ ub ∧ CompOk D out.2 := by
  subst ho
  cases r with
  | ub => exact absurd rfl hr
  | err => exact ⟨by simp, hh⟩
  | ok T =>
    have hT := hT T rfl
    have hh' : CompOk D { h with table := some T } := ⟨hh.seg, hh.size, fun T' e => by cases e; exact hT, hh.fits⟩
    simp only
    split
    · exact ⟨by simp, hh'⟩
    split
    · exact ⟨by simp, ⟨hh'.seg, hh'.size, hh'.table, hh'.fits⟩⟩
    · have := compLoop_safe hc hT n (h.pos / blockSize % 2 ^ 32) (h.pos % blockSize) [] (io := io) hh'
      revert this
      generalize Verif.Compressed.readLoop c D io T (h.pos / blockSize % 2 ^ 32) (h.pos % blockSize) n [] { h with table := some T } = r
      intro this
      obtain ⟨r, h'⟩ := r
      cases r with
      | ub => exact absurd rfl this.1
      | err => exact ⟨by simp, this.2⟩
      | ok bs => exact ⟨by simp, ⟨this.2.seg, this.2.size, this.2.table, this.2.fits⟩⟩

theorem compRead_safe {c : Codec} (hc : CodecFits c) {D : Bytes} (io : Nat → Nat → Bool) (n : Nat) {h : Verif.Compressed.Handle} (hh : CompOk D h) :
    (Verif.Compressed.streamRead c D io n h).1 ≠ ub ∧ CompOk D (Verif.Compressed.streamRead c D io n h).2 := by
  unfold Verif.Compressed.streamRead
  split
  · exact ⟨by simp, hh⟩
  generalize min n (h.size - h.pos) = n
  unfold Verif.Compressed.read
  split
  · exact ⟨by simp, hh⟩
  refine afterTable_safe hc io n hh _ _ rfl ?_ ?_
  · split
    · simp
    · split
      · exact (offsets_safe hh.fits).1
      · simp
  · intro T hT
    split at hT
    · rename_i t ht
      cases hT; exact hh.table _ ht
    · split at hT
      · exact (offsets_safe hh.fits).2 T hT
      · cases hT

end Compressed
end Session
end Verif
