import Verif.Lemmas.CompressionHistory
import Verif.Props.C10
/-!
# C11 – random access to a compressed file equals slicing its decompressed contents

Full statement (false, see `c11_stale_segment`): for any compressed file, whatever happened before, a successful read returns
the bytes of the decompressed contents.
-/
namespace Verif.Props
open Verif Res Spec Compressed

/-- the ways in which chunks can be stored, with the sizes libfsapfs supports -/
inductive Stored : Nat → Bytes → List Bytes → Prop
  | lzvn (blocks : List Bytes) : 1 ≤ blocks.length → blocks.length ≤ 16383 → (∀ b ∈ blocks, b.length ≤ 65537) →
      (lzvnFork blocks).length < 2 ^ 32 → Stored methodLzvn (lzvnFork blocks) blocks
  | zlib (head size : Bytes) (sizes : List Nat) (blocks : List Bytes) : head.length = 252 → size.length = 4 →
      sizes.length = blocks.length → 1 ≤ blocks.length → blocks.length ≤ 8159 → (∀ b ∈ blocks, b.length ≤ 65537) →
      (zlibFork head size sizes blocks).length < 2 ^ 32 → Stored methodDeflate (zlibFork head size sizes blocks) blocks
  | inline (method : Nat) (head block : Bytes) : method = methodDeflate ∨ method = methodLzvn → head.length = 12 →
      (inlineAttribute head block).length ≤ 65537 → Stored method (inlineAttribute head block) [block]

theorem stored_layout {method : Nat} {D : Bytes} {blocks : List Bytes} (h : Stored method D blocks) :
    (method = methodDeflate ∨ method = methodLzvn) ∧ ∃ T, getOffsets method D = ok T ∧ Layout D T blocks := by
  cases h with
  | lzvn _ h1 h2 hb hl =>
    refine ⟨Or.inr rfl, _, lzvn_offsets blocks h1 (by omega) hb hl, ?_⟩
    have hD : lzvnFork blocks = (starts (4 * (blocks.length + 1)) blocks ++ [4 * (blocks.length + 1) + blocks.flatten.length]).flatMap (toLE 4) ++ blocks.flatten := rfl
    have hp : ((starts (4 * (blocks.length + 1)) blocks ++ [4 * (blocks.length + 1) + blocks.flatten.length]).flatMap (toLE 4)).length
        = 4 * (blocks.length + 1) := by
      rw [length_flatMap_const (toLE 4) 4 (by simp), List.length_append, length_starts, List.length_singleton]
      omega
    have := layout_of _ _ blocks [(lzvnFork blocks).length] hD
    rw [hp] at this
    refine this ?_
    have hE : (lzvnFork blocks).length = 4 * (blocks.length + 1) + blocks.flatten.length := by rw [hD, List.length_append, hp]
    rw [hE]
    cases blocks with
    | nil => simp at h1
    | cons b bs =>
      have hm := starts_mono (4 * ((b :: bs).length + 1)) b bs hb
      obtain ⟨e, he⟩ : ∃ e, e = 4 * ((b :: bs).length + 1) + (b :: bs).flatten.length := ⟨_, rfl⟩
      rw [← he] at hm ⊢
      have hm2 : Mono (4 * ((b :: bs).length + 1)) ((starts (4 * ((b :: bs).length + 1) + b.length) bs ++ [e]) ++ [e]) := by
        refine hm.append ?_
        intro a ha
        rw [← List.cons_append, List.getLast?_append] at ha
        simp at ha
        omega
      have := hm2.steps e (Nat.le_refl e)
      rw [List.append_assoc] at this
      exact this
  | zlib head size sizes _ hh hs hz h1 h2 hb hl =>
    refine ⟨Or.inl rfl, _, zlib_offsets head size sizes blocks hh hs hz h1 h2 hb hl, ?_⟩
    have hD : zlibFork head size sizes blocks = (zlibFork head size sizes blocks).take (264 + 8 * blocks.length) ++ blocks.flatten := by
      have h2 : (zlibFork head size sizes blocks).drop (264 + 8 * blocks.length) = blocks.flatten := by
        rw [← List.drop_drop, zlib_drop264 head size sizes blocks hh hs, List.drop_left']
        rw [length_flatMap_const (fun p : Nat × Nat => toLE 4 p.1 ++ toLE 4 p.2) 8 (by simp), List.length_zip, length_starts, hz]
        omega
      rw [← h2, List.take_append_drop]
    have hE := length_zlibFork head size sizes blocks hh hs hz
    have hp : ((zlibFork head size sizes blocks).take (264 + 8 * blocks.length)).length = 264 + 8 * blocks.length := by
      rw [List.length_take, hE]; omega
    have := layout_of _ _ blocks [] hD
    rw [hp] at this
    refine this ?_
    rw [hE]
    cases blocks with
    | nil => simp at h1
    | cons b bs => exact Mono.steps (starts_mono (264 + 8 * (b :: bs).length) b bs hb) _ (Nat.le_refl _)
  | inline _ head block hm hh hb =>
    have hne : ¬ method = methodUnknown5 := by rcases hm with h | h <;> rw [h] <;> decide
    refine ⟨hm, _, inline_offsets method head block hne hh hb, ?_⟩
    have := layout_of ([0x66, 0x70, 0x6d, 0x63] ++ head) (inlineAttribute head block) [block] [] (by simp [inlineAttribute])
    simp only [List.length_append, hh] at this
    refine this ?_
    have hl : (inlineAttribute head block).length = 16 + block.length := by simp [inlineAttribute, hh]; omega
    exact Mono.steps (f := 16) (r := []) (z := (inlineAttribute head block).length)
      ⟨by omega, by unfold bufferSize blockSize; omega, trivial⟩ _ (Nat.le_refl _)

/-- For a file whose chunks all decode: every history of seeks and reads, with reads from the storage failing at any time, is
one of a plain file with the decompressed contents; errors are returned only when the storage fails.

Missing for the full statement: files with chunks that do not decode (see `c11_stale_segment`), zlib forks with 8160 blocks
or more (see `c12_table_overflow`) and LZVN forks with 16384 blocks or more (see `c12_large_lzvn_refused`). -/
theorem c11_history_partial (c : Codec) (hc : CodecOk c) (method : Nat) (D : Bytes) (blocks : List Bytes) (content junk : Bytes) (h : Handle)
    (hS : Stored method D blocks) (hH : Holds (plain c method) blocks content) (hj : junk.length = 65536) (hi : Handle.init content.length method junk = ok h) (ops : List (FileOp × (Nat → Nat → Bool))) :
    (∀ r ∈ run c D ops h, r ≠ ub) ∧ FileTrace content 0 (observed ops (run c D ops h)) := by
  obtain ⟨hm, T, hO, hL⟩ := stored_layout hS
  have hbig : content.length ≤ 0xffff0000 := by
    have := hH.1
    have : blocks.length ≤ 16383 := by
      cases hS with
      | lzvn _ _ h => exact h
      | zlib _ _ _ _ _ _ _ _ h => omega
      | inline => simp
    omega
  unfold Handle.init at hi
  split at hi
  · cases hi
  · cases hi
    exact run_spec hc hm hO hbig hL hH ops _ ⟨rfl, rfl, Or.inl rfl, hj, by simp⟩

/-- In any file, damaged or not: as long as no earlier operation failed, reads return the bytes of the decoded chunks
(`content` has those where they decode and anything elsewhere) and only undecodable positions or the storage cause an error.

Missing for the full statement: what follows a failure to decode, and files with a last chunk that decodes to less than the file
size. -/
theorem c11_until_failure_partial (c : Codec) (hc : CodecOk c) (method : Nat) (D : Bytes) (T : List Nat) (content junk : Bytes) (h : Handle)
    (hm : method = methodDeflate ∨ method = methodLzvn) (hO : getOffsets method D = ok T)
    (hfit : method = methodDeflate → D.length ≤ 65537 ∨ forkCount D ≤ 8159 ∨ 2 ^ 25 - 1 < forkCount D)
    (hcov : Covers (blk c method D T) content.length) (hbig : content.length ≤ 0xffff0000)
    (hcon : ∀ q (hq : q < content.length), byteAt (blk c method D T) q = none ∨ byteAt (blk c method D T) q = some content[q])
    (hj : junk.length = 65536) (hi : Handle.init content.length method junk = ok h) (ops : List (FileOp × (Nat → Nat → Bool)))
    (op : FileOp) (io : Nat → Nat → Bool) (hall : ∀ r ∈ run c D ops h, r ≠ err) :
    (∀ r ∈ run c D (ops ++ [(op, io)]) h, r ≠ ub) ∧
    FileTrace content 0 (observed ops (run c D ops h)) ∧
    ((∃ (n : Nat) (r : List (Res Bytes)), op = .read n ∧ run c D (ops ++ [(op, io)]) h = r ++ [err] ∧
        ((∃ o s, io o s = false) ∨ ∃ q, q < content.length ∧ byteAt (blk c method D T) q = none)) ∨
      FileTrace content 0 (observed (ops ++ [(op, io)]) (run c D (ops ++ [(op, io)]) h))) := by
  have hT : Steps T := by
    rcases getOffsets_spec method D hfit with h | ⟨f, r, h, hm⟩
    · rw [h] at hO; cases hO
    · rw [h] at hO
      cases hO
      exact hm.steps _ (Nat.mod_le _ _)
  have hI : Inv c method content.length D T h ∧ h.pos = 0 := by
    unfold Handle.init at hi
    split at hi
    · cases hi
    · cases hi
      exact ⟨⟨rfl, rfl, Or.inl rfl, hj, by simp⟩, rfl⟩
  clear hi
  obtain ⟨hI, hp0⟩ := hI
  rw [← hp0]
  clear hp0
  have hone : ∀ (op : FileOp) (io : Nat → Nat → Bool) (h : Handle), Inv c method content.length D T h →
      ((step c D io op h).1 ≠ ub) ∧
      ((∃ n, op = .read n ∧ (step c D io op h).1 = err ∧ ((∃ o s, io o s = false) ∨ ∃ q, q < content.length ∧ byteAt (blk c method D T) q = none)) ∨
      (Inv c method content.length D T (step c D io op h).2 ∧
      FileStep content (∃ a b, io a b = false) h.pos op (match (step c D io op h).1 with | .ok b => some b | _ => none) (step c D io op h).2.pos)) := by
    intro op io h hI
    cases op with
    | seek o =>
      rcases seek_spec o h with ⟨h0, e⟩ | ⟨h0, e⟩
      · simp only [step, e]
        refine ⟨by simp, Or.inr ⟨hI.of_same rfl rfl rfl (hI.cached.congr rfl rfl rfl rfl rfl), ?_⟩⟩
        have := FileStep.seek (content := content) (fault := ∃ a b, io a b = false) (pos := h.pos) o.toNat
        rw [Int.toNat_of_nonneg h0] at this
        exact this
      · simp only [step, e]
        exact ⟨by simp, Or.inr ⟨hI, FileStep.seekNegative o h0⟩⟩
    | read n =>
      simp only [step]
      rcases streamRead_spec hc (io := io) hT hm hO hbig hcov n h hI with ⟨bs, h', e, hI', hp, hl, hb⟩ | ⟨h', e, hp, hwhy⟩
      · simp only [e]
        refine ⟨by simp, Or.inr ⟨hI', ?_⟩⟩
        have hbs : bs = (content.drop h.pos).take n := by
          apply List.ext_getElem?
          intro k
          by_cases hk : k < bs.length
          · have hq : h.pos + k < content.length := by omega
            have h1 := hb k hk
            rw [List.getElem?_eq_getElem hk] at h1
            rcases hcon (h.pos + k) hq with h2 | h2
            · rw [h1] at h2; cases h2
            · rw [List.getElem?_eq_getElem hk, ← h1, h2, List.getElem?_take_of_lt (by omega), List.getElem?_drop,
                List.getElem?_eq_getElem hq]
          · rw [List.getElem?_eq_none (by omega), List.getElem?_eq_none (by simp; omega)]
        rw [hp, hbs]
        exact FileStep.read n
      · simp only [e]
        refine ⟨by simp, Or.inl ⟨n, rfl, trivial, ?_⟩⟩
        rcases hwhy with ⟨_, hio⟩ | ⟨q, _, _, q3, q4⟩
        · exact Or.inl hio
        · exact Or.inr ⟨q, q3, q4⟩
  induction ops generalizing h with
  | nil =>
    obtain ⟨h1, h2⟩ := hone op io h hI
    simp only [List.nil_append, run]
    refine ⟨by simpa using h1, FileTrace.nil, ?_⟩
    rcases h2 with ⟨n, h2, h3, h4⟩ | ⟨_, h3⟩
    · exact Or.inl ⟨n, [], h2, by rw [h3]; rfl, h4⟩
    · exact Or.inr (FileTrace.cons h3 FileTrace.nil)
  | cons oi ops ih =>
    obtain ⟨op', io'⟩ := oi
    obtain ⟨h1, h2⟩ := hone op' io' h hI
    rcases h2 with ⟨n, h2, h3, h4⟩ | ⟨hI', h3⟩
    · exact absurd h3 (hall _ (by simp [run]))
    · obtain ⟨i1, i2, i3⟩ := ih _ (fun r hr => hall r (by simp only [run]; exact List.mem_cons_of_mem _ hr)) hI'
      simp only [List.cons_append, run]
      refine ⟨?_, FileTrace.cons h3 i2, ?_⟩
      · intro r hr
        rcases List.mem_cons.1 hr with rfl | hr
        · exact h1
        · exact i1 r hr
      · rcases i3 with ⟨n, r, e1, e2, e3⟩ | i3
        · exact Or.inl ⟨n, _ :: r, e1, by rw [e2]; rfl, e3⟩
        · exact Or.inr (FileTrace.cons h3 i3)

/-- decompressors for the witnesses: chunk `[1]` stands for 65536 bytes `full`, everything else fails and leaves a 9 behind -/
def witnessCodec (full : Bytes) : Codec where
  zlib d _ := if d = [1] then .ok full else .fail 131072 []
  lzvn d cap := if d = [1] then .ok full else .fail cap [9]

def always : Nat → Nat → Bool := fun _ _ => true

/-- The segment cache goes stale: after a block failed to decode, a later read of the block named by the cache succeeds with
other bytes than before. -/
theorem c11_stale_segment (full junk : Bytes) (hf : full.length = 65536) (a : UInt8) (ha : full.head? = some a) :
    run (witnessCodec full) (lzvnFork [[1], [2]])
      [(.read 1, always), (.seek 65536, always), (.read 1, always), (.seek 0, always), (.read 1, always)]
      ⟨0, 131072, methodLzvn, none, junk, 0, none⟩ = [ok [a], ok [], err, ok [], ok [9]] := by
  have hT : getOffsets methodLzvn (lzvnFork [[1], [2]]) = ok [12, 13, 14, 14] := by decide +kernel
  have hr1 : readInto (lzvnFork [[1], [2]]) 0 1 12 = ok [1] := by decide +kernel
  have hr2 : readInto (lzvnFork [[1], [2]]) 0 1 13 = ok [2] := by decide +kernel
  obtain ⟨t, rfl⟩ : ∃ t, full = a :: t := by
    cases full with
    | nil => simp at hf
    | cons x t => simp at ha; exact ⟨t, by rw [ha]⟩
  have hd : decompressData (witnessCodec (a :: t)) methodLzvn [1] blockSize = .ok (a :: t) := rfl
  have hd2 : decompressData (witnessCodec (a :: t)) methodLzvn [2] blockSize = .fail 65536 [9] := rfl
  have hlen : ([1] : Bytes).length = 13 - 12 := rfl
  have hlen2 : ([2] : Bytes).length = 14 - 13 := rfl
  generalize lzvnFork [[1], [2]] = D at *
  have l1 : ∀ h : Handle, h.method = methodLzvn → h.size = 131072 → loadBlock (witnessCodec (a :: t)) D always [12, 13, 14, 14] 0 h =
      (ok (), { h with cur := some 0, seg := (a :: t) ++ h.seg.drop 65536, segSize := 65536 }) := by
    intro h hm hs
    unfold loadBlock
    simp only [List.getElem?_cons_zero, List.getElem?_cons_succ, always]
    rw [if_neg (by decide), if_neg (by decide), show 13 - 12 = 1 from rfl, hr1]
    simp only [hm, hd, overwrite, hf]
    rw [if_neg (by decide), if_neg (by unfold blockSize; omega)]
  have l2 : ∀ h : Handle, h.method = methodLzvn → loadBlock (witnessCodec (a :: t)) D always [12, 13, 14, 14] 1 h =
      (err, { h with seg := 9 :: h.seg.drop 1, segSize := 65536 }) := by
    intro h hm
    unfold loadBlock
    simp only [List.getElem?_cons_zero, List.getElem?_cons_succ, always]
    rw [if_neg (by decide), if_neg (by decide), show 14 - 13 = 1 from rfl, hr2]
    simp only [hm, hd2, overwrite]
    rw [if_neg (by decide)]
    rfl
  have rl : ∀ (x : UInt8) (r : Bytes) (h : Handle), (h.cur = some 0 → h.seg = x :: r ∧ h.segSize = 65536) →
      (h.cur = none → x = a ∧ r = t ++ h.seg.drop 65536 ∧ h.method = methodLzvn ∧ h.size = 131072) → (h.cur = some 0 ∨ h.cur = none) →
      readLoop (witnessCodec (a :: t)) D always [12, 13, 14, 14] 0 0 1 [] h =
      (ok [x], { h with cur := some 0, seg := x :: r, segSize := 65536 }) := by
    intro x r h h1 h2 h3
    unfold readLoop
    rw [if_neg (by decide), if_neg (by simp)]
    have : (if h.cur = some 0 then (ok (), h) else loadBlock (witnessCodec (a :: t)) D always [12, 13, 14, 14] 0 h) =
        (ok (), { h with cur := some 0, seg := x :: r, segSize := 65536 }) := by
      rcases h3 with h3 | h3
      · obtain ⟨e1, e2⟩ := h1 h3
        rw [if_pos h3, ← e1, ← e2, ← h3]
      · obtain ⟨e1, e2, e3, e4⟩ := h2 h3
        rw [if_neg (by rw [h3]; simp), l1 h e3 e4, e1, e2, List.cons_append]
    rw [this]
    simp only
    rw [if_neg (by decide), if_pos (by decide), rdN_le (by simp)]
    simp only [List.drop_zero, List.take_succ_cons, List.take_zero, List.nil_append]
    rw [dif_pos (by decide), readLoop_zero]
  have e1 : streamRead (witnessCodec (a :: t)) D always 1 ⟨0, 131072, methodLzvn, none, junk, 0, none⟩ =
      (ok [a], ⟨1, 131072, methodLzvn, some 0, a :: (t ++ junk.drop 65536), 65536, some [12, 13, 14, 14]⟩) := by
    unfold streamRead
    rw [if_neg (by simp only; omega)]
    unfold Compressed.read
    rw [if_neg (by simp only; omega)]
    simp only [always, if_true, hT]
    rw [if_neg (by omega), if_neg (by decide)]
    have := rl a (t ++ junk.drop 65536) ⟨0, 131072, methodLzvn, none, junk, 0, some [12, 13, 14, 14]⟩ (by simp) (by simp) (by simp)
    rw [show (0 / blockSize % 2 ^ 32) = 0 from rfl, show 0 % blockSize = 0 from rfl, show min 1 (131072 - 0) = 1 from rfl]
    rw [this]
    rfl
  have e2 : streamRead (witnessCodec (a :: t)) D always 1 ⟨65536, 131072, methodLzvn, some 0, a :: (t ++ junk.drop 65536), 65536, some [12, 13, 14, 14]⟩ =
      (err, ⟨65536, 131072, methodLzvn, some 0, 9 :: (t ++ junk.drop 65536), 65536, some [12, 13, 14, 14]⟩) := by
    unfold streamRead
    rw [if_neg (by simp only; omega)]
    unfold Compressed.read
    rw [if_neg (by simp only; omega)]
    simp only
    rw [if_neg (by omega), if_neg (by decide)]
    rw [show (65536 / blockSize % 2 ^ 32) = 1 from rfl, show 65536 % blockSize = 0 from rfl, show min 1 (131072 - 65536) = 1 from rfl]
    unfold readLoop
    rw [if_neg (by decide), if_neg (by simp), if_neg (by simp), l2 _ rfl]
    rfl
  have e3 : streamRead (witnessCodec (a :: t)) D always 1 ⟨0, 131072, methodLzvn, some 0, 9 :: (t ++ junk.drop 65536), 65536, some [12, 13, 14, 14]⟩ =
      (ok [9], ⟨1, 131072, methodLzvn, some 0, 9 :: (t ++ junk.drop 65536), 65536, some [12, 13, 14, 14]⟩) := by
    unfold streamRead
    rw [if_neg (by simp only; omega)]
    unfold Compressed.read
    rw [if_neg (by simp only; omega)]
    simp only
    rw [if_neg (by decide), if_neg (by decide)]
    have := rl 9 (t ++ junk.drop 65536) ⟨0, 131072, methodLzvn, some 0, 9 :: (t ++ junk.drop 65536), 65536, some [12, 13, 14, 14]⟩
      (by simp) (by simp) (by simp)
    rw [show (0 / blockSize % 2 ^ 32) = 0 from rfl, show 0 % blockSize = 0 from rfl, show min 1 (131072 - 0) = 1 from rfl, this]
    rfl
  have s1 : seek 65536 ⟨1, 131072, methodLzvn, some 0, a :: (t ++ junk.drop 65536), 65536, some [12, 13, 14, 14]⟩ =
      (ok (), ⟨65536, 131072, methodLzvn, some 0, a :: (t ++ junk.drop 65536), 65536, some [12, 13, 14, 14]⟩) := rfl
  have s2 : seek 0 ⟨65536, 131072, methodLzvn, some 0, 9 :: (t ++ junk.drop 65536), 65536, some [12, 13, 14, 14]⟩ =
      (ok (), ⟨0, 131072, methodLzvn, some 0, 9 :: (t ++ junk.drop 65536), 65536, some [12, 13, 14, 14]⟩) := rfl
  simp only [run, step, e1, e2, e3, s1, s2]

/-- With a decompressor that fails with a larger size (zlib's Z_BUF_ERROR doubles it, libfsapfs_compression.c 214-217) the
state after such a failure makes the next read of the cached block run over the end of the segment buffer. -/
theorem c11_overread_after_failure (c : Codec) (D seg : Bytes) (T : List Nat) (io : Nat → Nat → Bool) (size n : Nat) (hT : 2 ≤ T.length)
    (hs : seg.length = 65536) (hn : 65536 < n) (hn2 : n ≤ 131072) (hsz : n ≤ size) :
    (streamRead c D io n ⟨0, size, methodDeflate, some 0, seg, 131072, some T⟩).1 = ub := by
  unfold streamRead
  rw [if_neg (by simp only; omega)]
  unfold Compressed.read
  simp only [Nat.sub_zero, Nat.min_eq_left hsz]
  rw [if_neg (by omega)]
  rw [if_neg (by omega), if_neg (by decide), show (0 / blockSize % 2 ^ 32) = 0 from rfl, show 0 % blockSize = 0 from rfl]
  unfold readLoop
  rw [if_neg (by omega), if_neg (by omega), if_pos rfl]
  simp only [ge_iff_le]
  rw [if_neg (by omega), rdN_gt (by split <;> omega)]

example : Stored methodLzvn (lzvnFork [[6, 1, 2, 3]]) [[6, 1, 2, 3]] ∧
    Holds (plain ⟨builtinZlib (fun _ _ => []), fun _ _ => .ok []⟩ methodLzvn) [[6, 1, 2, 3]] [1, 2, 3] ∧
    run ⟨builtinZlib (fun _ _ => []), fun _ _ => .ok []⟩ (lzvnFork [[6, 1, 2, 3]]) [(.seek 1, always), (.read 9, always), (.seek (-1), always)]
      ⟨0, 3, methodLzvn, none, [], 0, none⟩ = [ok [], ok [2, 3], err] := by
  refine ⟨Stored.lzvn _ (by decide) (by decide) (by decide) (by decide), ⟨by decide, ?_⟩, by decide +kernel⟩
  intro i b h
  cases i with
  | zero => cases h; exact ⟨[1, 2, 3], by decide, by decide, by decide⟩
  | succ i => simp at h

end Verif.Props
