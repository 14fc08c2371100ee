import Verif.Model.Compression
import Verif.Spec.CompressedFile
/-! Lemmas about the compressed data handle model -/
namespace Verif
open Res Spec
namespace Compressed

/-- decoded block `i` -/
def blk (c : Codec) (method : Nat) (D : Bytes) (T : List Nat) (i : Nat) : Option Bytes :=
  match T[i]?, T[i + 1]? with
  | some a, some b =>
    if b < a then none
    else if ((D.drop a).take (b - a)).length ≠ b - a then none
    else match decompressData c method ((D.drop a).take (b - a)) blockSize with
      | .ok out => some out
      | .fail _ _ => none
  | _, _ => none

/-- neighbouring offsets differ by at most the buffer size -/
def Steps (T : List Nat) : Prop := ∀ (i a b : Nat), T[i]? = some a → T[i + 1]? = some b → b - a ≤ bufferSize

/-- output and junk of a decompressor stay inside of the output buffer -/
def CodecOk (c : Codec) : Prop := ∀ d cap, (∀ out, c.zlib d cap = .ok out → out.length ≤ cap) ∧ (∀ s j, c.zlib d cap = .fail s j → j.length ≤ cap) ∧
  (∀ out, c.lzvn d cap = .ok out → out.length ≤ cap) ∧ (∀ s j, c.lzvn d cap = .fail s j → j.length ≤ cap)

theorem rawChunk_le {d : Bytes} {cap : Nat} : (∀ out, rawChunk d cap = .ok out → out.length ≤ cap ∧ out = d.drop 1) ∧
    (∀ s j, rawChunk d cap = .fail s j → j.length ≤ cap) := by
  unfold rawChunk
  split
  · simp
  · split
    · simp
    · split
      · simp
      · rename_i h
        simp
        omega

theorem decompressData_le {c : Codec} (hc : CodecOk c) (method : Nat) (d : Bytes) (cap : Nat) :
    (∀ out, decompressData c method d cap = .ok out → out.length ≤ cap) ∧
    (∀ s j, decompressData c method d cap = .fail s j → j.length ≤ cap) := by
  obtain ⟨h1, h2, h3, h4⟩ := hc d cap
  obtain ⟨r1, r2⟩ := rawChunk_le (d := d) (cap := cap)
  unfold decompressData
  split
  · split
    · exact ⟨fun o h => (r1 o h).1, r2⟩
    · exact ⟨h1, h2⟩
  · split
    · split
      · exact ⟨fun o h => (r1 o h).1, r2⟩
      · exact ⟨h3, h4⟩
    · simp

/-- the cached segment is a decoded block -/
def Cached (c : Codec) (D : Bytes) (T : List Nat) (h : Handle) : Prop :=
  h.seg.length = blockSize ∧
  ∀ j, h.cur = some j → ∃ out, blk c h.method D T j = some out ∧ out.length ≤ blockSize ∧ h.segSize = out.length ∧
    h.seg.take out.length = out ∧ ((j + 1) * blockSize % 2 ^ 32 < h.size → out.length = blockSize)

/-- what an operation leaves unchanged -/
def Same (h h' : Handle) : Prop := h'.pos = h.pos ∧ h'.size = h.size ∧ h'.method = h.method ∧ h'.table = h.table

theorem Same.refl (h : Handle) : Same h h := ⟨rfl, rfl, rfl, rfl⟩
theorem Same.trans {a b c : Handle} (h : Same a b) (g : Same b c) : Same a c :=
  ⟨g.1.trans h.1, g.2.1.trans h.2.1, g.2.2.1.trans h.2.2.1, g.2.2.2.trans h.2.2.2⟩

theorem length_overwrite {seg out : Bytes} (h : out.length ≤ seg.length) : (overwrite seg out).length = seg.length := by
  simp [overwrite]; omega

theorem readInto_le {D : Bytes} {n off : Nat} (h : n ≤ bufferSize) : readInto D 0 n off = ok ((D.drop off).take n) := by
  unfold readInto
  unfold bufferSize blockSize at h
  rw [if_neg (by omega), if_neg (by simp; unfold bufferSize blockSize; omega)]

/-- Loading a block: without a read error it succeeds exactly if the block decodes to an acceptable size. -/
theorem loadBlock_spec {c : Codec} (hc : CodecOk c) {D : Bytes} {io : Nat → Nat → Bool} {T : List Nat} (hT : Steps T) {i : Nat}
    (hi : i + 1 < T.length) {h : Handle} (hseg : h.seg.length = blockSize) :
    (∃ h', loadBlock c D io T i h = (ok (), h') ∧ Same h h' ∧ h'.cur = some i ∧ Cached c D T h') ∨
    (∃ h', loadBlock c D io T i h = (err, h') ∧ Same h h' ∧ h'.seg.length = blockSize ∧ h'.cur = h.cur ∧
      ((h' = h ∧ ∃ o s, io o s = false) ∨ blk c h.method D T i = none ∨
        ∃ out, blk c h.method D T i = some out ∧ out.length ≠ blockSize ∧ (i + 1) * blockSize % 2 ^ 32 < h.size)) := by
  have h1 : T[i]? = some T[i] := List.getElem?_eq_getElem (by omega)
  have h2 : T[i + 1]? = some T[i + 1] := List.getElem?_eq_getElem hi
  have hs := hT i _ _ h1 h2
  unfold loadBlock
  simp only [h1, h2]
  have hblk : blk c h.method D T i = if T[i + 1] < T[i] then none
    else if ((D.drop T[i]).take (T[i + 1] - T[i])).length ≠ T[i + 1] - T[i] then none
    else match decompressData c h.method ((D.drop T[i]).take (T[i + 1] - T[i])) blockSize with
      | .ok out => some out
      | .fail _ _ => none := by unfold blk; simp only [h1, h2]
  generalize T[i] = a at *
  generalize T[i + 1] = b at *
  by_cases hlt : b < a
  · right
    exact ⟨h, by rw [if_pos hlt], Same.refl h, hseg, rfl, Or.inr (Or.inl (by rw [hblk, if_pos hlt]))⟩
  rw [if_neg hlt]
  rw [if_neg hlt] at hblk
  by_cases hio : io a (b - a) = false
  · right
    exact ⟨h, by rw [if_pos hio], Same.refl h, hseg, rfl, Or.inl ⟨rfl, _, _, hio⟩⟩
  rw [if_neg hio, readInto_le hs]
  simp only
  by_cases hl : ((D.drop a).take (b - a)).length ≠ b - a
  · right
    exact ⟨h, by rw [if_pos hl], Same.refl h, hseg, rfl, Or.inr (Or.inl (by rw [hblk, if_pos hl]))⟩
  rw [if_neg hl]
  rw [if_neg hl] at hblk
  obtain ⟨d1, d2⟩ := decompressData_le hc h.method ((D.drop a).take (b - a)) blockSize
  cases hdec : decompressData c h.method ((D.drop a).take (b - a)) blockSize with
  | fail size junk =>
    right
    rw [hdec] at hblk
    refine ⟨_, rfl, ⟨rfl, rfl, rfl, rfl⟩, ?_, rfl, Or.inr (Or.inl hblk)⟩
    rw [length_overwrite (by rw [hseg]; exact d2 _ _ hdec)]
    exact hseg
  | ok out =>
    rw [hdec] at hblk
    have hle := d1 _ hdec
    have hlen : (overwrite h.seg out).length = blockSize := by rw [length_overwrite (by rw [hseg]; exact hle)]; exact hseg
    simp only
    by_cases hcond : (i + 1) * blockSize % 2 ^ 32 < h.size ∧ out.length ≠ blockSize
    · right
      rw [if_pos hcond]
      refine ⟨_, rfl, ⟨rfl, rfl, rfl, rfl⟩, hlen, rfl, Or.inr (Or.inr ⟨out, hblk, hcond.2, hcond.1⟩)⟩
    · left
      rw [if_neg hcond]
      refine ⟨_, rfl, ⟨rfl, rfl, rfl, rfl⟩, rfl, hlen, ?_⟩
      intro j hj
      cases hj
      refine ⟨out, hblk, hle, rfl, by simp [overwrite], ?_⟩
      intro hsz
      exact Decidable.byContradiction fun hne => hcond ⟨hsz, hne⟩

/-- the byte at position `q` of the file, if its block decodes -/
def byteAt (b : Nat → Option Bytes) (q : Nat) : Option UInt8 := (b (q / blockSize)).bind (fun out => out[q % blockSize]?)

/-- every block that decodes has its full share of a file of `size` bytes -/
def Covers (b : Nat → Option Bytes) (size : Nat) : Prop :=
  ∀ i out, b i = some out → min size ((i + 1) * blockSize) ≤ i * blockSize + out.length

theorem readLoop_zero {c : Codec} {D : Bytes} {io : Nat → Nat → Bool} {T : List Nat} {i off : Nat} {acc : Bytes} {h : Handle} :
    readLoop c D io T i off 0 acc h = (ok acc, h) := by
  unfold readLoop
  exact if_pos rfl

/-- The read loop. `good` is the case in which no block of the range fails to decode. -/
theorem readLoop_spec {c : Codec} (hc : CodecOk c) {D : Bytes} {io : Nat → Nat → Bool} {T : List Nat} (hT : Steps T)
    (i off n : Nat) (acc : Bytes) (h : Handle) (hcov : Covers (blk c h.method D T) h.size) (hoff : off < blockSize)
    (hn : i * blockSize + off + n ≤ h.size) (hbig : h.size ≤ 0xffff0000) (hC : Cached c D T h) :
    (∃ bs h', readLoop c D io T i off n acc h = (ok (acc ++ bs), h') ∧ Same h h' ∧ Cached c D T h' ∧ bs.length = n ∧
      ∀ k, k < n → byteAt (blk c h.method D T) (i * blockSize + off + k) = bs[k]?) ∨
    (∃ h', readLoop c D io T i off n acc h = (err, h') ∧ Same h h' ∧
      ((Cached c D T h' ∧ ∃ o s, io o s = false) ∨
        ∃ q, i * blockSize + off ≤ q ∧ q < i * blockSize + off + n ∧ byteAt (blk c h.method D T) q = none)) := by
  fun_induction readLoop c D io T i off n acc h with
  | case1 i off acc h =>
    left
    exact ⟨[], h, by simp, Same.refl h, hC, rfl, by omega⟩
  | case2 i off n acc h hn0 hi =>
    right
    refine ⟨h, rfl, Same.refl h, Or.inr ⟨i * blockSize + off, by omega, by omega, ?_⟩⟩
    have : (i * blockSize + off) / blockSize = i := by unfold blockSize at *; omega
    unfold byteAt
    rw [this]
    have : T[i + 1]? = none := List.getElem?_eq_none (by omega)
    unfold blk
    cases T[i]? <;> simp [this]
  | case3 i off n acc h hn0 hi h' hld =>
    exfalso
    split at hld
    · cases hld
    · rcases loadBlock_spec hc (io := io) hT (show i + 1 < T.length by omega) hC.1 (D := D) with ⟨_, e, _⟩ | ⟨_, e, _⟩ <;>
        (rw [e] at hld; cases hld)
  | case4 i off n acc h hn0 hi h' hld =>
    right
    split at hld
    · cases hld
    · rename_i hcur
      have hdiv : (i * blockSize + off) / blockSize = i := by unfold blockSize at *; omega
      have hmod : (i * blockSize + off) % blockSize = off := by unfold blockSize at *; omega
      rcases loadBlock_spec hc (io := io) hT (show i + 1 < T.length by omega) hC.1 (D := D) with ⟨_, e, _⟩ | ⟨h'', e, hS, hl, hcur', hwhy⟩
      · rw [e] at hld; cases hld
      · rw [e] at hld; cases hld
        refine ⟨_, rfl, hS, ?_⟩
        rcases hwhy with ⟨rfl, hf⟩ | hnone | ⟨out, ho, hne, hlt⟩
        · exact Or.inl ⟨hC, hf⟩
        · refine Or.inr ⟨i * blockSize + off, by omega, by omega, ?_⟩
          unfold byteAt
          rw [hdiv, hnone]; rfl
        · exfalso
          have := hcov i out ho
          have hle : out.length ≤ blockSize := by
            unfold blk at ho
            split at ho
            · split at ho
              · cases ho
              · split at ho
                · cases ho
                · split at ho
                  · rename_i hd; cases ho; exact (decompressData_le hc _ _ _).1 _ hd
                  · cases ho
            · cases ho
          unfold blockSize at *
          omega
  | case5 i off n acc h hn0 hi h' hld hoff' =>
    -- the block is too short
    exfalso
    have key : Cached c D T h' ∧ Same h h' ∧ h'.cur = some i := by
      split at hld
      · cases hld; rename_i hcur; exact ⟨hC, Same.refl _, hcur⟩
      · rcases loadBlock_spec hc (io := io) hT (show i + 1 < T.length by omega) hC.1 (D := D) with ⟨h'', e, hS, hcur, hC'⟩ | ⟨_, e, _⟩
        · rw [e] at hld; cases hld; exact ⟨hC', hS, hcur⟩
        · rw [e] at hld; cases hld
    obtain ⟨hC', hS, hcur⟩ := key
    obtain ⟨out, ho, hle, hsz, htk, hfull⟩ := hC'.2 i hcur
    rw [hS.2.2.1] at ho
    have := hcov i out ho
    unfold blockSize at *
    omega
  | case6 i off n acc h hn0 hi h' hld hoff' rs bs hrd hpos ih =>
    have key : Cached c D T h' ∧ Same h h' ∧ h'.cur = some i := by
      split at hld
      · cases hld; rename_i hcur; exact ⟨hC, Same.refl _, hcur⟩
      · rcases loadBlock_spec hc (io := io) hT (show i + 1 < T.length by omega) hC.1 (D := D) with ⟨h'', e, hS, hcur, hC'⟩ | ⟨_, e, _⟩
        · rw [e] at hld; cases hld; exact ⟨hC', hS, hcur⟩
        · rw [e] at hld; cases hld
    obtain ⟨hC', hS, hcur⟩ := key
    obtain ⟨out, ho, hle, hsz, htk, hfull⟩ := hC'.2 i hcur
    have ho' := ho
    rw [hS.2.2.1] at ho'
    have hcv := hcov i out ho'
    have hrs : rs = min n (out.length - off) := by
      show (if h'.segSize - off > n then n else h'.segSize - off) = _
      split <;> omega
    clear_value rs
    have hseg := hC'.1
    have hbs : bs = (out.drop off).take rs := by
      have hle2 : off + rs ≤ h'.seg.length := by omega
      rw [rdN_le hle2] at hrd
      cases hrd
      rw [← htk, List.drop_take, List.take_take]
      congr 1
      omega
    have hbl : bs.length = rs := by rw [hbs]; simp; omega
    have hbyte : ∀ k, k < rs → byteAt (blk c h.method D T) (i * blockSize + off + k) = bs[k]? := by
      intro k hk
      have e1 : (i * blockSize + off + k) / blockSize = i := by unfold blockSize at *; omega
      have e2 : (i * blockSize + off + k) % blockSize = off + k := by unfold blockSize at *; omega
      unfold byteAt
      rw [e1, e2, ho', hbs]
      simp [hk]
    have hnext : n - rs = 0 ∨ (i + 1) * blockSize + 0 = i * blockSize + off + rs := by unfold blockSize at *; omega
    rw [hS.2.2.1, hS.2.1] at ih
    have ih := fun a => ih hcov (by unfold blockSize; omega) a hbig
    rcases hnext with hz | hnx
    · -- the request is satisfied
      left
      refine ⟨bs, h', (congrArg (fun m => readLoop c D io T (i + 1) 0 m (acc ++ bs) h') hz).trans readLoop_zero, hS, hC', by omega, ?_⟩
      intro k hk
      exact hbyte k (by omega)
    · rcases ih (by omega) hC' with ⟨bs', h'', e, hS', hC'', hl', hb'⟩ | ⟨h'', e, hS', hwhy⟩
      · left
        refine ⟨bs ++ bs', h'', by rw [e, List.append_assoc], hS.trans hS', hC'', by simp; omega, ?_⟩
        intro k hk
        by_cases hk' : k < rs
        · rw [hbyte k hk', List.getElem?_append_left (by omega)]
        · rw [List.getElem?_append_right (by omega), hbl, ← hb' (k - rs) (by omega), hnx]
          exact congrArg (byteAt _) (by omega)
      · right
        refine ⟨h'', e, hS.trans hS', ?_⟩
        rcases hwhy with hw | ⟨q, q1, q2, q3⟩
        · exact Or.inl hw
        · exact Or.inr ⟨q, by omega, by omega, q3⟩
  | case7 i off n acc h hn0 hi h' hld hoff' rs bs hrd hpos =>
    exfalso
    apply hpos
    show 0 < (if h'.segSize - off > n then n else h'.segSize - off)
    split <;> omega
  | case8 i off n acc h hn0 hi h' hld hoff' rs hrd =>
    exfalso
    have key : Cached c D T h' ∧ Same h h' ∧ h'.cur = some i := by
      split at hld
      · cases hld; rename_i hcur; exact ⟨hC, Same.refl _, hcur⟩
      · rcases loadBlock_spec hc (io := io) hT (show i + 1 < T.length by omega) hC.1 (D := D) with ⟨h'', e, hS, hcur, hC'⟩ | ⟨_, e, _⟩
        · rw [e] at hld; cases hld; exact ⟨hC', hS, hcur⟩
        · rw [e] at hld; cases hld
    obtain ⟨hC', hS, hcur⟩ := key
    obtain ⟨out, ho, hle, hsz, htk, hfull⟩ := hC'.2 i hcur
    have hseg := hC'.1
    have hrs : rs ≤ h'.segSize - off := by
      show (if h'.segSize - off > n then n else h'.segSize - off) ≤ _
      split <;> omega
    exact hrd _ (rdN_le (by omega))

end Compressed
end Verif
