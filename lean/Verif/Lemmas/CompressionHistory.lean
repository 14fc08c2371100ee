import Verif.Lemmas.CompressionFork
/-! Lemmas: histories of operations on a compressed file -/
namespace Verif
open Res Spec
namespace Compressed

def DecOut.out? : DecOut → Option Bytes
  | .ok out => some out
  | .fail _ _ => none

/-- what a chunk of a file compressed with `method` stands for, given the decompressors -/
def plain (c : Codec) (method : Nat) : Bytes → Option Bytes :=
  if method = methodDeflate then chunk 0xff (fun d => DecOut.out? (c.zlib d 65536))
  else chunk 0x06 (fun d => DecOut.out? (c.lzvn d 65536))

theorem decompressData_plain {c : Codec} {method : Nat} (hm : method = methodDeflate ∨ method = methodLzvn) {b p : Bytes}
    (h : plain c method b = some p) (hp : p.length ≤ 65536) : decompressData c method b blockSize = .ok p := by
  have key : ∀ (m : UInt8) (o : DecOut), chunk m (fun _ => DecOut.out? o) b = some p →
      (if b.head? = some m then rawChunk b blockSize else o) = .ok p := by
    intro m o h
    unfold chunk at h
    by_cases hb : b.head? = some m
    · rw [if_pos hb] at h ⊢
      cases h
      simp only [List.length_drop] at hp
      unfold rawChunk blockSize
      rw [if_neg (by omega), if_neg (by omega), if_neg (by omega)]
    · rw [if_neg hb] at h ⊢
      cases o with
      | ok out => simp only [DecOut.out?, Option.some.injEq] at h; rw [h]
      | fail => exact nomatch h
  unfold plain at h
  unfold decompressData
  rcases hm with rfl | rfl
  · rw [if_pos rfl] at h ⊢
    exact key 0xff (c.zlib b 65536) h
  · rw [if_neg (by decide)] at h
    rw [if_neg (by decide), if_pos rfl]
    exact key 0x06 (c.lzvn b 65536) h

/-- the table `T` of stream `D` describes the chunks `blocks` -/
structure Layout (D : Bytes) (T : List Nat) (blocks : List Bytes) : Prop where
  start : ∀ i, i ≤ blocks.length → ∃ pre, D = pre ++ (blocks.drop i).flatten ∧ T[i]? = some pre.length
  steps : Steps T

theorem layout_of (pre D : Bytes) (blocks : List Bytes) (more : List Nat) (hD : D = pre ++ blocks.flatten)
    (hs : Steps (starts pre.length blocks ++ D.length :: more)) : Layout D (starts pre.length blocks ++ D.length :: more) blocks := by
  refine ⟨?_, hs⟩
  intro i hi
  refine ⟨pre ++ (blocks.take i).flatten, ?_, ?_⟩
  · rw [List.append_assoc, ← List.flatten_append, List.take_append_drop, hD]
  · by_cases h : i < blocks.length
    · rw [List.getElem?_append_left (by rw [length_starts]; exact h), starts_get _ _ _ h, List.length_append]
    · have : i = blocks.length := by omega
      subst this
      rw [List.getElem?_append_right (by rw [length_starts]; omega), length_starts, Nat.sub_self]
      simp [hD]

theorem Layout.blk_eq {c : Codec} {method : Nat} (hm : method = methodDeflate ∨ method = methodLzvn) {D : Bytes} {T : List Nat} {blocks : List Bytes}
    (hL : Layout D T blocks) {i : Nat} {b p : Bytes} (hb : blocks[i]? = some b) (hp : plain c method b = some p) (hl : p.length ≤ 65536) :
    blk c method D T i = some p := by
  have hi : i < blocks.length := (List.getElem?_eq_some_iff.1 hb).1
  obtain ⟨pre, h1, h2⟩ := hL.start i (by omega)
  obtain ⟨pre', h1', h2'⟩ := hL.start (i + 1) (by omega)
  have hdrop : blocks.drop i = b :: blocks.drop (i + 1) := by
    rw [List.drop_eq_getElem_cons hi]
    congr 1
    rw [List.getElem?_eq_getElem hi] at hb
    exact Option.some.inj hb
  rw [hdrop, List.flatten_cons] at h1
  have hpre : pre' = pre ++ b := by
    rw [← List.append_assoc] at h1
    exact (List.append_cancel_right (h1.symm.trans h1')).symm
  unfold Compressed.blk
  rw [h2, h2', hpre]
  simp only [List.length_append]
  rw [if_neg (by omega), show pre.length + b.length - pre.length = b.length by omega]
  have htake : (D.drop pre.length).take b.length = b := by
    rw [h1, List.drop_left, List.take_left]
  rw [htake, if_neg (by simp), decompressData_plain hm hp hl]

theorem Layout.covers {c : Codec} {method : Nat} (hm : method = methodDeflate ∨ method = methodLzvn) {D : Bytes} {T : List Nat} {blocks : List Bytes}
    {content : Bytes} (hL : Layout D T blocks) (hH : Holds (plain c method) blocks content) :
    Covers (blk c method D T) content.length ∧ ∀ q (h : q < content.length), byteAt (blk c method D T) q = some content[q] := by
  obtain ⟨h1, h2⟩ := hH
  constructor
  · intro i out ho
    by_cases hi : i < blocks.length
    · obtain ⟨p, hp, hl, hpre⟩ := h2 i _ (List.getElem?_eq_getElem hi)
      rw [hL.blk_eq hm (List.getElem?_eq_getElem hi) hp hl] at ho
      cases ho
      have := hpre.length_le
      simp only [List.length_take, List.length_drop] at this
      unfold blockSize
      omega
    · unfold blockSize
      have : blocks.length * 65536 ≤ i * 65536 := Nat.mul_le_mul_right _ (by omega)
      omega
  · intro q hq
    have hi : q / 65536 < blocks.length := by omega
    obtain ⟨p, hp, hl, hpre⟩ := h2 (q / 65536) _ (List.getElem?_eq_getElem hi)
    unfold byteAt
    rw [show q / blockSize = q / 65536 from rfl, hL.blk_eq hm (List.getElem?_eq_getElem hi) hp hl, Option.bind_some]
    obtain ⟨t, rfl⟩ := hpre
    rw [show q % blockSize = q % 65536 from rfl, List.getElem?_append_left (by simp; omega), List.getElem?_take_of_lt (by omega),
      List.getElem?_drop, show q / 65536 * 65536 + q % 65536 = q by omega, List.getElem?_eq_getElem hq]

/-- state of the handle between operations, without earlier decompression failures -/
structure Inv (c : Codec) (method size : Nat) (D : Bytes) (T : List Nat) (h : Handle) : Prop where
  size : h.size = size
  method : h.method = method
  table : h.table = none ∨ h.table = some T
  cached : Cached c D T h

theorem Inv.of_same {c method size D T} {h h' : Handle} (hI : Inv c method size D T h) (ht : h'.table = h.table) (hs : h'.size = h.size)
    (hm : h'.method = h.method) (hC : Cached c D T h') : Inv c method size D T h' :=
  ⟨hs.trans hI.size, hm.trans hI.method, by rw [ht]; exact hI.table, hC⟩

theorem Cached.congr {c : Codec} {D : Bytes} {T : List Nat} {h h' : Handle} (hC : Cached c D T h) (h1 : h'.cur = h.cur) (h2 : h'.seg = h.seg)
    (h3 : h'.segSize = h.segSize) (h4 : h'.method = h.method) (h5 : h'.size = h.size) : Cached c D T h' := by
  unfold Cached at *
  rw [h1, h2, h3, h4, h5]
  exact hC

/-- one read: the bytes of the decoded blocks, or an error with a reason -/
theorem streamRead_spec {c : Codec} (hc : CodecOk c) {D : Bytes} {io : Nat → Nat → Bool} {T : List Nat} (hT : Steps T) {method size : Nat}
    (hm : method = methodDeflate ∨ method = methodLzvn) (hO : getOffsets method D = ok T) (hbig : size ≤ 0xffff0000)
    (hcov : Covers (blk c method D T) size) (n : Nat) (h : Handle) (hI : Inv c method size D T h) :
    (∃ bs h', streamRead c D io n h = (ok bs, h') ∧ Inv c method size D T h' ∧ h'.pos = h.pos + bs.length ∧ bs.length = min n (size - h.pos) ∧
      ∀ k, k < bs.length → byteAt (blk c method D T) (h.pos + k) = bs[k]?) ∨
    (∃ h', streamRead c D io n h = (err, h') ∧ h'.pos = h.pos ∧
      ((Inv c method size D T h' ∧ ∃ o s, io o s = false) ∨
        ∃ q, h.pos ≤ q ∧ q < h.pos + n ∧ q < size ∧ byteAt (blk c method D T) q = none)) := by
  obtain ⟨hs, hme, ht, hC⟩ := hI
  subst hs hme
  unfold streamRead
  by_cases hpos : h.pos ≥ h.size
  · rw [if_pos hpos]
    left
    exact ⟨[], h, rfl, ⟨rfl, rfl, ht, hC⟩, rfl, by simp; omega, by simp⟩
  rw [if_neg hpos]
  unfold read
  rw [if_neg (by omega)]
  have hstep : ∀ h0 : Handle, h0.pos = h.pos → h0.size = h.size → h0.method = h.method → h0.table = some T → Cached c D T h0 →
      (∃ bs h', (match readLoop c D io T (h0.pos / blockSize % 2 ^ 32) (h0.pos % blockSize) (min n (h.size - h.pos)) [] h0 with
        | (.ok bs, h) => (ok bs, { h with pos := h.pos + bs.length })
        | (r, h) => (r, h)) = (ok bs, h') ∧ Inv c h.method h.size D T h' ∧ h'.pos = h.pos + bs.length ∧ bs.length = min n (h.size - h.pos) ∧
        ∀ k, k < bs.length → byteAt (blk c h.method D T) (h.pos + k) = bs[k]?) ∨
      (∃ h', (match readLoop c D io T (h0.pos / blockSize % 2 ^ 32) (h0.pos % blockSize) (min n (h.size - h.pos)) [] h0 with
        | (.ok bs, h) => (ok bs, { h with pos := h.pos + bs.length })
        | (r, h) => (r, h)) = (err, h') ∧ h'.pos = h.pos ∧
        ((Inv c h.method h.size D T h' ∧ ∃ o s, io o s = false) ∨
          ∃ q, h.pos ≤ q ∧ q < h.pos + n ∧ q < h.size ∧ byteAt (blk c h.method D T) q = none)) := by
    intro h0 e1 e2 e3 e4 hC0
    have hq : h0.pos / blockSize % 2 ^ 32 * blockSize + h0.pos % blockSize = h.pos := by
      unfold blockSize
      rw [e1, Nat.mod_eq_of_lt (by omega)]
      omega
    have := readLoop_spec hc (io := io) hT (h0.pos / blockSize % 2 ^ 32) (h0.pos % blockSize) (min n (h.size - h.pos)) [] h0
      (by rw [e3, e2]; exact hcov) (by unfold blockSize; omega) (by rw [hq, e2]; omega) (by rw [e2]; exact hbig) hC0
    rw [hq, e3] at this
    rcases this with ⟨bs, h', hr, hsame, hC', hl, hb⟩ | ⟨h', hr, hsame, hwhy⟩
    · left
      rw [hr, List.nil_append]
      refine ⟨bs, _, rfl, ⟨?_, ?_, ?_, ?_⟩, ?_, hl, ?_⟩
      · exact hsame.2.1.trans e2
      · exact hsame.2.2.1.trans e3
      · right; exact hsame.2.2.2.trans e4
      · exact hC'.congr rfl rfl rfl rfl rfl
      · simp only [hsame.1, e1]
      · intro k hk; exact hb k (by omega)
    · right
      rw [hr]
      refine ⟨h', rfl, hsame.1.trans e1, ?_⟩
      rcases hwhy with ⟨hC', hio⟩ | ⟨q, q1, q2, q3⟩
      · left
        exact ⟨⟨hsame.2.1.trans e2, hsame.2.2.1.trans e3, Or.inr (hsame.2.2.2.trans e4), hC'⟩, hio⟩
      · right
        exact ⟨q, q1, by omega, by omega, q3⟩
  have hne : ¬ h.method = methodUnknown5 := by rcases hm with h | h <;> rw [h] <;> decide
  rcases ht with ht | ht
  · rw [ht]
    simp only
    by_cases hio : io 0 4 = true
    · rw [if_pos hio, hO]
      simp only
      rw [if_neg hpos, if_neg hne]
      exact hstep { h with table := some T } rfl rfl rfl rfl (hC.congr rfl rfl rfl rfl rfl)
    · rw [if_neg hio]
      right
      exact ⟨h, rfl, rfl, Or.inl ⟨⟨rfl, rfl, Or.inl ht, hC⟩, 0, 4, by simpa using hio⟩⟩
  · rw [ht]
    simp only
    rw [if_neg hpos, if_neg hne]
    exact hstep { h with table := some T } rfl rfl rfl rfl (hC.congr rfl rfl rfl rfl rfl)

/-- one operation of the user on the stream -/
def step (c : Codec) (D : Bytes) (io : Nat → Nat → Bool) (op : FileOp) (h : Handle) : Res Bytes × Handle :=
  match op with
  | .seek o => match seek o h with
    | (.ok (), h) => (ok [], h)
    | (.err, h) => (err, h)
    | (.ub, h) => (ub, h)
  | .read n => streamRead c D io n h

/-- a history of operations, each with its own storage behaviour `io` -/
def run (c : Codec) (D : Bytes) : List (FileOp × (Nat → Nat → Bool)) → Handle → List (Res Bytes)
  | [], _ => []
  | (op, io) :: rest, h => (step c D io op h).1 :: run c D rest (step c D io op h).2

/-- what the user sees -/
def observed (ops : List (FileOp × (Nat → Nat → Bool))) (rs : List (Res Bytes)) : List (FileOp × Prop × Option Bytes) :=
  List.zipWith (fun o r => (o.1, (∃ a b, o.2 a b = false), match r with | .ok b => some b | _ => none)) ops rs

theorem seek_spec (o : Int) (h : Handle) : (0 ≤ o ∧ seek o h = (ok (), { h with pos := o.toNat })) ∨ (o < 0 ∧ seek o h = (err, h)) := by
  unfold seek
  by_cases h0 : o < 0
  · exact Or.inr ⟨h0, if_pos h0⟩
  · exact Or.inl ⟨by omega, if_neg h0⟩

theorem run_spec {c : Codec} (hc : CodecOk c) {D : Bytes} {T : List Nat} {blocks : List Bytes} {content : Bytes} {method : Nat}
    (hm : method = methodDeflate ∨ method = methodLzvn) (hO : getOffsets method D = ok T) (hbig : content.length ≤ 0xffff0000)
    (hL : Layout D T blocks) (hH : Holds (plain c method) blocks content)
    (ops : List (FileOp × (Nat → Nat → Bool))) (h : Handle) (hI : Inv c method content.length D T h) :
    (∀ r ∈ run c D ops h, r ≠ ub) ∧ FileTrace content h.pos (observed ops (run c D ops h)) := by
  obtain ⟨hcov, hby⟩ := hL.covers hm hH
  induction ops generalizing h with
  | nil => exact ⟨by simp [run], FileTrace.nil⟩
  | cons oi ops ih =>
    obtain ⟨op, io⟩ := oi
    suffices hs : ∃ r h', step c D io op h = (r, h') ∧ r ≠ ub ∧ Inv c method content.length D T h' ∧
        FileStep content (∃ a b, io a b = false) h.pos op (match r with | .ok b => some b | _ => none) h'.pos by
      obtain ⟨r, h', e, hr, hI', hstep⟩ := hs
      obtain ⟨i1, i2⟩ := ih h' hI'
      simp only [run, e]
      refine ⟨?_, ?_⟩
      · intro x hx
        rcases List.mem_cons.1 hx with rfl | hx
        · exact hr
        · exact i1 x hx
      · exact FileTrace.cons hstep i2
    cases op with
    | seek o =>
      rcases seek_spec o h with ⟨h0, e⟩ | ⟨h0, e⟩
      · refine ⟨ok [], { h with pos := o.toNat }, by simp only [step, e], by simp, ?_, ?_⟩
        · exact hI.of_same rfl rfl rfl (hI.cached.congr rfl rfl rfl rfl rfl)
        · have := FileStep.seek (content := content) (fault := ∃ a b, io a b = false) (pos := h.pos) o.toNat
          rw [Int.toNat_of_nonneg h0] at this
          exact this
      · exact ⟨err, h, by simp only [step, e], by simp, hI, FileStep.seekNegative o h0⟩
    | read n =>
      simp only [step]
      rcases streamRead_spec hc (io := io) hL.steps hm hO hbig hcov n h hI with ⟨bs, h', e, hI', hp, hl, hb⟩ | ⟨h', e, hp, hwhy⟩
      · refine ⟨ok bs, h', e, by simp, hI', ?_⟩
        have hbs : bs = (content.drop h.pos).take n := by
          apply List.ext_getElem?
          intro k
          by_cases hk : k < bs.length
          · rw [← hb k hk, hby (h.pos + k) (by omega), List.getElem?_take_of_lt (by omega), List.getElem?_drop,
              List.getElem?_eq_getElem (by omega)]
          · rw [List.getElem?_eq_none (by omega), List.getElem?_eq_none (by simp; omega)]
        rw [hp, hbs]
        exact FileStep.read n
      · refine ⟨err, h', e, by simp, ?_⟩
        rcases hwhy with ⟨hI', hio⟩ | ⟨q, _, _, q3, q4⟩
        · refine ⟨hI', ?_⟩
          rw [hp]
          exact FileStep.readFault n hio
        · rw [hby q q3] at q4; cases q4

end Compressed
end Verif
