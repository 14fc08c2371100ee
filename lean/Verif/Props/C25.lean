import Verif.Lemmas.DataStream
import Verif.Props.C26
/-!
# C25 File contents are the extents' blocks in logical order
-/
namespace Verif.Props
open Verif Res Spec Crypto DataStream

abbrev Cipher := Bytes → Bytes → Bytes

/-- An image holding the blocks of the extents of a file, with the given contents; `disk` reads its blocks, which have offsets that are less than 2^63. Nothing is said about the order of the extents. -/
structure OnImage (image : Nat → Option Bytes) (disk : Nat → Nat → Res Bytes) (bs bps : Nat) (cipher : Option (Cipher × Cipher)) (sparse : Bool) (es : List Extent) (plain : Nat → Nat → Bytes) : Prop where
  sector : 0 < bps
  block : 0 < bs
  reads : ∀ b raw, image b = some raw → disk (b * bs) bs = ok raw
  range : ∀ b raw, image b = some raw → (b + 1) * bs < 2 ^ 63
  cipherOk : ∀ c, cipher = some c → TweakableCipher bps c.1 c.2
  sizes : ∀ e ∈ es, e.size % bs = 0
  total : (es.map (·.size)).sum < 2 ^ 64
  offsets : ∀ e ∈ es, e.physical * bs < 2 ^ 63
  stored : ∀ e ∈ es, ¬ (sparse = true ∧ e.physical = 0) → ∀ k, k * bs < e.size →
    (cipher ≠ none → (e.encId + k + 1) * bs ≤ 2 ^ 64) ∧ Stored image bs bps (cipher.map (·.1)) (e.encId + k) (e.physical + k) (plain (e.encId + k) (e.physical + k))

theorem readDataBlock_stored {image : Nat → Option Bytes} {bs bps : Nat} {cipher : Option (Cipher × Cipher)} (hp : 0 < bps) (hi : bs < 2 ^ 63)
    (hc : ∀ c, cipher = some c → TweakableCipher bps c.1 c.2) {id block : Nat} (hid : cipher ≠ none → (id + 1) * bs ≤ 2 ^ 64) {plain : Bytes}
    {raw : Bytes} (hr : image block = some raw) (h : Stored image bs bps (cipher.map (·.1)) id block plain) :
    readDataBlock (cipher.map (·.2)) raw (List.replicate bs 0) id bps = ok plain := by
  obtain ⟨h1, raw', h2, h3⟩ := h
  rw [hr] at h2
  cases h2
  cases cipher with
  | none =>
    simp only [Option.map_none] at h3 ⊢
    unfold readDataBlock
    rw [require_true (by omega), ok_bind, h3]
    rfl
  | some c =>
    simp only [Option.map_some] at h3 ⊢
    obtain ⟨ss, g1, g2, g3, g4⟩ := h3
    rw [g4, ← g2]
    exact c26_block_partial bps hp c.1 c.2 (hc c rfl) ss g1 id (by rw [g3]; exact hid (by simp)) (by omega) _ (by simp [g3])

theorem toInt64_of_lt {n : Nat} (h : n < 2 ^ 63) : toInt64 n = n := by
  unfold toInt64
  rw [Nat.mod_eq_of_lt (by omega), if_pos h]

/-- the block of an extent at an offset in the extent -/
theorem readBlock_eq {image : Nat → Option Bytes} {disk : Nat → Nat → Res Bytes} {bs bps : Nat} {cipher : Option (Cipher × Cipher)} {sparse : Bool} {es : List Extent} {plain : Nat → Nat → Bytes}
    (w : OnImage image disk bs bps cipher sparse es plain) {i o : Nat} (hi : i < es.length) (ho : o % bs = 0) (ho2 : o + bs ≤ es[i].size)
    (hns : ¬ (sparse = true ∧ es[i].physical = 0)) (segs : List Segment) (ds : Nat) :
    readBlock ⟨disk, bs, bps, cipher.map (·.2), es, segs, ds⟩ (segOf bs sparse i es[i]) o bs =
      ok (plain (es[i].encId + o / bs) (es[i].physical + o / bs)) := by
  have hb := w.block
  obtain ⟨k, hk⟩ := Nat.dvd_of_mod_eq_zero ho
  subst hk
  rw [Nat.mul_div_cancel_left _ hb]
  have hmem : es[i] ∈ es := List.getElem_mem hi
  have hoff := w.offsets _ hmem
  obtain ⟨s1, s2⟩ := w.stored _ hmem hns k (by rw [Nat.mul_comm]; omega)
  have hs : (segOf bs sparse i es[i]).sparse = false := by
    unfold segOf
    simp only [Bool.and_eq_false_iff, beq_eq_false_iff_ne]
    cases sparse with
    | false => simp
    | true => exact .inr (fun h => hns ⟨rfl, h⟩)
  have hso : (segOf bs sparse i es[i]).offset = es[i].physical * bs := Nat.mod_eq_of_lt (by omega)
  have hpl : es[i].physical ≤ es[i].physical * bs := Nat.le_mul_of_pos_right _ hb
  obtain ⟨raw, hraw, _⟩ := s2.2
  have him := w.range _ _ hraw
  have hsucc : (es[i].physical + k + 1) * bs = (es[i].physical + k) * bs + bs := Nat.succ_mul _ _
  unfold readBlock
  rw [hs, hso]
  simp only [Bool.false_eq_true, if_false]
  rw [if_neg (by omega)]
  have hadd : es[i].physical * bs + bs * k = (es[i].physical + k) * bs := by rw [Nat.add_mul, Nat.mul_comm bs k]
  rw [hadd, Nat.mul_div_cancel _ hb]
  rw [show (segOf bs sparse i es[i]).fileIndex = i from rfl, List.getElem?_eq_getElem hi]
  simp only
  rw [toInt64_of_lt (by omega)]
  have hkb : k ≤ (es[i].physical + k) * bs := Nat.le_trans (Nat.le_add_left _ _) (Nat.le_mul_of_pos_right _ hb)
  have hd : (((es[i].physical + k : Nat) : Int) - (es[i].physical : Int)) = (k : Int) := by omega
  rw [hd, if_pos (by omega), ok_bind, w.reads _ _ hraw, ok_bind]
  have hbs := Nat.lt_of_le_of_lt (Nat.le_mul_of_pos_left bs (Nat.succ_pos (es[i].physical + k))) him
  by_cases hci : cipher = none
  · subst hci
    exact readDataBlock_stored (cipher := none) (id := es[i].encId + k) w.sector hbs (fun _ h => nomatch h) (fun h => absurd rfl h) hraw s2
  · have hkl : (es[i].encId + k + 1) ≤ (es[i].encId + k + 1) * bs := Nat.le_mul_of_pos_right _ hb
    have s1 := s1 hci
    have hid : (((es[i].encId : Int) + (k : Int)) % 2 ^ 64).toNat = es[i].encId + k := by
      have h1 : ((es[i].encId : Int) + (k : Int)) = ((es[i].encId + k : Nat) : Int) := by omega
      have h2 : es[i].encId + k < 2 ^ 64 := by omega
      rw [h1]
      omega
    rw [hid]
    exact readDataBlock_stored w.sector hbs w.cipherOk (fun _ => s1) hraw s2

theorem blockAt_spec {image : Nat → Option Bytes} {disk : Nat → Nat → Res Bytes} {bs bps : Nat} {cipher : Option (Cipher × Cipher)} {sparse : Bool} {es : List Extent} {plain : Nat → Nat → Bytes}
    (w : OnImage image disk bs bps cipher sparse es plain) (hc : Contiguous 0 (es.map mapping)) (ds off : Nat) (ho : off < (es.map (·.size)).sum) :
    ∃ b : Bytes, blockAt ⟨disk, bs, bps, cipher.map (·.2), es, es.mapIdx (fun i e => segOf bs sparse (0 + i) e), ds⟩ off = ok (b, off % bs) ∧
      b.length = bs ∧ ∀ j, ∀ h : j < b.length, FileByte bs plain sparse (es.map mapping) (off / bs * bs + j) b[j] := by
  have hb := w.block
  have hdm : off / bs * bs + off % bs = off := by rw [Nat.mul_comm]; exact Nat.div_add_mod off bs
  obtain ⟨i, o, hi, f1, f2, f3, f4⟩ := findSegment_spec (sparse := sparse) (index := 0) (off := off / bs * bs) hc w.sizes
    (Nat.mul_mod_left _ _) (by omega)
  have hmem : mapping es[i] ∈ es.map mapping := List.mem_map.2 ⟨_, List.getElem_mem hi, rfl⟩
  unfold blockAt element
  simp only [f1]
  rw [show min bs ((segOf bs sparse (0 + i) es[i]).size - o) = bs by show min bs (es[i].size - o) = bs; omega]
  simp only [Nat.zero_add] at f2 ⊢
  have hmj : ∀ j, j < bs → (o + j) / bs = o / bs ∧ (o + j) % bs = j := by
    intro j hj
    obtain ⟨k, hk⟩ := Nat.dvd_of_mod_eq_zero f3
    subst hk
    rw [Nat.mul_add_div hb, Nat.mul_div_cancel_left _ hb, Nat.div_eq_of_lt hj, Nat.mul_add_mod, Nat.mod_eq_of_lt hj]
    exact ⟨rfl, rfl⟩
  by_cases hns : sparse = true ∧ es[i].physical = 0
  · refine ⟨List.replicate bs 0, ?_, by simp, ?_⟩
    · unfold readBlock
      rw [if_pos (by simp [segOf, hns.1, hns.2])]
      rfl
    · intro j h
      simp only [List.length_replicate] at h
      refine ⟨_, hmem, ?_, ?_, ?_⟩
      · show es[i].logical ≤ _; omega
      · show _ < es[i].logical + es[i].size; omega
      · rw [if_pos ⟨hns.1, hns.2⟩]
        simp
  · have hr := readBlock_eq w hi f3 f4 hns (es.mapIdx (fun i e => segOf bs sparse i e)) ds
    obtain ⟨_, s2⟩ := w.stored _ (List.getElem_mem hi) hns (o / bs) (by
      obtain ⟨k, hk⟩ := Nat.dvd_of_mod_eq_zero f3
      rw [hk, Nat.mul_div_cancel_left _ hb, Nat.mul_comm, ← hk]; omega)
    refine ⟨_, by rw [hr]; rfl, s2.1, ?_⟩
    intro j h
    have hj : j < bs := by rw [s2.1] at h; exact h
    refine ⟨_, hmem, ?_, ?_, ?_⟩
    · show es[i].logical ≤ _; omega
    · show _ < es[i].logical + es[i].size; omega
    · rw [if_neg (by exact hns)]
      have hpos : off / bs * bs + j - (mapping es[i]).logical = o + j := by show _ - es[i].logical = _; omega
      rw [hpos, (hmj j hj).1, (hmj j hj).2]
      exact List.getElem?_eq_getElem h

theorem sum_mod {bs : Nat} {l : List Nat} (h : ∀ x ∈ l, x % bs = 0) : l.sum % bs = 0 := by
  induction l with
  | nil => simp
  | cons a l ih =>
    rw [List.sum_cons, Nat.add_mod, h a (by simp), ih (fun x hx => h x (by simp [hx]))]
    simp

theorem sizes_mapIdx (bs : Nat) (sparse : Bool) (es : List Extent) (k : Nat) :
    (es.mapIdx (fun i e => segOf bs sparse (k + i) e)).map (·.size) = es.map (·.size) := by
  apply List.ext_getElem
  · simp
  · intro i h1 h2
    simp [segOf]

/-- A non-sparse file is set up exactly if every extent starts where the one before ended: gaps, overlaps and other orders are refused. -/
theorem c25_order_checked {disk : Nat → Nat → Res Bytes} {bs bps : Nat} {cipher : Option (Cipher × Cipher)} {es : List Extent}
    (ht : (es.map (·.size)).sum < 2 ^ 64) (ho : ∀ e ∈ es, e.physical * bs < 2 ^ 63) :
    (∃ h, initHandle disk bs bps (cipher.map (·.2)) es false = ok h) ↔ Contiguous 0 (es.map mapping) := by
  constructor
  · rintro ⟨h, hh⟩
    unfold initHandle at hh
    obtain ⟨segs, h1, _⟩ := bind_eq_ok.1 hh
    exact buildVector_contiguous (by omega) h1
  · intro hc
    unfold initHandle
    rw [buildVector_eq hc (by omega) (fun e he => by rw [Nat.mod_eq_of_lt] <;> have := ho e he <;> omega)]
    exact ⟨_, rfl⟩

/-- Reading `n` bytes at `off` of a file of size `size` gives the bytes the extents map, zeros in holes, and nothing beyond the size of the file or the
extents. For a sparse file this needs that the extents are in logical order without gaps; for other files the library checks it. -/
theorem c25_read_partial {image : Nat → Option Bytes} {disk : Nat → Nat → Res Bytes} {bs bps : Nat} {cipher : Option (Cipher × Cipher)} {sparse : Bool} {es : List Extent} {plain : Nat → Nat → Bytes}
    (w : OnImage image disk bs bps cipher sparse es plain) (hs : sparse = true → Contiguous 0 (es.map mapping)) {h : Handle}
    (hh : initHandle disk bs bps (cipher.map (·.2)) es sparse = ok h) (size off n : Nat) (hn : n < 2 ^ 63) :
    ∃ out : Bytes, streamRead h size off n = ok out ∧ out.length = min n (min size (es.map (·.size)).sum - off) ∧
      ∀ i, ∀ hi : i < out.length, FileByte bs plain sparse (es.map mapping) (off + i) out[i] := by
  have hc : Contiguous 0 (es.map mapping) := by
    cases sparse with
    | true => exact hs rfl
    | false => exact (c25_order_checked w.total w.offsets).1 ⟨h, hh⟩
  have ht := w.total
  unfold initHandle at hh
  rw [buildVector_eq hc (by omega) (fun e he => by rw [Nat.mod_eq_of_lt] <;> have := w.offsets e he <;> omega)] at hh
  simp only [ok_bind, pure_eq, sizes_mapIdx] at hh
  cases hh
  unfold streamRead
  by_cases h1 : off ≥ size
  · rw [if_pos h1]
    exact ⟨[], rfl, by simp only [List.length_nil]; omega, by intro i hi; simp at hi⟩
  rw [if_neg h1]
  unfold DataStream.read
  rw [require_true (by omega), ok_bind]
  by_cases h2 : off ≥ (es.map (·.size)).sum
  · rw [if_pos h2]
    exact ⟨[], rfl, by simp only [List.length_nil]; omega, by intro i hi; simp at hi⟩
  rw [if_neg h2]
  obtain ⟨out, r1, r2, r3⟩ := readLoop_spec (FileByte bs plain sparse (es.map mapping)) w.block
    (sum_mod (by intro x hx; obtain ⟨e, he, rfl⟩ := List.mem_map.1 hx; exact w.sizes e he))
    (fun off ho => blockAt_spec w hc (es.map (·.size)).sum off ho) (min n (size - off)) off (by omega)
  simp only at r1 ⊢
  rw [r1]
  exact ⟨out, rfl, by omega, r3⟩

theorem c25_unique_extent {ms : List Mapping} {at_ pos : Nat} {m m' : Mapping} (hc : Contiguous at_ ms) (hm : m ∈ ms) (hm' : m' ∈ ms)
    (h1 : m.logical ≤ pos) (h2 : pos < m.logical + m.length) (h3 : m'.logical ≤ pos) (h4 : pos < m'.logical + m'.length) : m = m' := by
  have lower : ∀ (ms : List Mapping) (at_ : Nat), Contiguous at_ ms → ∀ m ∈ ms, at_ ≤ m.logical := by
    intro ms
    induction ms with
    | nil => intro _ _ m hm; cases hm
    | cons x xs ih =>
      intro at_ h m hm
      rcases List.mem_cons.1 hm with rfl | hm
      · exact Nat.le_of_eq h.1.symm
      · exact Nat.le_trans (Nat.le_add_right _ _) (ih _ h.2 m hm)
  have same : ∀ (ms : List Mapping) (at_ : Nat), Contiguous at_ ms → ∀ m ∈ ms, ∀ m' ∈ ms, m.logical ≤ pos → pos < m.logical + m.length →
      m'.logical ≤ pos → pos < m'.logical + m'.length → m = m' := by
    intro ms
    induction ms with
    | nil => intro _ _ m hm; cases hm
    | cons x xs ih =>
      intro at_ h m hm m' hm' h1 h2 h3 h4
      have hx := h.1
      rcases List.mem_cons.1 hm with e | g <;> rcases List.mem_cons.1 hm' with e' | g'
      · rw [e, e']
      · have := lower _ _ h.2 m' g'; subst e; omega
      · have := lower _ _ h.2 m g; subst e'; omega
      · exact ih _ h.2 m g m' g' h1 h2 h3 h4
  exact same ms at_ hc m hm m' hm' h1 h2 h3 h4

/-- The extents of a file in logical order give at most one value for each byte, so `c25_read_partial` determines what is read. -/
theorem c25_byte_unique {bs : Nat} {plain : Nat → Nat → Bytes} {sparse : Bool} {ms : List Mapping} {at_ pos : Nat} {a b : UInt8}
    (hc : Contiguous at_ ms) (ha : FileByte bs plain sparse ms pos a) (hb : FileByte bs plain sparse ms pos b) : a = b := by
  obtain ⟨m, hm, a1, a2, a3⟩ := ha
  obtain ⟨m', hm', b1, b2, b3⟩ := hb
  have := c25_unique_extent hc hm hm' a1 a2 b1 b2
  subst this
  split at a3 <;> rename_i hs
  · rw [if_pos hs] at b3
    rw [a3, b3]
  · rw [if_neg hs] at b3
    rw [a3] at b3
    exact Option.some.inj b3

theorem onImage_relocate {image : Nat → Option Bytes} {disk : Nat → Nat → Res Bytes} {bs bps : Nat} {cipher : Option (Cipher × Cipher)} {es : List Extent} {plain : Nat → Nat → Bytes}
    (w : OnImage image disk bs bps cipher true es plain) : OnImage image disk bs bps cipher true (relocate 0 es) plain where
  sector := w.sector
  block := w.block
  reads := w.reads
  range := w.range
  cipherOk := w.cipherOk
  sizes := by
    intro e he
    obtain ⟨e', h1, h2, h3, h4, h5⟩ := mem_relocate he
    rw [← h3]
    exact w.sizes _ h1
  total := by rw [relocate_sizes]; exact w.total
  offsets := by
    intro e he
    obtain ⟨e', h1, h2, h3, h4, h5⟩ := mem_relocate he
    rw [← h2]
    exact w.offsets _ h1
  stored := by
    intro e he hne
    obtain ⟨e', h1, h2, h3, h4, h5⟩ := mem_relocate he
    rw [← h5 (fun h => hne ⟨rfl, h⟩)]
    exact w.stored _ h1 (by rw [h2]; exact hne)

/-- Reading a sparse file, without any assumption on the order of its extents: a byte read is the byte an extent with blocks maps it to, or it
is zero and no extent with blocks maps it. The logical offsets of holes are ignored, see `c25_hole_ignored`. -/
theorem c25_read_sparse_partial {image : Nat → Option Bytes} {disk : Nat → Nat → Res Bytes} {bs bps : Nat} {cipher : Option (Cipher × Cipher)} {es : List Extent} {plain : Nat → Nat → Bytes}
    (w : OnImage image disk bs bps cipher true es plain) {h : Handle}
    (hh : initHandle disk bs bps (cipher.map (·.2)) es true = ok h) (size off n : Nat) (hn : n < 2 ^ 63) :
    ∃ out : Bytes, streamRead h size off n = ok out ∧ out.length = min n (min size (es.map (·.size)).sum - off) ∧
      ∀ i, ∀ hi : i < out.length,
        FileByte bs plain false ((es.filter (fun e => e.physical ≠ 0)).map mapping) (off + i) out[i] ∨
        (out[i] = 0 ∧ ∀ e ∈ es, e.physical ≠ 0 → ¬ (e.logical ≤ off + i ∧ off + i < e.logical + e.size)) := by
  have ht := w.total
  have hc : Contiguous 0 ((relocate 0 es).map mapping) ∧
      ∃ segs, buildVector bs true (relocate 0 es) 0 0 = ok segs ∧ h = ⟨disk, bs, bps, cipher.map (·.2), es, segs, (segs.map (·.size)).sum⟩ := by
    unfold initHandle at hh
    obtain ⟨segs, h1, h2⟩ := bind_eq_ok.1 hh
    exact ⟨relocate_contiguous (by omega) h1, segs, buildVector_relocate (by omega) h1, (ok.inj h2).symm⟩
  obtain ⟨hc, segs, hb, rfl⟩ := hc
  have hi : initHandle disk bs bps (cipher.map (·.2)) (relocate 0 es) true =
      ok ⟨disk, bs, bps, cipher.map (·.2), relocate 0 es, segs, (segs.map (·.size)).sum⟩ := by
    unfold initHandle
    rw [hb]
    rfl
  obtain ⟨out, r1, r2, r3⟩ := c25_read_partial (onImage_relocate w) (fun _ => hc) hi size off n hn
  rw [relocate_sizes] at r2
  refine ⟨out, ?_, r2, ?_⟩
  · rw [← r1]
    unfold streamRead DataStream.read
    simp only
    rw [← blockAt_relocate ⟨disk, bs, bps, cipher.map (·.2), es, segs, (segs.map (·.size)).sum⟩]
  · intro i hi
    obtain ⟨m, hm, a1, a2, a3⟩ := r3 i hi
    obtain ⟨e, he, rfl⟩ := List.mem_map.1 hm
    by_cases hp : e.physical = 0
    · right
      rw [if_pos ⟨rfl, hp⟩] at a3
      refine ⟨a3, ?_⟩
      intro e' he' hp' hcov
      have hu := c25_unique_extent hc (m := mapping e) (m' := mapping e') hm (List.mem_map.2 ⟨e', mem_relocate_of he' hp', rfl⟩) a1 a2 hcov.1 hcov.2
      exact hp' (by have : e.physical = e'.physical := congrArg Mapping.block hu
                    omega)
    · left
      obtain ⟨e', h1, h2, h3, h4, h5⟩ := mem_relocate he
      have := h5 hp
      subst this
      refine ⟨_, List.mem_map.2 ⟨e', List.mem_filter.2 ⟨h1, by simpa using hp⟩, rfl⟩, a1, a2, ?_⟩
      rw [if_neg (by simp)]
      rwa [if_neg (fun h => hp h.2)] at a3

/-- In a sparse file the logical offset of a hole is not checked: this hole claims the offset of the extent behind it. -/
theorem c25_hole_ignored : (do
    let h ← initHandle (flat [9, 9, 9, 9, 1, 1, 1, 1, 2, 2, 2, 2]) 4 4 none [⟨0, 1, 4, 0⟩, ⟨8, 0, 4, 0⟩, ⟨8, 2, 4, 0⟩] true
    streamRead h 12 0 12) = ok [1, 1, 1, 1, 0, 0, 0, 0, 2, 2, 2, 2] := by decide +kernel

/-- The byte offset of a physical block number is computed modulo 2^64: block 2^52 of 4096 bytes reads block 0. -/
theorem c25_block_number_wraps (size : Nat) :
    buildVector 4096 false [⟨0, 2 ^ 52, size, 0⟩] 0 0 = ok [{ fileIndex := 0, offset := 0, size := size, sparse := false }] := by
  unfold buildVector
  rw [require_true (by simp), ok_bind]
  simp only
  rw [require_true (by decide), ok_bind]
  rfl

/-- A physical block number of 2^63 leads to a signed overflow. -/
theorem c25_block_number_overflow : (do
    let h ← initHandle (flat [1, 2]) 2 2 none [⟨0, 2 ^ 63, 2, 0⟩] false
    streamRead h 2 0 2) = ub := by decide +kernel

/-- an encrypted file of three extents, the second one a hole -/
def sampleExtents : List Extent := [⟨0, 1, 8, 5⟩, ⟨8, 0, 4, 0⟩, ⟨12, 3, 4, 9⟩]

def samplePlain (_ block : Nat) : Bytes := if block = 1 then [1, 2, 3, 4] else if block = 2 then [5, 6, 7, 8] else [9, 10, 11, 12]

def sampleImage : Bytes := [0, 0, 0, 0] ++ ([11, 12, 14, 15] ++ ([17, 18, 20, 21] ++ [27, 28, 30, 31]))

theorem sample_on_image : OnImage (cut 4 sampleImage) (flat sampleImage) 4 2 (some (addTweak, subTweak)) true sampleExtents samplePlain where
  sector := by decide
  block := by decide
  reads := cut_reads 4 (by decide) _
  range := cut_range 4 _ (by decide)
  cipherOk := by intro c h; cases h; exact tweakable_add 2
  sizes := by decide
  total := by decide
  offsets := by decide
  stored := by
    intro e he hne k hk
    simp only [sampleExtents, List.mem_cons, List.not_mem_nil, or_false] at he
    rcases he with rfl | rfl | rfl
    · simp only at hk hne ⊢
      have : k = 0 ∨ k = 1 := by omega
      rcases this with rfl | rfl
      · exact ⟨fun _ => by decide, by decide, _, rfl, [[1, 2], [3, 4]], by decide, by decide, by decide, by decide⟩
      · exact ⟨fun _ => by decide, by decide, _, rfl, [[5, 6], [7, 8]], by decide, by decide, by decide, by decide⟩
    · exact absurd ⟨rfl, rfl⟩ hne
    · simp only at hk hne ⊢
      have : k = 0 := by omega
      subst this
      exact ⟨fun _ => by decide, by decide, _, rfl, [[9, 10], [11, 12]], by decide, by decide, by decide, by decide⟩

example : Contiguous 0 (sampleExtents.map mapping) := ⟨rfl, rfl, rfl, trivial⟩

example : (do
    let h ← initHandle (flat sampleImage) 4 2 (some subTweak) sampleExtents true
    streamRead h 15 6 20) = ok [7, 8, 0, 0, 0, 0, 9, 10, 11] := by decide +kernel

end Verif.Props
