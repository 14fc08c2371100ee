import Verif.Lemmas.Zlib
/-!
# C09 – corrupted zlib data is never returned as good

Full statement (false, see the witnesses below): `decompressZlib d cap = ok out → ZStream UsedDist d out`.
-/
namespace Verif.Props
open Verif Res Spec BitStream Deflate

/-- Exactly which inputs zlib decompression accepts, and with which result: an RFC 1950 header (check bits ignored), RFC 1951
blocks, and – only if at least 4 bytes are left – the Adler-32 of the returned bytes at the next byte boundary.

Missing for the full statement: the stream may stop without a last block, the checksum may be missing, FCHECK is
not validated. -/
theorem c09_zlib_partial (d out : Bytes) (cap : Nat) (hd : d.length ≤ 2 ^ 63 - 1) (hcap : cap ≤ 2 ^ 63 - 1) :
    decompressZlib d cap = ok out ↔ out.length ≤ cap ∧ ∃ (h body : Bytes) (fin : Bool) (bits rest : List Bool),
      d = h ++ body ∧ ZHeader h ∧ body ≠ [] ∧ (h.length = 2 ∨ 2 ≤ body.length) ∧
      Blocks UsedDist fin 0 [] bits out ∧ bytesBits body = bits ++ rest ∧ (fin = false → rest.length < 8) ∧
      (32 ≤ rest.length → beVal ((body.drop ((bits.length + 7) / 8)).take 4) = Spec.adler32 1 out) := by
  unfold decompressZlib
  simp only [require_true hd, require_true hcap, ok_bind, pure_eq]
  have tail : ∀ (h body : Bytes) (bits rest : List Bool) (s' : BitStream) (out : Bytes), d = h ++ body → bytesBits body = bits ++ rest →
      s'.WF → s'.data = d → s'.bits = rest → out.length ≤ cap →
      ((if s'.data.length - s'.off ≥ 4 then do
          let s ← rewind s'
          let bs ← rdN s.data s.off 4
          let calculated ← Adler.adler32 out 1
          require (beNat bs = calculated)
          ok out
        else ok out : Res Bytes) = ok out ↔ (32 ≤ rest.length → beVal ((body.drop ((bits.length + 7) / 8)).take 4) = Spec.adler32 1 out)) ∧
      ∀ out', (if s'.data.length - s'.off ≥ 4 then do
          let s ← rewind s'
          let bs ← rdN s.data s.off 4
          let calculated ← Adler.adler32 out 1
          require (beNat bs = calculated)
          ok out
        else ok out : Res Bytes) = ok out' → out' = out := by
    intro h body bits rest s' out e hb hw hdat hr hle
    have hlb := congrArg List.length hb
    simp only [length_bytesBits, List.length_append] at hlb
    have hlr := length_bits s'
    rw [hr, hdat] at hlr
    have hsz := hw.size_lt
    have hoff := hw.off_le
    rw [hdat] at hoff
    have hle' : d.length = h.length + body.length := by rw [e]; simp
    have h4 : (s'.data.length - s'.off ≥ 4) ↔ 32 ≤ rest.length := by rw [hdat]; omega
    have hpos : s'.off = h.length + (bits.length + 7) / 8 := by omega
    by_cases h32 : 32 ≤ rest.length
    · have h44 := h4.2 h32
      have hrd : rdN s'.data s'.off 4 = ok ((body.drop ((bits.length + 7) / 8)).take 4) := by
        rw [rdN_le (by omega), hdat, hpos, e, ← List.drop_drop]
        simp
      rw [if_pos h44, rewind_wf hw, ok_bind, hrd, ok_bind, Adler.adler32_eq out 1 (by omega), ok_bind, beNat_eq]
      by_cases h5 : beVal ((body.drop ((bits.length + 7) / 8)).take 4) = Spec.adler32 1 out
      · rw [require_true h5, ok_bind]
        refine ⟨by simp [h5], ?_⟩
        rintro _ ⟨⟩; rfl
      · rw [require_false h5]
        simp [h5, h32]
    · have h44 := mt h4.1 h32
      rw [if_neg h44]
      refine ⟨by simp [h32], ?_⟩
      rintro _ ⟨⟩; rfl
  constructor
  · intro hok
    cases hh : readDataHeader d 0 with
    | err => simp [hh] at hok
    | ub => exact absurd hh (readDataHeader_safe d)
    | ok off =>
      simp only [hh, ok_bind] at hok
      by_cases h3 : off < d.length
      case neg => simp [require_false h3] at hok
      rw [require_true h3, ok_bind] at hok
      obtain ⟨h, body, e, hz, rfl, h2⟩ := (readDataHeader_iff d hd off).1 hh
      have hdrop : d.drop h.length = body := by rw [e]; simp
      have hrun := (blockLoop_run cap d h.length (by omega)).2
      rw [hdrop] at hrun
      rcases hrun with e1 | ⟨fin, bits, rest, out', s', e1, hB, hle, hb, hf, hw, hdat, hr⟩
      · simp [e1] at hok
      · simp only [e1, ok_bind] at hok
        obtain ⟨t1, t2⟩ := tail h body bits rest s' out' e hb hw hdat hr hle
        have := t2 _ hok
        subst this
        have hne : body ≠ [] := by
          rintro rfl
          rw [e] at h3; simp at h3
        exact ⟨hle, h, body, fin, bits, rest, e, hz, hne, h2, hB, hb, hf, t1.1 hok⟩
  · rintro ⟨hle, h, body, fin, bits, rest, e, hz, hne, h2, hB, hb, hf, hA⟩
    have hh := (readDataHeader_iff d hd h.length).2 ⟨h, body, e, hz, rfl, h2⟩
    have hl : h.length < d.length := by
      rw [e]; have := List.length_pos_iff.2 hne; simp; omega
    have hdrop : d.drop h.length = body := by rw [e]; simp
    have hrun := (blockLoop_run cap d h.length (by omega)).1 fin bits rest out hB hle
    rw [hdrop] at hrun
    obtain ⟨s', e1, hw, hdat, hr⟩ := hrun hb hf
    simp only [hh, ok_bind, require_true hl, e1]
    exact (tail h body bits rest s' out e hb hw hdat hr hle).1.2 hA

/-- Every valid RFC 1950 stream (with the distance codes of C08) is decompressed to its content. -/
theorem c09_accepts_valid_partial (d out : Bytes) (cap : Nat) (hd : d.length ≤ 2 ^ 63 - 1) (hcap : cap ≤ 2 ^ 63 - 1)
    (hfit : out.length ≤ cap) (hz : ZStream UsedDist d out) : decompressZlib d cap = ok out := by
  obtain ⟨h, body, trailer, more, bits, pad, e, hh, _, hB, hb, hp, ht, hA⟩ := hz
  refine (c09_zlib_partial d out cap hd hcap).2 ⟨hfit, h, body ++ (trailer ++ more), true, bits, pad ++ bytesBits (trailer ++ more),
    e, hh, ?_, Or.inr (by simp; omega), hB, by rw [bytesBits_append, hb, List.append_assoc], by simp, ?_⟩
  · intro h0
    have := congrArg List.length h0
    simp [ht] at this
  · intro _
    have hl := congrArg List.length hb
    simp only [length_bytesBits, List.length_append] at hl
    have hbl : (bits.length + 7) / 8 = body.length := by omega
    rw [hbl, List.drop_left' rfl, ← ht, List.take_left' rfl]
    exact hA

/-- Consequence: if at least 4 bytes follow the blocks and the result is reported as good, then these are its Adler-32.
So with a complete stream, any change of the trailer is noticed. -/
theorem c09_trailer_checked_partial (h body trailer more out out' : Bytes) (bits pad : List Bool) (cap : Nat)
    (hd : (h ++ (body ++ (trailer ++ more))).length ≤ 2 ^ 63 - 1) (hcap : cap ≤ 2 ^ 63 - 1) (hfit : out.length ≤ cap)
    (hz : ZHeader h) (hB : Blocks UsedDist true 0 [] bits out) (hb : bytesBits body = bits ++ pad) (hp : pad.length < 8)
    (ht : trailer.length = 4) (hok : decompressZlib (h ++ (body ++ (trailer ++ more))) cap = ok out') :
    out' = out ∧ beVal trailer = Spec.adler32 1 out := by
  have hl := congrArg List.length hb
  simp only [length_bytesBits, List.length_append] at hl
  have hbl : (bits.length + 7) / 8 = body.length := by omega
  have hb' : bytesBits (body ++ (trailer ++ more)) = bits ++ (pad ++ bytesBits (trailer ++ more)) := by
    rw [bytesBits_append, hb, List.append_assoc]
  -- the run of the block loop on this input is determined
  unfold decompressZlib at hok
  rw [require_true hd, require_true hcap, ok_bind, ok_bind] at hok
  have hh := (readDataHeader_iff _ hd h.length).2 ⟨h, body ++ (trailer ++ more), rfl, hz, rfl, Or.inr (by simp; omega)⟩
  rw [hh, ok_bind, require_true (by simp; omega), ok_bind] at hok
  obtain ⟨s', e1, hw, hdat, hr⟩ := (blockLoop_run cap (h ++ (body ++ (trailer ++ more))) h.length (by simp)).1 true bits
    (pad ++ bytesBits (trailer ++ more)) out hB hfit (by rw [List.drop_left' rfl, hb']) (by simp)
  rw [e1] at hok
  simp only [ok_bind, pure_eq] at hok
  have hlr := length_bits s'
  rw [hr, hdat] at hlr
  have hsz := hw.size_lt
  have hoff := hw.off_le
  rw [hdat] at hoff
  simp only [List.length_append, length_bytesBits] at hlr hoff
  have hpos : s'.off = (h ++ body).length := by simp only [List.length_append]; omega
  rw [if_pos (by rw [hdat]; simp only [List.length_append]; omega), rewind_wf hw, ok_bind,
    rdN_le (by rw [hdat]; simp only [List.length_append]; omega), ok_bind, hdat, hpos, Adler.adler32_eq out 1 (by omega), ok_bind,
    ← List.append_assoc h, List.drop_left' rfl, ← ht, List.take_left' rfl, beNat_eq] at hok
  by_cases h5 : beVal trailer = Spec.adler32 1 out
  · rw [require_true h5, ok_bind] at hok
    cases hok
    exact ⟨rfl, h5⟩
  · rw [require_false h5] at hok; cases hok

/-- a valid stream of "Hello" which is accepted; with a wrong trailer it is refused -/
example : decompressZlib [0x78, 0x9c, 0xf3, 0x48, 0xcd, 0xc9, 0xc9, 0x07, 0x00, 0x05, 0x8c, 0x01, 0xf5] 16 = ok [72, 101, 108, 108, 111] ∧
    decompressZlib [0x78, 0x9c, 0xf3, 0x48, 0xcd, 0xc9, 0xc9, 0x07, 0x00, 0x05, 0x8c, 0x01, 0xf4] 16 = err := by decide +kernel

theorem zstream_length {d out : Bytes} (h : ZStream UsedDist d out) : 8 ≤ d.length := by
  obtain ⟨h, body, trailer, more, bits, pad, rfl, ⟨a, b, c, rfl, _⟩, _, hB, hb, hp, ht, _⟩ := h
  have hbits : 10 ≤ bits.length := by
    cases hB with
    | last _ h => exact Block.length h
    | «open» h => cases h
    | more h _ => have := Block.length h; simp; omega
  have hl := congrArg List.length hb
  simp only [length_bytesBits, List.length_append] at hl
  simp; omega

/-- The full statement is false: a stream without its checksum is accepted. -/
theorem c09_missing_checksum_accepted : ∃ d out, decompressZlib d 16 = ok out ∧ ¬ ZStream UsedDist d out :=
  ⟨[0x78, 0x9c, 0x73, 0x04, 0x00], [65], by decide +kernel, fun h => absurd (zstream_length h) (by decide)⟩

/-- The full statement is false: a stream of two blocks cut after the first one, at the point where "B" and the
checksum would follow, is accepted and silently shortened. -/
theorem c09_truncated_stream_accepted : ∃ (pre post : Bytes), decompressZlib (pre ++ post) 16 = ok [65, 66] ∧ post ≠ [] ∧
    decompressZlib pre 16 = ok [65] :=
  ⟨[0x78, 0x9c, 0x00, 0x01, 0x00, 0xfe, 0xff, 0x41], [0x01, 0x01, 0x00, 0xfe, 0xff, 0x42, 0x00, 0xc6, 0x00, 0x84],
    by decide +kernel, by decide, by decide +kernel⟩

/-- The full statement is false: the header check bits are not validated. -/
theorem c09_header_check_ignored : ∃ d out, decompressZlib d 16 = ok out ∧ ¬ FCheck d :=
  ⟨[0x78, 0x9d, 0x73, 0x04, 0x00, 0x00, 0x42, 0x00, 0x42], [65], by decide +kernel, by unfold FCheck; decide⟩

end Verif.Props
