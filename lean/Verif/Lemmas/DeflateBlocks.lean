import Verif.Lemmas.Deflate
/-! Lemmas about the DEFLATE model: stored blocks and block sequences -/
namespace Verif
open Res Spec BitStream

theorem bytesBits_prefix {d p : Bytes} {rest : List Bool} (h : bytesBits d = bytesBits p ++ rest) :
    p.length ≤ d.length ∧ d.take p.length = p ∧ rest = bytesBits (d.drop p.length) := by
  have hl := congrArg List.length h
  simp only [length_bytesBits, List.length_append] at hl
  have hle : p.length ≤ d.length := by omega
  have h2 : bytesBits (d.take p.length) ++ bytesBits (d.drop p.length) = bytesBits p ++ rest := by
    rw [← bytesBits_append, List.take_append_drop, h]
  have := List.append_inj h2 (by simp; omega)
  exact ⟨hle, bytesBits_inj this.1, this.2.symm⟩

theorem xor16 (v : Nat) (h : v < 65536) : v ^^^ 0xffff = 65535 - v := by
  apply Nat.eq_of_testBit_eq
  intro i
  have h1 : (65535 - v).testBit i = (decide (i < 16) && !v.testBit i) := by
    have := Nat.testBit_two_pow_sub_succ (n := 16) (x := v) (by omega) i
    rwa [show 2 ^ 16 - (v + 1) = 65535 - v by omega] at this
  have h2 : (0xffff : Nat).testBit i = decide (i < 16) := Nat.testBit_two_pow_sub_one 16 i
  rw [Nat.testBit_xor, h1, h2]
  by_cases hi : i < 16
  · simp [hi]
  · have : v.testBit i = false := Nat.testBit_lt_two_pow (Nat.lt_of_lt_of_le (show v < 2 ^ 16 from h) (Nat.pow_le_pow_right (by omega) (by omega : 16 ≤ i)))
    simp [hi, this]

namespace BitStream

theorem bits_aligned {s : BitStream} (h : s.size = 0) : s.bits = bytesBits (s.data.drop s.off) := by
  simp [bits, h, natBits]

theorem jump_after {s : BitStream} (hw : s.WF) (h0 : s.size = 0) (n : Nat) (hn : n ≤ s.data.length - s.off) :
    After s { s with off := s.off + n, buf := 0, size := 0 } (bytesBits ((s.data.drop s.off).take n)) := by
  refine ⟨?_, rfl, by simp, by simp, ?_⟩
  · rw [bits_aligned h0, bits_aligned (s := { s with off := s.off + n, buf := 0, size := 0 }) rfl, ← bytesBits_append]
    simp only
    rw [← List.drop_drop, List.take_append_drop]
  · have := hw.off_le; simp only; omega

end BitStream

namespace Deflate

theorem and7 (v : Nat) : v &&& 7 = v % 8 := Nat.and_two_pow_sub_one_eq_mod v 3
theorem and16 (v : Nat) : v &&& 0xffff = v % 65536 := Nat.and_two_pow_sub_one_eq_mod v 16
theorem shr16 (v : Nat) : v >>> 16 = v / 65536 := Nat.shiftRight_eq_div_pow v 16

/-- skipping to the next byte boundary -/
theorem skip_spec {s : BitStream} (hw : s.WF) : ∃ s1 pad, pad.length = s.size ∧
    (if s.size &&& 7 > 0 then (s.getValue (s.size &&& 7) >>= fun p => ok p.2) else ok s) = ok s1 ∧ After s s1 pad ∧ s1.size = 0 := by
  have hlt := hw.size_lt
  rw [and7, Nat.mod_eq_of_lt hlt]
  by_cases h0 : s.size > 0
  · rw [if_pos h0]
    have hl : s.size ≤ s.bits.length := by rw [length_bits]; omega
    rcases getVal_s hw (n := s.size) (by omega) with e | ⟨v, s1, e, hv, a⟩
    · obtain ⟨_, e', _⟩ := (getValue_spec s s.size hw (by omega) (by omega)).1 hl
      rw [e] at e'; cases e'
    · refine ⟨s1, _, by simp, by simp [e], a, ?_⟩
      have := a.length
      rw [size_eq a.wf]
      have h2 := size_eq hw
      simp at this
      omega
  · rw [if_neg h0]
    exact ⟨s, [], by simp; omega, rfl, After.refl hw, by omega⟩

theorem len32 (n : Nat) (h : n < 65536) : natBits 32 (n + 65536 * (65535 - n)) = natBits 16 n ++ natBits 16 (65535 - n) :=
  natBits_append 16 16 n (65535 - n) h

theorem readStored_c {s : BitStream} (hw : s.WF) {pos cap : Nat} {out data : Bytes} {pad rest : List Bool}
    (hpos : (pos + s.bits.length) % 8 = 0) (hp : pad.length < 8) (hal : (pos + pad.length) % 8 = 0) (hd : data.length < 65536)
    (hcap : out.length + data.length ≤ cap)
    (hb : s.bits = (pad ++ (natBits 16 data.length ++ (natBits 16 (65535 - data.length) ++ bytesBits data))) ++ rest) :
    ∃ s', readStored cap s out = ok (s', out ++ data) ∧
      After s s' (pad ++ (natBits 16 data.length ++ (natBits 16 (65535 - data.length) ++ bytesBits data))) := by
  have hsz : pad.length = s.size := by rw [size_eq hw]; omega
  obtain ⟨s1, pad', hl', e1, a1, z1⟩ := skip_spec hw
  have hb' : s.bits = pad ++ (natBits 32 (data.length + 65536 * (65535 - data.length)) ++ (bytesBits data ++ rest)) := by
    rw [hb, len32 _ hd]; simp only [List.append_assoc]
  have hpp : pad' = pad := by
    have h1 := a1.bits
    rw [hb'] at h1
    exact (List.append_inj h1 (by omega)).1.symm
  subst hpp
  have hb1 := a1.rest hb'
  obtain ⟨s2, e2, a2⟩ := getVal_c a1.wf (n := 32) (by omega) (by omega) hb1
  have hb2 := a2.rest hb1
  have z2 : s2.size = 0 := by
    rw [size_eq a2.wf]
    have := a2.length
    have := size_eq a1.wf
    simp at *; omega
  rw [bits_aligned z2] at hb2
  obtain ⟨p1, p2, p3⟩ := bytesBits_prefix hb2
  simp only [List.length_drop] at p1
  unfold readStored
  simp only [pure_eq]
  rw [e1]
  simp only [ok_bind, e2, and16, shr16]
  rw [show (data.length + 65536 * (65535 - data.length)) % 65536 = data.length by omega,
    show (data.length + 65536 * (65535 - data.length)) / 65536 = 65535 - data.length by omega,
    xor16 _ (by omega), show 65535 - (65535 - data.length) = data.length by omega, require_true rfl, ok_bind]
  have a12 := a1.trans a2
  rw [len32 _ hd] at a12
  by_cases h0 : data.length = 0
  · have hnil : data = [] := List.length_eq_zero_iff.1 h0
    rw [if_pos h0]
    refine ⟨s2, by simp [hnil], ?_⟩
    have hbn : bytesBits data = [] := by rw [hnil]; rfl
    rw [hbn, List.append_nil]; exact a12
  · rw [if_neg h0, require_true p1, require_true (show data.length ≤ cap - out.length by omega), ok_bind, ok_bind,
      rdN_le (by have := a2.wf.off_le; omega), p2, ok_bind, if_neg (by omega)]
    refine ⟨_, rfl, ?_⟩
    have := a12.trans (jump_after a2.wf z2 data.length p1)
    rw [p2] at this
    simpa only [List.append_assoc] using this

theorem readStored_s {s : BitStream} (hw : s.WF) {pos cap : Nat} {out : Bytes} (hpos : (pos + s.bits.length) % 8 = 0)
    (hcap : out.length ≤ cap) :
    readStored cap s out = err ∨ ∃ s' pad data, readStored cap s out = ok (s', out ++ data) ∧ pad.length < 8 ∧
      (pos + pad.length) % 8 = 0 ∧ data.length < 65536 ∧ out.length + data.length ≤ cap ∧
      After s s' (pad ++ (natBits 16 data.length ++ (natBits 16 (65535 - data.length) ++ bytesBits data))) := by
  obtain ⟨s1, pad, hl, e1, a1, z1⟩ := skip_spec hw
  have hsz := size_eq hw
  have hlt := hw.size_lt
  have hpl : (pos + pad.length) % 8 = 0 := by omega
  unfold readStored
  simp only [pure_eq]
  rw [e1]
  simp only [ok_bind]
  rcases getVal_s a1.wf (n := 32) (by omega) with e2 | ⟨v, s2, e2, hv, a2⟩
  · simp [e2]
  simp only [e2, ok_bind, and16, shr16]
  rw [xor16 _ (by omega)]
  by_cases hm : v % 65536 = 65535 - v / 65536
  case neg => simp only [require_false hm, err_bind, true_or]
  rw [require_true hm, ok_bind]
  have hv32 : v = v % 65536 + 65536 * (65535 - v % 65536) := by omega
  have z2 : s2.size = 0 := by
    rw [size_eq a2.wf]
    have := a2.length
    have := size_eq a1.wf
    simp at *; omega
  have a12 := a1.trans a2
  rw [hv32, len32 _ (by omega)] at a12
  by_cases h0 : v % 65536 = 0
  · rw [if_pos h0]
    refine Or.inr ⟨s2, pad, [], by simp, by omega, hpl, by simp, by simpa using hcap, ?_⟩
    rw [h0] at a12
    simpa [bytesBits] using a12
  · rw [if_neg h0]
    by_cases h1 : v % 65536 ≤ s2.data.length - s2.off
    case neg => simp only [require_false h1, err_bind, true_or]
    by_cases h2 : v % 65536 ≤ cap - out.length
    case neg => simp only [require_true h1, require_false h2, ok_bind, err_bind, true_or]
    have hdl : ((s2.data.drop s2.off).take (v % 65536)).length = v % 65536 := by simp; omega
    rw [require_true h1, require_true h2, ok_bind, ok_bind, rdN_le (by have := a2.wf.off_le; omega), ok_bind, if_neg (by omega)]
    refine Or.inr ⟨_, pad, _, rfl, by omega, hpl, by omega, by omega, ?_⟩
    rw [hdl]
    have := a12.trans (jump_after a2.wf z2 (v % 65536) h1)
    simpa only [List.append_assoc] using this

/-! ## blocks -/

/-- the lazily built fixed trees -/
def FixedOk (f : Option (HTree × HTree)) : Prop := ∀ lt dt, f = some (lt, dt) → lt.For fixedLL ∧ dt.For (List.replicate 30 5)

theorem ensureFixed_ok (ty : Nat) {f : Option (HTree × HTree)} (hf : FixedOk f) :
    ∃ f', ensureFixed ty f = ok f' ∧ FixedOk f' ∧ (ty = 1 → ∃ lt dt, f' = some (lt, dt)) := by
  unfold ensureFixed
  by_cases h : ty = 1
  · rw [if_pos h]
    cases f with
    | none =>
      obtain ⟨lt, dt, e, h1, h2⟩ := buildFixed_ok
      refine ⟨some (lt, dt), by simp [e], ?_, fun _ => ⟨lt, dt, rfl⟩⟩
      intro a b hab; cases hab; exact ⟨h1, h2⟩
    | some p => exact ⟨some p, rfl, hf, fun _ => ⟨p.1, p.2, rfl⟩⟩
  · rw [if_neg h]
    exact ⟨f, rfl, hf, fun h' => absurd h' h⟩

theorem Body.mono {D : List Nat → Prop} {pos : Nat} {out : Bytes} {ty : Nat} {bits : List Bool} {out' : Bytes}
    (h : Body D pos out ty bits out') : out.length ≤ out'.length := by
  cases h with
  | stored pad data _ _ _ => simp
  | fixed h => exact Codes.mono h
  | dynamic _ h => exact Codes.mono h

theorem Body.type_lt {D : List Nat → Prop} {pos : Nat} {out : Bytes} {ty : Nat} {bits : List Bool} {out' : Bytes}
    (h : Body D pos out ty bits out') : ty < 3 := by
  cases h <;> omega

theorem fixed_word {i : Nat} {w : List Bool} (h : CodeWord fixedLL i w) : 7 ≤ w.length := by
  obtain ⟨l, h1, _, rfl⟩ := h
  have : ∀ l ∈ fixedLL, 7 ≤ l := by decide +kernel
  simpa using this l (List.mem_of_getElem? h1)

theorem Codes.fixed_length {dl : List Nat} {out bits out'} (h : Codes fixedLL dl out bits out') : 7 ≤ bits.length := by
  cases h with
  | eob h => exact fixed_word h
  | lit b h _ => have := fixed_word h; simp; omega
  | copy k e j x _ h _ _ _ _ _ _ => have := fixed_word h; simp; omega

theorem Body.length {D : List Nat → Prop} {pos : Nat} {out : Bytes} {ty : Nat} {bits : List Bool} {out' : Bytes}
    (h : Body D pos out ty bits out') : 7 ≤ bits.length := by
  cases h with
  | stored pad data _ _ _ => simp; omega
  | fixed h => exact Codes.fixed_length h
  | dynamic h _ =>
    obtain ⟨vals, rle, _, _, _, _, _, _, _, _, _, rfl⟩ := h
    simp; omega

theorem readBlock_c {s : BitStream} (hw : s.WF) {pos cap ty : Nat} {out out' : Bytes} {bits rest : List Bool}
    {f : Option (HTree × HTree)} (hf : FixedOk f) (hf1 : ty = 1 → ∃ lt dt, f = some (lt, dt))
    (hpos : (pos + s.bits.length) % 8 = 0) (h : Body UsedDist pos out ty bits out') (hcap : out'.length ≤ cap)
    (hb : s.bits = bits ++ rest) : ∃ s', readBlock cap ty f s out = ok (s', out') ∧ After s s' bits := by
  cases h with
  | stored pad data h1 h2 h3 =>
    exact readStored_c hw hpos h1 h2 h3 (by simpa using hcap) hb
  | fixed h =>
    obtain ⟨lt, dt, rfl⟩ := hf1 rfl
    obtain ⟨f1, f2⟩ := hf lt dt rfl
    have h' : Codes fixedLL (List.replicate 30 5) out bits out' := Codes.congr (fun j w hj hw => (codeWord_fixedDL j hj w).1 hw) h
    obtain ⟨s', e, a⟩ := decodeHuffman_c f1 f2 h' s rest hw hb hcap
    exact ⟨s', by simp [readBlock, e], a⟩
  | @dynamic hh ll dl bits' out' hd h =>
    rw [List.append_assoc] at hb
    obtain ⟨lt, dt, s1, e1, f1, f2, a1⟩ := buildDynamic_c hd (Codes.eob_word h) hw hb
    obtain ⟨s', e, a⟩ := decodeHuffman_c f1 f2 h s1 rest a1.wf (a1.rest hb) hcap
    exact ⟨s', by simp [readBlock, e1, e], a1.trans a⟩

theorem readBlock_s {s : BitStream} (hw : s.WF) {pos cap ty : Nat} {out : Bytes} {f : Option (HTree × HTree)} (hf : FixedOk f)
    (hf1 : ty = 1 → ∃ lt dt, f = some (lt, dt)) (hpos : (pos + s.bits.length) % 8 = 0) (hcap : out.length ≤ cap) :
    readBlock cap ty f s out = err ∨ ∃ s' bits out', readBlock cap ty f s out = ok (s', out') ∧ Body UsedDist pos out ty bits out' ∧
      out'.length ≤ cap ∧ After s s' bits := by
  match ty with
  | 0 =>
    rcases readStored_s (cap := cap) hw hpos hcap with e | ⟨s', pad, data, e, h1, h2, h3, h4, a⟩
    · exact Or.inl e
    · exact Or.inr ⟨s', _, _, e, .stored pad data h1 h2 h3, by simpa using h4, a⟩
  | 1 =>
    obtain ⟨lt, dt, rfl⟩ := hf1 rfl
    obtain ⟨f1, f2⟩ := hf lt dt rfl
    simp only [readBlock, ofMem_some, ok_bind]
    rcases decodeHuffman_s f1 f2 (by simp) s out hw hcap with e | ⟨s', bits, out', e, hC, hle, a⟩
    · exact Or.inl e
    · exact Or.inr ⟨s', bits, out', e, .fixed (Codes.congr (fun j w hj hw => (codeWord_fixedDL j hj w).2 hw) hC), hle, a⟩
  | 2 =>
    simp only [readBlock]
    rcases buildDynamic_s hw with e1 | ⟨lt, dt, s1, h, ll, dl, e1, hd, f1, f2, a1⟩
    · simp [e1]
    · have hdl : dl.length ≤ 30 := by obtain ⟨_, _, _, _, hD, _⟩ := hd; exact hD.2.1
      simp only [e1, ok_bind]
      rcases decodeHuffman_s f1 f2 hdl s1 out a1.wf hcap with e | ⟨s', bits, out', e, hC, hle, a⟩
      · exact Or.inl e
      · exact Or.inr ⟨s', _, out', e, .dynamic hd hC, hle, a1.trans a⟩
  | n + 3 => exact Or.inl rfl

theorem header3 (last : Bool) (ty : Nat) : natBits 3 (last.toNat + 2 * ty) = last :: natBits 2 ty := by
  rw [natBits]
  congr 1
  · cases last <;> simp <;> omega
  · congr 1; cases last <;> simp <;> omega

theorem oneBlock_c {s : BitStream} (hw : s.WF) {pos cap : Nat} {last : Bool} {out out' : Bytes} {bits rest : List Bool}
    {f : Option (HTree × HTree)} (hf : FixedOk f)
    (hpos : (pos + s.bits.length) % 8 = 0) (h : Block UsedDist pos last out bits out') (hcap : out'.length ≤ cap)
    (hb : s.bits = bits ++ rest) : ∃ f' s', oneBlock cap f s out = ok (last.toNat, f', s', out') ∧ FixedOk f' ∧ After s s' bits := by
  obtain ⟨hB⟩ := h
  rename_i ty bits'
  have hty := Body.type_lt hB
  have hl2 : last.toNat < 2 := by cases last <;> decide
  have hb' : s.bits = natBits 3 (last.toNat + 2 * ty) ++ (bits' ++ rest) := by
    rw [hb, header3]; simp only [List.cons_append, List.append_assoc]
  obtain ⟨s1, e1, a1⟩ := getVal_c hw (n := 3) (by omega) (by omega) hb'
  obtain ⟨f', e2, hf', hf1⟩ := ensureFixed_ok ty hf
  have hl := a1.length
  rw [length_natBits] at hl
  obtain ⟨s2, e3, a2⟩ := readBlock_c a1.wf hf' hf1 (by omega) hB hcap (a1.rest hb')
  refine ⟨f', s2, ?_, hf', ?_⟩
  · have h1 : (last.toNat + 2 * ty) >>> 1 = ty := by rw [Nat.shiftRight_eq_div_pow]; omega
    have h2 : (last.toNat + 2 * ty) &&& 1 = last.toNat := by
      rw [Nat.and_one_is_mod]; omega
    simp only [oneBlock, readBlockHeader, e1, ok_bind, pure_eq, h1, h2, e2, e3]
  · have := a1.trans a2
    rw [header3] at this
    simpa only [List.cons_append] using this

theorem oneBlock_s {s : BitStream} (hw : s.WF) {pos cap : Nat} {out : Bytes} {f : Option (HTree × HTree)} (hf : FixedOk f)
    (hpos : (pos + s.bits.length) % 8 = 0) (hcap : out.length ≤ cap) :
    oneBlock cap f s out = err ∨ ∃ (last : Bool) (f' : Option (HTree × HTree)) (s' : BitStream) (bits : List Bool) (out' : Bytes),
      oneBlock cap f s out = ok (last.toNat, f', s', out') ∧ FixedOk f' ∧
      Block UsedDist pos last out bits out' ∧ out'.length ≤ cap ∧ After s s' bits := by
  unfold oneBlock readBlockHeader
  rcases getVal_s hw (n := 3) (by omega) with e1 | ⟨v, s1, e1, hv, a1⟩
  · simp [e1]
  simp only [e1, ok_bind, pure_eq]
  obtain ⟨f', e2, hf', hf1⟩ := ensureFixed_ok (v >>> 1) hf
  simp only [e2, ok_bind]
  have hl := a1.length
  rw [length_natBits] at hl
  rcases readBlock_s (cap := cap) a1.wf hf' hf1 (show (pos + 3 + s1.bits.length) % 8 = 0 by omega) hcap with
    e3 | ⟨s2, bits, out', e3, hB, hle, a2⟩
  · simp [e3]
  · simp only [e3, ok_bind]
    have hv2 : v = (v % 2 == 1).toNat + 2 * (v >>> 1) := by
      rw [Nat.shiftRight_eq_div_pow]
      rcases Nat.mod_two_eq_zero_or_one v with h | h <;> simp [h] <;> omega
    have h2 : v &&& 1 = (v % 2 == 1).toNat := by
      rw [Nat.and_one_is_mod]
      rcases Nat.mod_two_eq_zero_or_one v with h | h <;> simp [h]
    refine Or.inr ⟨v % 2 == 1, f', s2, _, out', by rw [h2], hf', .mk hB, hle, ?_⟩
    have := a1.trans a2
    rw [hv2, header3] at this
    simpa only [List.cons_append] using this

theorem Block.length {D : List Nat → Prop} {pos : Nat} {last : Bool} {out : Bytes} {bits : List Bool} {out' : Bytes}
    (h : Block D pos last out bits out') : 10 ≤ bits.length := by
  obtain ⟨hB⟩ := h
  have := Body.length hB
  simp; omega

theorem Block.mono {D : List Nat → Prop} {pos : Nat} {last : Bool} {out : Bytes} {bits : List Bool} {out' : Bytes}
    (h : Block D pos last out bits out') : out.length ≤ out'.length := by
  obtain ⟨hB⟩ := h
  exact Body.mono hB

theorem Blocks.mono {D : List Nat → Prop} {fin : Bool} {pos : Nat} {out : Bytes} {bits : List Bool} {out' : Bytes}
    (h : Blocks D fin pos out bits out') : out.length ≤ out'.length := by
  induction h with
  | last _ h => exact Block.mono h
  | «open» _ => exact Nat.le_refl _
  | more h _ ih => have := Block.mono h; omega

theorem off_lt {s : BitStream} (hw : s.WF) : s.off < s.data.length ↔ 8 ≤ s.bits.length := by
  rw [length_bits]
  have := hw.size_lt
  have := hw.off_le
  omega

theorem blockLoop_c {fin : Bool} {cap pos : Nat} {out out' : Bytes} {bits : List Bool}
    (h : Blocks UsedDist fin pos out bits out') :
    ∀ (s : BitStream) (f : Option (HTree × HTree)) (rest : List Bool), s.WF → FixedOk f → (pos + s.bits.length) % 8 = 0 →
    out'.length ≤ cap → s.bits = bits ++ rest → (fin = false → rest.length < 8) →
    ∃ s', blockLoop cap f s out = ok (s', out') ∧ After s s' bits := by
  induction h with
  | last hfin h =>
    intro s f rest hw hf hpos hcap hb hr
    obtain ⟨f', s', e, _, a⟩ := oneBlock_c hw hf hpos h hcap hb
    have hl := Block.length h
    refine ⟨s', ?_, a⟩
    rw [blockLoop, if_pos ((off_lt hw).2 (by rw [hb]; simp; omega)), e]
    simp
  | «open» hfin =>
    intro s f rest hw hf hpos hcap hb hr
    refine ⟨s, ?_, After.refl hw⟩
    rw [blockLoop, if_neg]
    rw [off_lt hw, hb]
    have := hr hfin
    simpa using this
  | @more pos out bits out' bits' out'' h hB ih =>
    intro s f rest hw hf hpos hcap hb hr
    rw [List.append_assoc] at hb
    have hmono := Blocks.mono hB
    obtain ⟨f', s', e, hf', a⟩ := oneBlock_c hw hf hpos h (show _ ≤ cap by omega) hb
    have hl := Block.length h
    have hlen := a.length
    obtain ⟨s'', e', a'⟩ := ih s' f' rest a.wf hf' (by omega) hcap (a.rest hb) hr
    refine ⟨s'', ?_, a.trans a'⟩
    rw [blockLoop, if_pos ((off_lt hw).2 (by rw [hb]; simp; omega)), e]
    simp only [Bool.toNat_false, ne_eq, not_true_eq_false, if_false]
    rw [dif_pos (measure_lt a (by omega)), e']

theorem blockLoop_s {cap pos : Nat} (s : BitStream) (f : Option (HTree × HTree)) (out : Bytes) (hw : s.WF) (hf : FixedOk f)
    (hpos : (pos + s.bits.length) % 8 = 0) (hcap : out.length ≤ cap) :
    blockLoop cap f s out = err ∨ ∃ fin s' bits out', blockLoop cap f s out = ok (s', out') ∧
      Blocks UsedDist fin pos out bits out' ∧ out'.length ≤ cap ∧ After s s' bits ∧ (fin = false → s'.bits.length < 8) := by
  induction hk : s.bits.length using Nat.strongRecOn generalizing s f out pos with
  | ind n ih =>
    rw [blockLoop]
    by_cases hlt : s.off < s.data.length
    · rw [if_pos hlt]
      rcases oneBlock_s (cap := cap) hw hf hpos hcap with e | ⟨last, f', s', bits, out', e, hf', hB, hle, a⟩
      · simp [e]
      · simp only [e]
        cases last with
        | true =>
          simp only [Bool.toNat_true, ne_eq, Nat.one_ne_zero, not_false_eq_true, if_true]
          exact Or.inr ⟨true, s', bits, out', rfl, .last rfl hB, hle, a, by simp⟩
        | false =>
          have hl := Block.length hB
          have hlen := a.length
          simp only [Bool.toNat_false, ne_eq, not_true_eq_false, if_false]
          rw [dif_pos (measure_lt a (by omega))]
          rcases ih s'.bits.length (by omega) (pos := pos + bits.length) s' f' out' a.wf hf' (by omega) hle rfl with
            e2 | ⟨fin, s'', bits', out'', e2, hBs, hle2, a2, hr⟩
          · exact Or.inl e2
          · exact Or.inr ⟨fin, s'', _, out'', e2, .more hB hBs, hle2, a.trans a2, hr⟩
    · rw [if_neg hlt]
      rw [off_lt hw] at hlt
      exact Or.inr ⟨false, s, [], out, rfl, .open rfl, hcap, After.refl hw, fun _ => by omega⟩

theorem fixedOk_none : FixedOk none := by intro a b h; cases h

end Deflate
end Verif
