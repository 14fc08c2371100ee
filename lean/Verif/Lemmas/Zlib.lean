import Verif.Lemmas.DeflateBlocks
import Verif.Lemmas.Adler
import Verif.Spec.Zlib
/-! Lemmas about the zlib container model -/
namespace Verif
open Res Spec BitStream
namespace Deflate

theorem rewind_wf {s : BitStream} (hw : s.WF) : rewind s = ok s := by
  have := hw.size_lt
  rw [rewind, if_neg (by omega)]

theorem and0f : ∀ v : Nat, v &&& 0x0f = v % 16 := fun v => Nat.and_two_pow_sub_one_eq_mod v 4

theorem and20 (v : Nat) : v &&& 0x20 ≠ 0 ↔ v / 32 % 2 = 1 := by
  have h := Nat.testBit_eq_decide_div_mod_eq (x := v) (i := 5)
  have h0 : (v &&& 0x20 = 0) ↔ v.testBit 5 = false := by
    constructor
    · intro h
      have := congrArg (fun x => Nat.testBit x 5) h
      simp only [Nat.testBit_and] at this
      simpa [show Nat.testBit 0x20 5 = true from rfl] using this
    · intro h
      apply Nat.eq_of_testBit_eq
      intro i
      rw [Nat.testBit_and, show (0x20 : Nat) = 2 ^ 5 from rfl, Nat.testBit_two_pow]
      by_cases hi : 5 = i
      · subst hi; simp [h]
      · simp [hi]
  have h' : v / 2 ^ 5 % 2 = 1 ↔ v.testBit 5 = true := by rw [h]; simp
  rw [Ne, h0]
  simp only [Bool.not_eq_false]
  exact h'.symm

theorem shl_le : ∀ i, (1 <<< (i + 8) ≤ 32768) ↔ i ≤ 7 := by
  intro i
  rw [Nat.one_shiftLeft, show 32768 = 2 ^ 15 from rfl, Nat.pow_le_pow_iff_right (by omega)]
  omega

theorem readDataHeader_safe (d : Bytes) : readDataHeader d 0 ≠ ub := by
  unfold readDataHeader
  by_cases h1 : d.length ≤ 2 ^ 63 - 1
  case neg => simp only [require_false h1, err_bind]; simp
  by_cases h2 : ¬ (d.length < 2 ∨ 0 > d.length - 2)
  case neg => simp only [require_true h1, require_false h2, ok_bind, err_bind]; simp
  have h0 : 0 < d.length := by omega
  have h1' : 0 + 1 < d.length := by omega
  simp only [require_true h1, require_true h2, ok_bind, rd_lt h0, rd_lt h1']
  apply safe_bind
  · split
    · by_cases h3 : ¬ (d.length < 6 ∨ 0 + 2 > d.length - 6)
      · rw [require_true h3, ok_bind, rdN_le (by omega)]; simp [Safe]
      · rw [require_false h3]; simp [Safe]
    · simp [Safe]
  · intro a _
    exact safe_bind safe_require fun _ _ => safe_bind safe_require fun _ _ => by simp [Safe]

/-- the header function accepts exactly the RFC 1950 headers, except that FCHECK is not looked at and that with a
dictionary identifier two more bytes must follow -/
theorem readDataHeader_iff (d : Bytes) (hd : d.length ≤ 2 ^ 63 - 1) (off : Nat) :
    readDataHeader d 0 = ok off ↔ ∃ h body, d = h ++ body ∧ ZHeader h ∧ off = h.length ∧ (h.length = 2 ∨ 2 ≤ body.length) := by
  unfold readDataHeader
  rw [require_true hd, ok_bind]
  match d, hd with
  | [], _ =>
    rw [require_false (by simp)]
    simp only [err_bind, reduceCtorEq, false_iff]
    rintro ⟨h, body, e, ⟨a, b, c, rfl, _⟩, _⟩
    simp at e
  | [x], _ =>
    rw [require_false (by simp)]
    simp only [err_bind, reduceCtorEq, false_iff]
    rintro ⟨h, body, e, ⟨a, b, c, rfl, _⟩, _⟩
    simp at e
  | cmf :: flg :: tl, hd =>
    rw [require_true (by simp), ok_bind, rd_lt (by simp), rd_lt (by simp)]
    simp only [ok_bind, List.getElem_cons_zero, Nat.zero_add, List.getElem_cons_succ, and0f, shl_le, and20]
    have hshr : cmf.toNat >>> 4 = cmf.toNat / 16 := Nat.shiftRight_eq_div_pow _ 4
    rw [hshr]
    by_cases hF : flg.toNat / 32 % 2 = 1
    · rw [if_pos hF]
      by_cases hL : 6 ≤ tl.length
      · rw [require_true (by simp; omega), ok_bind, rdN_le (by simp; omega)]
        simp only [ok_bind, pure_eq]
        by_cases hm : cmf.toNat % 16 = 8
        case neg =>
          simp only [require_false hm, err_bind, reduceCtorEq, false_iff]
          rintro ⟨h, body, e, ⟨a, b, c, rfl, h1, _⟩, _⟩
          simp at e; exact hm (e.1 ▸ h1)
        by_cases hi : cmf.toNat / 16 ≤ 7
        case neg =>
          simp only [require_true hm, require_false hi, ok_bind, err_bind, reduceCtorEq, false_iff]
          rintro ⟨h, body, e, ⟨a, b, c, rfl, _, h2, _⟩, _⟩
          simp at e; exact hi (e.1 ▸ h2)
        simp only [require_true hm, require_true hi, ok_bind]
        constructor
        · rintro h; cases h
          refine ⟨cmf :: flg :: tl.take 4, tl.drop 4, by simp, ⟨cmf, flg, _, rfl, hm, hi, ?_⟩, ?_, ?_⟩
          · rw [if_pos hF]; simp; omega
          · simp; omega
          · right; simp; omega
        · rintro ⟨h, body, e, ⟨a, b, c, rfl, _, _, h3⟩, rfl, _⟩
          simp only [List.cons_append, List.cons.injEq] at e
          rw [← e.2.1, if_pos hF] at h3
          simp [h3]
      · rw [require_false (by simp; omega)]
        simp only [err_bind, reduceCtorEq, false_iff]
        rintro ⟨h, body, e, ⟨a, b, c, rfl, _, _, h3⟩, rfl, h4⟩
        simp only [List.cons_append, List.cons.injEq] at e
        rw [← e.2.1, if_pos hF] at h3
        have := congrArg List.length e.2.2
        simp only [List.length_append, List.length_cons] at this h4
        omega
    · rw [if_neg hF]
      simp only [ok_bind, pure_eq]
      by_cases hm : cmf.toNat % 16 = 8
      case neg =>
        simp only [require_false hm, err_bind, reduceCtorEq, false_iff]
        rintro ⟨h, body, e, ⟨a, b, c, rfl, h1, _⟩, _⟩
        simp at e; exact hm (e.1 ▸ h1)
      by_cases hi : cmf.toNat / 16 ≤ 7
      case neg =>
        simp only [require_true hm, require_false hi, ok_bind, err_bind, reduceCtorEq, false_iff]
        rintro ⟨h, body, e, ⟨a, b, c, rfl, _, h2, _⟩, _⟩
        simp at e; exact hi (e.1 ▸ h2)
      simp only [require_true hm, require_true hi, ok_bind]
      constructor
      · rintro h; cases h
        refine ⟨[cmf, flg], tl, by simp, ⟨cmf, flg, [], rfl, hm, hi, ?_⟩, rfl, Or.inl rfl⟩
        rw [if_neg hF]; rfl
      · rintro ⟨h, body, e, ⟨a, b, c, rfl, _, _, h3⟩, rfl, _⟩
        simp only [List.cons_append, List.cons.injEq] at e
        rw [← e.2.1, if_neg hF] at h3
        simp [h3]

/-- reading the blocks of a whole buffer -/
theorem blockLoop_run (cap : Nat) (d : Bytes) (off : Nat) (hoff : off ≤ d.length) :
    (∀ fin bits rest out, Blocks UsedDist fin 0 [] bits out → out.length ≤ cap → bytesBits (d.drop off) = bits ++ rest →
      (fin = false → rest.length < 8) →
      ∃ s', blockLoop cap none (.init d off) [] = ok (s', out) ∧ s'.WF ∧ s'.data = d ∧ s'.bits = rest) ∧
    (blockLoop cap none (.init d off) [] = err ∨ ∃ fin bits rest out s', blockLoop cap none (.init d off) [] = ok (s', out) ∧
      Blocks UsedDist fin 0 [] bits out ∧ out.length ≤ cap ∧ bytesBits (d.drop off) = bits ++ rest ∧
      (fin = false → rest.length < 8) ∧ s'.WF ∧ s'.data = d ∧ s'.bits = rest) := by
  have hb := BitStream.bits_init d off
  have hw := WF_init d off hoff
  have hpos : (0 + (BitStream.init d off).bits.length) % 8 = 0 := by rw [hb]; simp
  refine ⟨?_, ?_⟩
  · intro fin bits rest out hB hcap hbits hfin
    obtain ⟨s', e, a⟩ := blockLoop_c hB (.init d off) none rest hw fixedOk_none hpos hcap (by rw [hb, hbits]) hfin
    exact ⟨s', e, a.wf, a.data, List.append_cancel_left (a.bits.symm.trans (hb.trans hbits))⟩
  · rcases blockLoop_s (cap := cap) (.init d off) none [] hw fixedOk_none hpos (by simp) with e | ⟨fin, s', bits, out, e, hB, hle, a, hf⟩
    · exact Or.inl e
    · have := a.bits
      rw [hb] at this
      exact Or.inr ⟨fin, bits, s'.bits, out, s', e, hB, hle, this, hf, a.wf, a.data, rfl⟩

theorem beNat_eq (bs : Bytes) : beNat bs = beVal bs := by
  unfold beNat beVal
  rfl

end Deflate
end Verif
