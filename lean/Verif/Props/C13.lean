import Verif.Lemmas.Crypto
/-!
# C13 Key unwrapping inverts RFC 3394 key wrap
-/
namespace Verif.Props
open Verif Res Spec Crypto

/-- Unwrapping the RFC 3394 wrapping of any key data under the same key yields the initial value followed by the key data, for
every block cipher and whatever the buffer held before. -/
theorem c13_unwrap_wrap {enc dec : Bytes → Bytes → Bytes} (key : Bytes) (bits : Nat) (hbits : bits = 128 ∨ bits = 192 ∨ bits = 256)
    (hkey : key.length = bits / 8) (hc : BlockCipher (enc key) (dec key))
    (iv : Bytes) (hiv : iv.length = 8) (p : List Bytes) (hp : ∀ b ∈ p, b.length = 8) (hn : p ≠ [])
    (buf : Bytes) (hb : 8 * (p.length + 1) ≤ buf.length) (hb2 : buf.length ≤ 2 ^ 63 - 1) :
    keyUnwrap dec key bits (keyWrap (enc key) iv p) buf = ok (iv ++ p.flatten ++ buf.drop (8 * (p.length + 1))) := by
  have ht : key.take (bits / 8) = key := List.take_of_length_le (by omega)
  have hl := wrapRounds_len hc hiv hp 6
  have hp1 : 1 ≤ p.length := by have := List.length_pos_iff.2 hn; omega
  have := keyUnwrap_eq (encK := enc) (decK := dec) key bits hbits (by omega) (by rw [ht]; exact hc) _ _ hl.1 hl.2.1 (by omega) buf
    (by rw [hl.2.2]; exact hb) hb2
  rw [ht, unwrap_wrap hc hiv hp, hl.2.2] at this
  show keyUnwrap dec key bits ((wrapRounds (enc key) 6 iv p).1 ++ (wrapRounds (enc key) 6 iv p).2.flatten) buf = _
  rw [this, List.append_assoc]

/-- Unwrapping never accesses memory out of bounds, for every input and every function used as the cipher with 16-byte output. -/
theorem c13_unwrap_safe {enc dec : Bytes → Bytes → Bytes} (key : Bytes) (bits : Nat) (hkey : bits / 8 ≤ key.length)
    (hc : ∀ k, BlockCipher (enc k) (dec k)) (w buf : Bytes) : Safe (keyUnwrap dec key bits w buf) := by
  by_cases h : (bits = 128 ∨ bits = 192 ∨ bits = 256) ∧ w.length ≤ 2 ^ 63 - 1 ∧ 8 < w.length ∧ w.length % 8 = 0 ∧ buf.length ≤ 2 ^ 63 - 1 ∧
      w.length ≤ buf.length
  · obtain ⟨h1, h2, h3, h4, h5, h6⟩ := h
    obtain ⟨rs, e1, e2, e3⟩ := exists_blocks8 w (w.length / 8) (by omega)
    cases rs with
    | nil => simp at e3; omega
    | cons a rs =>
      have := keyUnwrap_eq (encK := enc) (decK := dec) key bits h1 hkey (hc _) a rs (e2 a (by simp)) (fun x hx => e2 x (by simp [hx]))
        (by simp at e3; omega) buf (by simp at e3; omega) h5
      rw [e1, List.flatten_cons, this]
      exact safe_ok _
  · unfold keyUnwrap
    refine safe_bind safe_require fun _ g1 => safe_bind safe_require fun _ g2 => safe_bind safe_require fun _ g3 =>
      safe_bind safe_require fun _ g4 => safe_bind safe_require fun _ g5 => safe_bind safe_require fun _ g6 => ?_
    simp only [require_eq_ok] at g1 g2 g3 g4 g5 g6
    omega

/-- What is unwrapped is the only data whose wrapping is the input: accepted input is the wrapping of the result. -/
theorem c13_unwrap_sound {enc dec : Bytes → Bytes → Bytes} (key : Bytes) (bits : Nat)
    (hkey : key.length = bits / 8) (hc : BlockCipher (enc key) (dec key)) (w buf out : Bytes)
    (h : keyUnwrap dec key bits w buf = ok out) :
    ∃ (iv : Bytes) (p : List Bytes), iv.length = 8 ∧ (∀ b ∈ p, b.length = 8) ∧ p ≠ [] ∧ w.length = 8 * (p.length + 1) ∧
      out = iv ++ p.flatten ++ buf.drop w.length ∧ w = keyWrap (enc key) iv p := by
  have ht : key.take (bits / 8) = key := List.take_of_length_le (by omega)
  have hs : (bits = 128 ∨ bits = 192 ∨ bits = 256) ∧ w.length ≤ 2 ^ 63 - 1 ∧ 8 < w.length ∧ w.length % 8 = 0 ∧ buf.length ≤ 2 ^ 63 - 1 ∧
      w.length ≤ buf.length := by
    unfold keyUnwrap at h
    obtain ⟨_, g1, h⟩ := bind_eq_ok.1 h
    obtain ⟨_, g2, h⟩ := bind_eq_ok.1 h
    obtain ⟨_, g3, h⟩ := bind_eq_ok.1 h
    obtain ⟨_, g4, h⟩ := bind_eq_ok.1 h
    obtain ⟨_, g5, h⟩ := bind_eq_ok.1 h
    obtain ⟨_, g6, h⟩ := bind_eq_ok.1 h
    simp only [require_eq_ok] at g1 g2 g3 g4 g5 g6
    omega
  obtain ⟨h1, h2, h3, h4, h5, h6⟩ := hs
  obtain ⟨rs, e1, e2, e3⟩ := exists_blocks8 w (w.length / 8) (by omega)
  cases rs with
  | nil => simp at e3; omega
  | cons a rs =>
    have e3' : w.length = 8 * (rs.length + 1) := by simp at e3; omega
    have ha := e2 a (by simp)
    have hr : Blocks8 rs := fun x hx => e2 x (by simp [hx])
    have := keyUnwrap_eq (encK := enc) (decK := dec) key bits h1 (by omega) (by rw [ht]; exact hc) a rs ha hr
      (by omega) buf (by omega) h5
    rw [ht, ← List.flatten_cons, ← e1, h] at this
    have hl := unwrapAll_len hc ha hr 6
    refine ⟨_, _, hl.1, hl.2.1, ?_, by rw [hl.2.2]; exact e3', ?_, ?_⟩
    · intro hz
      have := hl.2.2
      rw [hz] at this
      simp at this
      omega
    · have := ok.inj this
      rw [this, e3', List.append_assoc]
    · unfold keyWrap
      simp only [wrap_unwrap hc ha hr]
      rw [e1, List.flatten_cons]

theorem blockCipher_reverse : BlockCipher List.reverse List.reverse :=
  ⟨by simp, by simp, by simp, by simp⟩

/-- the hypotheses hold for a concrete cipher, and the wrapping is not trivial -/
example : keyUnwrap (fun _ => List.reverse) (List.replicate 16 7) 128
    (keyWrap List.reverse defaultIv [[1, 2, 3, 4, 5, 6, 7, 8], [9, 10, 11, 12, 13, 14, 15, 16]]) (List.replicate 24 0)
    = ok (defaultIv ++ [1, 2, 3, 4, 5, 6, 7, 8, 9, 10, 11, 12, 13, 14, 15, 16]) :=
  c13_unwrap_wrap (enc := fun _ => List.reverse) (dec := fun _ => List.reverse) _ 128 (Or.inl rfl) rfl blockCipher_reverse defaultIv rfl
    [[1, 2, 3, 4, 5, 6, 7, 8], [9, 10, 11, 12, 13, 14, 15, 16]] (by decide) (by decide) _ (by decide) (by decide)

example : keyWrap List.reverse defaultIv [[1, 2, 3, 4, 5, 6, 7, 8], [9, 10, 11, 12, 13, 14, 15, 16]] ≠
    defaultIv ++ [1, 2, 3, 4, 5, 6, 7, 8, 9, 10, 11, 12, 13, 14, 15, 16] := by decide +kernel

end Verif.Props
