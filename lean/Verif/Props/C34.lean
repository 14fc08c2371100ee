import Verif.Model.Volume
import Verif.Spec.Unlock
import Verif.Props.C14
import Verif.Props.C33
/-!
# C34 UTF-8 and UTF-16 forms of a password are interchangeable
-/
namespace Verif.Props
open Verif Res Volume Spec

/-- Through the UTF-16 functions the password includes an end-of-string character. -/
theorem c34_utf16_password (utf8 : Bytes) (h : utf8.length + 2 ≤ 128 * 1024 * 1024) :
    ∃ buffer, setUtf16 utf8 = ok buffer ∧ usedPassword buffer = (utf8 ++ [0]).map some := by
  unfold setUtf16
  simp only
  rw [require_true (by omega), ok_bind, if_neg (by simp), if_pos (by simp)]
  refine ⟨_, rfl, ?_⟩
  unfold usedPassword
  rw [List.length_set, List.take_set_of_le (by simp), List.take_append_of_le_length (by simp), List.take_of_length_le (by simp)]

theorem hmac_zero (hash : Bytes → Bytes) (pw : Bytes) (h : pw.length ≤ 63) : hmac hash (pw ++ [0]) = hmac hash pw := by
  have : hmacKey hash (pw ++ [0]) = hmacKey hash pw := by
    unfold hmacKey
    rw [if_neg (by simp; omega), if_neg (by omega)]
    simp only [List.length_append, List.length_singleton, List.append_assoc]
    congr 1
    have : 64 - pw.length = 1 + (64 - (pw.length + 1)) := by omega
    rw [this, ← List.replicate_append_replicate]
    rfl
  funext t
  unfold hmac
  rw [this]

theorem pbkdf2_congr (prf : Bytes → Bytes → Bytes) (p q : Bytes) (h : prf p = prf q) (s : Bytes) (c n : Nat) : Spec.pbkdf2 prf p s c n = Spec.pbkdf2 prf q s c n := by
  have hu : ∀ i c, pbkdf2U prf p s i c = pbkdf2U prf q s i c := by
    intro i c
    induction c with
    | zero => simp only [pbkdf2U, h]
    | succ c ih => simp only [pbkdf2U, h, ih]
  have hf : ∀ i c, pbkdf2F prf p s i c = pbkdf2F prf q s i c := by
    intro i c
    induction c with
    | zero => simp only [pbkdf2F, hu]
    | succ c ih => simp only [pbkdf2F, hu, ih]
  have ht : ∀ l i, pbkdf2T prf p s c i l = pbkdf2T prf q s c i l := by
    intro l
    induction l with
    | zero => intro i; rfl
    | succ l ih => intro i; simp only [pbkdf2T, hf, ih]
  unfold Spec.pbkdf2
  rw [ht]

/-- Partial: for passwords of at most 63 UTF-8 bytes the keys derived from both forms are the same, because HMAC pads the password with zero bytes. Missing:
longer passwords, see below. -/
theorem c34_same_key_partial (hash : Bytes → Bytes) (hh : ∀ d, (hash d).length = 32) (utf8 salt out : Bytes) (h0 : (0 : UInt8) ∉ utf8)
    (h1 : 1 ≤ utf8.length) (h : utf8.length ≤ 63) (hs : salt.length + 4 ≤ 128 * 1024 * 1024)
    (iterations : Nat) (hi : 1 ≤ iterations) (ho : out.length ≤ (2 ^ 32 - 1) * 32) (rest : Bytes) :
    ∃ b8 b16 p8 p16, setUtf8 (utf8 ++ 0 :: rest) utf8.length = ok b8 ∧ setUtf16 utf8 = ok b16 ∧ usedPassword b8 = p8.map some ∧ usedPassword b16 = p16.map some ∧
      Crypto.pbkdf2 (hmac hash) p8 salt iterations out = Crypto.pbkdf2 (hmac hash) p16 salt iterations out := by
  obtain ⟨b8, e1, e2⟩ := c33_exact_partial utf8 rest h0 h1 (by omega)
  obtain ⟨b16, e3, e4⟩ := c34_utf16_password utf8 (by omega)
  refine ⟨b8, b16, utf8, utf8 ++ [0], e1, e3, e2, e4, ?_⟩
  have hp : ∀ p d, (hmac hash p d).length = 32 := fun p d => hh _
  rw [c14_pbkdf2 _ hp _ _ _ _ (by omega) hs hi ho, c14_pbkdf2 _ hp _ _ _ _ (by simp; omega) hs hi ho,
    pbkdf2_congr (hmac hash) (utf8 ++ [0]) utf8 (hmac_zero hash utf8 h)]

/-- For a password of exactly 64 UTF-8 bytes HMAC works with different keys, whatever the hash function, ... -/
theorem c34_differs_64 (hash : Bytes → Bytes) (hh : ∀ d, (hash d).length = 32) (utf8 : Bytes) (h0 : (0 : UInt8) ∉ utf8) (h : utf8.length = 64) :
    hmacKey hash utf8 ≠ hmacKey hash (utf8 ++ [0]) := by
  intro e
  unfold hmacKey at e
  rw [if_neg (by omega), if_pos (by simp [h])] at e
  simp only [h, hh, Nat.sub_self, List.replicate_zero, List.append_nil] at e
  apply h0
  rw [e]
  simp

/-- ... and for a longer one the keys only agree if the hash function has a collision. -/
theorem c34_differs_longer (hash : Bytes → Bytes) (hh : ∀ d, (hash d).length = 32) (utf8 : Bytes) (h : 65 ≤ utf8.length)
    (e : hmacKey hash utf8 = hmacKey hash (utf8 ++ [0])) : hash utf8 = hash (utf8 ++ [0]) := by
  unfold hmacKey at e
  rw [if_pos (by omega), if_pos (by simp; omega)] at e
  exact (List.append_inj e (by rw [hh, hh])).1

example : setUtf16 [104, 105] = ok [some 104, some 105, some 0, some 0] := by decide
example : ∃ hash : Bytes → Bytes, ∀ d, (hash d).length = 32 := ⟨fun _ => List.replicate 32 0, fun _ => by simp⟩
example : (0 : UInt8) ∉ List.replicate 64 (97 : UInt8) ∧ (List.replicate 64 (97 : UInt8)).length = 64 := by decide

end Verif.Props
