import Verif.Model.Volume
/-!
# C33 Setting a password stores exactly the given bytes
-/
namespace Verif.Props
open Verif Res Volume

theorem stringLength_eq (s rest : Bytes) (h : (0 : UInt8) ∉ s) : stringLength (s ++ 0 :: rest) = ok s.length := by
  induction s with
  | nil => simp [stringLength]
  | cons b s ih =>
    rw [List.cons_append, stringLength, if_neg (fun e => h (by simp [e])), ih (fun e => h (by simp [e]))]
    rfl

/-- Partial: if the length given is that of the (non-empty) string, exactly its bytes become the password and nothing but the string is read. Missing: other
lengths, see the theorems below. -/
theorem c33_exact_partial (s rest : Bytes) (h : (0 : UInt8) ∉ s) (h1 : 1 ≤ s.length) (h2 : s.length ≤ 128 * 1024 * 1024 - 1) :
    ∃ buffer, setUtf8 (s ++ 0 :: rest) s.length = ok buffer ∧ usedPassword buffer = s.map some := by
  unfold setUtf8
  rw [stringLength_eq s rest h, ok_bind, require_true (by omega), ok_bind, rdN_le (by simp), ok_bind]
  simp only [List.drop_zero, List.take_left']
  rw [if_neg (by omega), if_pos (by simp)]
  refine ⟨_, rfl, ?_⟩
  unfold usedPassword
  rw [List.length_set, List.take_set_of_le (by simp)]
  simp

/-- A length below that of the string: the password is as long as the string and its end is whatever the allocated memory held. -/
theorem c33_short_length_uninitialised (s t rest : Bytes) (h : (0 : UInt8) ∉ s ++ t) (ht : t ≠ []) (h2 : (s ++ t).length ≤ 128 * 1024 * 1024 - 1) :
    ∃ buffer, setUtf8 (s ++ t ++ 0 :: rest) s.length = ok buffer ∧ usedPassword buffer = s.map some ++ List.replicate t.length none := by
  have htl := List.length_pos_iff.2 ht
  unfold setUtf8
  rw [stringLength_eq (s ++ t) rest h, ok_bind, require_true (by rw [List.length_append] at *; omega), ok_bind, rdN_le (by simp), ok_bind]
  simp only [List.drop_zero, List.append_assoc, List.take_left']
  rw [if_neg (by simp; omega), if_pos (by simp; omega)]
  refine ⟨_, rfl, ?_⟩
  unfold usedPassword
  have e : (s ++ t).length + 1 - s.length = t.length + 1 := by rw [List.length_append]; omega
  rw [e, List.length_set, List.take_set_of_le (by simp)]
  have e2 : (List.map some s ++ List.replicate (t.length + 1) none).length - 1 = (List.map some s).length + t.length := by
    rw [List.length_append, List.length_replicate]; omega
  rw [e2, List.take_length_add_append]
  simp

/-- A length of more than the string with its end-of-string character: the copy runs over the end of the allocated buffer, although all the bytes
are the caller's. -/
theorem c33_long_length_overflow (s rest : Bytes) (h : (0 : UInt8) ∉ s) (h1 : 1 ≤ s.length) (h2 : s.length ≤ 128 * 1024 * 1024 - 1) (n : Nat)
    (hn : s.length + 2 ≤ n) (hn2 : n ≤ (s ++ 0 :: rest).length) : setUtf8 (s ++ 0 :: rest) n = ub := by
  unfold setUtf8
  rw [stringLength_eq s rest h, ok_bind, require_true (by omega), ok_bind, rdN_le (by omega), ok_bind]
  simp only [List.drop_zero, List.length_take]
  rw [if_pos (by omega)]

/-- A string without an end-of-string character (as allowed by giving its length) is read past its end. -/
theorem c33_unterminated (s : Bytes) (h : (0 : UInt8) ∉ s) (n : Nat) : setUtf8 s n = ub := by
  have : stringLength s = ub := by
    induction s with
    | nil => rfl
    | cons b s ih =>
      rw [stringLength, if_neg (fun e => h (by simp [e])), ih (fun e => h (by simp [e]))]
      rfl
  unfold setUtf8
  rw [this]
  rfl

example : setUtf8 [104, 105, 0, 7] 2 = ok [some 104, some 105, some 0] := by decide
example : setUtf8 [104, 105, 0, 7] 1 = ok [some 104, none, some 0] := by decide
example : setUtf8 [104, 105, 0, 7] 4 = ub := by decide
example : setUtf8 [104, 105] 2 = ub := c33_unterminated _ (by decide) _

end Verif.Props
