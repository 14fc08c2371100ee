import Verif.Lemmas.Crypto
/-!
# C14 Password key derivation is PBKDF2
-/
namespace Verif.Props
open Verif Res Crypto

/-- For every password, salt, iteration count and output size within the limit of RFC 2898, 5.2 step 1, the output is the PBKDF2
derived key, whatever the output buffer held before. -/
theorem c14_pbkdf2 (prf : Bytes → Bytes → Bytes) (hp : ∀ p d, (prf p d).length = 32) (password salt out : Bytes) (iterations : Nat)
    (hpw : password.length ≤ 2 ^ 63 - 1) (hs : salt.length + 4 ≤ 128 * 1024 * 1024) (hi : 1 ≤ iterations)
    (ho : out.length ≤ (2 ^ 32 - 1) * 32) :
    pbkdf2 prf password salt iterations out = ok (Spec.pbkdf2 prf password salt iterations out.length) := by
  generalize hn : out.length = n at ho
  unfold pbkdf2
  rw [require_true (by omega), ok_bind, require_true (by omega), ok_bind, require_true (by omega), ok_bind, require_true (by omega), ok_bind]
  simp only [List.length_replicate]
  rw [hn, require_true (by omega), ok_bind]
  have hd : wrN (List.replicate (salt.length + 4) 0) 0 salt = ok (salt ++ List.replicate 4 0) := by
    have := wrN_mid [] (List.replicate salt.length 0) (List.replicate 4 (0 : UInt8)) salt 0 rfl (by simp)
    rw [List.nil_append, List.nil_append, List.replicate_append_replicate] at this
    exact this
  have hb : n / 32 % 2 ^ 32 = n / 32 := Nat.mod_eq_of_lt (by omega)
  rw [hd, ok_bind, hb]
  have hrep : List.replicate n (0 : UInt8) = [] ++ (List.replicate (n / 32 * 32) 0 ++ List.replicate (n - n / 32 * 32) 0) := by
    rw [List.nil_append, List.replicate_append_replicate, show n / 32 * 32 + (n - n / 32 * 32) = n by omega]
  rw [hrep, pbkdf2Blocks_eq prf hp password salt (List.replicate 4 0) (by simp) iterations (n / 32) 0 (by omega) [] _ _ rfl (by simp), ok_bind]
  have hT := pbkdf2T_len prf hp password salt iterations 0 (n / 32)
  unfold Spec.pbkdf2
  by_cases hr : n - n / 32 * 32 > 0
  · rw [if_pos hr]
    have := pbkdf2Block_eq prf hp password salt (List.replicate 4 0) (by simp) iterations (n / 32) (n / 32 * 32) (n - n / 32 * 32) (by omega) (by omega)
      (Spec.pbkdf2T prf password salt iterations 0 (n / 32)) (List.replicate (n - n / 32 * 32) 0) [] hT (by simp)
    rw [List.append_nil, List.append_nil] at this
    rw [List.nil_append, this, show (n + 31) / 32 = n / 32 + 1 by omega, pbkdf2T_snoc, Nat.zero_add, List.take_append, hT]
    rw [List.take_of_length_le (l := Spec.pbkdf2T prf password salt iterations 0 (n / 32)) (by omega)]
  · rw [if_neg hr, show (n + 31) / 32 = n / 32 by omega, show n - n / 32 * 32 = 0 by omega, pure_eq, List.take_of_length_le (by omega)]
    simp

/-- Zero iterations are refused. -/
theorem c14_zero_iterations (prf : Bytes → Bytes → Bytes) (password salt out : Bytes) : pbkdf2 prf password salt 0 out = err := by
  unfold pbkdf2 require
  repeat' first | rfl | split | (rw [ok_bind]) | (rw [err_bind])
  all_goals first | rfl | contradiction | simp_all

/-- The bound on the output size cannot be dropped: for 2^37 bytes, the number of blocks wraps to 0 and the hash buffer is
over-read. The library itself only derives keys of 32 bytes. -/
theorem c14_oversized_output (prf : Bytes → Bytes → Bytes) (hp : ∀ p d, (prf p d).length = 32) (out : Bytes) (ho : out.length = 2 ^ 37) :
    pbkdf2 prf [] [] 1 out = ub := by
  generalize hn : (2 : Nat) ^ 37 = n at ho
  have h0 : n / 32 % 2 ^ 32 = 0 := by omega
  unfold pbkdf2
  rw [require_true (show ¬ ([] : Bytes).length > 2 ^ 63 - 1 by simp), ok_bind, ok_bind, require_true (show (1 : Nat) ≠ 0 by decide), ok_bind,
    require_true (show ¬ out.length > 2 ^ 63 - 1 by rw [ho]; omega), ok_bind]
  simp only [List.length_replicate]
  rw [ho, h0, require_true (by simp), ok_bind, show wrN (List.replicate (([] : Bytes).length + 4) 0) 0 [] = ok [0, 0, 0, 0] from rfl, ok_bind, pbkdf2Blocks, ok_bind,
    if_pos (by omega)]
  unfold pbkdf2Block
  rw [show wrN [0, 0, 0, 0] ([] : Bytes).length (toBE 4 ((0 + 1) % 2 ^ 32)) = ok [0, 0, 0, 1] by decide, ok_bind]
  simp only
  rw [rdN_gt (by rw [hp]; omega), ub_bind]

/-- a concrete function and inputs meet the hypotheses; the result spans two blocks, the last one partial -/
example : let prf : Bytes → Bytes → Bytes := fun p d => List.replicate 31 (p.headD 0) ++ [UInt8.ofNat (leNat d % 251)]
    pbkdf2 prf [5] [1, 2] 3 (List.replicate 40 9) = ok (Spec.pbkdf2 prf [5] [1, 2] 3 40) :=
  c14_pbkdf2 _ (by simp) [5] [1, 2] (List.replicate 40 9) 3 (by decide) (by decide) (by decide) (by decide)

end Verif.Props
