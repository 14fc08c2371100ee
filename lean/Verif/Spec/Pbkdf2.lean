import Verif.Model.Base
/-!
# PBKDF2, RFC 2898 section 5.2, for a pseudo random function with 32-byte output
-/
namespace Verif.Spec
open Verif

/-- U_(c+1) of block `i` -/
def pbkdf2U (prf : Bytes → Bytes → Bytes) (p s : Bytes) (i : Nat) : Nat → Bytes
  | 0 => prf p (s ++ toBE 4 i)
  | c + 1 => prf p (pbkdf2U prf p s i c)

/-- U_1 xor ... xor U_(c+1) -/
def pbkdf2F (prf : Bytes → Bytes → Bytes) (p s : Bytes) (i : Nat) : Nat → Bytes
  | 0 => pbkdf2U prf p s i 0
  | c + 1 => xorBytes (pbkdf2F prf p s i c) (pbkdf2U prf p s i (c + 1))

/-- T_(i+1) || T_(i+2) || ... of `l` blocks, `c` iterations -/
def pbkdf2T (prf : Bytes → Bytes → Bytes) (p s : Bytes) (c : Nat) : Nat → Nat → Bytes
  | _, 0 => []
  | i, l + 1 => pbkdf2F prf p s (i + 1) (c - 1) ++ pbkdf2T prf p s c (i + 1) l

/-- derived key of `dkLen` bytes -/
def pbkdf2 (prf : Bytes → Bytes → Bytes) (p s : Bytes) (c dkLen : Nat) : Bytes :=
  (pbkdf2T prf p s c 0 ((dkLen + 31) / 32)).take dkLen

end Verif.Spec
