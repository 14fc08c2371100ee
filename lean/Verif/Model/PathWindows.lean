import Verif.Model.PathString
/-!
# Model of fsapfstools/mount_path_string.c on Windows

System characters are 16-bit (`HAVE_WIDE_SYSTEM_CHARACTER`) and `WINAPI` is defined, so that `LIBCPATH_SEPARATOR` is the backslash and `ESCAPE_CHARACTER` the caret (mount_path_string.c 35-39);
`LIBFSAPFS_SEPARATOR` is the slash (libfsapfs_definitions.h.in 68). Strings are as in Model/PathString.lean. `Codec` is the conversion of one character from and to UTF-16 of libuna.
-/
namespace Verif
open Res
namespace PathWindows
open Name
open PathString (ssizeMax isUnprintable)

/-- strings of 16-bit characters -/
abbrev Wide := List UInt16

/-- `libuna_unicode_character_copy_from_utf16` and `libuna_unicode_character_copy_to_utf16`. The functions of libuna check the size of the buffer themselves and return an error if the character does
not fit; an encoded character has at most 2 units. -/
structure Codec where
  decoder : Decoder UInt16
  enc : Nat → Option Wide
  short : ∀ {c us}, enc c = some us → us.length ≤ 2

/-- characters that file names cannot have on Windows, mount_path_string.c 269-278 and 628-637 -/
def isReserved (c : Nat) : Bool := c == 0x5c || c == 0x3c || c == 0x3e || c == 0x3a || c == 0x22 || c == 0x2f || c == 0x7c || c == 0x3f || c == 0x2a

/-- characters that are replaced by a caret, x and two digits, mount_path_string.c 268-281 -/
def isControl (c : Nat) : Bool := c ≤ 0x1f || isReserved c || (0x7f ≤ c && c ≤ 0x9f)

/-- `%02x` and `%08x` -/
def hex (n v : Nat) : Wide := (PathString.hex n v).map fun b => UInt16.ofNat b.toNat

/-- `system_string_sprintf`, as in `PathString.sprintf` -/
def sprintf (size : Nat) (out s : Wide) : Res Wide := if out.length + s.length < size then ok (out ++ s) else ub

/-- one character, mount_path_string.c 268-396 -/
def fromCharacter (k : Codec) (size : Nat) (out : Wide) (c : Nat) : Res Wide :=
  if isControl c then sprintf size out (0x5e :: 0x78 :: hex 2 c)
  else if isUnprintable c then sprintf size out (0x5e :: 0x55 :: hex 8 c)
  else if c = 0x5e then do
    require (¬ out.length + 2 > size)
    return out ++ [0x5e, UInt16.ofNat c]
  else
    match k.enc c with
    | none => err
    | some us => do
      require (out.length + us.length ≤ size)
      return out ++ us

/-- the loop over the characters, mount_path_string.c 226-397; it stops at an end-of-string character (254-257) -/
def fromLoop (k : Codec) (size : Nat) (out : Wide) (s : Wide) : Res Wide :=
  if s = [] then ok out
  else
    match _h : k.decoder.next s with
    | none => err
    | some (c, r) =>
      if c = 0 then ok out
      else
        match fromCharacter k size out c with
        | .ok out => fromLoop k size out r
        | .err => err
        | .ub => ub
termination_by s.length
decreasing_by exact k.decoder.shorter _h

/-- `mount_path_string_copy_from_file_entry_path`, mount_path_string.c 136-423: the string without end-of-string character, and the size that is returned, which is that of the buffer (412) -/
def copyFrom (k : Codec) (s : Wide) : Res (Wide × Nat) := do
  require (¬ (s.length = 0 ∨ s.length > ssizeMax - 1))
  require (¬ s.length > (ssizeMax - 1) / 20)
  let out ← fromLoop k (s.length * 10 + 1) [] s
  require (¬ out.length ≥ s.length * 10 + 1)
  return (out, s.length * 10 + 1)

/-- `mount_path_string_copy_hexadecimal_to_integer_32_bit`, mount_path_string.c 44-131 -/
def hexToInteger : Wide → Nat → Res Nat
  | [], v => ok v
  | b :: bs, v =>
    if 0x30 ≤ b.toNat ∧ b.toNat ≤ 0x39 then hexToInteger bs (v * 16 % 2 ^ 32 + (b.toNat - 0x30))
    else if 0x41 ≤ b.toNat ∧ b.toNat ≤ 0x46 then hexToInteger bs (v * 16 % 2 ^ 32 + (b.toNat - 0x41 + 10))
    else if 0x61 ≤ b.toNat ∧ b.toNat ≤ 0x66 then hexToInteger bs (v * 16 % 2 ^ 32 + (b.toNat - 0x61 + 10))
    else err

/-- reading `n` characters -/
def rdWide (s : Wide) (n : Nat) : Res Wide := if n ≤ s.length then ok (s.take n) else ub

/-- what follows a caret: the character and the rest of the string, mount_path_string.c 562-746 -/
def unescapeCharacter (s : Wide) : Res (Nat × Wide) := do
  require (¬ 1 > s.length)
  let b ← ofMem s[0]?
  let s := s.drop 1
  if b = 0x5e then return (0x5e, s)
  else if b = 0x58 ∨ b = 0x78 then do
    require (¬ 2 > s.length)
    let digits ← rdWide s 2
    let v ← hexToInteger digits 0
    require ((0x01 ≤ v ∧ v ≤ 0x1f) ∨ isReserved v = true ∨ (0x7f ≤ v ∧ v ≤ 0x9f))
    return (v, s.drop 2)
  else if b = 0x55 ∨ b = 0x75 then do
    require (¬ 8 > s.length)
    let digits ← rdWide s 8
    let v ← hexToInteger digits 0
    require (isUnprintable v = true)
    return (v, s.drop 8)
  else err

theorem unescapeCharacter_shorter {s r : Wide} {v : Nat} (h : unescapeCharacter s = ok (v, r)) : r.length ≤ s.length := by
  unfold unescapeCharacter at h
  rw [bind_eq_ok] at h
  obtain ⟨_, _, h⟩ := h
  rw [bind_eq_ok] at h
  obtain ⟨b, _, h⟩ := h
  simp only at h
  split at h
  · cases h; simp
  · split at h
    · rw [bind_eq_ok] at h
      obtain ⟨_, _, h⟩ := h
      rw [bind_eq_ok] at h
      obtain ⟨_, _, h⟩ := h
      rw [bind_eq_ok] at h
      obtain ⟨_, _, h⟩ := h
      rw [bind_eq_ok] at h
      obtain ⟨_, _, h⟩ := h
      cases h; simp
    · split at h
      · rw [bind_eq_ok] at h
        obtain ⟨_, _, h⟩ := h
        rw [bind_eq_ok] at h
        obtain ⟨_, _, h⟩ := h
        rw [bind_eq_ok] at h
        obtain ⟨_, _, h⟩ := h
        rw [bind_eq_ok] at h
        obtain ⟨_, _, h⟩ := h
        cases h; simp
      · cases h

/-- the character that is written for the next one, and the rest of the string, mount_path_string.c 530-747: a separator is a slash, a caret starts an escape -/
def toCharacter (k : Codec) (s : Wide) : Res (Nat × Wide) :=
  match k.decoder.next s with
  | none => err
  | some (c, r) => if c = 0x5c then ok (0x2f, r) else if c = 0x5e then unescapeCharacter r else ok (c, r)

theorem toCharacter_shorter {k : Codec} {s r : Wide} {c : Nat} (h : toCharacter k s = ok (c, r)) : r.length < s.length := by
  unfold toCharacter at h
  split at h
  · cases h
  · rename_i c' r' hn
    have := k.decoder.shorter hn
    split at h
    · cases h; omega
    · split at h
      · have := unescapeCharacter_shorter h; omega
      · cases h; omega

/-- the loop over the characters, mount_path_string.c 528-774 -/
def toLoop (k : Codec) (size : Nat) (out : Wide) (s : Wide) : Res Wide :=
  if s = [] then ok out
  else
    match _h : toCharacter k s with
    | .ub => ub
    | .err => err
    | .ok (c, r) =>
      match k.enc c with
      | none => err
      | some us => if out.length + us.length ≤ size then toLoop k size (out ++ us) r else err
termination_by s.length
decreasing_by exact toCharacter_shorter _h

/-- `mount_path_string_copy_to_file_entry_path`, mount_path_string.c 428-800 -/
def copyTo (k : Codec) (s : Wide) : Res Wide := do
  require (¬ (s.length = 0 ∨ s.length > ssizeMax - 1))
  let b ← ofMem s[0]?
  require (b = 0x5c)
  require (¬ s.length + 1 > ssizeMax / 2)
  let out ← toLoop k (s.length + 1) [] s
  require (¬ out.length ≥ s.length + 1)
  return out

/-- what `system_string_length` sees of a string -/
def cString (s : Wide) : Wide := s.takeWhile (· ≠ 0)

end PathWindows
end Verif
