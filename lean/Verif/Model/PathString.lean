import Verif.Model.Name
/-!
# Model of fsapfstools/path_string.c, bodyfile.c, mount_path_string.c and of the lines that info_handle.c writes to a bodyfile

System characters are bytes (`HAVE_WIDE_SYSTEM_CHARACTER` is not defined) and neither `WINAPI` nor `__MINGW32__` is defined, so `LIBCPATH_SEPARATOR` and
`LIBFSAPFS_SEPARATOR` are the slash. A string that is being written is the list of the characters before the index; that it fits in the allocated buffer is
checked with every write. Allocation failures are left out. libuna is not part of the repository: `Codec` is its conversion of one character from and to UTF-8.
-/
namespace Verif
open Res
namespace PathString
open Name

/-- `libuna_unicode_character_copy_from_utf8` and `libuna_unicode_character_copy_to_utf8`. The functions of libuna check the size of the buffer themselves and return
an error if the character does not fit; an encoded character has at most 6 bytes. -/
structure Codec where
  decoder : Decoder UInt8
  enc : Nat → Option Bytes
  short : ∀ {c bs}, enc c = some bs → bs.length ≤ 6

/-- `SSIZE_MAX` -/
def ssizeMax : Nat := 2 ^ 63 - 1

/-- which of `path_string_copy_from_file_entry_path`, `bodyfile_path_string_copy_from_file_entry_path` and `mount_path_string_copy_from_file_entry_path` -/
inductive Tool where
  | info
  | bodyfile
  | mount
deriving DecidableEq, Repr

/-- characters that are replaced by a backslash, x and two digits: path_string.c 246-248, bodyfile.c 161-163, mount_path_string.c 268-281 -/
def isControl (t : Tool) (c : Nat) : Bool := c ≤ 0x1f || (t == .mount && c == 0x2f) || (0x7f ≤ c && c ≤ 0x9f)

/-- characters that are replaced by a backslash, U and eight digits: path_string.c 281-294, bodyfile.c 196-209, mount_path_string.c 314-327; and the values accepted
by path_string.c 621-634 and mount_path_string.c 703-716 -/
def isUnprintable (c : Nat) : Bool :=
  (0x2028 ≤ c && c ≤ 0x2029) || (0xd800 ≤ c && c ≤ 0xdfff) || c == 0xe000 || c == 0xf8ff || (0xfdd0 ≤ c && c ≤ 0xfddf) ||
    (0xfffe ≤ c % 0x10000 && c % 0x10000 ≤ 0xffff) || c == 0xf0000 || c == 0xffffd || c == 0x100000 || 0x10fffd ≤ c

/-- a hexadecimal digit of `%x` -/
def hexDigit (v : Nat) : UInt8 := if v < 10 then UInt8.ofNat (0x30 + v) else UInt8.ofNat (0x61 + (v - 10))

/-- `%02x` and `%08x` of a value that has no more digits than that -/
def hex : Nat → Nat → Bytes
  | 0, _ => []
  | n + 1, v => hex n (v / 16) ++ [hexDigit (v % 16)]

/-- `system_string_sprintf( &( path[ index ] ), size - index, ... )` of the string `s`: writing also the end-of-string character. The index is moved by the
length of `s` also if `s` was truncated, so that what follows is out of bounds. -/
def sprintf (size : Nat) (out s : Bytes) : Res Bytes := if out.length + s.length < size then ok (out ++ s) else ub

/-- one character: path_string.c 243-362, bodyfile.c 157-280, mount_path_string.c 268-396 -/
def fromCharacter (k : Codec) (t : Tool) (size : Nat) (out : Bytes) (c : Nat) : Res Bytes :=
  if isControl t c then sprintf size out (0x5c :: 0x78 :: hex 2 c)
  else if isUnprintable c then sprintf size out (0x5c :: 0x55 :: hex 8 c)
  else if c = 0x5c ∨ (t = .bodyfile ∧ c = 0x7c) then do
    require (¬ out.length + 2 > size)
    return out ++ [0x5c, UInt8.ofNat c]
  else
    match k.enc c with
    | none => err
    | some bs => do
      require (out.length + bs.length ≤ size)
      return out ++ bs

/-- loop over the characters: path_string.c 215-363, bodyfile.c 130-281, mount_path_string.c 226-397. The one for mounting stops at an end-of-string character
(254-257). -/
def fromLoop (k : Codec) (t : Tool) (size : Nat) (out : Bytes) (s : Bytes) : Res Bytes :=
  if s = [] then ok out
  else
    match _h : k.decoder.next s with
    | none => err
    | some (c, r) =>
      if t = .mount ∧ c = 0 then ok out
      else
        match fromCharacter k t size out c with
        | .ok out => fromLoop k t size out r
        | .err => err
        | .ub => ub
termination_by s.length
decreasing_by exact k.decoder.shorter _h

/-- the end-of-string character, path_string.c 364, bodyfile.c 282, mount_path_string.c 398-409, of which only the last one checks the index -/
def terminate (t : Tool) (size : Nat) (out : Bytes) : Res Bytes :=
  if out.length < size then ok out else if t = .mount then err else ub

/-- `path_string_copy_from_file_entry_path`, path_string.c 122-379, `bodyfile_path_string_copy_from_file_entry_path`, bodyfile.c 37-297, and
`mount_path_string_copy_from_file_entry_path`, mount_path_string.c 136-423: the string without end-of-string character -/
def copyFrom (k : Codec) (t : Tool) (s : Bytes) : Res Bytes := do
  require (¬ (s.length = 0 ∨ s.length > ssizeMax - 1))
  require (¬ s.length > (ssizeMax - 1) / 10)
  let out ← fromLoop k t (s.length * 10 + 1) [] s
  terminate t (s.length * 10 + 1) out

/-- `path_string_copy_hexadecimal_to_integer_32_bit`, path_string.c 37-117, and `mount_path_string_copy_hexadecimal_to_integer_32_bit`, mount_path_string.c 44-131 -/
def hexToInteger : Bytes → Nat → Res Nat
  | [], v => ok v
  | b :: bs, v =>
    if 0x30 ≤ b.toNat ∧ b.toNat ≤ 0x39 then hexToInteger bs (v * 16 % 2 ^ 32 + (b.toNat - 0x30))
    else if 0x61 ≤ b.toNat ∧ b.toNat ≤ 0x66 then hexToInteger bs (v * 16 % 2 ^ 32 + (b.toNat - 0x61 + 10))
    else err

/-- what follows a backslash: the character and the rest of the string. path_string.c 507-664, mount_path_string.c 562-746. `slash` is for
mount_path_string.c 628, which accepts the escaped separator. -/
def unescapeCharacter (slash : Bool) (s : Bytes) : Res (Nat × Bytes) := do
  require (¬ 1 > s.length)
  let b ← rd s 0
  let s := s.drop 1
  if b = 0x5c then return (0x5c, s)
  else if b = 0x78 then do
    require (¬ 2 > s.length)
    let digits ← rdN s 0 2
    let v ← hexToInteger digits 0
    require ((0x01 ≤ v ∧ v ≤ 0x1f) ∨ (slash = true ∧ v = 0x2f) ∨ (0x7f ≤ v ∧ v ≤ 0x9f))
    return (v, s.drop 2)
  else if b = 0x55 then do
    require (¬ 8 > s.length)
    let digits ← rdN s 0 8
    let v ← hexToInteger digits 0
    require (isUnprintable v = true)
    return (v, s.drop 8)
  else err

theorem unescapeCharacter_shorter {slash : Bool} {s r : Bytes} {v : Nat} (h : unescapeCharacter slash s = ok (v, r)) : r.length ≤ s.length := by
  unfold unescapeCharacter at h
  rw [bind_eq_ok] at h
  obtain ⟨_, _, h⟩ := h
  rw [bind_eq_ok] at h
  obtain ⟨b, _, h⟩ := h
  simp only at h
  split at h
  · cases h; simp
  · split at h
    · rw [bind_eq_ok] at h
      obtain ⟨_, _, h⟩ := h
      rw [bind_eq_ok] at h
      obtain ⟨_, _, h⟩ := h
      rw [bind_eq_ok] at h
      obtain ⟨_, _, h⟩ := h
      rw [bind_eq_ok] at h
      obtain ⟨_, _, h⟩ := h
      cases h; simp
    · split at h
      · rw [bind_eq_ok] at h
        obtain ⟨_, _, h⟩ := h
        rw [bind_eq_ok] at h
        obtain ⟨_, _, h⟩ := h
        rw [bind_eq_ok] at h
        obtain ⟨_, _, h⟩ := h
        rw [bind_eq_ok] at h
        obtain ⟨_, _, h⟩ := h
        cases h; simp
      · cases h

/-- the character itself, or what follows a backslash -/
def escapedOr (slash : Bool) (c : Nat) (r : Bytes) : Res (Nat × Bytes) := if c = 0x5c then unescapeCharacter slash r else ok (c, r)

/-- the character that is written for the next one, and the rest of the string: path_string.c 487-669, mount_path_string.c 538-747. The separator of
path_string.c is an argument (666-669, after unescaping), that of mount_path_string.c is the slash (556-559, before). -/
def toCharacter (k : Codec) (slash : Bool) (separator : Nat) (s : Bytes) : Res (Nat × Bytes) :=
  match k.decoder.next s with
  | none => err
  | some (c, r) => do
    let p ← escapedOr slash c r
    return (if p.1 = separator then 0x2f else p.1, p.2)

theorem toCharacter_shorter {k : Codec} {slash : Bool} {separator : Nat} {s r : Bytes} {c : Nat} (h : toCharacter k slash separator s = ok (c, r)) :
    r.length < s.length := by
  unfold toCharacter at h
  split at h
  · cases h
  · rename_i c' r' hn
    have := k.decoder.shorter hn
    rw [bind_eq_ok] at h
    obtain ⟨⟨c2, r2⟩, h1, h2⟩ := h
    cases h2
    unfold escapedOr at h1
    split at h1
    · have := unescapeCharacter_shorter h1; simp only; omega
    · cases h1; simp only; omega

/-- loop over the characters: path_string.c 477-696, mount_path_string.c 528-774 -/
def toLoop (k : Codec) (slash : Bool) (separator : Nat) (size : Nat) (out : Bytes) (s : Bytes) : Res Bytes :=
  if s = [] then ok out
  else
    match _h : toCharacter k slash separator s with
    | .ub => ub
    | .err => err
    | .ok (c, r) =>
      match k.enc c with
      | none => err
      | some bs => if out.length + bs.length ≤ size then toLoop k slash separator size (out ++ bs) r else err
termination_by s.length
decreasing_by exact toCharacter_shorter _h

/-- `path_string_copy_to_file_entry_path`, path_string.c 384-722 -/
def copyTo (k : Codec) (separator : Nat) (s : Bytes) : Res Bytes := do
  require (¬ (s.length = 0 ∨ s.length > ssizeMax - 1))
  require (¬ s.length + 1 > ssizeMax)
  let out ← toLoop k false separator (s.length + 1) [] s
  require (¬ out.length ≥ s.length + 1)
  return out

/-- `mount_path_string_copy_to_file_entry_path`, mount_path_string.c 428-800 -/
def mountCopyTo (k : Codec) (s : Bytes) : Res Bytes := do
  require (¬ (s.length = 0 ∨ s.length > ssizeMax - 1))
  let b ← rd s 0
  require (b = 0x2f)
  require (¬ s.length + 1 > ssizeMax)
  let out ← toLoop k true 0x2f (s.length + 1) [] s
  require (¬ out.length ≥ s.length + 1)
  return out

/-- what `system_string_length` sees of a string -/
def cString (s : Bytes) : Bytes := s.takeWhile (· ≠ 0)

/-- `%u` -/
def decimal (n : Nat) : Bytes := if n < 10 then [UInt8.ofNat (0x30 + n)] else decimal (n / 10) ++ [UInt8.ofNat (0x30 + n % 10)]

/-- `%0<w>u` -/
def padded (w n : Nat) : Bytes := List.replicate (w - (decimal n).length) 0x30 ++ decimal n

/-- `%i` -/
def signed (i : Int) : Bytes := if i < 0 then 0x2d :: decimal i.natAbs else decimal i.natAbs

/-- `%09i`: the width includes the sign -/
def signed9 (i : Int) : Bytes := if i < 0 then 0x2d :: padded 8 i.natAbs else padded 9 i.natAbs

/-- `%i.%09i` of `time / 1000000000` and `time - ( ( time / 1000000000 ) * 1000000000 )`, info_handle.c 2221-2236: division of signed integers towards zero -/
def timeField (time : Int) : Bytes := signed (time.tdiv 1000000000) ++ 0x2e :: signed9 (time - time.tdiv 1000000000 * 1000000000)

/-- the first character of the file mode, info_handle.c 2038-2066 -/
def modeType (mode : Nat) : UInt8 :=
  match mode &&& 0xf000 with
  | 0x1000 => 0x70
  | 0x2000 => 0x63
  | 0x4000 => 0x64
  | 0x6000 => 0x62
  | 0xa000 => 0x6c
  | 0xc000 => 0x73
  | _ => 0x2d

/-- one character of the permissions -/
def modeBit (mode bit : Nat) (letter : UInt8) : UInt8 := if mode &&& bit ≠ 0 then letter else 0x2d

/-- `file_mode_string`, info_handle.c 2001-2066 -/
def modeString (mode : Nat) : Bytes :=
  [modeType mode, modeBit mode 0x0100 0x72, modeBit mode 0x0080 0x77, modeBit mode 0x0040 0x78, modeBit mode 0x0020 0x72, modeBit mode 0x0010 0x77,
    modeBit mode 0x0008 0x78, modeBit mode 0x0004 0x72, modeBit mode 0x0002 0x77, modeBit mode 0x0001 0x78]

/-- the values of a file entry that `info_handle_file_entry_value_with_name_fprint` prints, info_handle.c 1894-2150 -/
structure Values where
  identifier : Nat
  mode : Nat
  owner : Nat
  group : Nat
  size : Nat
  access : Int
  modification : Int
  change : Int
  creation : Int
  /-- `symbolic_link_target`, a string with an end-of-string character -/
  target : Option Bytes
deriving DecidableEq, Repr

/-- `info_handle_bodyfile_name_value_fprint`, info_handle.c 1766-1831: `%s` prints up to the end-of-string character -/
def printName (k : Codec) (name : Bytes) : Res Bytes := do
  let s ← copyFrom k .bodyfile name
  return cString s

/-- a path or name, if there is one -/
def printText (k : Codec) : Option Bytes → Res Bytes
  | some text => printName k text
  | none => ok []

/-- the path and the name that are printed, info_handle.c 2178-2212 -/
def printPath (k : Codec) (path name : Option Bytes) (identifier : Nat) : Res Bytes := do
  let p ← printText k path
  let n ← printText k (if identifier ≠ 2 then name else none)
  return p ++ n

/-- the target of a symbolic link, info_handle.c 2214-2220 -/
def linkText : Option Bytes → Bytes
  | some target => [0x20, 0x2d, 0x3e, 0x20] ++ cString target
  | none => []

/-- what follows the name, info_handle.c 2221-2236 -/
def tailText (v : Values) : Bytes :=
  0x7c :: (decimal v.identifier ++ 0x7c :: (modeString v.mode ++ 0x7c :: (decimal v.owner ++ 0x7c :: (decimal v.group ++ 0x7c :: (decimal v.size ++
    0x7c :: (timeField v.access ++ 0x7c :: (timeField v.modification ++ 0x7c :: (timeField v.change ++ 0x7c :: timeField v.creation))))))))

/-- the line written to the bodyfile, info_handle.c 2144-2237; `md5` is the MD5 string -/
def bodyfileLine (k : Codec) (md5 : Bytes) (path name : Option Bytes) (v : Values) : Res Bytes := do
  let n ← printPath k path name v.identifier
  return md5 ++ 0x7c :: (n ++ (linkText v.target ++ (tailText v ++ [0x0a])))

end PathString
end Verif
