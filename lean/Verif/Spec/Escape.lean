import Verif.Model.Base
import Verif.Spec.Utf
/-!
# Escaped names, bodyfiles and what can be printed

A backslash starts an escape: `\\` and `\|` are the second character, `\x` and two or `\U` and eight hexadecimal digits are the character with that number.
A bodyfile has a line for every file and 11 fields in a line, separated by `|`.
-/
namespace Verif.Spec.Escape

/-- value of a hexadecimal digit -/
def digit (b : UInt8) : Option Nat :=
  if 0x30 ≤ b.toNat ∧ b.toNat ≤ 0x39 then some (b.toNat - 0x30)
  else if 0x61 ≤ b.toNat ∧ b.toNat ≤ 0x66 then some (b.toNat - 0x61 + 10)
  else if 0x41 ≤ b.toNat ∧ b.toNat ≤ 0x46 then some (b.toNat - 0x41 + 10)
  else none

/-- value of hexadecimal digits behind those with value `v` -/
def hexNumber : Nat → Bytes → Option Nat
  | v, [] => some v
  | v, b :: bs =>
    match digit b with
    | none => none
    | some d => hexNumber (v * 16 + d) bs

/-- the text without escapes, in UTF-8 -/
def unescape : Bytes → Option Bytes
  | [] => some []
  | b :: r =>
    if b ≠ 0x5c then (unescape r).map (b :: ·)
    else
      match r with
      | [] => none
      | k :: r =>
        if k = 0x5c ∨ k = 0x7c then (unescape r).map (k :: ·)
        else if k = 0x78 then
          match r with
          | d1 :: d2 :: r => (hexNumber 0 [d1, d2]).bind fun v => (unescape r).map (Utf8.encodeChar v ++ ·)
          | _ => none
        else if k = 0x55 then
          match r with
          | d1 :: d2 :: d3 :: d4 :: d5 :: d6 :: d7 :: d8 :: r =>
            (hexNumber 0 [d1, d2, d3, d4, d5, d6, d7, d8]).bind fun v => (unescape r).map (Utf8.encodeChar v ++ ·)
          | _ => none
        else none

/-- control characters: C0, delete and C1 -/
def Control (c : Nat) : Prop := c < 0x20 ∨ (0x7f ≤ c ∧ c < 0xa0)

/-- line separator and paragraph separator -/
def Separator (c : Nat) : Prop := c = 0x2028 ∨ c = 0x2029

/-- the noncharacters of Unicode (Unicode Standard 23.7) -/
def Noncharacter (c : Nat) : Prop := (0xfdd0 ≤ c ∧ c ≤ 0xfdef) ∨ c % 0x10000 = 0xfffe ∨ c % 0x10000 = 0xffff

instance (c : Nat) : Decidable (Control c) := inferInstanceAs (Decidable (_ ∨ _))
instance (c : Nat) : Decidable (Separator c) := inferInstanceAs (Decidable (_ ∨ _))
instance (c : Nat) : Decidable (Noncharacter c) := inferInstanceAs (Decidable (_ ∨ _))

/-- characters that can be printed on a line -/
def Printable (c : Nat) : Prop := Scalar c ∧ ¬ Control c ∧ ¬ Separator c ∧ ¬ Noncharacter c

instance (c : Nat) : Decidable (Printable c) := inferInstanceAs (Decidable (_ ∧ _))

/-- characters before the first element of a list of texts -/
def prepend (x : Bytes) : List Bytes → List Bytes
  | [] => [x]
  | f :: fs => (x ++ f) :: fs

/-- the fields of a line, separated by `|` that is not escaped -/
def fields : Bytes → List Bytes
  | [] => [[]]
  | b :: r =>
    if b = 0x7c then [] :: fields r
    else if b = 0x5c then
      match r with
      | [] => [[b]]
      | k :: r => prepend [b, k] (fields r)
    else prepend [b] (fields r)

/-- the lines of a file, each of which ends with a line feed -/
def lines : Bytes → List Bytes
  | [] => []
  | b :: r => if b = 0x0a then [] :: lines r else prepend [b] (lines r)

/-- value of decimal digits behind those with value `v` -/
def decimalNumber : Nat → Bytes → Option Nat
  | v, [] => some v
  | v, b :: bs => if 0x30 ≤ b.toNat ∧ b.toNat ≤ 0x39 then decimalNumber (v * 10 + (b.toNat - 0x30)) bs else none

/-- a decimal number -/
def number (s : Bytes) : Option Nat := if s = [] then none else decimalNumber 0 s

/-- seconds, point and nine digits, in nanoseconds -/
def unsignedTime (s : Bytes) : Option Nat :=
  match s.dropWhile (· ≠ 0x2e) with
  | _ :: nano => if nano.length = 9 then (number (s.takeWhile (· ≠ 0x2e))).bind fun x => (number nano).map (x * 1000000000 + ·) else none
  | [] => none

/-- a time; a minus sign is for both parts -/
def time (s : Bytes) : Option Int :=
  match s with
  | b :: r => if b = 0x2d then (unsignedTime r).map (fun n => - Int.ofNat n) else (unsignedTime s).map Int.ofNat
  | [] => none

/-- letter of a type of file (stat.h, ls) -/
def typeLetter (type : Nat) : Char :=
  if type = 1 then 'p' else if type = 2 then 'c' else if type = 4 then 'd' else if type = 6 then 'b' else if type = 10 then 'l' else if type = 12 then 's' else '-'

/-- type and permissions the way `ls -l` shows them -/
def modeLetters (mode : Nat) : List Char :=
  typeLetter (mode / 4096 % 16) :: ((List.range 9).map fun i => if mode.testBit (8 - i) then ['r', 'w', 'x'][i % 3]! else '-')

end Verif.Spec.Escape
