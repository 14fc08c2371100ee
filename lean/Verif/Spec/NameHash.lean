import Verif.Spec.Unicode
import Verif.Spec.Checksum
/-!
# Specification of the name hash of a directory record

The lower 22 bits of the CRC-32C, without the final inversion, of the name in UTF-32 little endian. The name is in Normalization Form D, and in case
folded form if names are case-insensitive.
-/
namespace Verif.Spec

/-- UTF-32 little endian -/
def utf32le (s : List Nat) : List UInt8 :=
  s.flatMap (fun c => [UInt8.ofNat c, UInt8.ofNat (c / 2 ^ 8), UInt8.ofNat (c / 2 ^ 16), UInt8.ofNat (c / 2 ^ 24)])

/-- name hash of a name -/
def nameHash (caseInsensitive : Bool) (name : List Nat) : Nat :=
  (crc 0xffffffff#32 (utf32le (if caseInsensitive then Unicode.caseless name else Unicode.nfd name))).toNat % 2 ^ 22

/-- Characters that were added to Unicode after the version the tables of the library were made of, and U+1CBB and U+1CBC, which are not assigned. -/
def newer (c : Nat) : Bool :=
  [0x1cbb, 0x1cbc, 0x2c2f, 0xa7c0, 0xa7d0, 0xa7d6, 0xa7d8, 0x11938].contains c ||
    (Nat.ble 0x10570 c && Nat.ble c 0x10595 && ![0x1057b, 0x1058b, 0x10593].contains c)

/-- characters for which the tables of the library differ from those of Unicode 14 -/
def excluded (c : Nat) : Bool := Unicode.isHangul c || newer c

/-- no character has to be moved by canonical ordering -/
def InOrder : List Nat → Prop
  | c :: d :: s => ¬ (0 < Unicode.combining d ∧ Unicode.combining d < Unicode.combining c) ∧ InOrder (d :: s)
  | _ => True

instance decidableInOrder : (s : List Nat) → Decidable (InOrder s)
  | [] => isTrue trivial
  | [_] => isTrue trivial
  | _ :: d :: s =>
    have := decidableInOrder (d :: s)
    inferInstanceAs (Decidable (_ ∧ InOrder (d :: s)))

/-- Sort key of a name, given the forms of its characters: the forms with an end mark that is greater than any character. Names are ordered
lexicographically by their keys. -/
def nameKey (form : Nat → List Nat) (name : List Nat) : List Nat := name.flatMap (fun c => form c ++ [2 ^ 32])

/-- decomposition of the case folding of the decomposition of a character -/
def caselessChar (c : Nat) : List Nat := ((Unicode.decomposition c).flatMap Unicode.caseFolding).flatMap Unicode.decomposition

end Verif.Spec
