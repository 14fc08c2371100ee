/-!
# UTF-8 (RFC 3629) and UTF-16 (RFC 2781)
-/
namespace Verif.Spec

/-- a code point that can be encoded -/
def Scalar (c : Nat) : Prop := c < 0xd800 ∨ (0xe000 ≤ c ∧ c < 0x110000)

instance (c : Nat) : Decidable (Scalar c) := inferInstanceAs (Decidable (_ ∨ _))

namespace Utf8

/-- encoding of a character -/
def encodeChar (c : Nat) : List UInt8 :=
  if c < 0x80 then [UInt8.ofNat c]
  else if c < 0x800 then [UInt8.ofNat (0xc0 + c / 64), UInt8.ofNat (0x80 + c % 64)]
  else if c < 0x10000 then [UInt8.ofNat (0xe0 + c / 4096), UInt8.ofNat (0x80 + c / 64 % 64), UInt8.ofNat (0x80 + c % 64)]
  else [UInt8.ofNat (0xf0 + c / 262144), UInt8.ofNat (0x80 + c / 4096 % 64), UInt8.ofNat (0x80 + c / 64 % 64), UInt8.ofNat (0x80 + c % 64)]

def encode (s : List Nat) : List UInt8 := s.flatMap encodeChar

/-- the six bits of a following byte -/
def tail (b : UInt8) : Option Nat := if 0x80 ≤ b.toNat ∧ b.toNat < 0xc0 then some (b.toNat - 0x80) else none

/-- decoding one character -/
def next : List UInt8 → Option (Nat × List UInt8)
  | [] => none
  | a :: s =>
    if a.toNat < 0x80 then some (a.toNat, s)
    else if a.toNat < 0xc0 then none
    else if a.toNat < 0xe0 then
      match s with
      | b :: s => do
        let x ← tail b
        let c := (a.toNat - 0xc0) * 64 + x
        if 0x80 ≤ c then some (c, s) else none
      | [] => none
    else if a.toNat < 0xf0 then
      match s with
      | b :: d :: s => do
        let x ← tail b
        let y ← tail d
        let c := (a.toNat - 0xe0) * 4096 + x * 64 + y
        if 0x800 ≤ c ∧ Scalar c then some (c, s) else none
      | _ => none
    else if a.toNat < 0xf8 then
      match s with
      | b :: d :: e :: s => do
        let x ← tail b
        let y ← tail d
        let z ← tail e
        let c := (a.toNat - 0xf0) * 262144 + x * 4096 + y * 64 + z
        if 0x10000 ≤ c ∧ Scalar c then some (c, s) else none
      | _ => none
    else none

end Utf8

namespace Utf16

def encodeChar (c : Nat) : List UInt16 :=
  if c < 0x10000 then [UInt16.ofNat c] else [UInt16.ofNat (0xd800 + (c - 0x10000) / 1024), UInt16.ofNat (0xdc00 + (c - 0x10000) % 1024)]

def encode (s : List Nat) : List UInt16 := s.flatMap encodeChar

def next : List UInt16 → Option (Nat × List UInt16)
  | [] => none
  | a :: s =>
    if a.toNat < 0xd800 ∨ 0xe000 ≤ a.toNat then some (a.toNat, s)
    else if a.toNat < 0xdc00 then
      match s with
      | b :: s => if 0xdc00 ≤ b.toNat ∧ b.toNat < 0xe000 then some (0x10000 + (a.toNat - 0xd800) * 1024 + (b.toNat - 0xdc00), s) else none
      | [] => none
    else none

end Utf16
end Verif.Spec
