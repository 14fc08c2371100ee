import Verif.Spec.Escape
/-!
# Digests as text

A digest is shown as two lower case hexadecimal digits for each byte, the high digit first.
-/
namespace Verif.Spec.Digest
open Verif

/-- the bytes of a text of hexadecimal digits -/
def ofText : Bytes → Option Bytes
  | [] => some []
  | [_] => none
  | a :: b :: t =>
    match Escape.hexNumber 0 [a, b], ofText t with
    | some v, some d => some (UInt8.ofNat v :: d)
    | _, _ => none

/-- a digit of a digest -/
def LowerHex (b : UInt8) : Prop := (0x30 ≤ b.toNat ∧ b.toNat ≤ 0x39) ∨ (0x61 ≤ b.toNat ∧ b.toNat ≤ 0x66)

/-- a text that shows a digest -/
def Shows (text digest : Bytes) : Prop := ofText text = some digest ∧ ∀ b ∈ text, LowerHex b

/-- pieces of data, one after the other, whose digest is computed -/
structure Incremental (Context : Type) (start : Context) (update : Context → Bytes → Context) (finish : Context → Bytes) (digest : Bytes → Bytes) : Prop where
  pieces : ∀ ps : List Bytes, finish (ps.foldl update start) = digest ps.flatten
  size : ∀ d, (digest d).length = 16

end Verif.Spec.Digest
