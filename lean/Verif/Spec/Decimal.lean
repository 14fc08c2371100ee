import Verif.Model.Base
/-!
# Decimal numerals
-/
namespace Verif.Spec.Decimal
open Verif

/-- an ASCII digit -/
def Digit (c : UInt8) : Prop := 0x30 ≤ c.toNat ∧ c.toNat ≤ 0x39

instance (c : UInt8) : Decidable (Digit c) := inferInstanceAs (Decidable (_ ∧ _))

/-- the number that digits denote: each counts as often as its place says -/
def value : Bytes → Nat
  | [] => 0
  | c :: s => (c.toNat - 0x30) * 10 ^ s.length + value s

/-- a decimal numeral for `n` as one writes it: digits, at least one -/
def Numeral (s : Bytes) (n : Nat) : Prop := s ≠ [] ∧ (∀ c ∈ s, Digit c) ∧ value s = n

instance (s : Bytes) (n : Nat) : Decidable (Numeral s n) := inferInstanceAs (Decidable (_ ∧ _ ∧ _))

end Verif.Spec.Decimal
