/-!
# Bit strings (independent of the model)
A byte stream is read least significant bit first (RFC 1951, 3.1.1).
-/
namespace Verif.Spec

/-- `n` low bits of `v`, least significant first -/
def natBits : Nat → Nat → List Bool
  | 0, _ => []
  | n + 1, v => (v % 2 == 1) :: natBits n (v / 2)

/-- value of a bit string, least significant bit first -/
def bitsVal : List Bool → Nat
  | [] => 0
  | b :: bs => b.toNat + 2 * bitsVal bs

/-- bits of a byte string -/
def bytesBits (d : List UInt8) : List Bool := d.flatMap (fun b => natBits 8 b.toNat)

end Verif.Spec
