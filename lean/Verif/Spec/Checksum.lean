/-!
# Specifications of the checksums (independent of the model)
-/
namespace Verif.Spec

/-- Fletcher modulus of APFS -/
def fletcherM : Nat := 2 ^ 32 - 1

/-- second Fletcher sum: every word weighted with the number of words from it to the end -/
def sum2 : List Nat → Nat
  | [] => 0
  | w :: ws => w * (ws.length + 1) + sum2 ws

/-- the little-endian 32-bit words of a byte string -/
def leWords : List UInt8 → List Nat
  | a :: b :: c :: d :: rest =>
    (a.toNat + 2 ^ 8 * b.toNat + 2 ^ 16 * c.toNat + 2 ^ 24 * d.toNat) :: leWords rest
  | _ => []

/-- The check words `c1 c2` are valid for the data words `ws`: both Fletcher sums of the data
followed by the check words vanish modulo 2^32-1, and the check words use the representatives 1..2^32-1. -/
structure FletcherValid (ws : List Nat) (c1 c2 : Nat) : Prop where
  c1_pos : 1 ≤ c1
  c1_le : c1 ≤ fletcherM
  c2_pos : 1 ≤ c2
  c2_le : c2 ≤ fletcherM
  s1 : (ws ++ [c1, c2]).sum % fletcherM = 0
  s2 : sum2 (ws ++ [c1, c2]) % fletcherM = 0

/-- One step of the reflected CRC shift register with polynomial 0x82f63b78 (CRC-32C):
shift in one message bit. -/
def crcBit (s : BitVec 32) (bit : Bool) : BitVec 32 :=
  if s[0] ^^ bit then (s >>> 1) ^^^ 0x82f63b78#32 else s >>> 1

/-- bits of a byte, least significant first -/
def byteBits (b : UInt8) : List Bool := (List.range 8).map (fun i => b.toBitVec.getLsbD i)

/-- CRC-32C register after shifting in all bits of all bytes. -/
def crc (s : BitVec 32) (bs : List UInt8) : BitVec 32 :=
  (bs.flatMap byteBits).foldl crcBit s

end Verif.Spec
