import Verif.Model.Base
/-!
# Adler-32, RFC 1950 section 8.2 (and the C code of section 9), independent of the model
-/
namespace Verif.Spec
open Verif

/-- one byte: `s1 = (s1 + byte) % BASE; s2 = (s2 + s1) % BASE` -/
def adlerStep (s : Nat × Nat) (b : UInt8) : Nat × Nat :=
  let s1 := (s.1 + b.toNat) % 65521
  (s1, (s.2 + s1) % 65521)

/-- `update_adler32(adler, buf, len)` -/
def adler32 (init : Nat) (d : Bytes) : Nat :=
  let s := d.foldl adlerStep (init % 65536, init / 65536 % 65536)
  s.2 * 65536 + s.1

/-- the closed form of RFC 1950: `A = 1 + D1 + ... + Dn`, `B = n + n*D1 + (n-1)*D2 + ... + Dn` modulo 65521 -/
def adlerA (d : Bytes) : Nat := (1 + (d.map UInt8.toNat).sum) % 65521
def adlerBsum : Bytes → Nat
  | [] => 0
  | b :: d => (d.length + 1) * b.toNat + adlerBsum d
def adlerB (d : Bytes) : Nat := (d.length + adlerBsum d) % 65521

end Verif.Spec
