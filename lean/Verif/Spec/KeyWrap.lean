import Verif.Model.Base
/-!
# AES key wrap, RFC 3394 section 2.2 (index based), for any 128-bit block cipher
-/
namespace Verif.Spec
open Verif

/-- 8-byte block to 16-byte block and back: RFC 3394 2.2.1, one step with counter `t` -/
def wrapBlock (enc : Bytes → Bytes) (t : Nat) (a r : Bytes) : Bytes × Bytes :=
  let b := enc (a ++ r)
  (xorBytes (b.take 8) (toBE 8 t), b.drop 8)

/-- for i = 1 to n, with counter `t` for the first block -/
def wrapRound (enc : Bytes → Bytes) (t : Nat) (a : Bytes) : List Bytes → Bytes × List Bytes
  | [] => (a, [])
  | r :: rs =>
    let (a, r) := wrapBlock enc t a r
    let (a, rs) := wrapRound enc (t + 1) a rs
    (a, r :: rs)

/-- for j = 0 to 5 (`j` rounds) -/
def wrapRounds (enc : Bytes → Bytes) : Nat → Bytes → List Bytes → Bytes × List Bytes
  | 0, a, rs => (a, rs)
  | j + 1, a, rs =>
    let (a, rs) := wrapRounds enc j a rs
    wrapRound enc (rs.length * j + 1) a rs

/-- RFC 3394 key wrap of the 64-bit blocks `p` with initial value `iv` -/
def keyWrap (enc : Bytes → Bytes) (iv : Bytes) (p : List Bytes) : Bytes :=
  let (a, r) := wrapRounds enc 6 iv p
  a ++ r.flatten

/-- default initial value, RFC 3394 2.2.3.1 -/
def defaultIv : Bytes := List.replicate 8 0xa6

/-- a block cipher with 16-byte blocks: `dec` inverts `enc` and vice versa -/
structure BlockCipher (enc dec : Bytes → Bytes) : Prop where
  encLen : ∀ b, b.length = 16 → (enc b).length = 16
  decLen : ∀ b, b.length = 16 → (dec b).length = 16
  decEnc : ∀ b, b.length = 16 → dec (enc b) = b
  encDec : ∀ b, b.length = 16 → enc (dec b) = b

end Verif.Spec
