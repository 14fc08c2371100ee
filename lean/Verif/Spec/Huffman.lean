/-!
# Canonical Huffman codes, RFC 1951 section 3.2.2 (independent of the model)
-/
namespace Verif.Spec

/-- `bl_count[b]`: number of codes of size `b`; size 0 means "no code" -/
def blCount (lens : List Nat) (b : Nat) : Nat := if b = 0 then 0 else lens.count b

/-- `next_code[b]` before assigning codes: smallest code of size `b` -/
def nextCode (lens : List Nat) : Nat → Nat
  | 0 => 0
  | b + 1 => 2 * (nextCode lens b + blCount lens b)

/-- numerical code of symbol `s` whose size is `l`: codes of one size are consecutive in symbol order -/
def symCode (lens : List Nat) (s l : Nat) : Nat := nextCode lens l + (lens.take s).count l

/-- `n` low bits of `v`, most significant first (Huffman codes are packed this way, RFC 1951 3.1.1) -/
def msbBits : Nat → Nat → List Bool
  | 0, _ => []
  | n + 1, v => (v / 2 ^ n % 2 == 1) :: msbBits n v

/-- `bs` is the code word of symbol `s` -/
def CodeWord (lens : List Nat) (s : Nat) (bs : List Bool) : Prop :=
  ∃ l, lens[s]? = some l ∧ 0 < l ∧ bs = msbBits l (symCode lens s l)

/-- Kraft: codes fit in the code space at every size (the set is not over-subscribed) -/
def NotOversubscribed (lens : List Nat) (max : Nat) : Prop :=
  ∀ b, b ≤ max → nextCode lens b + blCount lens b ≤ 2 ^ b

end Verif.Spec
