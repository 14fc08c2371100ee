import Verif.Spec.Bits
import Verif.Spec.Huffman
/-!
# DEFLATE, RFC 1951: which bit strings encode which data (independent of the model)
-/
namespace Verif.Spec
open Verif

/-! ## length and distance codes, RFC 1951 3.2.5 -/

/-- extra bits of length code `257 + k` -/
def lenExtra (k : Nat) : Nat := if k < 8 then 0 else if k = 28 then 0 else k / 4 - 1

/-- every length code starts where the previous one ends -/
def lenStart : Nat → Nat
  | 0 => 3
  | k + 1 => lenStart k + 2 ^ lenExtra k

/-- smallest length of length code `257 + k`; 258 has a code of its own -/
def lenBase (k : Nat) : Nat := if k = 28 then 258 else lenStart k

/-- extra bits of distance code `j` -/
def distExtra (j : Nat) : Nat := j / 2 - 1

/-- smallest distance of distance code `j`: every code starts where the previous one ends -/
def distBase : Nat → Nat
  | 0 => 1
  | j + 1 => distBase j + 2 ^ distExtra j

/-- The output after a match: `len` bytes are taken from `dist` bytes back, repeating if `dist < len`. -/
def copyMatch (out : List UInt8) (dist len : Nat) : List UInt8 :=
  out ++ (List.range len).map (fun i => out.getD (out.length - dist + i % dist) 0)

/-- `Codes ll dl out bits out'`: with literal/length code `ll` and distance code `dl`, `bits` is a sequence of codes
ended by the end-of-block code which extends the output `out` to `out'`. RFC 1951 3.2.3, 3.2.5 -/
inductive Codes (ll dl : List Nat) : List UInt8 → List Bool → List UInt8 → Prop
  | eob {out w} : CodeWord ll 256 w → Codes ll dl out w out
  | lit {out w bits out'} (b : UInt8) : CodeWord ll b.toNat w → Codes ll dl (out ++ [b]) bits out' →
      Codes ll dl out (w ++ bits) out'
  | copy {out w v bits out'} (k e j x : Nat) : k < 29 → CodeWord ll (257 + k) w → e < 2 ^ lenExtra k →
      j < 30 → CodeWord dl j v → x < 2 ^ distExtra j → distBase j + x ≤ out.length →
      Codes ll dl (copyMatch out (distBase j + x) (lenBase k + e)) bits out' →
      Codes ll dl out (w ++ (natBits (lenExtra k) e ++ (v ++ (natBits (distExtra j) x ++ bits)))) out'

/-! ## dynamic code header, RFC 1951 3.2.7 -/

/-- order in which the sizes of the code length codes are stored -/
def clOrder : List Nat := [16, 17, 18, 0, 8, 7, 9, 6, 10, 5, 11, 4, 12, 3, 13, 2, 14, 1, 15]

/-- code length code sizes from the stored values; sizes that are not stored are 0 -/
def clSizes (vals : List Nat) : List Nat := (List.range 19).map (fun s => vals.getD (clOrder.idxOf s) 0)

/-- `Sizes cl total acc bits acc'`: `bits` is a run-length encoding that extends the code sizes `acc` to `total` sizes `acc'` -/
inductive Sizes (cl : List Nat) (total : Nat) : List Nat → List Bool → List Nat → Prop
  | done {acc} : acc.length = total → Sizes cl total acc [] acc
  | size {acc w bits acc'} (l : Nat) : acc.length < total → l < 16 → CodeWord cl l w → Sizes cl total (acc ++ [l]) bits acc' →
      Sizes cl total acc (w ++ bits) acc'
  | rep {acc w bits acc'} (p x : Nat) : acc.getLast? = some p → x < 4 → acc.length + (3 + x) ≤ total → CodeWord cl 16 w →
      Sizes cl total (acc ++ List.replicate (3 + x) p) bits acc' →
      Sizes cl total acc (w ++ (natBits 2 x ++ bits)) acc'
  | zeros {acc w bits acc'} (x : Nat) : x < 8 → acc.length + (3 + x) ≤ total → CodeWord cl 17 w →
      Sizes cl total (acc ++ List.replicate (3 + x) 0) bits acc' →
      Sizes cl total acc (w ++ (natBits 3 x ++ bits)) acc'
  | manyZeros {acc w bits acc'} (x : Nat) : x < 128 → acc.length + (11 + x) ≤ total → CodeWord cl 18 w →
      Sizes cl total (acc ++ List.replicate (11 + x) 0) bits acc' →
      Sizes cl total acc (w ++ (natBits 7 x ++ bits)) acc'

/-- a usable code: not over-subscribed and not empty -/
def GoodCode (lens : List Nat) : Prop := NotOversubscribed lens 15 ∧ ∃ l ∈ lens, l ≠ 0

/-- distance codes allowed by RFC 1951: up to 32 sizes; a block without matches may have no distance code at all -/
def RfcDist (dl : List Nat) : Prop := 1 ≤ dl.length ∧ dl.length ≤ 32 ∧ NotOversubscribed dl 15

/-- the subset of these with at most 30 sizes (codes 30 and 31 never occur) and at least one code -/
def UsedDist (dl : List Nat) : Prop := 1 ≤ dl.length ∧ dl.length ≤ 30 ∧ GoodCode dl

/-- `bits` is the header of a dynamic block with codes `ll` and `dl`, where the distance code satisfies `D` -/
def DynHeader (D : List Nat → Prop) (bits : List Bool) (ll dl : List Nat) : Prop :=
  ∃ (vals : List Nat) (rle : List Bool),
    257 ≤ ll.length ∧ ll.length ≤ 286 ∧ D dl ∧
    4 ≤ vals.length ∧ vals.length ≤ 19 ∧ (∀ v ∈ vals, v < 8) ∧
    GoodCode (clSizes vals) ∧ GoodCode ll ∧
    Sizes (clSizes vals) (ll.length + dl.length) [] rle (ll ++ dl) ∧
    bits = natBits 5 (ll.length - 257) ++ (natBits 5 (dl.length - 1) ++ (natBits 4 (vals.length - 4) ++
      (vals.flatMap (natBits 3) ++ rle)))

/-- the fixed literal/length code, RFC 1951 3.2.6 -/
def fixedLL : List Nat :=
  List.replicate 144 8 ++ (List.replicate 112 9 ++ (List.replicate 24 7 ++ List.replicate 8 8))

/-- the fixed distance code: 5 bit codes for 0..31, where 30 and 31 never occur -/
def fixedDL : List Nat := List.replicate 32 5

/-! ## blocks, RFC 1951 3.2.3, 3.2.4 -/

/-- `Body D pos type out bits out'`: the part of a block following its 3 header bits, beginning at bit position `pos` -/
inductive Body (D : List Nat → Prop) (pos : Nat) (out : List UInt8) : Nat → List Bool → List UInt8 → Prop
  | stored (pad : List Bool) (data : List UInt8) : pad.length < 8 → (pos + pad.length) % 8 = 0 → data.length < 65536 →
      Body D pos out 0 (pad ++ (natBits 16 data.length ++ (natBits 16 (65535 - data.length) ++ bytesBits data))) (out ++ data)
  | fixed {bits out'} : Codes fixedLL fixedDL out bits out' → Body D pos out 1 bits out'
  | dynamic {h ll dl bits out'} : DynHeader D h ll dl → Codes ll dl out bits out' → Body D pos out 2 (h ++ bits) out'

/-- one block: last block flag, 2 bit type, body -/
inductive Block (D : List Nat → Prop) (pos : Nat) (last : Bool) (out : List UInt8) : List Bool → List UInt8 → Prop
  | mk {type bits out'} : Body D (pos + 3) out type bits out' → Block D pos last out (last :: (natBits 2 type ++ bits)) out'

/-- a sequence of blocks; `fin` tells if it is ended by a block with the last block flag -/
inductive Blocks (D : List Nat → Prop) (fin : Bool) : Nat → List UInt8 → List Bool → List UInt8 → Prop
  | last {pos out bits out'} : fin = true → Block D pos true out bits out' → Blocks D fin pos out bits out'
  | open {pos out} : fin = false → Blocks D fin pos out [] out
  | more {pos out bits out' bits' out''} : Block D pos false out bits out' → Blocks D fin (pos + bits.length) out' bits' out'' →
      Blocks D fin pos out (bits ++ bits') out''

end Verif.Spec
