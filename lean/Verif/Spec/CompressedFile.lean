import Verif.Model.Base
/-!
# Layout of compressed file data and semantics of reading it (independent of the model)

The layouts are those of decmpfs files: LZVN and zlib resource forks and data stored in the attribute.
-/
namespace Verif.Spec
open Verif

/-- start offsets of consecutive blocks, the first one at `base` -/
def starts (base : Nat) : List Bytes → List Nat
  | [] => []
  | b :: bs => base :: starts (base + b.length) bs

/-- LZVN resource fork: 32-bit offsets of the blocks and of the end, then the blocks -/
def lzvnFork (blocks : List Bytes) : Bytes :=
  let base := 4 * (blocks.length + 1)
  (starts base blocks ++ [base + blocks.flatten.length]).flatMap (toLE 4) ++ blocks.flatten

/-- zlib resource fork: big-endian offset 256 of the data, 252 other bytes, a 32-bit size, the number of blocks, an offset
(relative to the number of blocks) and a size per block, the blocks. The resource map that follows is part of the last
block here. -/
def zlibFork (head size : Bytes) (sizes : List Nat) (blocks : List Bytes) : Bytes :=
  [0, 0, 1, 0] ++ (head ++ (size ++ (toLE 4 blocks.length ++
    ((List.zip (starts (4 + 8 * blocks.length) blocks) sizes).flatMap (fun p => toLE 4 p.1 ++ toLE 4 p.2) ++ blocks.flatten))))

/-- compressed data inside of the attribute: "fpmc", 12 more header bytes, one block -/
def inlineAttribute (head : Bytes) (block : Bytes) : Bytes := [0x66, 0x70, 0x6d, 0x63] ++ (head ++ block)

/-- a chunk: data behind the marker byte, or data for the decompressor `dec` -/
def chunk (marker : UInt8) (dec : Bytes → Option Bytes) (d : Bytes) : Option Bytes :=
  if d.head? = some marker then some (d.drop 1) else dec d

/-- the chunks `blocks` hold `content` in pieces of 65536 bytes; a chunk may decode to more than its piece (the zlib fork has
a resource map behind its last chunk) but not to more than 65536 bytes -/
def Holds (plain : Bytes → Option Bytes) (blocks : List Bytes) (content : Bytes) : Prop :=
  content.length ≤ blocks.length * 65536 ∧
  ∀ (i : Nat) (b : Bytes), blocks[i]? = some b → ∃ p, plain b = some p ∧ p.length ≤ 65536 ∧ (content.drop (i * 65536)).take 65536 <+: p

/-- operations on an open file -/
inductive FileOp where
  | seek (offset : Int)
  | read (n : Nat)

/-- What a user may observe: an operation on a file with `content` at position `pos` with result `r` (`none`: error) leads to
position `pos'`. Errors are allowed only if `fault`. -/
inductive FileStep (content : Bytes) (fault : Prop) : Nat → FileOp → Option Bytes → Nat → Prop
  | seek {pos} (o : Nat) : FileStep content fault pos (.seek o) (some []) o
  | seekNegative {pos} (o : Int) : o < 0 → FileStep content fault pos (.seek o) none pos
  | read {pos} (n : Nat) : FileStep content fault pos (.read n) (some ((content.drop pos).take n))
      (pos + ((content.drop pos).take n).length)
  | readFault {pos} (n : Nat) : fault → FileStep content fault pos (.read n) none pos

/-- a history of operations: what was asked, whether reading the storage failed meanwhile, what was returned -/
inductive FileTrace (content : Bytes) : Nat → List (FileOp × Prop × Option Bytes) → Prop
  | nil {pos} : FileTrace content pos []
  | cons {pos op fault r pos' rest} : FileStep content fault pos op r pos' → FileTrace content pos' rest →
      FileTrace content pos ((op, fault, r) :: rest)

end Verif.Spec
