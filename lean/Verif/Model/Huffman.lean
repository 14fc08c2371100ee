import Verif.Model.BitStream
/-!
# Model of libfsapfs_huffman_tree.c
-/
namespace Verif
open Res

/-- `libfsapfs_huffman_tree_t`, libfsapfs_huffman_tree.h -/
structure HTree where
  maxSize : Nat
  symbols : List Nat
  counts : List Nat
deriving Repr, DecidableEq

namespace HTree

/-- `libfsapfs_huffman_tree_initialize`, libfsapfs_huffman_tree.c 35-205: both arrays are zeroed -/
def init (number_of_symbols maximum_code_size : Nat) : Res HTree :=
  if number_of_symbols > 1024 then err
  else if maximum_code_size > 32 then err
  else ok ⟨maximum_code_size, List.replicate number_of_symbols 0, List.replicate (maximum_code_size + 1) 0⟩

/-- frequency loop, libfsapfs_huffman_tree.c 328-348 -/
def countLoop (max : Nat) : List Nat → List Nat → Res (List Nat)
  | [], counts => ok counts
  | code_size :: rest, counts =>
    if code_size > max then err
    else do
      let c ← ofMem counts[code_size]?
      countLoop max rest (counts.set code_size (c + 1))

/-- over-subscription check, libfsapfs_huffman_tree.c 357-377. `k` iterations are left, the next uses
`bit_index = max + 1 - k`. The `int` does not overflow for maximum code sizes up to 30 (the library uses 15). -/
def leftLoop (max : Nat) (counts : List Nat) : Nat → Nat → Res Unit
  | 0, _ => ok ()
  | k + 1, left => do
    let c ← ofMem counts[max + 1 - (k + 1)]?
    if 2 * left < c then err else leftLoop max counts k (2 * left - c)

/-- offset calculation, libfsapfs_huffman_tree.c 407-415: element `b` for `b = from..max`, given the previous one -/
def offsetLoop (counts : List Nat) : Nat → Nat → Nat → Res (List Nat)
  | 0, _, _ => ok []
  | k + 1, b, prev => do
    let c ← ofMem counts[b]?
    let rest ← offsetLoop counts k (b + 1) (prev + c)
    return (prev + c) :: rest

/-- symbol sort loop, libfsapfs_huffman_tree.c 418-447 -/
def symbolLoop (number_of_code_sizes : Nat) : List Nat → Nat → List Nat → List Nat → Res (List Nat)
  | [], _, _, symbols => ok symbols
  | code_size :: rest, symbol, offsets, symbols =>
    if code_size = 0 then symbolLoop number_of_code_sizes rest (symbol + 1) offsets symbols
    else do
      let code_offset ← ofMem offsets[code_size]?
      if code_offset > number_of_code_sizes then err
      else if code_offset < symbols.length then
        symbolLoop number_of_code_sizes rest (symbol + 1) (offsets.set code_size (code_offset + 1))
          (symbols.set code_offset symbol)
      else ub

/-- `libfsapfs_huffman_tree_build`, libfsapfs_huffman_tree.c 250-460. `none` stands for the return value 0
(the tree has no codes). -/
def build (t : HTree) (sizes : List Nat) : Res (Option HTree) :=
  if t.maxSize = 0 then err
  else if sizes.length > 32767 then err
  else do
    let counts ← countLoop t.maxSize sizes (List.replicate (t.maxSize + 1) 0)
    let c0 ← ofMem counts[0]?
    if c0 = sizes.length then return none
    else do
      leftLoop t.maxSize counts t.maxSize 1
      let offs ← offsetLoop counts (t.maxSize - 1) 1 0
      let symbols ← symbolLoop sizes.length sizes 0 (0 :: 0 :: offs) t.symbols
      return some { t with symbols := symbols, counts := counts }

/-- loop of `libfsapfs_huffman_tree_get_symbol_from_bit_stream`, libfsapfs_huffman_tree.c 516-551.
`k` iterations are left. A negative array index is `ub`. -/
def getSymLoop (t : HTree) : Nat → Nat → Nat → Nat → Nat → BitStream → Res (Nat × BitStream)
  | 0, _, _, _, _, _ => err
  | k + 1, bit_index, code, first, index, s => do
    let (v, s) ← s.getValue 1
    let code := (code <<< 1) ||| v
    let c ← ofMem t.counts[bit_index]?
    if (code : Int) - c < first then
      if code < first then ub
      else do
        let sym ← ofMem t.symbols[index + (code - first)]?
        return (sym, s)
    else getSymLoop t k (bit_index + 1) code ((first + c) <<< 1) (index + c) s

/-- `libfsapfs_huffman_tree_get_symbol_from_bit_stream`, libfsapfs_huffman_tree.c 465-567 -/
def getSymbol (t : HTree) (s : BitStream) : Res (Nat × BitStream) :=
  getSymLoop t t.maxSize 1 0 0 0 s

end HTree
end Verif
