import Verif.Model.Checksum
import Verif.Model.NameFold
import Verif.Model.NameNfd
/-!
# Model of libfsapfs_name.h, libfsapfs_name.c and libfsapfs_name_hash.c: case folding, decomposition, name hash and name comparison

Strings are decoded by libuna, which is not part of the repository. The functions take the decoder as an argument; the only things assumed of it are
that it looks at the remaining code units only, that it consumes at least one, and that its characters fit in 32 bits.
-/
namespace Verif
open Res
namespace Name

/-- `libuna_unicode_character_copy_from_utf8` or `libuna_unicode_character_copy_from_utf16`: the next character and the remaining code units,
`none` if it returns an error -/
structure Decoder (α : Type) where
  next : List α → Option (Nat × List α)
  isNul : α → Bool
  shorter : ∀ {s c t}, next s = some (c, t) → t.length < s.length
  bounded : ∀ {s c t}, next s = some (c, t) → c < 2 ^ 32

/-- the chain of range tests of `libfsapfs_name_get_case_folding_mapping` and `libfsapfs_name_get_decomposition_mapping`, libfsapfs_name.h 193-287
and 290-443. The tables are read with an explicit memory access. -/
def readRanges {β : Type} : List (Nat × Nat × List β) → Nat → Res (Option β)
  | [], _ => ok none
  | (lo, hi, table) :: rest, c =>
    if c ≥ lo ∧ c ≤ hi then do
      let r ← ofMem table[c - lo]?
      return some r
    else readRanges rest c

/-- `libfsapfs_name_get_case_folding_mapping`, libfsapfs_name.h 193-287 -/
def fold (c : Nat) : Res Nat := do
  let r ← readRanges foldRanges c
  match r with
  | some f => return f
  | none => return c

/-- the characters of a mapping, `characters[ 0 ]` until `characters[ number_of_characters - 1 ]` of an array of 4 -/
def rowCharacters (r : Row) : Res (List Nat) := if r.1 ≤ 4 then ok ((List.range r.1).map (fun i => r.2.getD i 0)) else ub

/-- `libfsapfs_name_get_decomposition_mapping`, libfsapfs_name.h 290-443 -/
def decompose (c : Nat) : Res (List Nat) := do
  let r ← readRanges nfdRanges c
  match r with
  | some m => rowCharacters m
  | none => return [c]

/-- the mapping that is hashed, libfsapfs_name_hash.c 191-359 and 512-680 -/
def hashCharacters (folding : Bool) (c : Nat) : Res (List Nat) := do
  if folding then do
    let f ← fold c
    if f ≥ 0x1f80 ∧ f ≤ 0x1faf then do
      let m ← ofMem special1f80[f - 0x1f80]?
      rowCharacters m
    else
      match specialCases.lookup f with
      | some m => rowCharacters m
      | none => decompose f
  else decompose c

/-- the four bytes of a character, libfsapfs_name_hash.c 364-411 and 685-732 -/
def hashCharacter (s : BitVec 32) (c : Nat) : Res (BitVec 32) := (toLE 4 c).foldlM Checksum.crcByte s

/-- loop of `libfsapfs_name_hash_calculate_from_utf8_string` and `libfsapfs_name_hash_calculate_from_utf16_string`, libfsapfs_name_hash.c 169-413
and 490-734 -/
def hashLoop {α : Type} (dec : Decoder α) (folding : Bool) (s : BitVec 32) (str : List α) : Res (BitVec 32) :=
  if str = [] then ok s
  else
    match _h : dec.next str with
    | none => err
    | some (c, rest) =>
      if c = 0 then ok s
      else do
        let cs ← hashCharacters folding c
        let t ← cs.foldlM hashCharacter s
        hashLoop dec folding t rest
termination_by str.length
decreasing_by exact dec.shorter _h

/-- `libfsapfs_name_hash_calculate_from_utf8_string` and `libfsapfs_name_hash_calculate_from_utf16_string`, libfsapfs_name_hash.c 127-443 and
448-764 -/
def nameHash {α : Type} (dec : Decoder α) (folding : Bool) (str : List α) : Res Nat := do
  let s ← hashLoop dec folding 0xffffffff#32 str
  return (s &&& 0x003fffff#32).toNat

/-- `LIBUNA_COMPARE_LESS`, `LIBUNA_COMPARE_EQUAL` and `LIBUNA_COMPARE_GREATER` -/
inductive Order where
  | less
  | equal
  | greater
deriving DecidableEq, Repr

/-- comparing the decompositions of a character of the string (first) and of the name (second), libfsapfs_name.c 7335-7366 and 7521-7552 -/
def compareCharacters : List Nat → List Nat → Order
  | [], [] => .equal
  | [], _ :: _ => .greater
  | _ :: _, [] => .less
  | q :: qs, n :: ns => if q < n then .less else if q > n then .greater else compareCharacters qs ns

/-- the characters that are compared, libfsapfs_name.c 7317-7333 and 7503-7519 -/
def compareMapping (folding : Bool) (c : Nat) : Res (List Nat) := do
  if folding then do
    let f ← fold c
    decompose f
  else decompose c

/-- loop of `libfsapfs_name_compare_with_utf8_string` and `libfsapfs_name_compare_with_utf16_string`, libfsapfs_name.c 7282-7376 and 7468-7562.
The last argument is the string that is looked up. -/
def compareLoop {α : Type} (dn : Decoder UInt8) (dq : Decoder α) (folding : Bool) (name : Bytes) (str : List α) : Res Order :=
  if name = [] ∨ str = [] then
    if str ≠ [] then ok .greater
    else if name ≠ [] then ok .less
    else ok .equal
  else
    match _h : dn.next name with
    | none => err
    | some (n, name') =>
      match dq.next str with
      | none => err
      | some (q, str') => do
        let qs ← compareMapping folding q
        let ns ← compareMapping folding n
        match compareCharacters qs ns with
        | .equal => compareLoop dn dq folding name' str'
        | o => return o
termination_by name.length
decreasing_by exact dn.shorter _h

/-- removing one trailing end-of-string character, libfsapfs_name.c 7272-7281 and 7458-7467 -/
def stripNul {α : Type} (isNul : α → Bool) (s : List α) : List α :=
  match s.getLast? with
  | some c => if isNul c then s.dropLast else s
  | none => s

/-- `libfsapfs_name_compare_with_utf8_string` and `libfsapfs_name_compare_with_utf16_string`, libfsapfs_name.c 7196-7377 and 7382-7563 -/
def compareName {α : Type} (dn : Decoder UInt8) (dq : Decoder α) (folding : Bool) (name : Bytes) (str : List α) : Res Order := do
  require (¬ name.length = 0)
  compareLoop dn dq folding (stripNul dn.isNul name) (stripNul dq.isNul str)

/-- `libfsapfs_directory_record_compare_name_with_utf8_string` and `libfsapfs_directory_record_compare_name_with_utf16_string`,
libfsapfs_directory_record.c 912-969 and 1056-1113, of a record with the name and name hash with a string and its name hash -/
def compareRecord {α : Type} (dn : Decoder UInt8) (dq : Decoder α) (folding : Bool) (name : Bytes) (hash : Nat) (str : List α) (strHash : Nat) :
    Res Order :=
  if hash ≠ 0 ∧ strHash ≠ 0 ∧ strHash < hash then ok .less
  else if hash ≠ 0 ∧ strHash ≠ 0 ∧ strHash > hash then ok .greater
  else compareName dn dq folding name str

end Name
end Verif
