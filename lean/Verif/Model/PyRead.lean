import Verif.Model.PyFileObject
/-!
# Model of reading a file entry in Python

pyfsapfs/pyfsapfs_file_entry.c; the functions of pyfsapfs/pyfsapfs_extended_attribute.c 582-1060 are the same. The string object that is returned has the size that was read; failing
allocations are not modelled.
-/
namespace Verif
open Res
namespace PyRead
open Spec (FileOp)

/-- the argument `size` -/
inductive Size where
  | missing
  | none_
  | int (i : Int)
  | other

/-- method calls; `seek` with `whence` 0 -/
inductive Call where
  | read (size : Size)
  | readAt (size : Size) (offset : Int)
  | seek (offset : Int)

/-- a `size64_t` that is stored in an `int64_t`, pyfsapfs_file_entry.c 2724 -/
def stored (n : Nat) : Int := if n % 2 ^ 64 < 2 ^ 63 then (n % 2 ^ 64 : Nat) else (n % 2 ^ 64 : Nat) - 2 ^ 64

/-- the argument of `pyfsapfs_file_entry_read_buffer`, pyfsapfs_file_entry.c 2660-2753; `fileSize` is what `libfsapfs_file_entry_get_size` returns -/
def readSize (fileSize : Res Nat) : Size → Res Int
  | .int i => if -2 ^ 63 ≤ i ∧ i < 2 ^ 63 then ok i else err
  | .missing | .none_ => do return stored (← fileSize)
  | .other => err

/-- the argument of `pyfsapfs_file_entry_read_buffer_at_offset`, pyfsapfs_file_entry.c 2887-2947 -/
def readAtSize : Size → Res Int
  | .int i => if -2 ^ 63 ≤ i ∧ i < 2 ^ 63 then ok i else err
  | _ => err

/-- `pyfsapfs_file_entry_read_buffer`, pyfsapfs_file_entry.c 2627-2847, `..._read_buffer_at_offset` 2852-3051 and `..._seek_offset` 3056-3113: which functions of the library are called, none for
an empty string. Reading at an offset seeks and reads (libfdata). A negative offset does not matter if nothing is read, 2948. Offsets that do not fit into 64 bits raise an exception. -/
def ops (fileSize : Res Nat) : Call → Res (List FileOp)
  | .read s => do
    let n ← readSize fileSize s
    if n = 0 then return []
    require (¬ n < 0)
    require (¬ n > 2147483647)
    return [.read n.toNat]
  | .readAt s o => do
    require (-2 ^ 63 ≤ o ∧ o < 2 ^ 63)
    let n ← readAtSize s
    if n = 0 then return []
    require (¬ n < 0)
    require (¬ n > 2147483647)
    require (¬ o < 0)
    return [.seek o, .read n.toNat]
  | .seek o => do
    require (-2 ^ 63 ≤ o ∧ o < 2 ^ 63)
    return [.seek o]

/-- functions of the library in a row, until one fails; the result is that of the last one -/
def perform (c : Codec) : List FileOp → FileRead.Reader → Res Bytes × FileRead.Reader
  | [], r => (ok [], r)
  | [o], r => FileRead.step c o r
  | o :: os, r =>
    match FileRead.step c o r with
    | (.ok _, r) => perform c os r
    | (.err, r) => (err, r)
    | (.ub, r) => (ub, r)

/-- a method call: what it returns, `err` is an exception and the result of `seek` is empty -/
def call (c : Codec) (fileSize : Res Nat) (k : Call) (r : FileRead.Reader) : Res Bytes × FileRead.Reader :=
  match ops fileSize k with
  | .ok os => perform c os r
  | .err => (err, r)
  | .ub => (ub, r)

/-- method calls in a row -/
def run (c : Codec) (fileSize : Res Nat) : List Call → FileRead.Reader → List (Res Bytes)
  | [], _ => []
  | k :: ks, r => (call c fileSize k r).1 :: run c fileSize ks (call c fileSize k r).2

end PyRead
end Verif
