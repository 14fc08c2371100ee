import Verif.Model.Hierarchy
/-!
# Model of sequences in Python

pyfsapfs/pyfsapfs_file_entries.c; pyfsapfs_volumes.c and pyfsapfs_extended_attributes.c are the same with other names. References are in `Model/Handles.lean`.
-/
namespace Verif
open Res
namespace PySequence

/-- `pyfsapfs_file_entries_t`: the current index and the number of items, which `pyfsapfs_file_entries_new` 156-216 sets to 0 and to the number that it is given -/
structure Sequence where
  current : Nat := 0
  number : Nat

/-- what a program does with the object: `len(s)`, `s[i]`, `it = iter(s)` where iterators are named by numbers, and `next(it)`. A `for` loop gets an iterator and calls `next` until it stops. -/
inductive Use where
  | len
  | item (i : Int)
  | iter (it : Nat)
  | next (it : Nat)
deriving DecidableEq

/-- what it gets; exceptions other than `StopIteration` are `err` -/
inductive Answer (α : Type) where
  | number (n : Nat)
  | value (a : α)
  | iterator
  | stop
deriving DecidableEq

variable {α σ : Type}

/-- the result of the function that gets an item -/
def got : Res α × σ → Sequence → Res (Answer α) × Sequence × σ
  | (.ok a, t), s => (ok (.value a), s, t)
  | (.err, t), s => (err, s, t)
  | (.ub, t), s => (ub, s, t)

/-- `pyfsapfs_file_entries_len` 299-314, `pyfsapfs_file_entries_getitem` 318-367, `pyfsapfs_file_entries_iter` 371-389, `pyfsapfs_file_entries_iternext` 393-454: `iter` returns the object itself, so all
iterators are the object. `get` is `get_item_by_index`, with a state. CPython adds the length to a negative index, and refuses integers that do not fit into `Py_ssize_t`. -/
def use (get : Nat → σ → Res α × σ) : Use → Sequence → σ → Res (Answer α) × Sequence × σ
  | .len, s, t => (ok (.number s.number), s, t)
  | .item i, s, t =>
    if i < -2 ^ 63 ∨ 2 ^ 63 ≤ i then (err, s, t)
    else
      let i := if i < 0 then i + s.number else i
      if i < 0 ∨ s.number ≤ i then (err, s, t)
      else got (get i.toNat t) s
  | .iter _, s, t => (ok .iterator, s, t)
  | .next _, s, t =>
    if s.current ≥ s.number then (ok .stop, s, t)
    else
      match get s.current t with
      | (.ok a, t) => (ok (.value a), { s with current := s.current + 1 }, t)
      | r => got r s

/-- uses in a row; each has the function that gets an item, as storage can fail -/
def run : List (Use × (Nat → σ → Res α × σ)) → Sequence → σ → List (Res (Answer α))
  | [], _, _ => []
  | (u, get) :: us, s, t => (use get u s t).1 :: run us (use get u s t).2.1 (use get u s t).2.2

/-- `pyfsapfs_file_entry_get_sub_file_entry_by_index`, pyfsapfs_file_entry.c 2370-2432: a new object for the file entry that the library returns -/
def subEntry (l : FileRead.Lookups) (index : Nat) (n : FileRead.FileNode) : Res FileRead.FileNode × FileRead.FileNode :=
  match FileRead.call l (.sub index) n with
  | (.ok (.node m), n) => (ok m, n)
  | (.ub, n) => (ub, n)
  | (_, n) => (err, n)

/-- the property `sub_file_entries`, pyfsapfs_file_entry.c 2469-2533: a new sequence each time it is used -/
def subEntries (l : FileRead.Lookups) (n : FileRead.FileNode) : Res Sequence × FileRead.FileNode :=
  match FileRead.call l .number n with
  | (.ok (.number k), n) => (ok { number := k }, n)
  | (.ub, n) => (ub, n)
  | (_, n) => (err, n)

end PySequence
end Verif
