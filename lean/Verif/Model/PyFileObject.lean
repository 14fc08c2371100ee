import Verif.Model.FileRead
/-!
# Model of file objects of Python as images

pyfsapfs/pyfsapfs_file_object_io_handle.c and pyfsapfs/pyfsapfs_integer.c. A file object can be anything: its methods get and change a state of any type, return any value or raise an exception.

References to Python objects, the global interpreter lock and failing allocations are not modelled; `long long` has 64 bits.
-/
namespace Verif
open Res
namespace PyFile

/-- values that methods return -/
inductive Value where
  | bytes (b : Bytes)
  | int (i : Int)
  | other

/-- what a call of a method does; a method that does not exist raises `AttributeError` -/
inductive Outcome where
  | raised
  | value (v : Value)

/-- a file object of Python; `get_offset` and `get_size` are optional. The second argument of `seek` is `SEEK_SET` 0, `SEEK_CUR` 1 or `SEEK_END` 2. -/
structure Object (σ : Type) where
  read : Nat → σ → Outcome × σ
  seek : Int → Nat → σ → Outcome × σ
  tell : σ → Outcome × σ
  getOffset : Option (σ → Outcome × σ)
  getSize : Option (σ → Outcome × σ)

/-- `pyfsapfs_integer_signed_copy_to_64bit`, pyfsapfs_integer.c 108-244: `PyLong_AsLongLong` 155 raises `OverflowError` -/
def signed : Value → Option Int
  | .int i => if -2 ^ 63 ≤ i ∧ i < 2 ^ 63 then some i else none
  | _ => none

/-- `pyfsapfs_integer_unsigned_copy_to_64bit`, pyfsapfs_integer.c 249-398: `PyLong_AsUnsignedLongLong` 296 raises `OverflowError`; the value is then kept as signed, 258, and refused if
it is negative, 365 -/
def unsigned : Value → Option Nat
  | .int i => if 0 ≤ i ∧ i < 2 ^ 64 then (if i ≥ 2 ^ 63 then none else some i.toNat) else none
  | _ => none

variable {σ : Type}

/-- `pyfsapfs_file_object_read_buffer`, pyfsapfs_file_object_io_handle.c 416-614, into a buffer of `size` bytes: the bytes that the method returned are copied to the buffer 572, their
number is the result -/
def readBuffer (o : Object σ) (size : Nat) (s : σ) : Res Bytes × σ :=
  if size > 2 ^ 63 - 1 then (err, s)
  else if size = 0 then (ok [], s)
  else
    match o.read size s with
    | (.value (.bytes b), s) => if b.length ≤ size then (ok b, s) else (ub, s)
    | (_, s) => (err, s)

/-- `pyfsapfs_file_object_seek_offset`, pyfsapfs_file_object_io_handle.c 860-999; `false`: an error -/
def seekOffset (o : Object σ) (offset : Int) (whence : Nat) (s : σ) : Bool × σ :=
  if whence > 2 then (false, s)
  else
    match o.seek offset whence s with
    | (.value _, s) => (true, s)
    | (.raised, s) => (false, s)

/-- `pyfsapfs_file_object_get_offset`, pyfsapfs_file_object_io_handle.c 1005-1130 -/
def getOffset (o : Object σ) (s : σ) : Option Int × σ :=
  match o.getOffset.getD o.tell s with
  | (.value v, s) => (signed v, s)
  | (.raised, s) => (none, s)

/-- `pyfsapfs_file_object_io_handle_seek_offset`, pyfsapfs_file_object_io_handle.c 1135-1196; an offset of -1 is an error for the caller -/
def handleSeek (o : Object σ) (offset : Int) (whence : Nat) (s : σ) : Option Int × σ :=
  match seekOffset o offset whence s with
  | (false, s) => (none, s)
  | (true, s) =>
    match getOffset o s with
    | (none, s) => (none, s)
    | (some i, s) => (if i = -1 then none else some i, s)

/-- `libbfio_handle_read_buffer_at_offset` (external) seeks and reads, with `pyfsapfs_file_object_io_handle_seek_offset`, pyfsapfs_file_object_io_handle.c 1132-1196, and `pyfsapfs_file_object_io_handle_read`,
616-669 of the same file. A negative `off64_t` is an error. -/
def readAtOffset (o : Object σ) (offset n : Nat) (s : σ) : Res Bytes × σ :=
  if offset ≥ 2 ^ 63 then (err, s)
  else
    match handleSeek o offset 0 s with
    | (none, s) => (err, s)
    | (some _, s) => readBuffer o n s

/-- what the library does with it: the count is compared, e.g. libfsapfs_container_superblock.c 176-195 -/
def readFully (o : Object σ) (offset n : Nat) (s : σ) : Res Bytes × σ :=
  match readAtOffset o offset n s with
  | (.ok b, s) => (if b.length = n then ok b else err, s)
  | (.err, s) => (err, s)
  | (.ub, s) => (ub, s)

/-- `pyfsapfs_file_object_get_size`, pyfsapfs_file_object_io_handle.c 1265-1366, for an object with the method -/
def objectSize (m : σ → Outcome × σ) (s : σ) : Option Nat × σ :=
  match m s with
  | (.value v, s) => (unsigned v, s)
  | (.raised, s) => (none, s)

/-- `pyfsapfs_file_object_io_handle_get_size`, pyfsapfs_file_object_io_handle.c 1371-1523: did it return 1, the size, which is `size` before, and the state. The end offset is stored as the
size, 1469. The label `on_error` returns 1 as well, 1522. -/
def handleSize (o : Object σ) (size : Nat) (s : σ) : (Bool × Nat) × σ :=
  match o.getSize with
  | some m =>
    match objectSize m s with
    | (some n, s) => ((true, n), s)
    | (none, s) => ((true, size), s)
  | none =>
    match getOffset o s with
    | (none, s) => ((true, size), s)
    | (some current, s) =>
      match seekOffset o 0 2 s with
      | (false, s) => ((true, size), s)
      | (true, s) =>
        match getOffset o s with
        | (none, s) => ((true, size), (seekOffset o current 0 s).2)
        | (some e, s) => ((true, (e % 2 ^ 64).toNat), (seekOffset o current 0 s).2)

end PyFile
end Verif
