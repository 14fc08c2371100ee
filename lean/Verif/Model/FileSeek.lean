import Verif.Model.PyAttribute
/-!
# Model of seeking in a file from the position and the end

The functions of an open file entry with their results, and the methods in Python on top of them. `FileRead.step` has those that read and seek from the start. libfdata, which keeps the position, is external.
-/
namespace Verif
open Res
namespace FileSeek
open Spec (ValueOp ValueAnswer)
open FileRead (Reader)
open PyAttribute (Call Value)

/-- the position that libfdata keeps, `libfdata_stream_get_offset` -/
def posOf : Reader → Nat
  | .extents _ _ pos => pos
  | .compressed _ h => h.pos

/-- the size of the stream, which is given to libfdata with its segment: libfsapfs_data_stream.c 217-224 and 321-328 -/
def sizeOf : Reader → Nat
  | .extents _ size _ => size
  | .compressed _ h => h.size

/-- what may fail during a call: reading from the storage, for the extents of a file and for its compressed data -/
structure Env where
  disk : Nat → Nat → Res Bytes
  stream : Nat → Nat → Bool

/-- `FileRead.step` for reading, with failures: the functions of the data handles, libfsapfs_data_block_data_handle.c 279-447 and libfsapfs_compressed_data_handle.c 807-1068 -/
def readStep (c : Codec) (env : Env) (n : Nat) : Reader → Res Bytes × Reader
  | .extents h size pos =>
    match DataStream.streamRead { h with disk := env.disk } size pos n with
    | .ok b => (ok b, .extents h size (pos + b.length))
    | .err => (err, .extents h size pos)
    | .ub => (ub, .extents h size pos)
  | .compressed data h => ((Compressed.streamRead c data env.stream n h).1, .compressed data (Compressed.streamRead c data env.stream n h).2)

/-- `libfsapfs_file_entry_read_buffer`, libfsapfs_file_entry.c 4520-4612; sizes of more than SSIZE_MAX are refused -/
def read (c : Codec) (env : Env) (n : Nat) (r : Reader) : Res ValueAnswer × Reader :=
  if ¬ n < 2 ^ 63 then (err, r)
  else
    match readStep c env n r with
    | (.ok d, r) => (ok (.bytes d), r)
    | (.err, r) => (err, r)
    | (.ub, r) => (ub, r)

/-- `libfsapfs_file_entry_seek_offset`, libfsapfs_file_entry.c 4716-4806, with `libfdata_stream_seek_offset`. Positions beyond 2^63 - 1 are not treated. -/
def seek (c : Codec) (offset : Int) (whence : Nat) (r : Reader) : Res ValueAnswer × Reader :=
  if whence > 2 then (err, r)
  else
    match FileRead.step c (.seek (if whence = 1 then posOf r + offset else if whence = 2 then sizeOf r + offset else offset)) r with
    | (.ok _, r) => (ok (.position (posOf r)), r)
    | (.err, r) => (err, r)
    | (.ub, r) => (ub, r)

/-- The functions of an open file: `libfsapfs_file_entry_read_buffer_at_offset`, libfsapfs_file_entry.c 4617-4711, which seeks and reads (libfdata), `libfsapfs_file_entry_get_offset`, 4811-4897, and
`libfsapfs_file_entry_get_size`, 5109-5192, which is `fileSize`. -/
def ask (c : Codec) (fileSize : Res Nat) (env : Env) (o : ValueOp) (r : Reader) : Res ValueAnswer × Reader :=
  match o with
  | .read n => read c env n r
  | .readAt n offset =>
    match seek c offset 0 r with
    | (.ok _, r) => read c env n r
    | (.err, r) => (err, r)
    | (.ub, r) => (ub, r)
  | .seek offset whence => seek c offset whence r
  | .offset => (ok (.position (posOf r)), r)
  | .size => (do return .size (← fileSize), r)

/-- in a row -/
def asks (c : Codec) (fileSize : Res Nat) : List (ValueOp × Env) → Reader → List (Res ValueAnswer)
  | [], _ => []
  | (o, env) :: os, r => (ask c fileSize env o r).1 :: asks c fileSize os (ask c fileSize env o r).2

/-- A method call in Python: pyfsapfs_file_entry.c 2627-3222, whose text is that of pyfsapfs_extended_attribute.c 582-1179 with other names, see `PyAttribute.opOf` and `PyAttribute.answer` -/
def call (c : Codec) (fileSize : Res Nat) (env : Env) (k : Call) (r : Reader) : Res Value × Reader :=
  match PyAttribute.opOf fileSize k with
  | .err => (err, r)
  | .ub => (ub, r)
  | .ok none => (ok (.bytes []), r)
  | .ok (some o) => (PyAttribute.answer k (ask c fileSize env o r).1, (ask c fileSize env o r).2)

/-- in a row -/
def calls (c : Codec) (fileSize : Res Nat) : List (Call × Env) → Reader → List (Res Value)
  | [], _ => []
  | (k, env) :: ks, r => (call c fileSize env k r).1 :: calls c fileSize ks (call c fileSize env k r).2

end FileSeek
end Verif
