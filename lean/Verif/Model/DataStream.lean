import Verif.Model.Crypto
/-!
# Model of libfsapfs_data_block_vector.c, libfsapfs_file_system_data_handle.c, libfsapfs_data_block_data_handle.c, libfsapfs_data_stream.c and
libfsapfs_buffer_data_handle.c

The vector and the stream are libfdata objects and the cache is a libfcache object; these libraries are not part of the repository. They are modelled by
`findSegment`, `element` and `streamRead`: a vector maps an offset to the element (of the size of a block) it falls into, an element ends with its segment,
and the cache is transparent.
-/
namespace Verif
open Res
namespace DataStream

/-- `libfsapfs_file_extent_t`, libfsapfs_file_extent.h 36-58 -/
structure Extent where
  logical : Nat
  physical : Nat
  size : Nat
  encId : Nat
deriving DecidableEq, Repr

/-- segment of a libfdata vector -/
structure Segment where
  fileIndex : Nat
  offset : Nat
  size : Nat
  sparse : Bool
deriving DecidableEq, Repr

/-- loop of `libfsapfs_data_block_vector_initialize`, libfsapfs_data_block_vector.c 131-206; libfdata refuses negative offsets -/
def buildVector (bs : Nat) (sparse : Bool) : List Extent → Nat → Nat → Res (List Segment)
  | [], _, _ => ok []
  | e :: es, index, logical => do
    require (¬ ((sparse = false ∨ e.physical ≠ 0) ∧ e.logical ≠ logical))
    let offset := e.physical * bs % 2 ^ 64
    require (offset < 2 ^ 63)
    let segs ← buildVector bs sparse es (index + 1) ((logical + e.size) % 2 ^ 64)
    return { fileIndex := index, offset := offset, size := e.size, sparse := sparse && (e.physical == 0) } :: segs

/-- libfdata: segment an offset falls into and the offset within -/
def findSegment : List Segment → Nat → Option (Segment × Nat)
  | [], _ => none
  | s :: ss, off => if off < s.size then some (s, off) else findSegment ss (off - s.size)

/-- libfdata: the element at an offset: segment, offset in the segment, size of the element and offset in the element -/
def element (segs : List Segment) (bs off : Nat) : Option (Segment × Nat × Nat × Nat) :=
  match findSegment segs (off / bs * bs) with
  | none => none
  | some (s, o) => some (s, o, min bs (s.size - o), off % bs)

/-- `disk offset size` reads the storage -/
structure Handle where
  disk : Nat → Nat → Res Bytes
  bs : Nat
  bps : Nat
  xts : Option (Bytes → Bytes → Bytes)
  extents : List Extent
  segs : List Segment
  dataSize : Nat

/-- `libfsapfs_data_block_data_handle_initialize`, libfsapfs_data_block_data_handle.c 43-203 -/
def initHandle (disk : Nat → Nat → Res Bytes) (bs bps : Nat) (xts : Option (Bytes → Bytes → Bytes)) (extents : List Extent) (sparse : Bool) : Res Handle := do
  let segs ← buildVector bs sparse extents 0 0
  return { disk := disk, bs := bs, bps := bps, xts := xts, extents := extents, segs := segs, dataSize := (segs.map (·.size)).sum }

/-- conversion to a signed 64-bit number -/
def toInt64 (n : Nat) : Int := if n % 2 ^ 64 < 2 ^ 63 then (n % 2 ^ 64 : Nat) else ((n % 2 ^ 64 : Nat) : Int) - 2 ^ 64

/-- `libfsapfs_file_system_data_handle_read_data_block` with file extents, libfsapfs_file_system_data_handle.c 164-380, and reading the data in
`libfsapfs_data_block_read`, libfsapfs_data_block.c 354-373. An element size of 0 would be a division by zero, and the difference of the two signed
64-bit numbers in line 306 may overflow. -/
def readBlock (h : Handle) (s : Segment) (o size : Nat) : Res Bytes :=
  if s.sparse then ok (List.replicate size 0)
  else if size = 0 then ub
  else
    let offset := s.offset + o
    let id := offset / size
    match h.extents[s.fileIndex]? with
    | none => err
    | some e => do
      let d : Int := (id : Int) - toInt64 e.physical
      let id ← (if -2 ^ 63 ≤ d ∧ d < 2 ^ 63 then ok ((e.encId + d) % 2 ^ 64).toNat else ub)
      let data ← h.disk offset size
      Crypto.readDataBlock h.xts data (List.replicate size 0) id h.bps

/-- the block at an offset and the offset in it, `libfdata_vector_get_element_value_at_offset` called in libfsapfs_data_block_data_handle.c 361-380 -/
def blockAt (h : Handle) (off : Nat) : Res (Bytes × Nat) :=
  match element h.segs h.bs off with
  | none => err
  | some (s, o, size, bo) => do
    let b ← readBlock h s o size
    return (b, bo)

/-- loop of `libfsapfs_data_block_data_handle_read_segment_data`, libfsapfs_data_block_data_handle.c 359-445: the bytes copied and the new offset -/
def readLoop (blockAt : Nat → Res (Bytes × Nat)) (dataSize : Nat) (off n : Nat) : Res (Bytes × Nat) :=
  if _hn : n = 0 then ok ([], off)
  else
    match blockAt off with
    | .err => err
    | .ub => ub
    | .ok (b, bo) =>
      if _hb : bo ≥ b.length then err
      else
        let r := min (b.length - bo) n
        let out := (b.drop bo).take r
        if off + r ≥ dataSize then ok (out, off + r)
        else
          match readLoop blockAt dataSize (off + r) (n - r) with
          | .ok (rest, off') => ok (out ++ rest, off')
          | .err => err
          | .ub => ub
termination_by n
decreasing_by omega

/-- `libfsapfs_data_block_data_handle_read_segment_data`, libfsapfs_data_block_data_handle.c 279-447 -/
def read (h : Handle) (off n : Nat) : Res (Bytes × Nat) := do
  require (¬ n > 2 ^ 63 - 1)
  if off ≥ h.dataSize then return ([], off)
  else readLoop (blockAt h) h.dataSize off n

/-- reading a stream that was set up with `libfsapfs_data_stream_initialize_from_file_extents` (libfsapfs_data_stream.c 141-253): a libfdata stream
with one segment of the size of the stream; it seeks and reads at most up to its size -/
def streamRead (h : Handle) (streamSize off n : Nat) : Res Bytes :=
  if off ≥ streamSize then ok []
  else do
    let r ← read h off (min n (streamSize - off))
    return r.1

/-! ## Buffer data handle -/

/-- calls on a buffer data handle -/
inductive BufferOp where
  | seek (segment : Int) (off : Int)
  | read (segment : Int) (n : Nat)

inductive BufferResult where
  | offset (off : Int)
  | data (d : Bytes)
  | error
deriving DecidableEq, Repr

/-- `libfsapfs_buffer_data_handle_seek_segment_offset`, libfsapfs_buffer_data_handle.c 274-323, and `libfsapfs_buffer_data_handle_read_segment_data`, 167-268. The
state is `current_offset`. -/
def bufferStep (data : Bytes) (cur : Int) : BufferOp → Res (BufferResult × Int)
  | .seek segment off =>
    if segment ≠ 0 then ok (.error, cur)
    else if off < 0 then ok (.error, cur)
    else ok (.offset off, off)
  | .read segment n =>
    if cur < 0 then ok (.error, cur)
    else if segment ≠ 0 then ok (.error, cur)
    else if n > 2 ^ 63 - 1 then ok (.error, cur)
    else if cur ≥ (data.length : Int) then ok (.data [], cur)
    else do
      let size := data.length - cur.toNat
      let size := if size > n then n else size
      let d ← rdN data cur.toNat size
      return (.data d, cur + size)

def bufferRun (data : Bytes) : Int → List BufferOp → Res (List BufferResult)
  | _, [] => ok []
  | cur, o :: os => do
    let (r, cur) ← bufferStep data cur o
    let rs ← bufferRun data cur os
    return r :: rs

end DataStream
end Verif
