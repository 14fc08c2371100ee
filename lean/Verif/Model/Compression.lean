import Verif.Model.Deflate
/-!
# Model of libfsapfs_compression.c and libfsapfs_compressed_data_handle.c

`zlib` (or the built-in inflate) and `libfmos_lzvn_decompress` are parameters (`Codec`).
-/
namespace Verif
open Res

/-- What a decompression function leaves behind: on success the output; otherwise the value left in
`*uncompressed_data_size` and the bytes already written to the output buffer. -/
inductive DecOut where
  | ok (out : Bytes)
  | fail (size : Nat) (junk : Bytes)
deriving Repr, DecidableEq

/-- the decompressors called by libfsapfs_compression.c: compressed data, output buffer size -/
structure Codec where
  zlib : Bytes → Nat → DecOut
  lzvn : Bytes → Nat → DecOut

/-- `LIBFSAPFS_COMPRESSION_METHOD_...`, libfsapfs_definitions.h -/
def methodDeflate : Nat := 1
def methodLzvn : Nat := 3
def methodUnknown5 : Nat := 5

/-- the build without zlib, libfsapfs_compression.c 256-273: the size is only written on success -/
def builtinZlib (junk : Bytes → Nat → Bytes) (d : Bytes) (cap : Nat) : DecOut :=
  match Deflate.decompressZlib d cap with
  | .ok out => .ok out
  | _ => .fail cap (junk d cap)

/-- copy of an uncompressed chunk behind its marker byte, libfsapfs_compression.c 105-158 and 303-356 -/
def rawChunk (d : Bytes) (cap : Nat) : DecOut :=
  if d.length > 2 ^ 63 - 1 then .fail cap []
  else if cap > 2 ^ 63 - 1 then .fail cap []
  else if d.length - 1 > cap then .fail cap []
  else .ok (d.drop 1)

/-- `libfsapfs_decompress_data`, libfsapfs_compression.c 44-391 -/
def decompressData (c : Codec) (method : Nat) (d : Bytes) (cap : Nat) : DecOut :=
  if method = methodDeflate then
    if d.head? = some 0xff then rawChunk d cap else c.zlib d cap
  else if method = methodLzvn then
    if d.head? = some 0x06 then rawChunk d cap else c.lzvn d cap
  else .fail cap []

namespace Compressed

/-- `LIBFSAPFS_COMPRESSED_DATA_HANDLE_BLOCK_SIZE`, libfsapfs_compressed_data_handle.c 35 -/
def blockSize : Nat := 65536

/-- size of `compressed_segment_data`, libfsapfs_compressed_data_handle.c 129-131 -/
def bufferSize : Nat := blockSize + 1

/-- `libfdata_stream_read_buffer_at_offset` into the object `compressed_segment_data` at `at_`: libfdata (external)
refuses sizes above SSIZE_MAX and returns the available bytes otherwise. Writing behind the buffer is `ub`. -/
def readInto (stream : Bytes) (at_ size off : Nat) : Res Bytes :=
  if size > 2 ^ 63 - 1 then err
  else
    let bs := (stream.drop off).take size
    if at_ + bs.length > bufferSize then ub else ok bs

/-- loop over the remaining block descriptors, libfsapfs_compressed_data_handle.c 612-669. `descs` are the bytes from
`segment_data_offset` on, `k` iterations are left, `base` is `compressed_descriptors_offset`. -/
def offsetsLoop (deflate : Bool) (base : Nat) : Nat → Bytes → Nat → Res (List Nat)
  | 0, _, _ => ok []
  | k + 1, descs, previous => do
    let v ← rdLE descs 0 4
    let v := (v + base) % 2 ^ 32
    require (¬ (previous > v ∨ v - previous > bufferSize))
    let rest ← offsetsLoop deflate base k (descs.drop (if deflate then 8 else 4)) v
    return v :: rest

/-- the table behind the first descriptor, libfsapfs_compressed_data_handle.c 497-670: `n` blocks, first offset `first`, descriptors of
`dsize` bytes starting (after the first offset) at `at_`. Result: the block offsets without the end offset. -/
def readTable (stream : Bytes) (deflate : Bool) (n first at_ dsize base : Nat) : Res (List Nat) := do
  require (¬ n > 128 * 1024 * 1024 / 4 - 1)
  let read_size := if n = 0 then (if dsize = 0 then 0 else 2 ^ 64 - dsize) else (n - 1) * dsize
  let bs ← readInto stream at_ read_size at_
  require (bs.length = read_size)
  require (¬ (first ≤ dsize ∨ first ≥ bufferSize))
  let first := (first + base) % 2 ^ 32
  let rest ← offsetsLoop deflate base (n - 1) (if deflate then bs.drop 4 else bs) first
  return first :: rest

/-- `libfsapfs_compressed_data_handle_get_compressed_block_offsets`, libfsapfs_compressed_data_handle.c 236-801.
Result: the array `compressed_block_offsets` (one more than the number of blocks). The footer is only read when verbose
debug output is on (`compressed_footer_size` is 0 otherwise), the data of method 5 (742-789) only has to be readable. -/
def getOffsets (method : Nat) (stream : Bytes) : Res (List Nat) := do
  let sig ← readInto stream 0 4 0
  require (sig.length = 4)
  let offs ← (
    if sig = [0x66, 0x70, 0x6d, 0x63] then do
      require (¬ stream.length > bufferSize)
      return [16]
    else if method = methodDeflate then do
      require (beNat sig = 0x100)
      let hdr ← readInto stream 4 (0x100 + 16 - 4) 4
      require (hdr.length = 0x100 + 16 - 4)
      let n ← rdLE hdr (260 - 4) 4
      require (¬ n > (2 ^ 32 - 1) / 8)
      let first ← rdLE hdr (264 - 4) 4
      readTable stream true n first 268 8 (0x100 + 4)
    else if method = methodLzvn then do
      let first := leNat sig
      require (¬ (first ≤ 4 ∨ first ≥ bufferSize))
      readTable stream false (first / 4) first 4 4 0
    else readTable stream false 0 0 0 0 0)
  let previous ← ofMem offs.getLast?
  require (¬ (previous > stream.length ∨ stream.length - previous > bufferSize))
  if method = methodUnknown5 then do
    require (¬ stream.length > 2 ^ 63 - 1)
    let bs ← readInto stream 0 (stream.length - 16) 16
    require (bs.length = stream.length - 16)
    return offs ++ [stream.length % 2 ^ 32]
  else return offs ++ [stream.length % 2 ^ 32]

/-- `libfsapfs_compressed_data_handle_t`. `seg` is the content of the 65536 byte object `segment_data`, `cur` is
`current_compressed_block_index` (-1 is `none`), `table` is `compressed_block_offsets`. -/
structure Handle where
  pos : Nat
  size : Nat
  method : Nat
  cur : Option Nat
  seg : Bytes
  segSize : Nat
  table : Option (List Nat)
deriving Repr, DecidableEq

/-- `libfsapfs_compressed_data_handle_initialize`, libfsapfs_compressed_data_handle.c 41-186. `junk` is the content of
the freshly allocated segment buffer. -/
def Handle.init (size method : Nat) (junk : Bytes) : Res Handle :=
  if method ≠ methodDeflate ∧ method ≠ methodLzvn ∧ method ≠ methodUnknown5 then err
  else ok ⟨0, size, method, none, junk, 0, none⟩

/-- writing `out` to the start of the segment buffer -/
def overwrite (seg out : Bytes) : Bytes := out ++ seg.drop out.length

/-- loading a block into the segment buffer, libfsapfs_compressed_data_handle.c 944-1026. `io off size` tells whether
reading the stream succeeds. -/
def loadBlock (c : Codec) (stream : Bytes) (io : Nat → Nat → Bool) (table : List Nat) (index : Nat) (h : Handle) : Res Unit × Handle :=
  match table[index]?, table[index + 1]? with
  | some a, some b =>
    if b < a then (err, h)            -- the size is converted to a huge size_t
    else if io a (b - a) = false then (err, h)
    else
      match readInto stream 0 (b - a) a with
      | .ub => (ub, h)
      | .err => (err, h)
      | .ok bs =>
        if bs.length ≠ b - a then (err, h)
        else
          match decompressData c h.method bs blockSize with
          | .fail size junk => (err, { h with seg := overwrite h.seg junk, segSize := size })
          | .ok out =>
            let h := { h with seg := overwrite h.seg out, segSize := out.length }
            let uncompressed_block_offset := (index + 1) * blockSize % 2 ^ 32
            if uncompressed_block_offset < h.size ∧ h.segSize ≠ blockSize then (err, h)
            else (ok (), { h with cur := some index })
  | _, _ => (ub, h)

/-- the loop of `libfsapfs_compressed_data_handle_read_segment_data`, libfsapfs_compressed_data_handle.c 929-1064 -/
def readLoop (c : Codec) (stream : Bytes) (io : Nat → Nat → Bool) (table : List Nat) (index off n : Nat) (acc : Bytes) (h : Handle) :
    Res Bytes × Handle :=
  if n = 0 then (ok acc, h)
  else if index ≥ table.length - 1 then (err, h)
  else
    match (if h.cur = some index then (ok (), h) else loadBlock c stream io table index h) with
    | (.ub, h) => (ub, h)
    | (.err, h) => (err, h)
    | (.ok (), h) =>
      if off ≥ h.segSize then (err, h)
      else
        let read_size := if h.segSize - off > n then n else h.segSize - off
        match rdN h.seg off read_size with
        | .ok bs =>
          if _h : 0 < read_size then readLoop c stream io table (index + 1) 0 (n - read_size) (acc ++ bs) h else (ub, h)
        | _ => (ub, h)
termination_by n
decreasing_by omega

/-- `libfsapfs_compressed_data_handle_read_segment_data`, libfsapfs_compressed_data_handle.c 807-1068 -/
def read (c : Codec) (stream : Bytes) (io : Nat → Nat → Bool) (n : Nat) (h : Handle) : Res Bytes × Handle :=
  if n > 2 ^ 63 - 1 then (err, h)
  else
    let r := match h.table with
      | some t => ok t
      | none => if io 0 4 then getOffsets h.method stream else err
    match r with
    | .ub => (ub, h)
    | .err => (err, h)
    | .ok table =>
      let h := { h with table := some table }
      if h.pos ≥ h.size then (ok [], h)
      else if h.method = methodUnknown5 then
        let read_size := if n > h.size - h.pos then h.size - h.pos else n
        (ok (List.replicate read_size 0), { h with pos := h.pos + read_size })
      else
        match readLoop c stream io table (h.pos / blockSize % 2 ^ 32) (h.pos % blockSize) n [] h with
        | (.ok bs, h) => (ok bs, { h with pos := h.pos + bs.length })
        | (r, h) => (r, h)

/-- `libfsapfs_compressed_data_handle_seek_segment_offset`, libfsapfs_compressed_data_handle.c 1074-1123 -/
def seek (off : Int) (h : Handle) : Res Unit × Handle :=
  if off < 0 then (err, h) else (ok (), { h with pos := off.toNat })

/-- A read of the stream on top of the handle: libfdata (external) returns nothing behind the end of the stream and
otherwise limits the request to the end before calling `read`. -/
def streamRead (c : Codec) (stream : Bytes) (io : Nat → Nat → Bool) (n : Nat) (h : Handle) : Res Bytes × Handle :=
  if h.pos ≥ h.size then (ok [], h) else read c stream io (min n (h.size - h.pos)) h

end Compressed
end Verif
