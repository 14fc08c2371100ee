import Verif.Model.Huffman
import Verif.Model.Adler
/-!
# Model of libfsapfs_deflate.c (except Adler-32, which is in Verif.Model.Adler)

The output buffer of `cap` bytes is modelled by the list of the bytes written so far: the C code only writes at
`data_offset`, which is the length of that list, and only reads below it. Writing beyond `cap`, reading at or beyond
`data_offset`, and loop iterations that consume no input (which could repeat forever) are `ub`.
`SSIZE_MAX` checks are kept on the public functions.
-/
namespace Verif
open Res
namespace Deflate

/-- libfsapfs_deflate.c 33-35 -/
def codeSizesSequence : List Nat := [16, 17, 18, 0, 8, 7, 9, 6, 10, 5, 11, 4, 12, 3, 13, 2, 14, 1, 15]

/-- libfsapfs_deflate.c 37-39 -/
def literalBase : List Nat := [3, 4, 5, 6, 7, 8, 9, 10, 11, 13, 15, 17, 19, 23, 27, 31,
  35, 43, 51, 59, 67, 83, 99, 115, 131, 163, 195, 227, 258]

/-- libfsapfs_deflate.c 41-43 -/
def literalExtra : List Nat := [0, 0, 0, 0, 0, 0, 0, 0, 1, 1, 1, 1, 2, 2, 2, 2,
  3, 3, 3, 3, 4, 4, 4, 4, 5, 5, 5, 5, 0]

/-- libfsapfs_deflate.c 45-48 -/
def distanceBase : List Nat := [1, 2, 3, 4, 5, 7, 9, 13, 17, 25, 33, 49, 65, 97, 129, 193,
  257, 385, 513, 769, 1025, 1537, 2049, 3073, 4097, 6145, 8193, 12289, 16385, 24577]

/-- libfsapfs_deflate.c 50-52 -/
def distanceExtra : List Nat := [0, 0, 0, 0, 1, 1, 2, 2, 3, 3, 4, 4, 5, 5, 6, 6,
  7, 7, 8, 8, 9, 9, 10, 10, 11, 11, 12, 12, 13, 13]

/-- first loop of the code length codes, libfsapfs_deflate.c 124-146. `k` codes are left to be read.
An array element is `none` while it is uninitialised. -/
def readCodeSizes : Nat → Nat → List (Option Nat) → BitStream → Res (Nat × List (Option Nat) × BitStream)
  | 0, index, arr, s => ok (index, arr, s)
  | k + 1, index, arr, s => do
    let (code_size, s) ← s.getValue 3
    let seq ← ofMem codeSizesSequence[index]?
    if seq < arr.length then readCodeSizes k (index + 1) (arr.set seq (some code_size)) s else ub

/-- second loop, libfsapfs_deflate.c 147-152 -/
def clearCodeSizes (index : Nat) (arr : List (Option Nat)) : Res (List (Option Nat)) :=
  if index < 19 then do
    let seq ← ofMem codeSizesSequence[index]?
    if seq < arr.length then clearCodeSizes (index + 1) (arr.set seq (some 0)) else ub
  else ok arr
termination_by 19 - index

/-- reading `n` array elements from the start: uninitialised or missing elements are `ub` -/
def initialised (arr : List (Option Nat)) : Res (List Nat) :=
  match arr with
  | [] => ok []
  | a :: rest => do
    let v ← ofMem a
    let vs ← initialised rest
    return v :: vs

/-- loop decoding the code sizes, libfsapfs_deflate.c 187-310. `acc` are the elements `0..code_size_index` of the array
(all earlier elements have been overwritten). -/
def decodeSizes (t : HTree) (total : Nat) (acc : List Nat) (s : BitStream) : Res (List Nat × BitStream) :=
  if acc.length < total then
    match t.getSymbol s with
    | .err => err
    | .ub => ub
    | .ok (symbol, s) =>
      if symbol < 16 then decodeSizes t total (acc ++ [symbol]) s
      else
        let r : Res (Nat × Nat × BitStream) :=
          if symbol = 16 then
            if acc.length = 0 then err
            else do
              let code_size ← ofMem acc[acc.length - 1]?
              let (times, s) ← s.getValue 2
              return (code_size, times + 3, s)
          else if symbol = 17 then do
            let (times, s) ← s.getValue 3
            return (0, times + 3, s)
          else if symbol = 18 then do
            let (times, s) ← s.getValue 7
            return (0, times + 11, s)
          else err
        match r with
        | .err => err
        | .ub => ub
        | .ok (code_size, times, s) =>
          if acc.length + times > total then err
          else if times = 0 then ub
          else decodeSizes t total (acc ++ List.replicate times code_size) s
  else ok (acc, s)
termination_by total - acc.length
decreasing_by all_goals (simp; omega)

/-- a build result other than 1 is an error, e.g. libfsapfs_deflate.c 168-182 -/
def built : Option HTree → Res HTree
  | some t => ok t
  | none => err

/-- `libfsapfs_deflate_build_dynamic_huffman_trees`, libfsapfs_deflate.c 57-375, including the initialisation of the two
trees by the caller (1295-1345). The array of 316 bytes is covered by the checks on the number of codes. -/
def buildDynamic (s : BitStream) : Res (HTree × HTree × BitStream) := do
  let lt ← HTree.init 288 15
  let dt ← HTree.init 30 15
  let (v, s) ← s.getValue 14
  let nlit := (v &&& 0x1f) + 257
  let v := v >>> 5
  let ndist := (v &&& 0x1f)
  let v := v >>> 5
  require (nlit ≤ 286)
  let ndist := ndist + 1
  require (ndist ≤ 30)
  let ncodes := v + 4
  let (index, arr, s) ← readCodeSizes ncodes 0 (List.replicate 316 none) s
  let arr ← clearCodeSizes index arr
  let ct ← HTree.init 19 15
  let cl ← initialised (arr.take 19)
  let ct ← ct.build cl
  let ct ← built ct
  let (sizes, s) ← decodeSizes ct (nlit + ndist) [] s
  if sizes.length > 316 then ub else do
  let eob ← ofMem sizes[256]?
  require (eob ≠ 0)
  let lt ← lt.build (sizes.take nlit)
  let lt ← built lt
  let dt ← dt.build ((sizes.drop nlit).take ndist)
  let dt ← built dt
  return (lt, dt, s)

/-- code sizes of `libfsapfs_deflate_build_fixed_huffman_trees`, libfsapfs_deflate.c 390-414 -/
def fixedSizes : List Nat := (List.range 318).map fun symbol =>
  if symbol < 144 then 8 else if symbol < 256 then 9 else if symbol < 280 then 7 else if symbol < 288 then 8 else 5

/-- `libfsapfs_deflate_build_fixed_huffman_trees`, libfsapfs_deflate.c 380-446, with the initialisation by the callers
(1565-1594, 1850-1879) -/
def buildFixed : Res (HTree × HTree) := do
  let lt ← HTree.init 288 15
  let dt ← HTree.init 30 15
  let lt ← lt.build (fixedSizes.take 288)
  let lt ← built lt
  let dt ← dt.build ((fixedSizes.drop 288).take 30)
  let dt ← built dt
  return (lt, dt)

/-- `uncompressed_data[ data_offset++ ] = b` -/
def push (cap : Nat) (out : Bytes) (b : UInt8) : Res Bytes := if out.length < cap then ok (out ++ [b]) else ub

/-- copy loop, libfsapfs_deflate.c 615-621 -/
def copyLoop (cap compression_offset : Nat) : Nat → Bytes → Res Bytes
  | 0, out => ok out
  | n + 1, out =>
    if out.length < compression_offset then ub
    else do
      let b ← rd out (out.length - compression_offset)
      let out ← push cap out b
      copyLoop cap compression_offset n out

/-- a length/distance pair after the length symbol, libfsapfs_deflate.c 538-621 -/
def decodeMatch (dt : HTree) (cap : Nat) (symbol : Nat) (s : BitStream) (out : Bytes) : Res (BitStream × Bytes) := do
  let symbol := symbol - 257
  let nextra ← ofMem literalExtra[symbol]?
  let (extra, s) ← s.getValue (nextra % 256)
  let base ← ofMem literalBase[symbol]?
  let compression_size := (base + extra) % 2 ^ 16
  let (symbol, s) ← dt.getSymbol s
  let nextra ← ofMem distanceExtra[symbol]?
  let (extra, s) ← s.getValue (nextra % 256)
  let base ← ofMem distanceBase[symbol]?
  let compression_offset := (base + extra) % 2 ^ 16
  require (compression_offset ≤ out.length)
  require (out.length + compression_size ≤ cap)
  let out ← copyLoop cap compression_offset compression_size out
  return (s, out)

/-- body of the loop of `libfsapfs_deflate_decode_huffman`, libfsapfs_deflate.c 505-635; the flag tells if `symbol` is
256 at the end of the body. `symbol` is overwritten in the branch 535-622 by the distance symbol (< 30), which is never
256, so the loop continues there. -/
def huffmanStep (lt dt : HTree) (cap : Nat) (s : BitStream) (out : Bytes) : Res (Bool × BitStream × Bytes) := do
  let (symbol, s) ← lt.getSymbol s
  if symbol < 256 then do
    require (¬ out.length ≥ cap)
    let out ← push cap out (UInt8.ofNat symbol)
    return (false, s, out)
  else if symbol > 256 ∧ symbol < 286 then do
    let (s, out) ← decodeMatch dt cap symbol s out
    return (false, s, out)
  else do
    require (symbol = 256)
    return (true, s, out)

/-- `libfsapfs_deflate_decode_huffman`, libfsapfs_deflate.c 451-641 -/
def decodeHuffman (lt dt : HTree) (cap : Nat) (s : BitStream) (out : Bytes) : Res (BitStream × Bytes) :=
  match huffmanStep lt dt cap s out with
  | .err => err
  | .ub => ub
  | .ok (true, s1, out) => ok (s1, out)
  | .ok (false, s1, out) =>
    if _h : s1.size + 8 * (s1.data.length - s1.off) < s.size + 8 * (s.data.length - s.off) then
      decodeHuffman lt dt cap s1 out
    else ub
termination_by s.size + 8 * (s.data.length - s.off)
decreasing_by exact _h

/-- `libfsapfs_deflate_read_data_header`, libfsapfs_deflate.c 894-1018, result: new offset. -/
def readDataHeader (d : Bytes) (off : Nat) : Res Nat := do
  require (d.length ≤ 2 ^ 63 - 1)
  require (¬ (d.length < 2 ∨ off > d.length - 2))
  let compression_data ← rd d off
  let flags ← rd d (off + 1)
  let method := compression_data.toNat &&& 0x0f
  let info := compression_data.toNat >>> 4
  let safe_offset ← (if flags.toNat &&& 0x20 ≠ 0 then do
      require (¬ (d.length < 6 ∨ off + 2 > d.length - 6))
      let _ ← rdN d (off + 2) 4
      return off + 6
    else return off + 2)
  require (method = 8)
  require (1 <<< (info + 8) ≤ 32768)
  return off + safe_offset

/-- `libfsapfs_deflate_read_block_header`, libfsapfs_deflate.c 1023-1118: block type, last block flag -/
def readBlockHeader (s : BitStream) : Res (Nat × Nat × BitStream) := do
  let (v, s) ← s.getValue 3
  return (v >>> 1, v &&& 1, s)

/-- case of an uncompressed block of `libfsapfs_deflate_read_block`, libfsapfs_deflate.c 1190-1291 -/
def readStored (cap : Nat) (s : BitStream) (out : Bytes) : Res (BitStream × Bytes) := do
  let skip := s.size &&& 7
  let s ← (if skip > 0 then do
      let (_, s) ← s.getValue skip
      return s
    else return s)
  let (v, s) ← s.getValue 32
  let block_size_copy := (v >>> 16) ^^^ 0xffff
  let block_size := v &&& 0xffff
  require (block_size = block_size_copy)
  if block_size = 0 then return (s, out)
  else do
    require (block_size ≤ s.data.length - s.off)
    require (block_size ≤ cap - out.length)
    let bs ← rdN s.data s.off block_size
    if out.length + block_size > cap then ub
    else return ({ s with off := s.off + block_size, buf := 0, size := 0 }, out ++ bs)

/-- `libfsapfs_deflate_read_block`, libfsapfs_deflate.c 1123-1436 -/
def readBlock (cap : Nat) (block_type : Nat) (fixed : Option (HTree × HTree)) (s : BitStream) (out : Bytes) :
    Res (BitStream × Bytes) :=
  match block_type with
  | 0 => readStored cap s out
  | 1 => do
    let (lt, dt) ← ofMem fixed
    decodeHuffman lt dt cap s out
  | 2 => do
    let (lt, dt, s) ← buildDynamic s
    decodeHuffman lt dt cap s out
  | _ => err

/-- lazily built fixed trees, libfsapfs_deflate.c 1560-1610 and 1845-1895 -/
def ensureFixed (block_type : Nat) (fixed : Option (HTree × HTree)) : Res (Option (HTree × HTree)) :=
  if block_type = 1 then
    match fixed with
    | some f => ok (some f)
    | none => do
      let f ← buildFixed
      return some f
  else ok fixed

/-- body of the block loop, libfsapfs_deflate.c 1545-1629 and 1830-1914 -/
def oneBlock (cap : Nat) (fixed : Option (HTree × HTree)) (s : BitStream) (out : Bytes) :
    Res (Nat × Option (HTree × HTree) × BitStream × Bytes) := do
  let (block_type, last, s) ← readBlockHeader s
  let fixed ← ensureFixed block_type fixed
  let (s, out) ← readBlock cap block_type fixed s out
  return (last, fixed, s, out)

/-- block loop, libfsapfs_deflate.c 1543-1634 and 1828-1919 -/
def blockLoop (cap : Nat) (fixed : Option (HTree × HTree)) (s : BitStream) (out : Bytes) : Res (BitStream × Bytes) :=
  if s.off < s.data.length then
    match oneBlock cap fixed s out with
    | .err => err
    | .ub => ub
    | .ok (last, fixed, s1, out) =>
      if last ≠ 0 then ok (s1, out)
      else if _h : s1.size + 8 * (s1.data.length - s1.off) < s.size + 8 * (s.data.length - s.off) then
        blockLoop cap fixed s1 out
      else ub
  else ok (s, out)
termination_by s.size + 8 * (s.data.length - s.off)
decreasing_by all_goals exact _h

/-- `libfsapfs_deflate_decompress`, libfsapfs_deflate.c 1441-1704: the bytes written to the output buffer of `cap` bytes -/
def decompress (d : Bytes) (cap : Nat) : Res Bytes := do
  require (d.length ≤ 2 ^ 63 - 1)
  require (cap ≤ 2 ^ 63 - 1)
  require (0 < d.length)
  let (_, out) ← blockLoop cap none (BitStream.init d 0) []
  return out

/-- `while( bit_stream->bit_buffer_size >= 8 )`, libfsapfs_deflate.c 1922-1926 -/
def rewind (s : BitStream) : Res BitStream :=
  if s.size ≥ 8 then
    if s.off = 0 then ub else rewind { s with off := s.off - 1, size := s.size - 8 }
  else ok s
termination_by s.size

/-- `libfsapfs_deflate_decompress_zlib`, libfsapfs_deflate.c 1709-2030 -/
def decompressZlib (d : Bytes) (cap : Nat) : Res Bytes := do
  require (d.length ≤ 2 ^ 63 - 1)
  require (cap ≤ 2 ^ 63 - 1)
  let off ← readDataHeader d 0
  require (off < d.length)
  let (s, out) ← blockLoop cap none (BitStream.init d off) []
  if s.data.length - s.off ≥ 4 then do
    let s ← rewind s
    let bs ← rdN s.data s.off 4
    let calculated ← Adler.adler32 out 1
    require (beNat bs = calculated)
    return out
  else return out

end Deflate
end Verif
