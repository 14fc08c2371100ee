import Verif.Model.Base
/-!
# Model of libfsapfs_checksum.c
-/
namespace Verif.Checksum
open Verif Res

/-- the loop body of `libfsapfs_checksum_initialize_crc32_table`,
libfsapfs_checksum.c 51-63 -/
def tableStep (polynomial checksum : BitVec 32) : BitVec 32 :=
  if checksum &&& 1#32 ≠ 0#32 then polynomial ^^^ (checksum >>> 1) else checksum >>> 1

/-- one entry of the table: 8 iterations, libfsapfs_checksum.c 49-64 -/
def tableEntry (polynomial : BitVec 32) (table_index : Nat) : BitVec 32 :=
  Nat.repeat (tableStep polynomial) 8 (BitVec.ofNat 32 table_index)

/-- `libfsapfs_checksum_initialize_crc32_table`, libfsapfs_checksum.c 39-68 -/
def crcTable (polynomial : BitVec 32) : List (BitVec 32) :=
  (List.range 256).map (tableEntry polynomial)

/-- loop body of `libfsapfs_checksum_calculate_weak_crc32`, libfsapfs_checksum.c 124-132.
The table access is an explicit memory access. -/
def crcByte (s : BitVec 32) (b : UInt8) : Res (BitVec 32) := do
  let table_index := (s ^^^ (b.toBitVec.setWidth 32)) &&& 0xff#32
  let t ← ofMem (crcTable 0x82f63b78#32)[table_index.toNat]?
  return t ^^^ (s >>> 8)

/-- `libfsapfs_checksum_calculate_weak_crc32`, libfsapfs_checksum.c 73-137
(argument checks dropped: `size > SSIZE_MAX` cannot hold for an existing buffer). -/
def weakCrc32 (buffer : Bytes) (initial_value : BitVec 32) : Res (BitVec 32) :=
  buffer.foldlM crcByte initial_value

/-- `value_32bit` sequence read by the loop of libfsapfs_checksum.c 196-203: the
little-endian 32-bit words of the buffer. A trailing partial word would be an
out-of-bounds read; the require in `fletcher64` excludes it. -/
def words : Bytes → Res (List Nat)
  | [] => ok []
  | a :: b :: c :: d :: rest => do
    let ws ← words rest
    return leNat [a, b, c, d] :: ws
  | _ => ub

/-- loop body libfsapfs_checksum.c 204-205, 64-bit unsigned additions -/
def fletcherStep (s : Nat × Nat) (w : Nat) : Nat × Nat :=
  let lower := (s.1 + w) % 2 ^ 64
  (lower, (s.2 + lower) % 2 ^ 64)

/-- final reduction libfsapfs_checksum.c 207-213. `value_32bit` is a `uint32_t`. -/
def fletcherFinish (s : Nat × Nat) : Nat :=
  let lower := s.1 % 0xffffffff
  let upper := s.2 % 0xffffffff
  let value := (0xffffffff - ((lower + upper) % 0xffffffff)) % 2 ^ 32
  let upper2 := 0xffffffff - ((lower + value) % 0xffffffff)
  upper2 * 2 ^ 32 + value

/-- `libfsapfs_checksum_calculate_fletcher64`, libfsapfs_checksum.c 141-216.
`( upper << 32 ) | value` is written as a sum because `value < 2^32` and `upper < 2^32`. -/
def fletcher64 (buffer : Bytes) (initial_value : Nat) : Res Nat :=
  if buffer.length % 4 ≠ 0 then err
  else do
    let ws ← words buffer
    return fletcherFinish (ws.foldl fletcherStep (initial_value % 2 ^ 32, initial_value / 2 ^ 32 % 2 ^ 32))

/-- The checksum test every checksummed object reader performs, e.g.
libfsapfs_container_superblock.c 797-830, libfsapfs_volume_superblock.c 850-890,
libfsapfs_checkpoint_map.c 411-440, libfsapfs_container_key_bag.c 568-600:
the checksum stored in the first 8 bytes must equal the Fletcher-64 of the rest of the block. -/
def checkObject (block : Bytes) : Res Unit := do
  let stored ← rdLE block 0 8
  let calculated ← fletcher64 (block.drop 8) 0
  require (stored = calculated)

end Verif.Checksum
