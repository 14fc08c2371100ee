import Verif.Model.Base
/-!
# Model of libfsapfs_bit_stream.c

Only the storage type `BYTE_BACK_TO_FRONT` is modelled: libfsapfs_deflate.c (1526, 1811) is the only
user of the bit stream and uses no other type.
-/
namespace Verif
open Res

/-- `libfsapfs_bit_stream_t`, libfsapfs_bit_stream.h. `buf` is the 32-bit bit buffer. -/
structure BitStream where
  data : Bytes
  off : Nat
  buf : Nat
  size : Nat
deriving Repr, DecidableEq

namespace BitStream

/-- `libfsapfs_bit_stream_initialize`, libfsapfs_bit_stream.c 35-156 -/
def init (data : Bytes) (off : Nat) : BitStream := ⟨data, off, 0, 0⟩

/-- inner loop of `libfsapfs_bit_stream_get_value`, libfsapfs_bit_stream.c 240-265 -/
def fill (s : BitStream) (remaining : Nat) : Res BitStream :=
  if s.size < remaining ∧ s.size ≤ 24 then
    if s.off ≥ s.data.length then err
    else do
      let b ← rd s.data s.off
      fill { s with buf := s.buf ||| (b.toNat <<< s.size) % 2 ^ 32, size := s.size + 8, off := s.off + 1 } remaining
  else ok s
termination_by 32 - s.size

/-- outer loop of `libfsapfs_bit_stream_get_value`, libfsapfs_bit_stream.c 238-308.
`ub` for an iteration that makes no progress: the C loop would not terminate. -/
def getLoop (n : Nat) (remaining safe : Nat) (s : BitStream) : Res (Nat × BitStream) :=
  if remaining = 0 then ok (safe, s)
  else
    match fill s remaining with
    | .err => err
    | .ub => ub
    | .ok s =>
      let read := if remaining < s.size then remaining else s.size
      let safe := if remaining < n then (safe <<< remaining) % 2 ^ 32 else safe
      let value := if read < 32 then s.buf % 2 ^ read else s.buf
      let buf := if read < 32 then s.buf >>> read else s.buf
      let size := s.size - read
      let buf := if size = 0 then 0 else buf
      if read = 0 then ub
      else getLoop n (remaining - read) (safe ||| value) { s with buf := buf, size := size }
termination_by remaining
decreasing_by omega

/-- `libfsapfs_bit_stream_get_value`, libfsapfs_bit_stream.c 191-312 -/
def getValue (s : BitStream) (n : Nat) : Res (Nat × BitStream) :=
  if n > 32 then err else getLoop n n 0 s

end BitStream
end Verif
