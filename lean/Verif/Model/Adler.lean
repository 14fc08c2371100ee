import Verif.Model.Base
/-!
# Model of libfsapfs_deflate_calculate_adler32, libfsapfs_deflate.c 647-889

The statement pairs that the C code repeats 16 times are a loop of 16 iterations here. 32-bit arithmetic wraps.
-/
namespace Verif
open Res
namespace Adler

/-- `n` times `lower_word += data[ data_offset++ ]; upper_word += lower_word;`,
libfsapfs_deflate.c 706-752 (n = 16), 794-840 (n = 16), 845-846 (n = 1) -/
def sumLoop (d : Bytes) (off : Nat) : Nat → Nat → Nat → Res (Nat × Nat)
  | 0, lower, upper => ok (lower, upper)
  | n + 1, lower, upper => do
    let b ← rd d off
    let lower := (lower + b.toNat) % 2 ^ 32
    sumLoop d (off + 1) n lower ((upper + lower) % 2 ^ 32)

/-- "optimized equivalent of %= 0xfff1", libfsapfs_deflate.c 757-770, 774-787, 853-866, 870-883 -/
def reduce (w : Nat) : Nat :=
  let v := w >>> 16
  let w := ((w &&& 0xffff) + ((v <<< 4) - v)) % 2 ^ 32
  let w := if w > 65521 then
      let v := w >>> 16
      ((w &&& 0xffff) + ((v <<< 4) - v)) % 2 ^ 32
    else w
  if w ≥ 65521 then w - 65521 else w

/-- `for( block_index = 0; block_index < 347; block_index++ )`, libfsapfs_deflate.c 702-753 -/
def blockLoop (d : Bytes) (off : Nat) : Nat → Nat → Nat → Res (Nat × Nat)
  | 0, lower, upper => ok (lower, upper)
  | k + 1, lower, upper => do
    let (lower, upper) ← sumLoop d off 16 lower upper
    blockLoop d (off + 16) k lower upper

/-- `while( data_size >= 0x15b0 )`, libfsapfs_deflate.c 697-789. Result: offset, remaining size, words -/
def bigLoop (d : Bytes) (off size lower upper : Nat) : Res (Nat × Nat × Nat × Nat) :=
  if size ≥ 0x15b0 then do
    let (lower, upper) ← blockLoop d off 347 lower upper
    bigLoop d (off + 347 * 16) (size - 0x15b0) (reduce lower) (reduce upper)
  else ok (off, size, lower, upper)
termination_by size
decreasing_by omega

/-- `while( data_size > 16 )`, libfsapfs_deflate.c 792-842 -/
def smallLoop (d : Bytes) (off size lower upper : Nat) : Res (Nat × Nat × Nat × Nat) :=
  if size > 16 then do
    let (lower, upper) ← sumLoop d off 16 lower upper
    smallLoop d (off + 16) (size - 16) lower upper
  else ok (off, size, lower, upper)
termination_by size
decreasing_by omega

/-- `libfsapfs_deflate_calculate_adler32`, libfsapfs_deflate.c 647-889. -/
def adler32 (d : Bytes) (initial_value : Nat) : Res Nat := do
  require (d.length ≤ 2 ^ 63 - 1)
  let (off, size, lower, upper) ← bigLoop d 0 d.length (initial_value &&& 0xffff) ((initial_value >>> 16) &&& 0xffff)
  if size > 0 then do
    let (off, size, lower, upper) ← smallLoop d off size lower upper
    let (lower, upper) ← sumLoop d off size lower upper
    return (((reduce upper) <<< 16) % 2 ^ 32 ||| reduce lower)
  else return ((upper <<< 16) % 2 ^ 32 ||| lower)

end Adler
end Verif
