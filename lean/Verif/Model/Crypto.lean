import Verif.Model.Base
/-!
# Model of libfsapfs_encryption_context.c and libfsapfs_password.c

AES (libcaes) and HMAC-SHA256 (libhmac) are parameters. They are assumed to succeed and to write outputs of
the requested size.
-/
namespace Verif
open Res
namespace Crypto

/-- body of the inner loop of `libfsapfs_encryption_aes_key_unwrap`, libfsapfs_encryption_context.c 656-744. `buf` is
`unwrapped_data`, `n` the number of blocks; `dec` is `libcaes_crypt_ecb` on 16 bytes. -/
def unwrapStep (dec : Bytes → Bytes) (n round block : Nat) (buf : Bytes) : Res Bytes := do
  let iv ← rdN buf 0 8
  let vector := xorBytes (toBE 8 (round * (n - 1) + block)) iv
  let r ← rdN buf (block * 8) 8
  let b := dec (vector ++ r)
  let buf ← wrN buf 0 (b.take 8)
  wrN buf (block * 8) ((b.drop 8).take 8)

/-- inner loop, libfsapfs_encryption_context.c 652-745: `block` blocks are left -/
def unwrapBlocks (dec : Bytes → Bytes) (n round : Nat) : Nat → Bytes → Res Bytes
  | 0, buf => ok buf
  | block + 1, buf => do
    let buf ← unwrapStep dec n round (block + 1) buf
    unwrapBlocks dec n round block buf

/-- outer loop, libfsapfs_encryption_context.c 648-746: `rounds` rounds are left -/
def unwrapRounds (dec : Bytes → Bytes) (n : Nat) : Nat → Bytes → Res Bytes
  | 0, buf => ok buf
  | round + 1, buf => do
    let buf ← unwrapBlocks dec n round (n - 1) buf
    unwrapRounds dec n round buf

/-- `libfsapfs_encryption_aes_key_unwrap`, libfsapfs_encryption_context.c 461-782. `dec key` is AES decryption, `buf` the
prior content of `unwrapped_data`. Result: its content afterwards. -/
def keyUnwrap (dec : Bytes → Bytes → Bytes) (key : Bytes) (keyBits : Nat) (wrapped buf : Bytes) : Res Bytes := do
  require (¬ (keyBits ≠ 128 ∧ keyBits ≠ 192 ∧ keyBits ≠ 256))
  require (¬ wrapped.length > 2 ^ 63 - 1)
  require (¬ wrapped.length ≤ 8)
  require (wrapped.length % 8 = 0)
  require (¬ buf.length > 2 ^ 63 - 1)
  require (¬ buf.length < wrapped.length)
  let k ← rdN key 0 (keyBits / 8)
  let buf ← wrN buf 0 wrapped
  unwrapRounds (dec k) (wrapped.length / 8) 6 buf

/-- loop of `libfsapfs_encryption_context_crypt`, libfsapfs_encryption_context.c 417-446. `xts tweak data` is
`libcaes_crypt_xts` with the keys of the context. `off` is `data_offset`; the buffers are `input` and `out`.
A sector size of 0 loops forever, modelled as `ub`. -/
def cryptLoop (xts : Bytes → Bytes → Bytes) (input : Bytes) (bps : Nat) (sector off : Nat) (out : Bytes) : Res Bytes :=
  if off < input.length then
    if _h : bps = 0 then ub
    else
      match rdN input off bps with
      | .ok d =>
        match wrN out off (xts (toLE 8 sector ++ List.replicate 8 0) d) with
        | .ok out => cryptLoop xts input bps ((sector + 1) % 2 ^ 64) (off + bps) out
        | r => r
      | r => r
  else ok out
termination_by input.length - off
decreasing_by omega

/-- `libfsapfs_encryption_context_crypt`, libfsapfs_encryption_context.c 310-456 -/
def crypt (xts : Bytes → Bytes → Bytes) (input : Bytes) (sector bps : Nat) (out : Bytes) : Res Bytes := do
  require (¬ input.length > 2 ^ 63 - 1)
  require (¬ out.length > 2 ^ 63 - 1)
  require (¬ out.length < input.length)
  cryptLoop xts input bps sector 0 out

/-- the decryption in `libfsapfs_data_block_read`, libfsapfs_data_block.c 374-415: `data` was read from the storage, `out` is the
prior content of the data block. Without encryption context the data is read in place. -/
def readDataBlock (xts : Option (Bytes → Bytes → Bytes)) (data out : Bytes) (identifier bps : Nat) : Res Bytes := do
  require (bps ≠ 0)
  match xts with
  | none => return data
  | some xts => crypt xts data (identifier * data.length % 2 ^ 64 / bps) bps out

/-- `output_ptr[ byte_index ] ^= hash_buffer[ byte_index ]` for `k` more bytes, libfsapfs_password.c 318-323, 395-400 -/
def xorLoop (hash : Bytes) (off : Nat) : Nat → Nat → Bytes → Res Bytes
  | 0, _, out => ok out
  | k + 1, i, out => do
    let a ← rd out (off + i)
    let b ← rd hash i
    let out ← wr out (off + i) (a ^^^ b)
    xorLoop hash off k (i + 1) out

/-- iterations of one block, libfsapfs_password.c 293-324 and 370-401; `k` is the number of bytes used of the block -/
def iterLoop (prf : Bytes → Bytes → Bytes) (password : Bytes) (off k : Nat) : Nat → Bytes → Bytes → Res Bytes
  | 0, _, out => ok out
  | n + 1, hash, out => do
    let hash := prf password hash
    let out ← xorLoop hash off k 0 out
    iterLoop prf password off k n hash out

/-- one block, libfsapfs_password.c 252-324 and 329-401 -/
def pbkdf2Block (prf : Bytes → Bytes → Bytes) (password : Bytes) (saltSize iterations index off k : Nat) (data out : Bytes) : Res Bytes := do
  let data ← wrN data saltSize (toBE 4 ((index + 1) % 2 ^ 32))
  let hash := prf password data
  let h ← rdN hash 0 k
  let out ← wrN out off h
  iterLoop prf password off k (iterations - 1) hash out

/-- loop over the full blocks, libfsapfs_password.c 248-326. The data buffer keeps its salt; the number behind it is overwritten. -/
def pbkdf2Blocks (prf : Bytes → Bytes → Bytes) (password : Bytes) (saltSize iterations : Nat) (data : Bytes) : Nat → Nat → Bytes → Res Bytes
  | 0, _, out => ok out
  | n + 1, index, out => do
    let out ← pbkdf2Block prf password saltSize iterations index (index * 32) 32 data out
    pbkdf2Blocks prf password saltSize iterations data n (index + 1) out

/-- `libfsapfs_password_pbkdf2`, libfsapfs_password.c 36-417. `out` is the prior content of `output_data`. -/
def pbkdf2 (prf : Bytes → Bytes → Bytes) (password salt : Bytes) (iterations : Nat) (out : Bytes) : Res Bytes := do
  require (¬ password.length > 2 ^ 63 - 1)
  require (¬ salt.length > 2 ^ 63 - 1)
  require (iterations ≠ 0)
  require (¬ out.length > 2 ^ 63 - 1)
  let out := List.replicate out.length 0
  let blocks := out.length / 32 % 2 ^ 32
  let remaining := out.length - blocks * 32
  require (¬ salt.length + 4 > 128 * 1024 * 1024)
  let data ← wrN (List.replicate (salt.length + 4) 0) 0 salt
  let out ← pbkdf2Blocks prf password salt.length iterations data blocks 0 out
  if remaining > 0 then
    pbkdf2Block prf password salt.length iterations blocks (blocks * 32) remaining data out
  else return out

end Crypto
end Verif
