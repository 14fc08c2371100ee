import Verif.Model.FileRead
import Verif.Model.PathString
/-!
# Model of fsapfstools/digest_hash.c and of the MD5 of a file in fsapfstools/info_handle.c

MD5 is that of libhmac: an argument, of which what is needed is said in the theorems. Its functions are taken to succeed.
-/
namespace Verif
open Res
namespace Digest
open FileRead (Reader)

/-- one of the characters, digest_hash.c 106-113 and 116-123 -/
def digit (d : Nat) : UInt8 := if d ≤ 9 then UInt8.ofNat (0x30 + d) else UInt8.ofNat (0x61 + (d - 10))

/-- the loop of `digest_hash_copy_to_string`, digest_hash.c 100-124: `n` bytes from `i` are left, `j` is `string_iterator` -/
def copyLoop (hash : Bytes) : Nat → Nat → Nat → Bytes → Res (Nat × Bytes)
  | 0, _, j, s => ok (j, s)
  | n + 1, i, j, s => do
    let b ← rd hash i
    let s ← wr s j (digit (b.toNat / 16))
    let s ← wr s (j + 1) (digit (b.toNat % 16))
    copyLoop hash n (i + 1) (j + 2) s

/-- `digest_hash_copy_to_string`, digest_hash.c 31-128: sizes are `size_t`, the addition and the multiplication are those of 64-bit numbers -/
def copyToString (hash : Bytes) (hashSize : Nat) (string : Bytes) (stringSize : Nat) : Res Bytes := do
  require (hashSize ≤ 2 ^ 63 - 1)
  require (stringSize ≤ 2 ^ 63 - 1)
  require (¬ stringSize < (2 * hashSize % 2 ^ 64 + 1) % 2 ^ 64)
  let (j, s) ← copyLoop hash hashSize 0 0 string
  wr s j 0

/-- `libhmac_md5_context_t` and `libhmac_md5_initialize`, `libhmac_md5_update` and `libhmac_md5_finalize` -/
structure Md5 where
  Context : Type
  start : Context
  update : Context → Bytes → Context
  finish : Context → Bytes

/-- the loop of `info_handle_file_entry_calculate_md5`, info_handle.c 1144-1186: `left` is `data_size` -/
def readLoop (c : Codec) (m : Md5) (left : Nat) (r : Reader) (x : m.Context) : Res m.Context :=
  if _h : left > 0 then
    let n := if 4096 > left then left else 4096
    match FileRead.step c (.read n) r with
    | (.ok b, r) => if b.length ≠ n then err else readLoop c m (left - n) r (m.update x b)
    | (.err, _) => err
    | (.ub, _) => ub
  else ok x
termination_by left
decreasing_by
  split <;> omega

/-- `info_handle_file_entry_calculate_md5`, info_handle.c 1075-1241, of a file entry of which `size` is what `libfsapfs_file_entry_get_size` returns and `opened` the data stream that
`libfsapfs_file_entry_seek_offset` opens or has -/
def calculate (c : Codec) (m : Md5) (size : Res Nat) (opened : Res Reader) (string : Bytes) (stringSize : Nat) : Res Bytes := do
  let size ← size
  let r ← opened
  match FileRead.step c (.seek 0) r with
  | (.ok _, r) => do
    let x ← readLoop c m size r m.start
    copyToString (m.finish x) 16 string stringSize
  | (.err, _) => err
  | (.ub, _) => ub

/-- `md5_string`, info_handle.c 1848-1851 -/
def zeros : Bytes := List.replicate 32 0x30 ++ [0]

/-- the first column of a line, info_handle.c 2146-2172: `%s` prints up to the end-of-string character -/
def column (calculateMd5 : Bool) (mode : Nat) (md5 : Bytes → Nat → Res Bytes) : Res Bytes := do
  let s ← if ¬ calculateMd5 then wr zeros 1 0
    else if mode / 0x1000 % 16 = 8 then md5 zeros 33
    else ok zeros
  return PathString.cString s

/-- the MD5 of a file of a volume: size and data stream of its file entry, in the order of the calls -/
def ofFile (c : Codec) (m : Md5) (f : FileRead.Files) (compare : Bytes → Bytes → Res Bool) (junk : Bytes) (i : Records.Inode) (e : FileEntry.Entry) (string : Bytes) (stringSize : Nat) : Res Bytes :=
  let sized := FileEntry.getSize (FileRead.env f compare i) e
  calculate c m sized.1 (FileRead.openFile f compare junk i sized.2) string stringSize

end Digest
end Verif
