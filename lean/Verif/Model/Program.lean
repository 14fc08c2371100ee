import Verif.Model.VolumeOpen
import Verif.Model.Volume
/-!
# Model of the options of fsapfsmount and fsapfsinfo, of opening a container and of getting a volume of it: fsapfstools/mount_handle.c, info_handle.c, fsapfsmount.c and fsapfsinfo.c

System characters are bytes. An option is the bytes of its argument before the end-of-string character. libbfio is external: `source n` is the image that a file range from the byte offset `n` on gives,
`libbfio_file_range_set` fails for a negative offset. Allocation failures are left out.
-/
namespace Verif
open Res
namespace Program

/-- the loop over the characters, info_handle.c 125-161 and mount_handle.c 113-149: `n` characters are left, `i` is `string_index` -/
def decimalLoop (mem : Bytes) (maximum : Nat) : Nat → Nat → Nat → Res Nat
  | 0, _, value => ok value
  | n + 1, i, value => do
    let c ← rd mem i
    if c = 0 then ok value
    else do
      require (¬ i > maximum)
      require (0x30 ≤ c.toNat ∧ c.toNat ≤ 0x39)
      decimalLoop mem maximum n (i + 1) ((value * 10 % 2 ^ 64 + (c.toNat - 0x30)) % 2 ^ 64)

/-- `info_handle_system_string_copy_from_64_bit_in_decimal`, info_handle.c 63-168, and `mount_handle_system_string_copy_from_64_bit_in_decimal`, mount_handle.c 51-156. `mem` is the readable memory behind
`string`. -/
def decimal (mem : Bytes) (size : Nat) : Res Nat := do
  require (size ≤ 2 ^ 63 - 1)
  let c ← rd mem 0
  let start := if c = 0x2d ∨ c = 0x2b then 1 else 0
  let value ← decimalLoop mem (20 + start) (size - start) start 0
  if c = 0x2d then ok (value * (2 ^ 64 - 1) % 2 ^ 64) else ok value

/-- `info_handle_set_file_system_index`, info_handle.c 511-564, and `mount_handle_set_file_system_index`, mount_handle.c 327-380 -/
def setIndex (string : Bytes) : Res Nat := do
  let value ← decimal (string ++ [0]) (string.length + 1)
  require (¬ (value = 0 ∨ value > 100))
  return value

/-- the conversion of `uint64_t` to `off64_t` -/
def off64 (value : Nat) : Int := if value < 2 ^ 63 then value else (value : Int) - 2 ^ 64

/-- `info_handle_set_volume_offset`, info_handle.c 753-794, and `mount_handle_set_offset`, mount_handle.c 385-426 -/
def setOffset (string : Bytes) : Res Int := do
  let value ← decimal (string ++ [0]) (string.length + 1)
  return off64 value

/-- the options of fsapfsmount (fsapfsmount.c 215-290) and fsapfsinfo (fsapfsinfo.c 200-280) that select a container and a volume: `-f`, `-o`, `-p` and `-r` -/
structure Options where
  index : Option Bytes := none
  offset : Option Bytes := none
  password : Option Bytes := none
  recovery : Option Bytes := none

/-- what the programs are linked with: ciphers, libfdata (see `Container.openRead`), key derivation, and the prior contents of local buffers -/
structure Machine where
  cipher : VolumeOpen.Cipher
  xts : Bytes → Bytes → Bytes → Bytes
  vector : Nat → Bool
  prims : KeyBag.Prims
  volumeKey : Bytes
  masterKey : Bytes

/-- the bytes of a password buffer, `ub` if one is used that was not initialised -/
def initialised : List (Option UInt8) → Res Bytes
  | [] => ok []
  | none :: _ => ub
  | some b :: bs => do
    let bs ← initialised bs
    ok (b :: bs)

/-- `libfsapfs_volume_set_utf8_password` with a password of the programs, mount_handle.c 949-974 and 975-1000, info_handle.c 974-999 and 1000-1025: the password that is set afterwards -/
def setPassword (option current : Option Bytes) : Res (Option Bytes) :=
  match option with
  | none => ok current
  | some s => do
    let buffer ← Volume.setUtf8 (s ++ [0]) s.length
    let pw ← initialised (Volume.usedPassword buffer)
    ok (some pw)

/-- a volume with its locking state -/
structure Obtained where
  volume : VolumeOpen.Opened
  state : Volume.State

/-- `mount_handle_get_volume_by_index`, mount_handle.c 890-1044, and `info_handle_get_volume_by_index`, info_handle.c 916-1070. A password that does not unlock the volume is no error. The container of
fsapfsinfo is never marked as locked before a volume is obtained in the modes that print files (`container_is_locked` is set in info_handle.c 4367 only). -/
def getVolume (m : Machine) (o : Options) (image : Container.Image) (k : Container.Opened) (index : Int) : Res Obtained := do
  let v ← VolumeOpen.volumeByIndex m.cipher m.vector image k index
  let user ← setPassword o.password v.state.user
  let recovery ← setPassword o.recovery v.state.recovery
  let s := { v.state with user := user, recovery := recovery }
  if s.isLocked then do
    let r ← Volume.unlock m.prims m.volumeKey m.masterKey s
    ok { volume := v, state := r.1 }
  else ok { volume := v, state := s }

/-- `libbfio_file_range_set` and opening, mount_handle.c 590-634, info_handle.c 843-874 -/
def openAt (m : Machine) (source : Nat → Container.Image) (offset : Int) : Res (Container.Image × Container.Opened) := do
  require (¬ offset < 0)
  let image := source offset.toNat
  let k ← Container.openRead m.xts m.vector image
  ok (image, k)

/-- a container, the index of a volume and the volume -/
structure Selected where
  image : Container.Image
  container : Container.Opened
  index : Nat
  obtained : Obtained

/-- `mount_handle_open`, mount_handle.c 515-760; `index` is `file_system_index` -/
def mountOpen (m : Machine) (o : Options) (source : Nat → Container.Image) (index : Nat) (offset : Int) : Res Selected := do
  let (image, k) ← openAt m source offset
  let n := Container.numberOfVolumes k
  let i := if index = 0 ∧ n = 1 then 1 else index
  require (¬ (i = 0 ∨ i > n))
  let v ← getVolume m o image k ((i - 1 : Nat) : Int)
  ok { image := image, container := k, index := i - 1, obtained := v }

/-- the file system index that fsapfsmount.c 343-359 and fsapfsinfo.c 347-363 use: one that is not supported is replaced by 0 -/
def indexOption (o : Options) : Res Nat :=
  match o.index with
  | none => ok 0
  | some s =>
    match setIndex s with
    | .ok i => ok i
    | .err => ok 0
    | .ub => ub

/-- the volume that fsapfsmount mounts, fsapfsmount.c 343-422: a volume that is still locked is not mounted -/
def mount (m : Machine) (o : Options) (source : Nat → Container.Image) : Res Selected := do
  let index ← indexOption o
  let offset ← (match o.offset with
    | none => ok 0
    | some s => setOffset s)
  let v ← mountOpen m o source index offset
  require (v.obtained.state.isLocked = false)
  ok v

/-- the offset that fsapfsinfo uses, fsapfsinfo.c 392-409: one that is not supported is replaced by 0 -/
def offsetOption (o : Options) : Res Int :=
  match o.offset with
  | none => ok 0
  | some s =>
    match setOffset s with
    | .ok i => ok i
    | .err => ok 0
    | .ub => ub

/-- what fsapfsinfo works on, fsapfsinfo.c 347-421: the image, the container, the selected file system index (0 for all) and its volumes in order -/
structure Listed where
  image : Container.Image
  container : Container.Opened
  selected : Nat
  volumes : List (Res Obtained)

def info (m : Machine) (o : Options) (source : Nat → Container.Image) : Res Listed := do
  let index ← indexOption o
  let offset ← offsetOption o
  let (image, k) ← openAt m source offset
  ok { image := image, container := k, selected := index, volumes := (List.range (Container.numberOfVolumes k)).map fun (i : Nat) => getVolume m o image k (i : Int) }

end Program
end Verif
