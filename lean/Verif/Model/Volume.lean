import Verif.Model.KeyBag
/-!
# Model of the locking state and the passwords of a volume, libfsapfs_volume.c
-/
namespace Verif
open Res KeyBag
namespace Volume

/-- the parts of `libfsapfs_internal_volume_t` (libfsapfs_volume.h 56-120) that take part in unlocking. `user` and `recovery` are the first
`user_password_size - 1` and `recovery_password_size - 1` bytes of the passwords. `keys` are the keys set in the encryption context. -/
structure State where
  uuid : Bytes
  containerBag : List Entry
  keyBag : Option (List Entry)
  isLocked : Bool
  user : Option Bytes := none
  recovery : Option Bytes := none
  keys : Option (Bytes × Bytes) := none
  fileSystem : Bool := false
deriving DecidableEq, Repr

/-- the part of `libfsapfs_internal_volume_open_read` that determines the locking state, libfsapfs_volume.c 552-642. `bag` is the key bag of the container
with its `is_locked`, `flags` and `uuid` are values of the volume superblock, `readBag` reads (and decrypts) the volume key bag in a number of
blocks. -/
def openRead (bag : Option (Bool × List Entry)) (flags : Nat) (uuid : Bytes) (readBag : Nat → Nat → Res (List Entry)) : Res State :=
  match bag with
  | none => ok { uuid := uuid, containerBag := [], keyBag := none, isLocked := false }
  | some (locked, entries) =>
    if flags % 2 = 0 then do
      let r ← getVolumeBagExtent uuid entries
      match r with
      | none => ok { uuid := uuid, containerBag := entries, keyBag := none, isLocked := locked }
      | some (b, n) => do
        require (¬ (b = 0 ∨ n = 0))
        let es ← readBag b n
        ok { uuid := uuid, containerBag := entries, keyBag := some es, isLocked := true }
    else ok { uuid := uuid, containerBag := entries, keyBag := none, isLocked := false }

/-- `libfsapfs_internal_volume_unlock`, libfsapfs_volume.c 1117-1242. The second component is the result (1 or 0). `vk` and `mk` are the prior contents of the
uninitialised local buffers `volume_key` and `volume_master_key` (32 bytes each). -/
def unlock (p : Prims) (vk mk : Bytes) (s : State) : Res (State × Bool) :=
  match s.keyBag with
  | none => ok ({ s with isLocked := false }, true)
  | some es => do
    let r ← getVolumeKey p s.user s.recovery vk es
    match r with
    | none => ok (s, false)
    | some vk => do
      let r ← getMasterKey p s.uuid vk mk s.containerBag
      match r with
      | none => err
      | some mk => do
        let k1 ← rdN mk 0 16
        let k2 ← rdN mk 16 16
        ok ({ s with isLocked := false, keys := some (k1, k2) }, true)

/-- calls on an open volume. `setUser` and `setRecovery` are the effects of the password functions, `none` if they fail (libfsapfs_volume.c
2001-2022, 2096-2108). `getFileSystem` stands for every function that accesses the file system, `found` tells if the root of the file system is found in the
object map. The byte strings are the prior contents of the local buffers. -/
inductive Op where
  | setUser (pw : Option Bytes)
  | setRecovery (pw : Option Bytes)
  | unlock (vk mk : Bytes)
  | getFileSystem (vk mk : Bytes) (found : Bool)
  | isLocked

/-- `libfsapfs_internal_volume_get_file_system`, libfsapfs_volume.c 2800-2965, called if there is none yet (e.g. 2671-2684) -/
def getFileSystem (p : Prims) (vk mk : Bytes) (found : Bool) (s : State) : Res State :=
  if s.fileSystem then ok s
  else do
    let s ← (if s.isLocked then do
        let r ← unlock p vk mk s
        ok r.1
      else ok s)
    if found then ok { s with fileSystem := true } else ok s

/-- state after a call: a call that fails (`err`) leaves the state as it was, `libfsapfs_volume_unlock` 1247-1317 -/
def step (p : Prims) (s : State) : Op → Res State
  | .setUser pw => ok { s with user := pw }
  | .setRecovery pw => ok { s with recovery := pw }
  | .unlock vk mk =>
    if s.isLocked then
      match unlock p vk mk s with
      | .ok r => ok r.1
      | .err => ok s
      | .ub => ub
    else ok s
  | .getFileSystem vk mk found =>
    match getFileSystem p vk mk found s with
    | .ok s => ok s
    | .err => ok s
    | .ub => ub
  | .isLocked => ok s

def run (p : Prims) (s : State) : List Op → Res State
  | [] => ok s
  | o :: os => do
    let s ← step p s o
    run p s os

/-! ## Passwords -/

/-- `narrow_string_length`: number of bytes before the first zero byte, `ub` if there is none in the readable memory -/
def stringLength : Bytes → Res Nat
  | [] => ub
  | b :: bs => if b = 0 then ok 0 else do
    let n ← stringLength bs
    ok (n + 1)

/-- `libfsapfs_volume_set_utf8_password`, libfsapfs_volume.c 2001-2068, and `libfsapfs_volume_set_utf8_recovery_password`, 2331-2398: the content of the allocated
password buffer, `none` for bytes that were not initialised. `mem` is the readable memory behind `utf8_string`. -/
def setUtf8 (mem : Bytes) (length : Nat) : Res (List (Option UInt8)) := do
  let n ← stringLength mem
  require (¬ (n = 0 ∨ n > 128 * 1024 * 1024 - 1))
  let size := n + 1
  let data ← rdN mem 0 length
  if data.length > size then ub
  else
    let buffer := data.map some ++ List.replicate (size - data.length) none
    if size - 1 < buffer.length then ok (buffer.set (size - 1) (some 0)) else ub

/-- the bytes used as password: all but the last, libfsapfs_volume.c 1158, 1160 -/
def usedPassword (buffer : List (Option UInt8)) : List (Option UInt8) := buffer.take (buffer.length - 1)

/-- `libfsapfs_volume_set_utf16_password`, libfsapfs_volume.c 2159-2240, and `libfsapfs_volume_set_utf16_recovery_password`, 2489-2570. libuna is external: `utf8` is the
conversion of the string without end-of-string character; `libuna_utf8_string_size_from_utf16` and `libuna_utf8_string_copy_from_utf16` include an end-of-string
character. -/
def setUtf16 (utf8 : Bytes) : Res (List (Option UInt8)) := do
  let n := utf8.length + 1
  require (¬ (n = 0 ∨ n > 128 * 1024 * 1024 - 1))
  let size := n + 1
  let data := utf8 ++ [0]
  if data.length > size then ub
  else
    let buffer := data.map some ++ List.replicate (size - data.length) none
    if size - 1 < buffer.length then ok (buffer.set (size - 1) (some 0)) else ub

end Volume
end Verif
