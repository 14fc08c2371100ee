import Verif.Spec.Secrets
import Verif.Model.KeyBag
import Verif.Model.Volume
/-!
# The memory that holds passwords and keys

What the calls leave in memory that they give back, libfsapfs_volume.c, libfsapfs_key_encrypted_key.c, libfsapfs_volume_key_bag.c, libfsapfs_container_key_bag.c,
libfsapfs_password.c and libfsapfs_encryption_context.c. `memory_set` and `memory_copy` do not fail (they are `memset` and `memcpy`, which return their first argument),
and the compiler is assumed to keep a `memory_set` of a buffer that is not read again. Copies that the debug build prints, the contexts of libcaes and libhmac and the
registers of the processor are not modelled.
-/
namespace Verif
namespace Secrets
open Res Spec

/-! ## Passwords of a volume, on the heap -/

/-- a password of a volume: the pointer (`user_password`, `recovery_password`) with the block behind it, and the size, libfsapfs_volume.h 118-133 -/
structure Slot where
  block : Option (List (Option UInt8)) := none
  size : Nat := 0
deriving DecidableEq, Repr

/-- `memory_set( block, 0, n )` of a block of the heap -/
def blank (n : Nat) (b : List (Option UInt8)) : Res (List (Option UInt8)) :=
  if n ≤ b.length then ok (List.replicate n (some 0) ++ b.drop n) else ub

/-- a password is cleared and freed, libfsapfs_volume.c 928-948, 949-969, 2001-2022, 2159-2180, 2331-2352, 2489-2510. Result: the password and the blocks as they were
when they were freed. -/
def clear (s : Slot) : Res (Slot × List (List (Option UInt8))) :=
  match s.block with
  | none => ok (s, [])
  | some b => do
    let b ← blank s.size b
    ok ({ block := none, size := 0 }, [b])

/-- `on_error` of the functions that set a password, libfsapfs_volume.c 2096-2107, 2268-2279, 2427-2438, 2599-2610 -/
def onError (s : Slot) : Res (Slot × List (List (Option UInt8))) :=
  match s.block with
  | none => ok ({ s with size := 0 }, [])
  | some b => do
    let b ← blank s.size b
    ok ({ block := none, size := 0 }, [b])

/-- what the functions that set a password depend on: the size that is found (`none` if that fails), whether memory can be allocated, and the content of the new block of
that size, with whether it could be filled -/
structure Source where
  measure : Res (Option Nat)
  allocates : Bool
  fill : Nat → Res (Bool × List (Option UInt8))

/-- `libfsapfs_volume_set_utf8_password`, libfsapfs_volume.c 1953-2116, `libfsapfs_volume_set_utf16_password`, 2122-2288, and those of the recovery password, 2294-2446 and
2452-2619, with the lock not failing: whether the call succeeds, the password and the freed blocks -/
def set (i : Source) (s : Slot) : Res (Bool × Slot × List (List (Option UInt8))) := do
  let (s, freed) ← clear s
  let m ← i.measure
  match m with
  | none => do
    let (s, f) ← onError s
    ok (false, s, freed ++ f)
  | some n =>
    if n = 0 ∨ n > 128 * 1024 * 1024 - 1 then do
      let (s, f) ← onError { s with size := n }
      ok (false, s, freed ++ f)
    else if i.allocates = false then do
      let (s, f) ← onError { s with size := n + 1 }
      ok (false, s, freed ++ f)
    else do
      let (filled, b) ← i.fill (n + 1)
      let s : Slot := { block := some b, size := n + 1 }
      if filled = false then do
        let (s, f) ← onError s
        ok (false, s, freed ++ f)
      else if n < b.length then ok (true, { s with block := some (b.set n (some 0)) }, freed)
      else ub

/-- what is measured and copied of a UTF-8 string, libfsapfs_volume.c 2024-2066 and 2354-2396. `mem` is the readable memory behind `utf8_string`. -/
def utf8Source (mem : Bytes) (length : Nat) (allocates : Bool) : Source where
  measure := do
    let n ← Volume.stringLength mem
    ok (some n)
  allocates := allocates
  fill size := do
    let data ← rdN mem 0 length
    if data.length > size then ub else ok (true, data.map some ++ List.replicate (size - data.length) none)

/-- what is measured and copied of a UTF-16 string, libfsapfs_volume.c 2182-2238 and 2512-2568. libuna is external: `size` is what it measures, `copy` what it writes to
the block, all or part of it, and whether it succeeds. -/
def utf16Source (size : Option Nat) (copy : Nat → Bool × List (Option UInt8)) (allocates : Bool) : Source where
  measure := ok size
  allocates := allocates
  fill size := ok (copy size)

/-- both passwords of a volume, libfsapfs_volume.h 118-133 -/
structure Passwords where
  user : Slot := {}
  recovery : Slot := {}
deriving DecidableEq, Repr

/-- calls that change passwords -/
inductive Call
  | setUser (i : Source)
  | setRecovery (i : Source)
  | close

/-- one call; closing is libfsapfs_volume.c 928-969. A volume is closed when it is freed (libfsapfs_volume.c 203-219) and at no other time. -/
def call (p : Passwords) : Call → Res (Passwords × List (List (Option UInt8)))
  | .setUser i => do
    let (_, s, freed) ← set i p.user
    ok ({ p with user := s }, freed)
  | .setRecovery i => do
    let (_, s, freed) ← set i p.recovery
    ok ({ p with recovery := s }, freed)
  | .close => do
    let (user, f) ← clear p.user
    let (recovery, g) ← clear p.recovery
    ok ({ user := user, recovery := recovery }, f ++ g)

/-- calls one after the other: the passwords, and all freed blocks -/
def calls (p : Passwords) : List Call → Res (Passwords × List (List (Option UInt8)))
  | [] => ok (p, [])
  | c :: cs => do
    let (p, f) ← call p c
    let (p, g) ← calls p cs
    ok (p, f ++ g)

/-! ## Keys, on the stack -/

/-- `memory_set( buffer, 0, n )` of a buffer on the stack -/
def wipe (n : Nat) (b : Bytes) : Res Bytes := if n ≤ b.length then ok (List.replicate n 0 ++ b.drop n) else ub

/-- what functions called while unlocking do with a buffer: whether they succeed, and what is in the buffer afterwards. `frees` is whether the key encrypted key at the
index is freed, `makes` whether it is made. -/
structure World where
  pbkdf2 : KeyBag.Kek → Bytes → Nat → Bytes → Bool × Bytes
  unwrap : Bytes → Nat → Bytes → Bytes → Bool × Bytes
  sha : Bytes → Bytes → Bool × Bytes
  setKeys : Bytes → Bool
  makes : Nat → Bool
  frees : Nat → Bool

/-- size of the key, libfsapfs_key_encrypted_key.c 861-870, 1091-1101 -/
def keySize (k : KeyBag.Kek) : Nat := if k.method = 2 then 16 else 32

/-- size of the wrapped key, libfsapfs_key_encrypted_key.c 861-870, 1091-1101 -/
def wrappedSize (k : KeyBag.Kek) : Nat := if k.method = 2 then 24 else 40

/-- `on_error`, libfsapfs_key_encrypted_key.c 1047-1058, 1229-1240: `a` is `password_key` or `hash_buffer`, `b` is `wrapped_kek` -/
def keyError (g : Bytes × Bytes) (key a b : Bytes) : Res (Option Bool × Bytes × List Left) := do
  let b ← wipe 40 b
  let a ← wipe 32 a
  ok (none, key, [⟨g.1, a⟩, ⟨g.2, b⟩])

/-- `libfsapfs_key_encrypted_key_unlock_with_password`, libfsapfs_key_encrypted_key.c 1064-1241. `g` is what the memory of `password_key` and `wrapped_kek` held before, `key`
what `unlocked_key` did. Result: 1, 0 or -1 (`none`), the content of `unlocked_key`, and the two buffers. -/
def withPassword (w : World) (k : KeyBag.Kek) (password : Bytes) (g : Bytes × Bytes) (key : Bytes) : Res (Option Bool × Bytes × List Left) :=
  if ¬ (k.method = 0 ∨ k.method = 2 ∨ k.method = 16) then ok (none, key, [⟨g.1, g.1⟩, ⟨g.2, g.2⟩])
  else
    let (good, pk) := w.pbkdf2 k password (keySize k) g.1
    if good = false then keyError g key pk g.2
    else
      let (good, wk) := w.unwrap (pk.take (keySize k)) (wrappedSize k) k.wrapped g.2
      if good = false then keyError g key pk wk
      else do
        let pk ← wipe 32 pk
        let iv ← rdN wk 0 8
        if iv = KeyBag.kekIv then do
          let v ← rdN wk 8 (keySize k)
          let key ← wrN key 0 v
          let wk ← wipe 40 wk
          ok (some true, key, [⟨g.1, pk⟩, ⟨g.2, wk⟩])
        else do
          let wk ← wipe 40 wk
          ok (some false, key, [⟨g.1, pk⟩, ⟨g.2, wk⟩])

/-- `libfsapfs_key_encrypted_key_unlock_with_key`, libfsapfs_key_encrypted_key.c 834-1059. `g` is what the memory of `hash_buffer` and `wrapped_kek` held before. -/
def withKey (w : World) (k : KeyBag.Kek) (vkey : Bytes) (g : Bytes × Bytes) (key : Bytes) : Res (Option Bool × Bytes × List Left) :=
  if ¬ (k.method = 0 ∨ k.method = 2) then ok (none, key, [⟨g.1, g.1⟩, ⟨g.2, g.2⟩])
  else
    let (good, wk) := w.unwrap (vkey.take (keySize k)) (wrappedSize k) k.wrapped g.2
    if good = false then keyError g key g.1 wk
    else do
      let iv ← rdN wk 0 8
      if iv = KeyBag.kekIv then do
        let v ← rdN wk 8 (keySize k)
        let key ← wrN key 0 v
        if k.method = 2 then do
          let key ← wrN key 16 k.identifier
          let s ← rdN key 0 32
          let (good, hash) := w.sha s g.1
          if good = false then keyError g key hash wk
          else do
            let h ← rdN hash 0 16
            let key ← wrN key 16 h
            let hash ← wipe 32 hash
            let wk ← wipe 40 wk
            ok (some true, key, [⟨g.1, hash⟩, ⟨g.2, wk⟩])
        else do
          let wk ← wipe 40 wk
          ok (some true, key, [⟨g.1, g.1⟩, ⟨g.2, wk⟩])
      else do
        let wk ← wipe 40 wk
        ok (some false, key, [⟨g.1, g.1⟩, ⟨g.2, wk⟩])

/-- the user password is tried, libfsapfs_volume_key_bag.c 836-857 -/
def tryUser (w : World) (k : KeyBag.Kek) (g : Bytes × Bytes) (key : Bytes) : Option Bytes → Res (Option Bool × Bytes × List Left)
  | some pw => withPassword w k pw g key
  | none => ok (some false, key, [])

/-- the recovery password is tried if `r` is 0, libfsapfs_volume_key_bag.c 858-880 -/
def tryRecovery (w : World) (k : KeyBag.Kek) (g : Bytes × Bytes) (key : Bytes) (r : Option Bool) : Option Bytes → Res (Option Bool × Bytes × List Left)
  | some pw => if r = some false then withPassword w k pw g key else ok (r, key, [])
  | none => ok (r, key, [])

/-- `libfsapfs_volume_key_bag_get_volume_key`, libfsapfs_volume_key_bag.c 730-909, from the entry with index `i` on. `g` and `h` are what the memory of the buffers held
before an entry is tried with the user password and with the recovery password. -/
def volumeKey (w : World) (user recovery : Option Bytes) (g h : Nat → Bytes × Bytes) : Nat → Bytes → List KeyBag.Entry → Res (Option Bool × Bytes × List Left)
  | _, key, [] => ok (some false, key, [])
  | i, key, e :: es =>
    if e.type ≠ 3 then volumeKey w user recovery g h (i + 1) key es
    else if w.makes i = false then ok (none, key, [])
    else
      match KeyBag.readKek e.data e.data.length with
      | .ub => ub
      | .err => ok (none, key, [])
      | .ok k => do
        let (r, key, l) ← tryUser w k (g i) key user
        if r = none then ok (none, key, l)
        else do
          let (r, key, m) ← tryRecovery w k (h i) key r recovery
          if r = none then ok (none, key, l ++ m)
          else if w.frees i = false then ok (none, key, l ++ m)
          else if r = some true then ok (some true, key, l ++ m)
          else do
            let (r, key, n) ← volumeKey w user recovery g h (i + 1) key es
            ok (r, key, l ++ m ++ n)

/-- `libfsapfs_container_key_bag_get_volume_master_key_by_identifier`, libfsapfs_container_key_bag.c 943-1113, from the entry with index `i` on -/
def masterKey (w : World) (uuid vkey : Bytes) (g : Nat → Bytes × Bytes) : Nat → Bytes → List KeyBag.Entry → Res (Option Bool × Bytes × List Left)
  | _, key, [] => ok (some false, key, [])
  | i, key, e :: es =>
    if e.type ≠ 2 then masterKey w uuid vkey g (i + 1) key es
    else if e.identifier ≠ uuid then masterKey w uuid vkey g (i + 1) key es
    else if w.makes i = false then ok (none, key, [])
    else
      match KeyBag.readKek e.data e.data.length with
      | .ub => ub
      | .err => ok (none, key, [])
      | .ok k => do
        let (r, key, l) ← withKey w k vkey (g i) key
        if r = none then ok (none, key, l)
        else if w.frees i = false then ok (none, key, l)
        else if r = some true then ok (some true, key, l)
        else do
          let (r, key, n) ← masterKey w uuid vkey g (i + 1) key es
          ok (r, key, l ++ n)

/-- what the memory of the buffers held before: `volume_key` and `volume_master_key`, and those of each try -/
structure Stack where
  volumeKey : Bytes
  masterKey : Bytes
  user : Nat → Bytes × Bytes
  recovery : Nat → Bytes × Bytes
  master : Nat → Bytes × Bytes

/-- `on_error`, libfsapfs_volume.c 1229-1241 -/
def unlockError (t : Stack) (vk mk : Bytes) (l : List Left) : Res (Option Bool × List Left) := do
  let mk ← wipe 32 mk
  let vk ← wipe 32 vk
  ok (none, l ++ [⟨t.volumeKey, vk⟩, ⟨t.masterKey, mk⟩])

/-- `libfsapfs_internal_volume_unlock`, libfsapfs_volume.c 1117-1242: the result and all buffers. `w` is for the volume key, `w'` for the volume master key. `bag` is the
key bag of the volume, `keys` that of the container. -/
def unlock (w w' : World) (bag : Option (List KeyBag.Entry)) (keys : List KeyBag.Entry) (uuid : Bytes) (user recovery : Option Bytes) (t : Stack) :
    Res (Option Bool × List Left) :=
  match bag with
  | none => ok (some true, [⟨t.volumeKey, t.volumeKey⟩, ⟨t.masterKey, t.masterKey⟩])
  | some es => do
    let (r, vk, l) ← volumeKey w user recovery t.user t.recovery 0 t.volumeKey es
    match r with
    | none => unlockError t vk t.masterKey l
    | some false => ok (some false, l ++ [⟨t.volumeKey, vk⟩, ⟨t.masterKey, t.masterKey⟩])
    | some true => do
      let (r, mk, m) ← masterKey w' uuid vk t.master 0 t.masterKey keys
      if r ≠ some true then unlockError t vk mk (l ++ m)
      else do
        let vk ← wipe 32 vk
        if w'.setKeys mk = false then unlockError t vk mk (l ++ m)
        else do
          let mk ← wipe 32 mk
          ok (some true, l ++ m ++ [⟨t.volumeKey, vk⟩, ⟨t.masterKey, mk⟩])

/-! ## Buffers of the functions that compute keys -/

/-- one step of `libfsapfs_encryption_aes_key_unwrap` with `block_data`, libfsapfs_encryption_context.c 656-744: as `Crypto.unwrapStep`, with the content of `block_data` -/
def unwrapStep (dec : Bytes → Bytes) (n round block : Nat) (buf : Bytes) : Res (Bytes × Bytes) := do
  let iv ← rdN buf 0 8
  let vector := xorBytes (toBE 8 (round * (n - 1) + block)) iv
  let r ← rdN buf (block * 8) 8
  let b := dec (vector ++ r)
  let buf ← wrN buf 0 (b.take 8)
  let buf ← wrN buf (block * 8) ((b.drop 8).take 8)
  ok (buf, b)

/-- inner loop, libfsapfs_encryption_context.c 652-745: `block` blocks are left, `left` is in `block_data` -/
def unwrapBlocks (dec : Bytes → Bytes) (n round : Nat) : Nat → Bytes → Bytes → Res (Bytes × Bytes)
  | 0, buf, left => ok (buf, left)
  | block + 1, buf, _ => do
    let (buf, left) ← unwrapStep dec n round (block + 1) buf
    unwrapBlocks dec n round block buf left

/-- outer loop, libfsapfs_encryption_context.c 648-746 -/
def unwrapRounds (dec : Bytes → Bytes) (n : Nat) : Nat → Bytes → Bytes → Res (Bytes × Bytes)
  | 0, buf, left => ok (buf, left)
  | round + 1, buf, left => do
    let (buf, left) ← unwrapBlocks dec n round (n - 1) buf left
    unwrapRounds dec n round buf left

/-- `libfsapfs_encryption_aes_key_unwrap`, libfsapfs_encryption_context.c 461-782, with what is in `block_data` when it returns; `left` is what was there before -/
def keyUnwrap (dec : Bytes → Bytes → Bytes) (key : Bytes) (keyBits : Nat) (wrapped buf left : Bytes) : Res (Bytes × Bytes) := do
  require (¬ (keyBits ≠ 128 ∧ keyBits ≠ 192 ∧ keyBits ≠ 256))
  require (¬ wrapped.length > 2 ^ 63 - 1)
  require (¬ wrapped.length ≤ 8)
  require (wrapped.length % 8 = 0)
  require (¬ buf.length > 2 ^ 63 - 1)
  require (¬ buf.length < wrapped.length)
  let k ← rdN key 0 (keyBits / 8)
  let buf ← wrN buf 0 wrapped
  unwrapRounds (dec k) (wrapped.length / 8) 6 buf left

/-- what is in `hash_buffer` after the iterations of a block, libfsapfs_password.c 293-316 and 370-393 -/
def hashIterations (prf : Bytes → Bytes → Bytes) (password : Bytes) : Nat → Bytes → Bytes
  | 0, hash => hash
  | n + 1, hash => hashIterations prf password n (prf password hash)

/-- what is in `hash_buffer` when `libfsapfs_password_pbkdf2` returns a key of at most 32 bytes, libfsapfs_password.c 252-324 and 329-401: it is not cleared before 403-417 -/
def hashLeft (prf : Bytes → Bytes → Bytes) (password salt : Bytes) (iterations : Nat) : Bytes :=
  hashIterations prf password (iterations - 1) (prf password (salt ++ toBE 4 1))

end Secrets
end Verif
