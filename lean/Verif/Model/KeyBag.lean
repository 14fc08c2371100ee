import Verif.Model.Crypto
import Verif.Model.Checksum
/-!
# Model of libfsapfs_key_encrypted_key.c, libfsapfs_key_bag_header.c, libfsapfs_key_bag_entry.c, libfsapfs_volume_key_bag.c and
libfsapfs_container_key_bag.c

Allocation failures and debug output are not modelled. The entries array (libcdata) is a list.
-/
namespace Verif
open Res
namespace KeyBag

/-- `libfsapfs_key_encrypted_key_t`, libfsapfs_key_encrypted_key.h 37-62 -/
structure Kek where
  identifier : Bytes := List.replicate 16 0
  hmac : Bytes := List.replicate 32 0
  iterations : Nat := 0
  salt : Bytes := List.replicate 16 0
  method : Nat := 0
  wrapped : Bytes := List.replicate 40 0
deriving DecidableEq, Repr

/-- size of an object or attribute, libfsapfs_key_encrypted_key.c 203-236, 294-326 and (`inner`) 455-481, 544-570. Result: size and offset
behind it. `mem` is all memory behind the pointer. -/
def readSize (mem : Bytes) (inner : Bool) (off : Nat) : Res (Nat × Nat) := do
  let b ← rd mem off
  if b.toNat < 0x80 then return (b.toNat, off + 1)
  else if b.toNat = 0x81 ∧ inner = false then do
    let v ← rd mem (off + 1)
    return (v.toNat, off + 2)
  else if b.toNat = 0x82 then do
    let v ← rdLE mem (off + 1) 2
    return (v, off + 3)
  else err

/-- header of an attribute, libfsapfs_key_encrypted_key.c 293-360 and 543-602: tag, size and offset of the value; `none` is the `break`.
`size` is `data_size` or `wrapped_kek_object_data_size` -/
def attrHeader (mem : Bytes) (size : Nat) (inner : Bool) (off : Nat) : Res (Option (Nat × Nat × Nat)) := do
  let tag ← rd mem off
  let (len, off) ← readSize mem inner (off + 1)
  if tag.toNat = 0 ∧ len = 0 then return none
  else do
    require (¬ (off ≥ size ∨ len > size - off))
    return some (tag.toNat, len, off)

theorem readSize_gt {mem : Bytes} {inner : Bool} {off l o : Nat} (h : readSize mem inner off = ok (l, o)) : off < o := by
  unfold readSize at h
  obtain ⟨b, _, h⟩ := bind_eq_ok.1 h
  split at h
  · simp at h; omega
  · split at h
    · obtain ⟨v, _, h⟩ := bind_eq_ok.1 h
      simp at h; omega
    · split at h
      · obtain ⟨v, _, h⟩ := bind_eq_ok.1 h
        simp at h; omega
      · cases h

theorem attrHeader_gt {mem : Bytes} {size : Nat} {inner : Bool} {off t l o : Nat} (h : attrHeader mem size inner off = ok (some (t, l, o))) :
    off < o ∧ o < size ∧ l ≤ size - o := by
  unfold attrHeader at h
  obtain ⟨tag, _, h⟩ := bind_eq_ok.1 h
  obtain ⟨⟨l', o'⟩, h1, h⟩ := bind_eq_ok.1 h
  have := readSize_gt h1
  simp only at h
  split at h
  · simp at h
  · obtain ⟨_, g, h⟩ := bind_eq_ok.1 h
    simp only [require_eq_ok] at g
    simp only [pure_eq, ok.injEq, Option.some.injEq, Prod.mk.injEq] at h
    omega

/-- loop over the attributes, libfsapfs_key_encrypted_key.c 292-440 and 541-827, with the `switch` as parameter -/
def attrLoop {σ : Type} (mem : Bytes) (size : Nat) (inner : Bool) (f : Nat → Nat → Nat → σ → Res σ) (off : Nat) (s : σ) : Res σ :=
  if off < size then
    match _h : attrHeader mem size inner off with
    | .ok none => ok s
    | .ok (some (tag, len, o)) =>
      match f tag len o s with
      | .ok s => attrLoop mem size inner f (o + len) s
      | .err => err
      | .ub => ub
    | .err => err
    | .ub => ub
  else ok s
termination_by size - off
decreasing_by
  have := attrHeader_gt _h
  omega

/-- `switch` on the attributes of the outer object, libfsapfs_key_encrypted_key.c 374-438; the second component is offset and size of the
wrapped KEK object -/
def outerAttr (mem : Bytes) (tag len off : Nat) (s : Kek × Option (Nat × Nat)) : Res (Kek × Option (Nat × Nat)) :=
  if tag = 0x81 then do
    require (len = 32)
    let h ← rdN mem off 32
    return ({ s.1 with hmac := h }, s.2)
  else if tag = 0x82 then do
    require (len = 8)
    return s
  else if tag = 0xa3 then do
    require (len ≠ 0)
    return (s.1, some (off - 2, (len + 2) % 65536))
  else return s

/-- `switch` on the attributes of the wrapped KEK object, libfsapfs_key_encrypted_key.c 617-825 -/
def innerAttr (mem : Bytes) (tag len off : Nat) (s : Kek) : Res Kek :=
  if tag = 0x81 then do
    require (len = 16)
    let v ← rdN mem off 16
    return { s with identifier := v }
  else if tag = 0x82 then do
    require (len = 8)
    let v ← rdLE mem off 4
    return { s with method := v }
  else if tag = 0x83 then do
    require (len = 40)
    let v ← rdN mem off 40
    return { s with wrapped := v }
  else if tag = 0x84 then do
    require (¬ (len = 0 ∨ len > 8))
    let v ← rdN mem off len
    return { s with iterations := beNat v }
  else if tag = 0x85 then do
    require (len = 16)
    let v ← rdN mem off 16
    return { s with salt := v }
  else return s

/-- second part of `libfsapfs_key_encrypted_key_read_data`, libfsapfs_key_encrypted_key.c 452-828; `mem` is the memory behind
`wrapped_kek_object_data` -/
def readInner (mem : Bytes) (size : Nat) (k : Kek) : Res Kek := do
  let tag ← rd mem 0
  let (len, off) ← readSize mem true 1
  require (tag.toNat = 0xa3)
  require (¬ (len : Int) > (size : Int) - 2)
  attrLoop mem size true (innerAttr mem) off k

/-- `libfsapfs_key_encrypted_key_read_data`, libfsapfs_key_encrypted_key.c 147-829, on a new object. `mem` is all the memory behind `data`
(at least `size` bytes). -/
def readKek (mem : Bytes) (size : Nat) : Res Kek := do
  require (¬ (size < 2 ∨ size > 2 ^ 63 - 1))
  let tag ← rd mem 0
  let (len, off) ← readSize mem false 1
  require (tag.toNat = 0x30)
  require (¬ len > size - 2)
  let (k, o) ← attrLoop mem size false (outerAttr mem) off (({} : Kek), none)
  match o with
  | none => err
  | some (base, sz) => readInner (mem.drop base) sz k

/-- the external functions: `prf` is HMAC-SHA256, `dec key` AES decryption of a block, `sha` SHA-256 -/
structure Prims where
  prf : Bytes → Bytes → Bytes
  dec : Bytes → Bytes → Bytes
  sha : Bytes → Bytes

/-- `libfsapfs_key_encrypted_key_wrapped_kek_initialization_vector`, libfsapfs_key_encrypted_key.c 37-39 -/
def kekIv : Bytes := [0xa6, 0xa6, 0xa6, 0xa6, 0xa6, 0xa6, 0xa6, 0xa6]

/-- `libfsapfs_key_encrypted_key_unlock_with_password`, libfsapfs_key_encrypted_key.c 1064-1241; `none` is result 0. `key` is the prior content of the
buffer behind `unlocked_key`. The size arguments (`unlocked_key_size` and `key_size`, which must be 256) are in bits and always 256
(libfsapfs_volume.c 1155-1163, 1178-1186), they are not modelled. -/
def unlockWithPassword (p : Prims) (k : Kek) (password key : Bytes) : Res (Option Bytes) := do
  let (pSize, kSize) ← (if k.method = 0 ∨ k.method = 16 then ok (32, 40) else if k.method = 2 then ok (16, 24) else err : Res (Nat × Nat))
  let pk ← Crypto.pbkdf2 p.prf password k.salt (k.iterations % 2 ^ 32) (List.replicate pSize 0)
  let w ← rdN k.wrapped 0 kSize
  let u ← Crypto.keyUnwrap p.dec pk (pSize * 8) w (List.replicate kSize 0)
  let iv ← rdN u 0 8
  if iv = kekIv then do
    let v ← rdN u 8 pSize
    let key ← wrN key 0 v
    return some key
  else return none

/-- `libfsapfs_key_encrypted_key_unlock_with_key`, libfsapfs_key_encrypted_key.c 834-1059; `none` is result 0 -/
def unlockWithKey (p : Prims) (k : Kek) (vkey key : Bytes) : Res (Option Bytes) := do
  let (kSize, size) ← (if k.method = 0 then ok (40, 32) else if k.method = 2 then ok (24, 16) else err : Res (Nat × Nat))
  let w ← rdN k.wrapped 0 kSize
  let u ← Crypto.keyUnwrap p.dec vkey (size * 8) w (List.replicate kSize 0)
  let iv ← rdN u 0 8
  if iv = kekIv then do
    let v ← rdN u 8 size
    let key ← wrN key 0 v
    if k.method = 2 then do
      let key ← wrN key 16 k.identifier
      let s ← rdN key 0 32
      let key ← wrN key 16 ((p.sha s).take 16)
      return some key
    else return some key
  else return none

/-- `libfsapfs_key_bag_entry_t`, libfsapfs_key_bag_entry.h 36-57 -/
structure Entry where
  identifier : Bytes
  type : Nat
  data : Bytes
deriving DecidableEq, Repr

/-- `libfsapfs_key_bag_entry_read_data`, libfsapfs_key_bag_entry.c 146-346, called with `&( d[ off ] )` and `data_size - off`. `data_offset` beyond
`data_size` would wrap and is modelled as `ub`. -/
def readEntry (d : Bytes) (off : Nat) : Res Entry :=
  if off > d.length then ub
  else do
    require (¬ (d.length - off < 24 ∨ d.length - off > 2 ^ 63 - 1))
    let id ← rdN d off 16
    let ty ← rdLE d (off + 16) 2
    let sz ← rdLE d (off + 18) 2
    require (¬ (sz = 0 ∨ sz > d.length - off - 24))
    let v ← rdN d (off + 24) sz
    return { identifier := id, type := ty, data := v }

/-- loop over the entries, libfsapfs_volume_key_bag.c 609-695 and libfsapfs_container_key_bag.c 646-732 -/
def readEntries (d : Bytes) : Nat → Nat → Res (List Entry)
  | 0, _ => ok []
  | n + 1, off => do
    let e ← readEntry d off
    let off := off + (24 + e.data.length)
    let pad := off % 16
    if pad ≠ 0 then do
      let pad := 16 - pad
      require (¬ (pad > d.length ∨ off > d.length - pad))
      let es ← readEntries d n (off + pad)
      return e :: es
    else do
      let es ← readEntries d n off
      return e :: es

/-- key bag header (`libfsapfs_key_bag_header_read_data`, libfsapfs_key_bag_header.c 141-256) and entries, libfsapfs_volume_key_bag.c 564-695 and
libfsapfs_container_key_bag.c 601-732 -/
def readBag (d : Bytes) : Res (List Entry) := do
  require (¬ (d.length - 32 < 16 ∨ d.length - 32 > 2 ^ 63 - 1))
  let version ← rdLE d 32 2
  let n ← rdLE d 34 2
  let sz ← rdLE d 36 4
  require (version = 2)
  require (¬ sz > d.length - 32)
  readEntries d n 48

/-- `libfsapfs_volume_key_bag_read_data`, libfsapfs_volume_key_bag.c 424-725 -/
def readVolumeBag (d : Bytes) : Res (List Entry) := do
  require (¬ (d.length < 32 ∨ d.length > 2 ^ 63 - 1))
  let ty ← rdLE d 24 4
  require (ty = 0x72656373)
  let sub ← rdLE d 28 4
  require (sub = 0)
  readBag d

/-- `libfsapfs_container_key_bag_read_data`, libfsapfs_container_key_bag.c 428-762; `none` is result 0 -/
def readContainerBag (d : Bytes) : Res (Option (List Entry)) := do
  require (¬ (d.length < 32 ∨ d.length > 2 ^ 63 - 1))
  let ty ← rdLE d 24 4
  if ty ≠ 0x6b657973 then return none
  else do
    let sub ← rdLE d 28 4
    require (sub = 0)
    Checksum.checkObject d
    let es ← readBag d
    return some es

/-- `libfsapfs_volume_key_bag_get_volume_key`, libfsapfs_volume_key_bag.c 730-909; `none` is result 0 -/
def getVolumeKey (p : Prims) (user recovery : Option Bytes) (key : Bytes) : List Entry → Res (Option Bytes)
  | [] => ok none
  | e :: es =>
    if e.type ≠ 3 then getVolumeKey p user recovery key es
    else do
      let k ← readKek e.data e.data.length
      let r ← (match user with
        | some pw => unlockWithPassword p k pw key
        | none => ok none)
      let r ← (match r, recovery with
        | none, some pw => unlockWithPassword p k pw key
        | r, _ => ok r)
      match r with
      | some v => return some v
      | none => getVolumeKey p user recovery key es

/-- `libfsapfs_container_key_bag_get_volume_key_bag_extent_by_identifier`, libfsapfs_container_key_bag.c 767-938: block number and number of
blocks; `none` is result 0 -/
def getVolumeBagExtent (uuid : Bytes) : List Entry → Res (Option (Nat × Nat))
  | [] => ok none
  | e :: es =>
    if e.type ≠ 3 then getVolumeBagExtent uuid es
    else if e.identifier ≠ uuid then getVolumeBagExtent uuid es
    else do
      require (e.data.length = 16)
      let b ← rdLE e.data 0 8
      let n ← rdLE e.data 8 8
      return some (b, n)

/-- `libfsapfs_container_key_bag_get_volume_master_key_by_identifier`, libfsapfs_container_key_bag.c 943-1113; `none` is result 0 -/
def getMasterKey (p : Prims) (uuid vkey key : Bytes) : List Entry → Res (Option Bytes)
  | [] => ok none
  | e :: es =>
    if e.type ≠ 2 then getMasterKey p uuid vkey key es
    else if e.identifier ≠ uuid then getMasterKey p uuid vkey key es
    else do
      let k ← readKek e.data e.data.length
      let r ← unlockWithKey p k vkey key
      match r with
      | some v => return some v
      | none => getMasterKey p uuid vkey key es

end KeyBag
end Verif
