import Verif.Model.FileRead
/-!
# A session of a caller with the library

Puts together the models of opening a container, getting a volume, unlocking it, finding a file entry, the functions of a file entry and reading its data, as a caller of the public functions
(libfsapfs.h.in 245-1016) runs them one after the other. Each part is modelled elsewhere, see the definitions that are called; freeing objects is in `Verif.Model.Owner`.
-/
namespace Verif
open Res
namespace Session
open FileEntry (Env Entry)
open Spec (FileOp)

/-- what the library is linked with: ciphers, libfdata (see `Container.openRead`), key derivation, libuna, decompressors, and the prior content of the segment data of a compressed data handle -/
structure External where
  cipher : VolumeOpen.Cipher
  vector : Nat → Bool
  prims : KeyBag.Prims
  compare : Bytes → Bytes → Res Bool
  codec : Codec
  junk : Bytes

/-- what fails during a call on a file entry, for lack of memory or because the storage cannot be read -/
structure Failures where
  attributes : Bool := false
  compare : Bytes → Bytes → Bool := fun _ _ => false
  extentData : Nat → Nat → Bool := fun _ _ => false
  buffer : Bool := false
  extents : Bool := false
  stream : Bool := false

/-- the answers during a call, some of which fail -/
def failing (env : Env) (f : Failures) : Env where
  attributes := if f.attributes then err else env.attributes
  compare a b := if f.compare a b then err else env.compare a b
  extentData i n := if f.extentData i n then err else env.extentData i n
  buffer := if f.buffer then err else env.buffer
  extents := if f.extents then err else env.extents
  stream := if f.stream then err else env.stream

/-- calls on a file entry; `content` stands for reading, seeking and asking for the offset, see `FileEntry.openStream` -/
inductive Call where
  | size
  | content
  | target
  | count
  | byName (name : Bytes)

/-- a call on a file entry: its result without the values, and the file entry -/
def call (env : Env) : Call → Entry → Res Unit × Entry
  | .size, e => ((FileEntry.getSize env e).1.bind fun _ => ok (), (FileEntry.getSize env e).2)
  | .content, e => ((FileEntry.openStream env e).1.bind fun _ => ok (), (FileEntry.openStream env e).2)
  | .target, e => ((FileEntry.symlinkTarget env e).1.bind fun _ => ok (), (FileEntry.symlinkTarget env e).2)
  | .count, e => ((FileEntry.numberOfAttributes env e).1.bind fun _ => ok (), (FileEntry.numberOfAttributes env e).2)
  | .byName name, e => ((FileEntry.attributeByName env name e).1.bind fun _ => ok (), (FileEntry.attributeByName env name e).2)

/-- calls on a file entry in a row; a caller goes on after errors -/
def calls (env : Env) : List (Call × Failures) → Entry → Res Entry
  | [], e => ok e
  | (c, f) :: cs, e =>
    match call (failing env f) c e with
    | (.ub, _) => ub
    | (_, e) => calls env cs e

/-- how a file entry is found: by identifier or by path -/
inductive Find (α : Type) where
  | identifier (n : Nat)
  | path (string : List α)

/-- `libfsapfs_volume_get_file_entry_by_identifier`, libfsapfs_volume.c 2970-3074, `libfsapfs_volume_get_file_entry_by_utf8_path` 3079-3206 and
`libfsapfs_volume_get_file_entry_by_utf16_path` 3211-3338: the inode; `none` is `return( 0 )` -/
def find {α : Type} [DecidableEq α] (dn : Name.Decoder UInt8) (dq : Name.Decoder α) (separator : α) (f : FileRead.Files) : Find α → Res (Option Records.Inode)
  | .identifier n => FileRead.byIdentifier f n
  | .path s => do
    let r ← FileRead.byPath dn dq separator f s
    return r.map (·.1)

/-- results in a row, of which none may be undefined -/
def collect : List (Res Bytes) → Res (List (Res Bytes))
  | [] => ok []
  | .ub :: _ => ub
  | r :: rs => do
    let rs ← collect rs
    return r :: rs

/-- what a caller does: open a container and get a volume of it, calls on the volume (passwords, unlocking, ...), find a file entry, calls on the file entry and seeking and reading -/
structure Script (α : Type) where
  index : Int
  ops : List Volume.Op
  find : Find α
  calls : List (Call × Failures)
  reads : List FileOp

/-- a session; the results of seeking and reading -/
def session {α : Type} [DecidableEq α] (x : External) (dn : Name.Decoder UInt8) (dq : Name.Decoder α) (separator : α) (image : Container.Image) (t : Script α) : Res (List (Res Bytes)) := do
  let k ← Container.openRead (fun uuid => x.cipher.xts (uuid, uuid)) x.vector image
  let v ← VolumeOpen.volumeByIndex x.cipher x.vector image k t.index
  let s ← Volume.run x.prims v.state t.ops
  let f ← FileRead.files x.cipher image k v s
  let r ← find dn dq separator f t.find
  match r with
  | none => err
  | some i => do
    let e ← calls (FileRead.env f x.compare i) t.calls (FileRead.entryOf i)
    let r ← FileRead.openFile f x.compare x.junk i e
    collect (FileRead.run x.codec t.reads r)

end Session
end Verif
