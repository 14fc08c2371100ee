import Verif.Model.Mount
import Verif.Model.Digest
/-!
# Model of the bodyfile that fsapfsinfo writes: `info_handle_file_system_hierarchy_fprint` with a bodyfile stream

The libraries are those of `Mount.Mounted`. What is printed of a line before the path or the name of a file cannot be shown is left out. Allocation failures are left out.
-/
namespace Verif
open Res
namespace Bodyfile
open FileRead (FileNode Out lookups nodeName subNode each uuidText)
open Mount (Mounted signed64)
open Digest (Md5)

/-- the target of a symbolic link, info_handle.c 2067-2129: its size and then the string, each with `libfsapfs_file_entry_get_utf8_symbolic_link_target_size`, libfsapfs_file_entry.c 2203-2299, and
`libfsapfs_file_entry_get_utf8_symbolic_link_target`, 2306-2402 -/
def linkTarget (una : Bytes → Res Bytes) (env : FileEntry.Env) (e : FileEntry.Entry) : Res (Option Bytes) × FileEntry.Entry :=
  match FileEntry.symlinkTarget env e with
  | (.err, e) => (err, e)
  | (.ub, e) => (ub, e)
  | (.ok none, e) => (ok none, e)
  | (.ok (some t), e) =>
    match una t with
    | .err => (err, e)
    | .ub => (ub, e)
    | .ok _ =>
      match FileEntry.symlinkTarget env e with
      | (.err, e) => (err, e)
      | (.ub, e) => (ub, e)
      | (.ok none, e) => (err, e)
      | (.ok (some t), e) => (do let s ← una t; return some s, e)

/-- the values of a line: libfsapfs_file_entry.c 647-1240 returns those of the inode -/
def values (i : Records.Inode) (size : Nat) (target : Option Bytes) : PathString.Values :=
  { identifier := i.identifier, mode := i.mode, owner := i.owner, group := i.group, size, access := signed64 i.access, modification := signed64 i.modification, change := signed64 i.change,
    creation := signed64 i.creation, target }

/-- `info_handle_file_entry_calculate_md5` of a file entry, info_handle.c 2154-2159 -/
def md5Of (m : Mounted) (md5 : Option Md5) (i : Records.Inode) (e : FileEntry.Entry) (string : Bytes) (stringSize : Nat) : Res Bytes :=
  match md5 with
  | some h => Digest.ofFile m.unpack h m.files m.compare m.junk i e string stringSize
  | none => err

/-- `info_handle_file_entry_value_with_name_fprint` with a bodyfile stream, info_handle.c 1839-2237; `md5` is `calculate_md5` with libhmac -/
def line (m : Mounted) (md5 : Option Md5) (path name : Bytes) (n : FileNode) : Res Bytes :=
  let env := FileRead.env m.files m.compare n.inode
  match linkTarget m.una env (FileRead.entryOf n.inode) with
  | (.err, _) => err
  | (.ub, _) => ub
  | (.ok target, e) =>
    match FileEntry.getSize env e with
    | (.err, _) => err
    | (.ub, _) => ub
    | (.ok size, e) => do
      let column ← Digest.column md5.isSome n.inode.mode (md5Of m md5 n.inode e)
      PathString.bodyfileLine m.text column (some path) (some name) (values n.inode size target)

/-- `info_handle_file_system_hierarchy_fprint_file_entry` with a bodyfile stream, info_handle.c 2628-2970. `depth` is how many calls of the function fit on the stack. -/
def listing (m : Mounted) (md5 : Option Md5) : Nat → Bytes → FileNode → Out
  | 0, _, _ => ([], ub)
  | depth + 1, path, n =>
    Out.need ((lookups m.files).directory n.inode.identifier) fun children =>
    Out.need (nodeName m.una n) fun name =>
    let path := path.takeWhile (· ≠ 0)
    Out.need (line m md5 path name n) fun text =>
    Out.andThen (text, ok ()) <|
    each (fun r => Out.need (subNode (lookups m.files) r) fun s => listing m md5 depth (if n.inode.identifier ≠ 2 then path ++ name ++ [0x2f] else path) s) children

/-- a volume of `info_handle_get_volume_by_index`, info_handle.c 916-1070: its identifier and its files, or the failure to get its file system -/
structure ListedVolume where
  uuid : Bytes
  files : Res Mounted

/-- one volume, info_handle.c 3063-3196 -/
def volume (md5 : Option Md5) (depth : Nat) (v : ListedVolume) : Out :=
  Out.need v.files fun m =>
  Out.need ((lookups m.files).inode 2) fun root =>
  match root with
  | some i => listing m md5 depth (0x2f :: uuidText v.uuid ++ [0x2f]) { inode := i, record := none }
  | none => ([], ok ())

/-- the loop over the volumes, info_handle.c 3037-3210: `selected` is `file_system_index`, `index` is `volume_index` -/
def volumes (md5 : Option Md5) (depth selected : Nat) : Nat → List (Res ListedVolume) → Out
  | _, [] => ([], ok ())
  | index, v :: vs =>
    if selected ≠ 0 ∧ selected ≠ index + 1 then volumes md5 depth selected (index + 1) vs
    else (Out.need v (volume md5 depth)).andThen (volumes md5 depth selected (index + 1) vs)

/-- `info_handle_file_system_hierarchy_fprint` with a bodyfile stream, info_handle.c 2975-3240: what is written to the bodyfile -/
def bodyfile (md5 : Option Md5) (depth selected : Nat) (vs : List (Res ListedVolume)) : Out :=
  if selected > vs.length then ([], err) else volumes md5 depth selected 0 vs

end Bodyfile
end Verif
