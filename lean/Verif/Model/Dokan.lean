import Verif.Model.Mount
import Verif.Model.PathWindows
import Verif.Spec.Dokan
/-!
# Model of fsapfsmount on Windows: mount_dokan.c, and mount_handle.c, mount_file_system.c and mount_file_entry.c of fsapfstools with `WINAPI`

System characters are 16-bit, paths and names are strings in UTF-16. Dokan passes pointers that are not NULL, a `Context` that is NULL to functions that open files, and structures that are cleared;
`fill_find_data` accepts every entry. Allocation failures are left out. What is in a buffer behind the end-of-string character is left out.
-/
namespace Verif
open Res
namespace Dokan
open FileRead (FileNode)
open Mount (Handle signed64 fileMode readAt)
open PathString (ssizeMax)
open PathWindows (Wide copyFrom copyTo cString)
open Spec.Dokan (Status Reply Info Found Volume Request Answer)

/-- A volume that is mounted, and libuna for UTF-16. The program is built for Dokan 0.6 and 0.7 (`DOKAN_VERSION` from 600 to 799) or for later versions, and with or without `HAVE_DOKAN_LONG_PATHS`. -/
structure Windows where
  base : Mount.Mounted
  wide : PathWindows.Codec
  names : Bytes → Res Wide
  old : Bool := false
  longPaths : Bool := false

/-- `MAX_PATH` -/
def maxPath : Nat := 260

/-- `DOKAN_MAX_PATH`, mount_dokan.c 53-57 -/
def dokanMaxPath (w : Windows) : Nat := if w.longPaths then 32768 else maxPath

/-- the result of a function that is needed, with the error for its failure -/
def reply {α : Type} (e : Status) : Res α → Reply α
  | .ok a => .value a
  | .err => .fails e
  | .ub => .ub

/-- the loop that looks for the separator, mount_handle.c 1104-1113 -/
def lastSeparator (path : Wide) : Nat → Nat
  | 0 => 0
  | n + 1 => if path[n + 1]? = some 0x5c then n + 1 else lastSeparator path n

/-- the length of a path without the separator at its end, mount_handle.c 1085-1103 -/
def pathLength (path : Wide) : Nat := if 2 ≤ path.length ∧ path[path.length - 1]? = some 0x5c then path.length - 1 else path.length

/-- `path_length - ( path_index + 1 )` as size_t, mount_handle.c 1124 -/
def nameLength (path : Wide) : Nat := (pathLength path + 2 ^ 64 - (lastSeparator path (pathLength path) + 1)) % 2 ^ 64

/-- `mount_file_system_get_file_entry_by_path`, mount_file_system.c 372-466: the library is given a path in UTF-16 -/
def nodeAt (w : Windows) (path : Wide) : Res (Option FileNode) := do
  let p ← copyTo w.wide path
  let r ← FileRead.byPath w.base.text.decoder w.wide.decoder 0x2f w.base.files (cString p)
  return r.map fun r => { inode := r.1, record := r.2 }

/-- `mount_handle_get_file_entry_by_path`, mount_handle.c 1049-1174, with the check of `mount_file_entry_initialize`, mount_file_entry.c 93; `none` is `return( 0 )`. The name of the file entry
is not asked for. -/
def fileAt (w : Windows) (path : Wide) : Res (Option Handle) := do
  let path := cString path
  require (path.length ≠ 0)
  let n ← nodeAt w (path.take (pathLength path))
  match n with
  | none => return none
  | some n =>
    require (nameLength path ≤ ssizeMax - 1)
    return some (.new [] n)

/-- `libfsapfs_file_entry_get_utf16_name_size`, libfsapfs_file_entry.c 1656-1743, and `libfsapfs_file_entry_get_utf16_name`, 1750-1840 -/
def nodeName (w : Windows) (n : FileNode) : Res Wide :=
  match n.record with
  | some r => w.names r.name
  | none =>
    match n.inode.name with
    | none => err
    | some b => w.names b

/-- `mount_file_system_get_filename_from_file_entry`, mount_file_system.c 471-594: the name and its size -/
def nameOf (w : Windows) (n : FileNode) : Res (Wide × Nat) := do
  let s ← nodeName w n
  copyFrom w.wide s

/-- a time as FILETIME, mount_file_entry.c 419-426, 486-493, 553-560 and 620-627; the result is not negative -/
def filetime (t : Int) : Nat := if t = 0 then 0 else (t.tdiv 100 + 116444736000000000).toNat

/-- `mount_dokan_set_file_information`, mount_dokan.c 63-108, and `mount_dokan_set_find_data`, 114-159 -/
def setInfo (size mode creation access write : Nat) : Info := { size, directory := decide (mode / 0x4000 % 2 ≠ 0), creation, access, write }

/-- size, mode and times of a file entry, mount_dokan.c 1328-1410 and 213-285: `mount_file_entry_get_size`, mount_file_entry.c 1072-1105, `mount_file_entry_get_file_mode`, 637-687,
`mount_file_entry_get_creation_time`, 371-431, `mount_file_entry_get_access_time`, 438-498, `mount_file_entry_get_modification_time`, 505-565 -/
def infoOf (w : Windows) (h : Handle) : Res Info :=
  match FileEntry.getSize (h.env w.base) h.entry with
  | (.ok size, _) => ok (setInfo size (fileMode h.node.inode.mode) (filetime (signed64 h.node.inode.creation)) (filetime (signed64 h.node.inode.access)) (filetime (signed64 h.node.inode.modification)))
  | (.err, _) => err
  | (.ub, _) => ub

/-- `wide_string_copy` of `size` characters to an array of `n`; the string ends at the first end-of-string character -/
def copyWide (n : Nat) (s : Wide) (size : Nat) : Res Wide := if size ≤ n then ok s else ub

/-- `mount_dokan_filldir`, mount_dokan.c 164-363, with the attributes of the file entry, which may be zeros; `cFileName` has 260 characters and `cAlternateFileName` 14 (minwinbase.h) -/
def fill (w : Windows) (name : Wide) (size : Nat) (info : Res Info) : Res Found := do
  require (¬ size > dokanMaxPath w)
  let i ← info
  let n ← copyWide maxPath name size
  let short ← if size ≤ 14 then copyWide 14 name size else ok []
  return { name := n, short, info := i }

/-- the entry for the parent directory, mount_dokan.c 1025-1077, with `mount_file_entry_get_parent_file_entry`, mount_file_entry.c 248-364: the root directory has none, then there are zeros -/
def parentFound (w : Windows) (n : FileNode) : Res Found :=
  match FileRead.parentNode (FileRead.lookups w.base.files) n with
  | .ok (.node p) => do
    let _ ← nameOf w p
    fill w [0x2e, 0x2e] 3 (infoOf w (.new [] p))
  | .ok _ => fill w [0x2e, 0x2e] 3 (ok (setInfo 0 0 0 0 0))
  | .err => err
  | .ub => ub

/-- a sub file entry, mount_dokan.c 1098-1208, with `mount_file_entry_get_sub_file_entry_by_index`, mount_file_entry.c 905-1020, `mount_file_entry_get_name_size`, 693-725, and
`mount_file_entry_get_name`, 731-811 -/
def subFound (w : Windows) (s : FileNode) : Res Found := do
  let name ← nameOf w s
  fill w (cString name.1) name.2 (infoOf w (.new [] s))

/-- the loop over sub file entries, mount_dokan.c 1094-1209: `left` of them from `index` on -/
def fillSubs (w : Windows) : Nat → Nat → FileNode → Res (List Found)
  | 0, _, _ => ok []
  | left + 1, index, n =>
    match FileRead.call (FileRead.lookups w.base.files) (.sub index) n with
    | (.ok (.node s), n) => do
      let f ← subFound w s
      let fs ← fillSubs w left (index + 1) n
      return f :: fs
    | (.ok _, _) => err
    | (.err, _) => err
    | (.ub, _) => ub

/-- the number of sub file entries and the loop, mount_dokan.c 1078-1209 -/
def fillAll (w : Windows) (n : FileNode) : Res (List Found) :=
  match FileRead.call (FileRead.lookups w.base.files) .number n with
  | (.ok (.number count), n) => fillSubs w count 0 n
  | (.ok _, _) => err
  | (.err, _) => err
  | (.ub, _) => ub

/-- `mount_dokan_FindFiles`, mount_dokan.c 941-1259: the file entry of the path is freed on return. Dokan drops what was filled in if the function fails. -/
def findFiles (w : Windows) (path : Wide) : Reply (List Found) :=
  match fileAt w path with
  | .ok (some h) =>
    reply .generic (do
      let dot ← fill w [0x2e] 2 (infoOf w h)
      let dotdot ← parentFound w h.node
      let fs ← fillAll w h.node
      return dot :: dotdot :: fs)
  | .ok none => .fails .notFound
  | .err => .fails .notFound
  | .ub => .ub

/-- `mount_dokan_GetFileInformation`, mount_dokan.c 1265-1463 -/
def getInformation (w : Windows) (path : Wide) : Reply Info :=
  match fileAt w path with
  | .ok (some h) => reply .generic (infoOf w h)
  | .ok none => .fails .notFound
  | .err => .fails .notFound
  | .ub => .ub

/-- a file by its path, mount_dokan.c 468-485, 577-594 and 671-688 -/
def openAt (w : Windows) (path : Wide) : Reply Handle :=
  match fileAt w path with
  | .ok (some h) => .value h
  | .ok none => .fails .notFound
  | .err => .fails .notFound
  | .ub => .ub

/-- `mount_dokan_CreateFile`, mount_dokan.c 370-497, and `mount_dokan_ZwCreateFile`, 504-606. `GENERIC_WRITE` is 0x40000000 (winnt.h). Dispositions before Dokan 0.8: 1 `CREATE_NEW`, 2 `CREATE_ALWAYS`,
3 `OPEN_EXISTING`, 4 `OPEN_ALWAYS`, 5 `TRUNCATE_EXISTING` (fileapi.h), and since: 0 `FILE_SUPERSEDE`, 1 `FILE_OPEN`, 2 `FILE_CREATE`, 3 `FILE_OPEN_IF`, 4 `FILE_OVERWRITE`, 5 `FILE_OVERWRITE_IF` (winternl.h). -/
def create (w : Windows) (path : Wide) (access disposition : Nat) : Reply Handle :=
  if access / 0x40000000 % 2 ≠ 0 then .fails .writeProtect
  else if w.old then
    if disposition = 1 then .fails .fileExists
    else if disposition = 2 then .fails .alreadyExists
    else if disposition = 4 then .fails .notFound
    else if disposition = 5 then .fails .notFound
    else if disposition ≠ 3 then .fails .badArguments
    else openAt w path
  else if disposition = 2 then .fails .fileExists
  else if disposition ≠ 1 ∧ disposition ≠ 3 then .fails .accessDenied
  else openAt w path

/-- `mount_dokan_ReadFile`, mount_dokan.c 791-935; `INT32_MAX` is 2^31 - 1 -/
def read (w : Windows) (h : Handle) (size : Nat) (offset : Int) : Reply Bytes × Handle :=
  if size > 2 ^ 31 - 1 then (.fails .badArguments, h)
  else
    match readAt w.base h size offset with
    | (r, h) => (reply .readFault r, h)

/-- L"FSAPFS" -/
def volumeName : Wide := [0x46, 0x53, 0x41, 0x50, 0x46, 0x53]

/-- L"Dokan" -/
def systemName : Wide := [0x44, 0x6f, 0x6b, 0x61, 0x6e]

/-- `mount_dokan_GetVolumeInformation`, mount_dokan.c 1469-1587; the flags are `FILE_CASE_SENSITIVE_SEARCH`, 1, `FILE_CASE_PRESERVED_NAMES`, 2, `FILE_UNICODE_ON_DISK`, 4, and
`FILE_READ_ONLY_VOLUME`, 0x80000 (winnt.h) -/
def volumeInformation (nameSize systemSize : Nat) : Volume :=
  { name := if nameSize > volumeName.length + 1 then some volumeName else none
    serial := 0x19831116
    longest := 256
    flags := 0x80007
    system := if systemSize > systemName.length + 1 then some systemName else none }

/-! Sessions: what Dokan asks in a row -/

def mapReply {α β : Type} (f : α → β) : Reply α → Reply β
  | .value a => .value (f a)
  | .fails e => .fails e
  | .ub => .ub

/-- Open files and directories by number, `none` if closed. -/
abbrev Session := List (Option Handle)

def lookup (s : Session) (n : Nat) : Option Handle := (s[n]?).join

def add (s : Session) : Reply Handle → Reply Answer × Session
  | .value h => (.value (.handle s.length), s ++ [some h])
  | .fails e => (.fails e, s)
  | .ub => (.ub, s)

/-- An answer to a request. A handle that is not open is one without `Context`, mount_dokan.c 874. `mount_dokan_CloseFile`, mount_dokan.c 708-785, frees the file entry. `mount_dokan_OpenDirectory`,
mount_dokan.c 615-700, and `mount_dokan_Unmount`, 1594-1610, exist before Dokan 0.8, fsapfsmount.c 621 and 644. -/
def serve (w : Windows) (s : Session) : Request → Reply Answer × Session
  | .create path access disposition => add s (create w path access disposition)
  | .openDirectory path => add s (openAt w path)
  | .read n size offset =>
    match lookup s n with
    | none => (.fails .badArguments, s)
    | some h => (mapReply .bytes (read w h size offset).1, s.set n (some (read w h size offset).2))
  | .close n => (.value .done, s.set n none)
  | .find path => (mapReply .found (findFiles w path), s)
  | .info path => (mapReply .info (getInformation w path), s)
  | .volume nameSize systemSize => (.value (.volume (volumeInformation nameSize systemSize)), s)
  | .unmount => (.value .done, s)

/-- requests in a row -/
def serveAll (w : Windows) : List Request → Session → List (Reply Answer) × Session
  | [], s => ([], s)
  | r :: rs, s => ((serve w s r).1 :: (serveAll w rs (serve w s r).2).1, (serveAll w rs (serve w s r).2).2)

end Dokan
end Verif
