import Verif.Model.Bodyfile
import Verif.Model.Program
/-!
# Model of what fsapfsinfo prints about a file: the options `-E` and `-F`, info_handle.c and fsapfsinfo.c of fsapfstools

The libraries are those of `Mount.Mounted`; libfdatetime is `clock`, which gives the text of a time in nanoseconds or fails. Without bodyfile. What is printed of a file entry before an error is left out, as are
allocation failures.
-/
namespace Verif
open Res
namespace Info
open FileRead (FileNode Out)
open Mount (Mounted signed64)
open PathString (decimal cString copyFrom modeString)

/-- the text of a format string -/
def ascii (s : String) : Bytes := s.toList.map fun c => UInt8.ofNat c.toNat

/-- `%o` -/
def octal (n : Nat) : Bytes := if n < 8 then [UInt8.ofNat (0x30 + n)] else octal (n / 8) ++ [UInt8.ofNat (0x30 + n % 8)]

/-- `%07o` -/
def octal7 (n : Nat) : Bytes := List.replicate (7 - (octal n).length) 0x30 ++ octal n

/-- `info_handle_posix_time_in_nano_seconds_value_fprint`, info_handle.c 1305-1421 -/
def timeLine (clock : Int → Res Bytes) (name : String) (time : Int) : Res Bytes :=
  if time = 0 then ok (ascii name ++ ascii ": Not set (0)\n")
  else do
    let s ← clock time
    ok (ascii name ++ ascii ": " ++ s ++ ascii "Z\n")

/-- a line with `%s` or a number -/
def line (name : String) (value : Bytes) : Bytes := ascii name ++ ascii ": " ++ value ++ [0x0a]

/-- the loop over the extended attributes, info_handle.c 2474-2593 -/
def attributeLines (una : Bytes → Res Bytes) : Nat → List Records.Attribute → Res Bytes
  | _, [] => ok []
  | index, a :: as => do
    let name ← una a.name
    let rest ← attributeLines una (index + 1) as
    ok (ascii "\t\tAttribute: " ++ decimal (index + 1) ++ ascii "\t: " ++ cString name ++ [0x0a] ++ rest)

/-- the extended attributes, info_handle.c 2454-2594, with `libfsapfs_file_entry_get_extended_attribute_by_index`, libfsapfs_file_entry.c 2708-2842 -/
def attributesText (una : Bytes → Res Bytes) (env : FileEntry.Env) (e : FileEntry.Entry) : Res Bytes := do
  let count ← (FileEntry.numberOfAttributes env e).1
  if count > 0 then do
    let as ← match (FileEntry.numberOfAttributes env e).2.attributes with
      | none => err
      | some as => ok (as.take count)
    let rest ← attributeLines una 0 as
    ok (ascii "\tExtended attributes:\n" ++ rest)
  else ok []

/-- the added time, info_handle.c 2353-2386: without directory record there is none, libfsapfs_file_entry.c 942-1014 -/
def addedLine (clock : Int → Res Bytes) : Option Records.DirectoryRecord → Res Bytes
  | some r => timeLine clock "\tAdded time\t\t" (signed64 r.added)
  | none => ok []

/-- the device number, info_handle.c 2422-2446 -/
def deviceLine (i : Records.Inode) : Bytes :=
  match Records.deviceNumber i with
  | some (major, minor) => line "\tDevice number\t\t" (decimal major ++ [0x2c] ++ decimal minor)
  | none => []

/-- the target of a symbolic link, info_handle.c 2447-2453 -/
def targetLine : Option Bytes → Bytes
  | some target => line "\tSymbolic link target\t" (cString target)
  | none => []

/-- the lines of `info_handle_file_entry_value_with_name_fprint` without bodyfile, info_handle.c 2238-2595 -/
def valueLines (clock : Int → Res Bytes) (n : FileNode) (shown : Bytes) (size : Nat) (target : Option Bytes) (attributes : Bytes) : Res Bytes := do
  let created ← timeLine clock "\tCreation time\t\t" (signed64 n.inode.creation)
  let modified ← timeLine clock "\tModification time\t" (signed64 n.inode.modification)
  let changed ← timeLine clock "\tInode change time\t" (signed64 n.inode.change)
  let accessed ← timeLine clock "\tAccess time\t\t" (signed64 n.inode.access)
  let added ← addedLine clock n.record
  ok (line "\tIdentifier\t\t" (decimal n.inode.identifier) ++ line "\tName\t\t\t" shown ++ line "\tSize\t\t\t" (decimal size) ++ created ++ modified ++ changed ++ accessed ++ added ++
    line "\tNumber of links\t\t" (decimal n.inode.links) ++ line "\tOwner identifier\t" (decimal n.inode.owner) ++ line "\tGroup identifier\t" (decimal n.inode.group) ++
    line "\tFile mode\t\t" (modeString n.inode.mode ++ ascii " (" ++ octal7 n.inode.mode ++ ascii ")") ++ deviceLine n.inode ++ targetLine target ++ attributes)

/-- `info_handle_file_entry_value_fprint`, info_handle.c 1641-1764, with `info_handle_file_entry_value_with_name_fprint`, 1839-2623, without bodyfile and path -/
def fileText (m : Mounted) (clock : Int → Res Bytes) (n : FileNode) : Res Bytes := do
  let name ← FileRead.nodeName m.una n
  let env := FileRead.env m.files m.compare n.inode
  match Bodyfile.linkTarget m.una env (FileRead.entryOf n.inode) with
  | (.err, _) => err
  | (.ub, _) => ub
  | (.ok target, e) =>
    match FileEntry.getSize env e with
    | (.err, _) => err
    | (.ub, _) => ub
    | (.ok size, e) => do
      let shown ← copyFrom m.text .info name
      let attributes ← attributesText m.una env e
      valueLines clock n shown size target attributes

/-- the first line -/
def heading : Bytes := ascii "Apple File System (APFS) information:\n\n"

/-- a file entry with the lines around it -/
def fileBlock (m : Mounted) (clock : Int → Res Bytes) (n : FileNode) : Out :=
  Out.andThen (ascii "File entry:\n", ok ()) <|
  Out.need (fileText m clock n) fun t => (t ++ [0x0a], ok ())

/-- `info_handle_file_entry_fprint_by_identifier` behind the heading, info_handle.c 3324-3415, of a volume; no such file entry is an error, fsapfsinfo.c 480-491 -/
def byIdentifier (m : Mounted) (clock : Int → Res Bytes) (identifier : Nat) : Out :=
  Out.need (FileRead.byIdentifier m.files identifier) fun i =>
  match i with
  | none => ([], err)
  | some i => fileBlock m clock { inode := i, record := none }

/-- `info_handle_file_entry_fprint_by_path`, info_handle.c 3420-3689, of a volume -/
def byPath (m : Mounted) (clock : Int → Res Bytes) (path : Bytes) : Out :=
  Out.need (PathString.copyTo m.text 0x2f path) fun p =>
  Out.need (FileRead.byPath m.text.decoder m.text.decoder 0x2f m.files (cString p)) fun r =>
  match r with
  | none => ([], err)
  | some r =>
    Out.andThen (heading ++ ascii "File entry:\n" ++ ascii "\tPath\t\t\t: ", ok ()) <|
    (FileRead.printName m.text path).andThen <|
    Out.andThen ([0x0a], ok ()) <|
    Out.need (fileText m clock { inode := r.1, record := r.2 }) fun t => (t ++ [0x0a], ok ())

/-- the loop over the identifiers, info_handle.c 3787-3854: `count` are left, the next one is `identifier` -/
def entriesFrom (m : Mounted) (clock : Int → Res Bytes) : Nat → Nat → Out
  | 0, _ => ([], ok ())
  | count + 1, identifier =>
    Out.andThen (Out.need (FileRead.byIdentifier m.files identifier) fun i =>
      match i with
      | none => ([], ok ())
      | some i => fileBlock m clock { inode := i, record := none }) <|
    entriesFrom m clock count (identifier + 1)

/-- the argument of the option `-E`, fsapfsinfo.c 432-462: `none` for `all` -/
def identifierOption (string : Bytes) : Res (Option Nat) :=
  if string = ascii "all" then ok none
  else do
    let value ← Program.decimal (string ++ [0]) (string.length + 1)
    require (¬ value > 0x0fffffffffffffff)
    ok (some value)

/-- which file entries are asked for -/
inductive Asked where
  | identifier (string : Bytes)
  | path (string : Bytes)

/-- the volume that the options select, info_handle.c 3267-3316, 3458-3507 and 3718-3767: as by `mount_handle_open` -/
def select (g : Program.Machine) (o : Program.Options) (source : Nat → Container.Image) : Res Program.Selected := do
  let index ← Program.indexOption o
  let offset ← Program.offsetOption o
  Program.mountOpen g o source index offset

/-- the file system of a volume, read when a file entry is asked for -/
def filesOf (g : Program.Machine) (v : Program.Selected) : Res FileRead.Files := FileRead.files g.cipher v.image v.container v.obtained.volume v.obtained.state

/-- fsapfsinfo with the option `-E` or `-F`, fsapfsinfo.c 347-554, with `info_handle_file_entry_fprint_by_identifier`, info_handle.c 3244-3415, `info_handle_file_entry_fprint_by_path`, 3420-3689, and
`info_handle_file_entries_fprint`, 3694-3884. `libraries` gives the external libraries. -/
def run (g : Program.Machine) (libraries : FileRead.Files → Mounted) (clock : Int → Res Bytes) (o : Program.Options) (source : Nat → Container.Image) : Asked → Out
  | .identifier s =>
    Out.need (identifierOption s) fun i =>
    Out.need (select g o source) fun v =>
    Out.andThen (heading, ok ()) <|
    match i with
    | none =>
      if VolumeOpen.getNextIdentifier v.obtained.volume = 0 then ([], ok ())
      else Out.need (filesOf g v) fun f => entriesFrom (libraries f) clock (VolumeOpen.getNextIdentifier v.obtained.volume) 0
    | some i => Out.need (filesOf g v) fun f => byIdentifier (libraries f) clock i
  | .path s =>
    Out.need (select g o source) fun v =>
    Out.need (filesOf g v) fun f => byPath (libraries f) clock s

end Info
end Verif
