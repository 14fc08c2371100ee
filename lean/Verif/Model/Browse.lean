import Verif.Model.Session
import Verif.Model.Hierarchy
import Verif.Model.Extents
import Verif.Model.AttributeRead
/-!
# A caller that goes through a volume with any number of file entries and extended attributes

After a volume was opened and unlocked, see `Verif.Model.Session`, a caller gets file entries of the volume, and from them their parents, sub file entries and extended attributes, and uses all of them in any order.
Handles are not freed; that they must be freed before what they refer to is in `Verif.Props.C61`. Each call has what fails meanwhile. Names of libuna are left out, see `Verif.Model.Hierarchy`.
-/
namespace Verif
open Res
namespace Browse
open DataStream (Extent)
open FileRead (Files FileNode NodeCall NodeResult Reader Lookups)
open Session (External Failures Find)
open Spec (ExtentAsk ExtentAnswer FileOp ValueOp ValueAnswer)

/-- a file entry, `libfsapfs_internal_file_entry_t`: names and directory entries, attributes and data stream, the open data stream, and `file_extents` -/
structure FileHandle where
  node : FileNode
  entry : FileEntry.Entry
  reader : Option Reader := none
  extents : Option (List Extent) := none

/-- an extended attribute, `libfsapfs_internal_extended_attribute_t`: the file entry that has its values, the values and the data stream -/
structure ValueHandle where
  owner : Nat
  value : Records.Attribute
  stream : AttributeRead.Handle := none

inductive Object where
  | file (h : FileHandle)
  | value (h : ValueHandle)

/-- The handles in the order in which the caller got them, and `value_data_file_extents` of the attribute values of each file entry. Attributes of a file entry that are the same in all of their values have the same extents. -/
structure State where
  objects : List Object := []
  values : Nat → Records.Attribute → Option (List Extent) := fun _ _ => none

/-- what fails during a call: the functions of a file entry, lookups in the file system B-tree, allocations for extended attributes, and reading from the storage for them -/
structure Fault where
  entry : Failures := {}
  tree : Bool := false
  alloc : Bool := false
  disk : Nat → Nat → Bool := fun _ _ => false

/-- calls; a number is that of a handle -/
inductive Step (α : Type) where
  | find (q : Find α)
  | node (k : Nat) (c : NodeCall)
  | named (k : Nat) (name : List α)
  | entry (k : Nat) (c : Session.Call)
  | content (k : Nat) (o : FileOp)
  | extents (k : Nat) (a : ExtentAsk)
  | attributeAt (k : Nat) (index : Int)
  | attributeNamed (k : Nat) (name : Bytes)
  | value (k : Nat) (o : ValueOp)
  | valueExtents (k : Nat) (a : ExtentAsk)

/-- what they return: a new handle, no such thing, and so on -/
inductive Answer where
  | handle
  | none
  | done
  | number (n : Nat)
  | bytes (d : Bytes)
  | value (a : ValueAnswer)
  | extents (a : ExtentAnswer)
deriving DecidableEq

/-- lookups of which some fail -/
def lookups (f : Files) (fault : Fault) : Lookups :=
  if fault.tree then { directory := fun _ => err, inode := fun _ => err } else FileRead.lookups f

/-- answers to a file entry -/
def entryEnv (x : External) (f : Files) (fault : Fault) (i : Records.Inode) : FileEntry.Env := Session.failing (FileRead.env f x.compare i) fault.entry

/-- answers to an extended attribute -/
def valueEnv (f : Files) (fault : Fault) (a : Records.Attribute) : AttributeRead.Env where
  alloc := if fault.alloc then err else ok ()
  btree := if fault.tree then err else Extents.btree f a.stream
  disk o n := if fault.disk o n then err else f.disk o n

def newFile (i : Records.Inode) (r : Option Records.DirectoryRecord) : Object := .file { node := { inode := i, record := r }, entry := FileRead.entryOf i }

/-- a result that is a new file entry or none -/
def State.add (s : State) : Res (Option (Records.Inode × Option Records.DirectoryRecord)) → Res Answer × State
  | .ok (some (i, r)) => (ok .handle, { s with objects := s.objects ++ [newFile i r] })
  | .ok Option.none => (ok .none, s)
  | .err => (err, s)
  | .ub => (ub, s)

def State.set (s : State) (k : Nat) (o : Object) : State := { s with objects := s.objects.set k o }

/-- what a caller gets from a volume, see `Session.find`; the directory record is kept by the file entry, libfsapfs_file_system.c 356-399 and 471-514 -/
def find {α : Type} [DecidableEq α] (dn : Name.Decoder UInt8) (dq : Name.Decoder α) (separator : α) (f : Files) : Find α → Res (Option (Records.Inode × Option Records.DirectoryRecord))
  | .identifier n => do
    let r ← FileRead.byIdentifier f n
    return r.map fun i => (i, Option.none)
  | .path p => FileRead.byPath dn dq separator f p

/-- `libfsapfs_file_entry_get_sub_file_entry_by_utf8_name`, libfsapfs_file_entry.c 3853-4016, and `libfsapfs_file_entry_get_sub_file_entry_by_utf16_name`, 4021-4184: the name is taken as a path that starts at the
file entry -/
def named {α : Type} [DecidableEq α] (dn : Name.Decoder UInt8) (dq : Name.Decoder α) (separator : α) (f : Files) (i : Records.Inode) (name : List α) :
    Res (Option (Records.Inode × Option Records.DirectoryRecord)) := NameLookup.lookupPath dn dq separator f.folding f.tree f.xid i.identifier name

/-- a lookup that may fail -/
def Fault.lookup (fault : Fault) (r : Res α) : Res α := if fault.tree then err else r

/-- the data stream of a file entry as in `FileRead.openFile`, with failures -/
def openReader (x : External) (f : Files) (fault : Fault) (h : FileHandle) : Res Reader × FileHandle :=
  match h.reader with
  | some r => (ok r, h)
  | Option.none =>
    let env := entryEnv x f fault h.node.inode
    let e := (FileEntry.openStream env h.entry).2
    match (FileEntry.openStream env h.entry).1 with
    | .ok (.extents size sparse) =>
      match FileRead.extentStream f h.node.inode.dataStream sparse with
      | .ok d => (ok (.extents d size 0), { h with entry := e, reader := some (.extents d size 0) })
      | .err => (err, { h with entry := e })
      | .ub => (ub, { h with entry := e })
    | .ok (.compressed data size method) =>
      match Compressed.Handle.init size method x.junk with
      | .ok d => (ok (.compressed data d), { h with entry := e, reader := some (.compressed data d) })
      | .err => (err, { h with entry := e })
      | .ub => (ub, { h with entry := e })
    | .err => (err, { h with entry := e })
    | .ub => (ub, { h with entry := e })

/-- calls on a file entry that do not make another handle -/
inductive FileCall where
  | entry (c : Session.Call)
  | content (o : FileOp)
  | extents (a : ExtentAsk)

def fileCall (x : External) (f : Files) (fault : Fault) (h : FileHandle) : FileCall → Res Answer × FileHandle
  | .entry c =>
    let r := Session.call (entryEnv x f fault h.node.inode) c h.entry
    (r.1.bind fun _ => ok .done, { h with entry := r.2 })
  | .content o =>
    match openReader x f fault h with
    | (.ok r, h) => ((FileRead.step x.codec o r).1.bind fun d => ok (.bytes d), { h with reader := some (FileRead.step x.codec o r).2 })
    | (.err, h) => (err, h)
    | (.ub, h) => (ub, h)
  | .extents a =>
    let r := Extents.entryCall (fault.lookup (Extents.btree f h.node.inode.dataStream)) a h.extents
    (r.1.bind fun a => ok (.extents a), { h with extents := r.2 })

/-- `libfsapfs_file_entry_get_extended_attribute_by_index` and `libfsapfs_file_entry_get_extended_attribute_by_utf8_name`, which may not find one -/
def attributeOf (x : External) (f : Files) (fault : Fault) (h : FileHandle) : Int ⊕ Bytes → Res (Option Records.Attribute) × FileHandle
  | .inl index =>
    let r := AttributeRead.attributeByIndex (entryEnv x f fault h.node.inode) index h.entry
    (r.1.bind fun a => ok (some a), { h with entry := r.2 })
  | .inr name =>
    let r := FileEntry.attributeByName (entryEnv x f fault h.node.inode) name h.entry
    (r.1, { h with entry := r.2 })

/-- the new handle of an extended attribute, `libfsapfs_extended_attribute_initialize`, libfsapfs_extended_attribute.c 46-157 -/
def addAttribute (x : External) (f : Files) (fault : Fault) (s : State) (k : Nat) (h : FileHandle) (q : Int ⊕ Bytes) : Res Answer × State :=
  match attributeOf x f fault h q with
  | (.ok (some a), h) =>
    if fault.alloc then (err, s.set k (.file h))
    else (ok .handle, { s.set k (.file h) with objects := (s.set k (.file h)).objects ++ [.value { owner := k, value := a }] })
  | (.ok Option.none, h) => (ok .none, s.set k (.file h))
  | (.err, h) => (err, s.set k (.file h))
  | (.ub, h) => (ub, s.set k (.file h))

/-- calls on an extended attribute -/
inductive ValueCall where
  | ask (o : ValueOp)
  | extents (a : ExtentAsk)

/-- `AttributeRead.call`, and `libfsapfs_extended_attribute_get_number_of_extents`, libfsapfs_extended_attribute.c 1163-1251, and `libfsapfs_extended_attribute_get_extent_by_index`, 1256-1412 -/
def valueCall (f : Files) (fault : Fault) (a : Records.Attribute) (extents : Option (List Extent)) (h : AttributeRead.Handle) : ValueCall → Res Answer × Option (List Extent) × AttributeRead.Handle
  | .ask o =>
    let r := AttributeRead.call f a (valueEnv f fault a) o extents h
    (r.1.bind fun a => ok (.value a), r.2)
  | .extents q =>
    match h with
    | some s => ((Extents.attrEntries extents q).bind fun a => ok (.extents a), extents, some s)
    | Option.none =>
      match AttributeRead.getStream f a (valueEnv f fault a) extents with
      | (.ok h, extents) => ((Extents.attrEntries extents q).bind fun a => ok (.extents a), extents, h)
      | (.err, extents) => (err, extents, Option.none)
      | (.ub, extents) => (ub, extents, Option.none)

/-- the handle of a file entry; another handle, or none, is refused -/
def onFile (s : State) (k : Nat) (g : FileHandle → Res Answer × State) : Res Answer × State :=
  match s.objects[k]? with
  | some (.file h) => g h
  | _ => (err, s)

/-- the handle of an extended attribute -/
def onValue (f : Files) (fault : Fault) (s : State) (k : Nat) (c : ValueCall) : Res Answer × State :=
  match s.objects[k]? with
  | some (.value h) =>
    let r := valueCall f fault h.value (s.values h.owner h.value) h.stream c
    (r.1, { objects := s.objects.set k (.value { h with stream := r.2.2 }), values := fun n a => if n = h.owner ∧ a = h.value then r.2.1 else s.values n a })
  | _ => (err, s)

/-- a call -/
def step {α : Type} [DecidableEq α] (x : External) (dn : Name.Decoder UInt8) (dq : Name.Decoder α) (separator : α) (f : Files) (fault : Fault) (s : State) : Step α → Res Answer × State
  | .find q => s.add (fault.lookup (find dn dq separator f q))
  | .node k c => onFile s k fun h =>
    let r := FileRead.call (lookups f fault) c h.node
    let s := s.set k (.file { h with node := r.2 })
    match r.1 with
    | .ok (.number n) => (ok (.number n), s)
    | .ok (.node n) => (ok .handle, { s with objects := s.objects ++ [newFile n.inode n.record] })
    | .ok .none => (ok .none, s)
    | .err => (err, s)
    | .ub => (ub, s)
  | .named k name => onFile s k fun h => s.add (fault.lookup (named dn dq separator f h.node.inode name))
  | .entry k c => onFile s k fun h => let r := fileCall x f fault h (.entry c); (r.1, s.set k (.file r.2))
  | .content k o => onFile s k fun h => let r := fileCall x f fault h (.content o); (r.1, s.set k (.file r.2))
  | .extents k a => onFile s k fun h => let r := fileCall x f fault h (.extents a); (r.1, s.set k (.file r.2))
  | .attributeAt k index => onFile s k fun h => addAttribute x f fault s k h (.inl index)
  | .attributeNamed k name => onFile s k fun h => addAttribute x f fault s k h (.inr name)
  | .value k o => onValue f fault s k (.ask o)
  | .valueExtents k a => onValue f fault s k (.extents a)

/-- calls in a row; a caller goes on after errors -/
def steps {α : Type} [DecidableEq α] (x : External) (dn : Name.Decoder UInt8) (dq : Name.Decoder α) (separator : α) (f : Files) : List (Step α × Fault) → State → List (Res Answer)
  | [], _ => []
  | (c, fault) :: cs, s => (step x dn dq separator f fault s c).1 :: steps x dn dq separator f cs (step x dn dq separator f fault s c).2

/-- what a caller does: open a container, get a volume of it, calls on the volume (passwords, unlocking, ...), and the calls above -/
structure Script (α : Type) where
  index : Int
  ops : List Volume.Op
  steps : List (Step α × Fault)

/-- the answers to all calls -/
def browse {α : Type} [DecidableEq α] (x : External) (dn : Name.Decoder UInt8) (dq : Name.Decoder α) (separator : α) (image : Container.Image) (t : Script α) : Res (List (Res Answer)) := do
  let k ← Container.openRead (fun uuid => x.cipher.xts (uuid, uuid)) x.vector image
  let v ← VolumeOpen.volumeByIndex x.cipher x.vector image k t.index
  let s ← Volume.run x.prims v.state t.ops
  let f ← FileRead.files x.cipher image k v s
  return steps x dn dq separator f t.steps {}

end Browse
end Verif
