import Verif.Model.Browse
/-!
# What a caller is told about a volume

Each handle stands for an inode, or for an extended attribute of an inode. What a caller is told about it is what the file system tree has, whatever was asked before and whatever failed before. What the tree has is given by
the lookups and listings of C22, C24 and C42.
-/
namespace Verif.Spec
open Res
open FileRead (Files)
open Browse (Step Fault Answer)
open Session (External)

/-- what a handle stands for -/
inductive Identity where
  | file (inode : Records.Inode)
  | value (inode : Records.Inode) (a : Records.Attribute)

/-- an answer, or an error because something failed -/
def Answered (failed : Bool) (right : Res Answer) (r : Res Answer) : Prop := r = right ∨ (failed = true ∧ r = err)

/-- a new handle for an inode, none if there is no such inode, an error if that is the result of the lookup, or because something failed -/
inductive Looked (failed : Bool) (ids : List Identity) : Res (Option Records.Inode) → Res Answer → List Identity → Prop
  | found (i : Records.Inode) : Looked failed ids (ok (some i)) (ok .handle) (ids ++ [.file i])
  | absent : Looked failed ids (ok none) (ok .none) ids
  | error : Looked failed ids err err ids
  | failed (l : Res (Option Records.Inode)) : failed = true → Looked failed ids l err ids

/-- the inode of a sub file entry -/
def subInode (f : Files) (i : Records.Inode) (index : Int) : Res (Option Records.Inode) := do
  let rs ← FsTree.directoryRecords f.tree f.xid i.identifier
  if index < 0 then err
  else
    match rs[index.toNat]? with
    | none => err
    | some r => do
      match ← FsTree.inodeByIdentifier f.tree f.xid r.identifier with
      | none => err
      | some i => return some i

/-- the inode of the parent, which the root directory does not have -/
def parentInode (f : Files) (i : Records.Inode) : Res (Option Records.Inode) :=
  if i.identifier ≤ 2 then ok none
  else do
    match ← FsTree.inodeByIdentifier f.tree f.xid i.parent with
    | none => err
    | some i => return some i

/-- an answer about extents -/
def extentsTold (es : Res (List DataStream.Extent)) (q : ExtentAsk) : Res Answer := do
  let es ← es
  match q with
  | .number => return .extents (.number es.length)
  | .extent i =>
    if i < 0 then err
    else
      match es[i.toNat]? with
      | none => err
      | some e => return .extents (.piece (Extents.piece e))

/-- What is told by a call. About sizes, link targets and the bytes of files and attributes see C40, C53 and C82. Attributes may not be told although the tree has them, because their names and values are looked at, see C40. -/
def Told {α : Type} [DecidableEq α] (x : External) (dn : Name.Decoder UInt8) (dq : Name.Decoder α) (separator : α) (f : Files) (ids : List Identity) (fault : Fault) (r : Res Answer) (ids' : List Identity) : Step α → Prop
  | .find (.identifier n) => Looked fault.tree ids (FsTree.inodeByIdentifier f.tree f.xid n) r ids'
  | .find (.path p) => Looked fault.tree ids ((NameLookup.lookupPath dn dq separator f.folding f.tree f.xid 2 p).bind fun o => ok (o.map (·.1))) r ids'
  | .named k name =>
    match ids[k]? with
    | some (.file i) => Looked fault.tree ids ((NameLookup.lookupPath dn dq separator f.folding f.tree f.xid i.identifier name).bind fun o => ok (o.map (·.1))) r ids'
    | _ => r = err ∧ ids' = ids
  | .node k .number =>
    match ids[k]? with
    | some (.file i) => Answered fault.tree ((FsTree.directoryRecords f.tree f.xid i.identifier).bind fun l => ok (.number l.length)) r ∧ ids' = ids
    | _ => r = err ∧ ids' = ids
  | .node k (.sub index) =>
    match ids[k]? with
    | some (.file i) => Looked fault.tree ids (subInode f i index) r ids'
    | _ => r = err ∧ ids' = ids
  | .node k .parent =>
    match ids[k]? with
    | some (.file i) => Looked fault.tree ids (parentInode f i) r ids'
    | _ => r = err ∧ ids' = ids
  | .entry k _ =>
    match ids[k]? with
    | some (.file _) => (r = ok .done ∨ r = err) ∧ ids' = ids
    | _ => r = err ∧ ids' = ids
  | .content k _ =>
    match ids[k]? with
    | some (.file _) => ((∃ d, r = ok (.bytes d)) ∨ r = err) ∧ ids' = ids
    | _ => r = err ∧ ids' = ids
  | .extents k q =>
    match ids[k]? with
    | some (.file i) => Answered fault.tree (extentsTold (FsTree.fileExtents f.tree f.xid i.dataStream) q) r ∧ ids' = ids
    | _ => r = err ∧ ids' = ids
  | .attributeAt k index =>
    match ids[k]? with
    | some (.file i) => (r = err ∧ ids' = ids) ∨
      ∃ as a, FsTree.extendedAttributes f.tree f.xid i.identifier = ok as ∧ 0 ≤ index ∧ as[index.toNat]? = some a ∧ r = ok .handle ∧ ids' = ids ++ [.value i a]
    | _ => r = err ∧ ids' = ids
  | .attributeNamed k name =>
    match ids[k]? with
    | some (.file i) => (r = err ∧ ids' = ids) ∨ ∃ as, FsTree.extendedAttributes f.tree f.xid i.identifier = ok as ∧
      ((r = ok .none ∧ ids' = ids ∧ ∀ a ∈ as, x.compare a.name name = ok false) ∨
        ∃ before a after, as = before ++ a :: after ∧ (∀ b ∈ before, x.compare b.name name = ok false) ∧ x.compare a.name name = ok true ∧ r = ok .handle ∧ ids' = ids ++ [.value i a])
    | _ => r = err ∧ ids' = ids
  | .value k o =>
    match ids[k]? with
    | some (.value _ a) => (if o = .size then r = ok (.value (.size a.size)) else (∃ v, r = ok (.value v)) ∨ r = err) ∧ ids' = ids
    | _ => r = err ∧ ids' = ids
  | .valueExtents k q =>
    match ids[k]? with
    | some (.value _ a) => (r = err ∨ r = extentsTold (if a.flags % 2 ≠ 0 then FsTree.fileExtents f.tree f.xid a.stream else ok []) q) ∧ ids' = ids
    | _ => r = err ∧ ids' = ids

/-- all calls in a row, with their answers -/
def AllTold {α : Type} [DecidableEq α] (x : External) (dn : Name.Decoder UInt8) (dq : Name.Decoder α) (separator : α) (f : Files) : List Identity → List (Step α × Fault) → List (Res Answer) → Prop
  | _, [], [] => True
  | ids, (c, fault) :: cs, r :: rs => ∃ ids', Told x dn dq separator f ids fault r ids' c ∧ AllTold x dn dq separator f ids' cs rs
  | _, _, _ => False

end Verif.Spec
