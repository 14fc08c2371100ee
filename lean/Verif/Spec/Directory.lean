import Verif.Spec.Records
import Verif.Spec.NameHash
import Verif.Spec.Utf
/-!
# Directories

The entries of a directory are directory records of the identifier of the directory. They are ordered by the hashes of their names, or by their names if the
volume has no name hashes. Names are stored in UTF-8 with an end-of-string character.
-/
namespace Verif.Spec
open Verif

structure DirEntry where
  name : List Nat
  identifier : Nat
  added : Nat
  flags : Nat
  fields : Option (List XField)

/-- features of a volume: name hashes are stored, names are case-insensitive -/
structure NameFormat where
  hashed : Bool
  caseInsensitive : Bool

def storedName (name : List Nat) : Bytes := Utf8.encode name ++ [0]

def hashOf (f : NameFormat) (name : List Nat) : Nat := if f.hashed then nameHash f.caseInsensitive name else 0

def DirEntry.record (f : NameFormat) (parent : Nat) (e : DirEntry) : Record :=
  (if f.hashed then drecHashedKey parent (hashOf f e.name) (storedName e.name) else drecKey parent (storedName e.name),
    drecValue e.identifier e.added e.flags e.fields)

structure DirEntry.Valid (e : DirEntry) : Prop where
  name : ∀ c ∈ e.name, Scalar c ∧ c ≠ 0
  size : (Utf8.encode e.name).length < 1023
  identifier : e.identifier < 2 ^ 64
  added : e.added < 2 ^ 64
  fields : ∀ l ∈ e.fields, l.length < 65536 ∧ ∀ x ∈ l, x.type = 1 ∧ x.value.length < 65536
  value : (drecValue e.identifier e.added e.flags e.fields).length < 2 ^ 63

/-- order of entries -/
def DirEntry.Before (f : NameFormat) (a b : DirEntry) : Prop :=
  hashOf f a.name < hashOf f b.name ∨
    (hashOf f a.name = hashOf f b.name ∧ nameKey Unicode.decomposition a.name < nameKey Unicode.decomposition b.name)

/-- names that are the same, character by character -/
def SameName (caseInsensitive : Bool) (a b : List Nat) : Prop :=
  if caseInsensitive then a.map caselessChar = b.map caselessChar else a.map Unicode.decomposition = b.map Unicode.decomposition

/-- the records of a volume have a directory with entries -/
structure Directory (rs : List Record) (f : NameFormat) (parent : Nat) (entries : List DirEntry) : Prop where
  inode : ∃ r ∈ rs, IsOf parent 3 r
  records : recordsOf rs parent 9 = entries.map (DirEntry.record f parent)
  valid : ∀ e ∈ entries, e.Valid
  ordered : entries.Pairwise (DirEntry.Before f)

end Verif.Spec
