import Verif.Spec.Directory
/-!
# Hierarchies of files

The files of a volume are reached by entries of directories, each entry in the directory that the entry before it leads to. `dirs` are the entries of each directory.
-/
namespace Verif.Spec
open Verif

/-- entries, one inside the other, the first one in a directory -/
inductive Chain (dirs : Nat → List DirEntry) : Nat → List DirEntry → Prop
  | here (i : Nat) : Chain dirs i []
  | step {i : Nat} {e : DirEntry} {es : List DirEntry} (he : e ∈ dirs i) (rest : Chain dirs e.identifier es) : Chain dirs i (e :: es)

/-- the directories and files below the root directory, which has the identifier 2 -/
inductive Reach (dirs : Nat → List DirEntry) : Nat → Prop
  | root : Reach dirs 2
  | step {i : Nat} {e : DirEntry} (h : Reach dirs i) (he : e ∈ dirs i) : Reach dirs e.identifier

/-- everything inside a directory up to a number of levels, in the order of a listing: an entry is followed by what is inside it -/
def paths (dirs : Nat → List DirEntry) : Nat → Nat → List (List DirEntry)
  | 0, _ => []
  | levels + 1, i => (dirs i).flatMap fun e => [e] :: (paths dirs levels e.identifier).map (e :: ·)

/-- the records of a volume have the directories, and entries have names -/
structure FileHierarchy (rs : List Record) (f : NameFormat) (dirs : Nat → List DirEntry) : Prop where
  directory : ∀ i, Reach dirs i → Directory rs f i (dirs i)
  named : ∀ i, Reach dirs i → ∀ e ∈ dirs i, e.name ≠ []

/-- each identifier has at most one inode, inodes can be read, and there are no records of other kinds in front of them -/
structure Inodes (rs : List Record) (read : Record → Prop) : Prop where
  one : ∀ i, rs.Pairwise (fun a b => ¬ (IsOf i 3 a ∧ IsOf i 3 b))
  readable : ∀ r ∈ rs, fsType r.1 = 3 → read r
  types : ∀ r ∈ rs, 3 ≤ fsType r.1

/-- the text of a path below a directory: names with a slash in front of all but the first -/
def pathText : List DirEntry → List Nat
  | [] => []
  | e :: es =>
    match es with
    | [] => e.name
    | e' :: es => e.name ++ 0x2f :: pathText (e' :: es)

end Verif.Spec
