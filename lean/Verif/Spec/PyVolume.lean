import Verif.Spec.Mount
import Verif.Spec.Path
/-!
# A volume in Python

What a Python program is told about a volume: files by path, by identifier and by name in a directory, each an object with the fields of its inode and of the directory entry by which it was found.
-/
namespace Verif.Spec.Py
open Verif

/-- numbers of a file; times are integers -/
inductive Field where
  | identifier
  | parent
  | created
  | modified
  | changed
  | accessed
  | added
  | links
  | owner
  | group
  | mode
deriving DecidableEq

/-- what a program asks for; objects are numbered in the order in which they are returned, strings are lists of code points -/
inductive Ask where
  | root
  | path (s : List Nat)
  | identifier (i : Int)
  | sub (k : Nat) (s : List Nat)
  | field (k : Nat) (f : Field)
  | name (k : Nat)
  | target (k : Nat)
  | size (k : Nat)
  | has (k : Nat) (name : List Nat)

/-- `nothing` is `None`, `object` a new object -/
inductive Reply where
  | int (i : Int)
  | text (s : List Nat)
  | bool (b : Bool)
  | nothing
  | object
  | raises
  | ub
deriving DecidableEq

/-- a file and the directory entry by which it was found -/
structure Seen where
  identifier : Nat
  entry : Option DirEntry

/-- two's complement -/
def signed (n : Nat) : Int := if n < 2 ^ 63 then n else (n : Int) - 2 ^ 64

/-- what there is to say about an identifier that no file has, and about the times of creation and modification -/
structure Terms where
  absent : Reply
  created : InodeFixed → Nat
  modified : InodeFixed → Nat

/-- the documentation of `get_file_entry_by_identifier` is "Object or None", pyfsapfs_volume.c 114 -/
def Terms.documented : Terms := { absent := .nothing, created := InodeFixed.created, modified := InodeFixed.modified }

/-- what happens -/
def Terms.shown : Terms := { absent := .raises, created := InodeFixed.modified, modified := InodeFixed.created }

/-- a field of a file -/
def value (T : Terms) (v : VolumeFile) (e : Option DirEntry) : Field → Reply
  | .identifier => .int v.identifier
  | .parent => .int v.fixed.parent
  | .created => .int (signed (T.created v.fixed))
  | .modified => .int (signed (T.modified v.fixed))
  | .changed => .int (signed v.fixed.changed)
  | .accessed => .int (signed v.fixed.accessed)
  | .added => match e with | some e => .int (signed e.added) | none => .nothing
  | .links => .int v.fixed.links
  | .owner => .int v.fixed.owner
  | .group => .int v.fixed.group
  | .mode => .int v.fixed.mode

/-- names that lead from a file to a file, or to none -/
inductive Walk (V : View) : Seen → List (List Nat) → Option Seen → Prop
  | here (x : Seen) : Walk V x [] (some x)
  | step {x : Seen} {e : DirEntry} {names : List (List Nat)} {t : Option Seen} (he : e ∈ V.dirs x.identifier) (rest : Walk V ⟨e.identifier, some e⟩ names t) : Walk V x (e.name :: names) t
  | missing {x : Seen} {name : List Nat} {names : List (List Nat)} (h : ∀ e ∈ V.dirs x.identifier, ¬ SameName V.format.caseInsensitive name e.name) : Walk V x (name :: names) none

/-- A string leads from a file to a file, or to none. A string of more than one byte is a path, with or without separators at its start and end; the separator and the empty string are the
starting point. -/
inductive Text (V : View) (x : Seen) : List Nat → Option Seen → Prop
  | path {names : List (List Nat)} {t : Option Seen} (leading trailing : Bool) (h0 : names ≠ []) (hn : ∀ n ∈ names, Component V.format n)
      (h1 : 2 ≤ (Utf8.encode (pathString 0x2f leading trailing names)).length) (h2 : (Utf8.encode (pathString 0x2f leading trailing names)).length < 2 ^ 63) (hw : Walk V x names t) :
      Text V x (pathString 0x2f leading trailing names) t
  | slash : Text V x [0x2f] (some ⟨x.identifier, none⟩)
  | empty : Text V x [] (some ⟨x.identifier, none⟩)

/-- a string that is not an argument: an end-of-string character or a surrogate is in it -/
def Refused (s : List Nat) : Prop := ∃ c ∈ s, ¬ Scalar c ∨ c = 0

/-- objects after a reply about which nothing is known -/
def unknown (hs : List (Option Seen)) : Reply → List (Option Seen)
  | .object => hs ++ [none]
  | _ => hs

/-- the answer to a lookup and the objects after it -/
def found (hs : List (Option Seen)) : Option Seen → Reply × List (Option Seen)
  | some x => (.object, hs ++ [some x])
  | none => (.nothing, hs)

/-- One request. `stored` are the identifiers of the files in the volume. -/
inductive Step (T : Terms) (V : View) (stored : Nat → Prop) (hs : List (Option Seen)) : Ask → Reply → List (Option Seen) → Prop
  | root : Step T V stored hs .root .object (hs ++ [some ⟨2, none⟩])
  | path {s : List Nat} {t : Option Seen} (h : Text V ⟨2, none⟩ s t) : Step T V stored hs (.path s) (found hs t).1 (found hs t).2
  | pathRefused {s : List Nat} (h : Refused s) : Step T V stored hs (.path s) .raises hs
  | identifier {i : Nat} (h : Reach V.dirs i) : Step T V stored hs (.identifier i) .object (hs ++ [some ⟨i, none⟩])
  | absent {i : Nat} (hi : i < 2 ^ 60) (h : ¬ stored i) : Step T V stored hs (.identifier i) T.absent hs
  | sub {k : Nat} {x : Seen} {s : List Nat} {t : Option Seen} (hk : hs[k]? = some (some x)) (h : Text V x s t) : Step T V stored hs (.sub k s) (found hs t).1 (found hs t).2
  | subRefused {k : Nat} {x : Seen} {s : List Nat} (hk : hs[k]? = some (some x)) (h : Refused s) : Step T V stored hs (.sub k s) .raises hs
  | field {k : Nat} {x : Seen} (f : Field) (hk : hs[k]? = some (some x)) : Step T V stored hs (.field k f) (value T (V.file x.identifier) x.entry f) hs
  | name {k : Nat} {x : Seen} (hk : hs[k]? = some (some x)) : Step T V stored hs (.name k) (.text ((x.entry.map (·.name)).getD (V.file x.identifier).name)) hs
  | target {k : Nat} {x : Seen} {target : List Nat} (hk : hs[k]? = some (some x)) (h : LinksTo (V.file x.identifier) target) : Step T V stored hs (.target k) (.text target) hs
  | targetNone {k : Nat} {x : Seen} (hk : hs[k]? = some (some x)) (h : (V.file x.identifier).stored.attribute? symlink = none) : Step T V stored hs (.target k) .nothing hs
  | targetOther {k : Nat} {x : Seen} {r : Reply} (hk : hs[k]? = some (some x)) (h : ∀ target, ¬ LinksTo (V.file x.identifier) target)
      (ha : (V.file x.identifier).stored.attribute? symlink ≠ none) (hr : r ≠ .object) : Step T V stored hs (.target k) r hs
  | size {k : Nat} {x : Seen} {n : Nat} (hk : hs[k]? = some (some x)) (h : (V.file x.identifier).stored.size? = some n) : Step T V stored hs (.size k) (.int n) hs
  | has {k : Nat} {x : Seen} {name : List Nat} (hk : hs[k]? = some (some x)) (h : ¬ Refused name) :
      Step T V stored hs (.has k name) (.bool ((V.file x.identifier).stored.attribute? (Utf8.encode name)).isSome) hs
  | hasRefused {k : Nat} {x : Seen} {name : List Nat} (hk : hs[k]? = some (some x)) (h : Refused name) : Step T V stored hs (.has k name) .raises hs
  /- nothing is said about other strings and identifiers, or about objects that came of them -/
  | otherPath {s : List Nat} {r : Reply} (h1 : ∀ t, ¬ Text V ⟨2, none⟩ s t) (h2 : ¬ Refused s) : Step T V stored hs (.path s) r (unknown hs r)
  | otherIdentifier {i : Int} {r : Reply} (h : ∀ n : Nat, i = n → ¬ Reach V.dirs n ∧ (n < 2 ^ 60 → stored n)) : Step T V stored hs (.identifier i) r (unknown hs r)
  | otherSub {k : Nat} {x : Seen} {s : List Nat} {r : Reply} (hk : hs[k]? = some (some x)) (h1 : ∀ t, ¬ Text V x s t) (h2 : ¬ Refused s) : Step T V stored hs (.sub k s) r (unknown hs r)
  | otherObject {k : Nat} {a : Ask} {r : Reply} (hk : ∀ x, hs[k]? ≠ some (some x)) (ha : (∃ s, a = .sub k s) ∨ (∃ f, a = .field k f) ∨ a = .name k ∨ a = .target k ∨ a = .size k ∨ ∃ n, a = .has k n) :
      Step T V stored hs a r (unknown hs r)

/-- requests in a row -/
inductive Trace (T : Terms) (V : View) (stored : Nat → Prop) : List (Option Seen) → List (Ask × Reply) → Prop
  | nil (hs : List (Option Seen)) : Trace T V stored hs []
  | cons {hs hs' : List (Option Seen)} {a : Ask} {r : Reply} {l : List (Ask × Reply)} (h : Step T V stored hs a r hs') (rest : Trace T V stored hs' l) : Trace T V stored hs ((a, r) :: l)

end Verif.Spec.Py
