import Verif.Spec.Mount
import Verif.Spec.Digest
/-!
# Bodyfiles of a volume

A bodyfile (The Sleuth Kit, version 3) has one line for each file: `MD5|name|inode|mode|UID|GID|size|atime|mtime|ctime|crtime`.
-/
namespace Verif.Spec.Bodyfile
open Verif Spec

/-- two lists of the same length, whose elements in the same place belong together -/
inductive Each {α β : Type} (R : α → β → Prop) : List α → List β → Prop
  | nil : Each R [] []
  | cons {a : α} {b : β} {as : List α} {bs : List β} (h : R a b) (rest : Each R as bs) : Each R (a :: as) (b :: bs)

/-- the file that a path below the root directory leads to -/
def endOf (p : List DirEntry) : Nat := (p.getLast?.map (·.identifier)).getD 2

/-- the first column: the digest of a regular file, otherwise zeros; without digests one zero -/
def Column (digest : Option (Bytes → Bytes)) (v : VolumeFile) (md5 : Bytes) : Prop :=
  match digest with
  | none => md5 = [0x30]
  | some d => if v.type = 8 then ∃ content, v.content = some content ∧ Digest.Shows md5 (d content) else md5 = List.replicate 32 0x30

/-- the second column without escapes: the path, and for a symbolic link an arrow and the target -/
def NameOf (v : VolumeFile) (path text : Bytes) : Prop :=
  (v.stored.attribute? symlink = none → text = path) ∧ ∀ target, LinksTo v target → text = path ++ [0x20, 0x2d, 0x3e, 0x20] ++ Utf8.encode target

/-- a time after 1970 -/
def TimeIs (stored : Nat) (column : Bytes) : Prop := stored < 2 ^ 63 → Escape.time column = some (stored : Int)

/-- A line for a file with the times of modification and creation. Times before 1970 are left out. -/
def LineFor (digest : Option (Bytes → Bytes)) (modification creation : VolumeFile → Nat) (v : VolumeFile) (path line : Bytes) : Prop :=
  ∃ md5 text inode mode owner group size atime mtime ctime crtime name n,
    Escape.fields line = [md5, text, inode, mode, owner, group, size, atime, mtime, ctime, crtime] ∧
    Column digest v md5 ∧ Escape.unescape text = some name ∧ NameOf v path name ∧
    Escape.number inode = some v.identifier ∧ mode.map (fun b => Char.ofNat b.toNat) = Escape.modeLetters v.fixed.mode ∧
    Escape.number owner = some v.fixed.owner ∧ Escape.number group = some v.fixed.group ∧ v.stored.size? = some n ∧ Escape.number size = some n ∧
    TimeIs v.fixed.accessed atime ∧ TimeIs (modification v) mtime ∧ TimeIs v.fixed.changed ctime ∧ TimeIs (creation v) crtime

/-- the targets of symbolic links of a volume can be shown without escapes -/
def PlainTargets (V : View) : Prop :=
  ∀ i, Reach V.dirs i → (V.file i).stored.attribute? symlink = none ∨ ∃ target, LinksTo (V.file i) target ∧ ∀ b ∈ Utf8.encode target, b ≠ 0x0a ∧ b ≠ 0x5c ∧ b ≠ 0x7c

/-- the contents of regular files are known, if their digests are needed -/
def Known (digest : Option (Bytes → Bytes)) (V : View) : Prop := digest ≠ none → ∀ i, Reach V.dirs i → (V.file i).type = 8 → (V.file i).content ≠ none

end Verif.Spec.Bodyfile
