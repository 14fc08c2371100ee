import Verif.Spec.Fuse
import Verif.Spec.Hierarchy
import Verif.Spec.InodeFixed
import Verif.Spec.FileInVolume
import Verif.Spec.Escape
/-!
# A mounted volume

What a program sees of a volume: files by path, with their attributes, contents, symbolic links and extended attributes. Files and directories that are open are those that they were when they
were opened; no request changes anything but which are open.
-/
namespace Verif.Spec
open Verif Fuse

/-- A file of a volume, which may be a directory: its inode, the name in it, its extended attributes, the size of its data stream, and its contents if they are known. -/
structure VolumeFile where
  identifier : Nat
  fixed : InodeFixed
  name : List Nat
  attributes : List XAttr
  size : Nat
  content : Option Bytes

/-- the flag for a sparse data stream is 0x200, APFS reference, "INODE_IS_SPARSE" -/
def VolumeFile.stored (v : VolumeFile) : StoredFile :=
  { identifier := v.identifier, attributes := v.attributes, size := v.size, sparse := decide (v.fixed.flags / 0x200 % 2 ≠ 0) }

/-- the inode record of a file: the name is in the extended field 4, the size in the extended field 8 -/
structure InodeRecord (r : Record) (v : VolumeFile) : Prop where
  key : r.1 = toLE 8 (3 * 2 ^ 60 + v.identifier)
  fits : v.fixed.Fits
  value : ∃ fields : Option (List XField), r.2 = inodeValue v.fixed.bytes fields ∧
    (∀ l ∈ fields, l.length < 65536 ∧ (∀ x ∈ l, InodeField x) ∧ l.Pairwise (fun x y => y.type ≠ x.type)) ∧ (inodeValue v.fixed.bytes fields).length < 2 ^ 63 ∧
    xvalue (fields.getD []) 4 = some (storedName v.name) ∧ ((xvalue (fields.getD []) 8).map (fun b => leNat (b.take 8))).getD 0 = v.size

/-- A time of POSIX: the nanoseconds are not negative. Nanoseconds since 1970 are stored in two's complement. -/
def PosixTime (stored : Nat) (p : Int × Int) : Prop :=
  p.1 * 1000000000 + p.2 = (if stored < 2 ^ 63 then (stored : Int) else stored - 2 ^ 64) ∧ 0 ≤ p.2 ∧ p.2 < 1000000000

/-- the attributes of a file -/
structure StatOf (v : VolumeFile) (s : Stat) : Prop where
  size : v.stored.size? = some s.size
  mode : s.mode = v.fixed.mode
  links : s.links = v.fixed.links
  access : PosixTime v.fixed.accessed s.access
  change : PosixTime v.fixed.changed s.change
  modification : PosixTime v.fixed.modified s.modification

/-- type of a file: 4 is a directory, 8 a regular file, 10 a symbolic link, 14 a white-out -/
def VolumeFile.type (v : VolumeFile) : Nat := v.fixed.mode / 0x1000

/-- The attributes of a file, but the number of links only if it is 2 for a directory and 1 for a regular file or symbolic link, times only after 1970, the time of modification only if it is that of
creation, and not the mode of a white-out. -/
structure StatShown (v : VolumeFile) (s : Stat) : Prop where
  size : v.stored.size? = some s.size
  mode : v.type ≠ 14 → s.mode = v.fixed.mode
  links : (v.type = 4 ∧ v.fixed.links = 2) ∨ ((v.type = 8 ∨ v.type = 10) ∧ v.fixed.links = 1) → s.links = v.fixed.links
  access : v.fixed.accessed < 2 ^ 63 → PosixTime v.fixed.accessed s.access
  change : v.fixed.changed < 2 ^ 63 → PosixTime v.fixed.changed s.change
  modification : v.fixed.modified = v.fixed.created → v.fixed.modified < 2 ^ 63 → PosixTime v.fixed.modified s.modification

/-- what has to be said about an answer: attributes, those of `..` in the root directory, answers for symbolic links and lists of extended attributes that do not fit in the buffer -/
structure Terms where
  stat : VolumeFile → Stat → Prop
  rootParent : VolumeFile → Stat → Prop
  shortLink : Bytes → Reply Answer → Prop
  shortList : Reply Answer → Prop

/-- what POSIX says: the parent of the root directory is the root directory, a symbolic link is truncated, a list is refused with ERANGE -/
def Terms.posix : Terms where
  stat := StatOf
  rootParent := StatOf
  shortLink b r := r = .value (.bytes b)
  shortList r := r = .fails .erange

/-- what fsapfsmount does -/
def Terms.shown : Terms where
  stat := StatShown
  rootParent _ _ := True
  shortLink _ r := r = .fails .eio
  shortList r := r = .fails .eio

/-- directories by identifier, files, and how the names are shown -/
structure View where
  format : NameFormat
  dirs : Nat → List DirEntry
  file : Nat → VolumeFile
  text : List Nat → Bytes

/-- names whose hash the library determines as specified (C03) -/
structure Findable (f : NameFormat) (name : List Nat) : Prop where
  tables : ∀ c ∈ name, excluded c = false
  order : InOrder (name.flatMap Unicode.decomposition)
  folded : f.caseInsensitive = true → InOrder (((name.flatMap Unicode.decomposition).flatMap Unicode.caseFolding).flatMap Unicode.decomposition)
  hash : f.hashed = true → hashOf f name ≠ 0

/-- a name in a path -/
structure Component (f : NameFormat) (name : List Nat) : Prop where
  nonempty : name ≠ []
  characters : ∀ c ∈ name, Scalar c ∧ c ≠ 0 ∧ c ≠ 0x2f
  findable : Findable f name

/-- names that lead from a directory to a file, or to none -/
inductive View.Leads (V : View) : Nat → List (List Nat) → Option Nat → Prop
  | here (i : Nat) : V.Leads i [] (some i)
  | step {i : Nat} {e : DirEntry} {names : List (List Nat)} {t : Option Nat} (he : e ∈ V.dirs i) (rest : V.Leads e.identifier names t) : V.Leads i (e.name :: names) t
  | missing {i : Nat} {name : List Nat} {names : List (List Nat)} (h : ∀ e ∈ V.dirs i, ¬ SameName V.format.caseInsensitive name e.name) : V.Leads i (name :: names) none

/-- a path of names as they are shown; the root directory is a slash -/
def View.pathOf (V : View) (names : List (List Nat)) : Bytes := if names = [] then [0x2f] else names.flatMap (fun n => 0x2f :: V.text n)

/-- a path leads to a file, or to none -/
def View.Path (V : View) (path : Bytes) (t : Option Nat) : Prop :=
  ∃ names, path = V.pathOf names ∧ path.length < 2 ^ 63 - 1 ∧ (∀ n ∈ names, Component V.format n) ∧ V.Leads 2 names t

/-- entries of a directory in a listing: names and attributes -/
inductive View.Listed (V : View) (T : Terms) : List DirEntry → List (Bytes × Stat) → Prop
  | nil : V.Listed T [] []
  | cons {e : DirEntry} {es : List DirEntry} {s : Stat} {l : List (Bytes × Stat)} (h : T.stat (V.file e.identifier) s) (rest : V.Listed T es l) :
      V.Listed T (e :: es) ((V.text e.name, s) :: l)

/-- the target of a symbolic link is stored with an end-of-string character -/
structure LinksTo (v : VolumeFile) (target : List Nat) : Prop where
  value : v.stored.attribute? symlink = some (storedName target)
  characters : ∀ c ∈ target, Scalar c ∧ c ≠ 0
  size : (storedName target).length ≤ 2 ^ 27

/-- names of extended attributes, each with an end-of-string character -/
def VolumeFile.names (v : VolumeFile) : Bytes := v.attributes.flatMap fun x => x.name ++ [0]

/-- A request with its answer: which files are open before and after, by number. `INT_MAX` is 2^31 - 1; `O_ACCMODE` is 3 and `O_RDONLY` 0. -/
inductive View.Step (V : View) (T : Terms) : List (Option Nat) → Request → Reply Answer → List (Option Nat) → Prop
  | getattr {hs path i s} (hp : V.Path path (some i)) (hst : T.stat (V.file i) s) : V.Step T hs (.getattr path) (.value (.stat s)) hs
  | getattrMissing {hs path} (hp : V.Path path none) : V.Step T hs (.getattr path) (.fails .enoent) hs
  | open_ {hs path flags i} (hf : flags % 4 = 0) (hp : V.Path path (some i)) : V.Step T hs (.open_ path flags) (.value (.handle hs.length)) (hs ++ [some i])
  | openMissing {hs path flags} (hf : flags % 4 = 0) (hp : V.Path path none) : V.Step T hs (.open_ path flags) (.fails .enoent) hs
  | openWrite {hs path flags} (hf : flags % 4 ≠ 0) : V.Step T hs (.open_ path flags) (.fails .eacces) hs
  | read {hs n i size content} {offset : Nat} (hn : hs[n]? = some (some i)) (hsz : size < 2 ^ 31) (hc : (V.file i).content = some content) :
      V.Step T hs (.read n size offset) (.value (.bytes ((content.drop offset).take size))) hs
  | readNegative {hs n i size content} {offset : Int} (hn : hs[n]? = some (some i)) (hsz : size < 2 ^ 31) (hc : (V.file i).content = some content) (ho : offset < 0) :
      V.Step T hs (.read n size offset) (.fails .eio) hs
  | readUnknown {hs n i size offset r} (hn : hs[n]? = some (some i)) (hc : (V.file i).content = none) : V.Step T hs (.read n size offset) r hs
  | readLarge {hs n i size offset} (hn : hs[n]? = some (some i)) (hsz : 2 ^ 31 ≤ size) : V.Step T hs (.read n size offset) (.fails .einval) hs
  | readClosed {hs n size offset} (hn : ∀ i, hs[n]? ≠ some (some i)) : V.Step T hs (.read n size offset) (.fails .einval) hs
  | release {hs n} : V.Step T hs (.release n) (.value .done) (hs.set n none)
  | opendir {hs path i} (hp : V.Path path (some i)) : V.Step T hs (.opendir path) (.value (.handle hs.length)) (hs ++ [some i])
  | opendirMissing {hs path} (hp : V.Path path none) : V.Step T hs (.opendir path) (.fails .enoent) hs
  | readdir {hs n i s s' l} (hn : hs[n]? = some (some i)) (hd : T.stat (V.file i) s) (hr : i = 2 → T.rootParent (V.file 2) s')
      (hp : i ≠ 2 → T.stat (V.file (V.file i).fixed.parent) s') (hl : V.Listed T (V.dirs i) l) :
      V.Step T hs (.readdir n) (.value (.names (([0x2e], s) :: ([0x2e, 0x2e], s') :: l))) hs
  | readdirClosed {hs n} (hn : ∀ i, hs[n]? ≠ some (some i)) : V.Step T hs (.readdir n) (.fails .einval) hs
  | releasedir {hs n} : V.Step T hs (.releasedir n) (.value .done) (hs.set n none)
  | readlink {hs path i target size} (hp : V.Path path (some i)) (ht : LinksTo (V.file i) target) (hsz : (storedName target).length ≤ size) :
      V.Step T hs (.readlink path size) (.value (.bytes (Utf8.encode target))) hs
  | readlinkShort {hs path i target size r} (hp : V.Path path (some i)) (ht : LinksTo (V.file i) target) (hsz : size < (storedName target).length)
      (hr : T.shortLink ((Utf8.encode target).take (size - 1)) r) : V.Step T hs (.readlink path size) r hs
  | readlinkOther {hs path i size r} (hp : V.Path path (some i)) (ht : ∀ target, ¬ LinksTo (V.file i) target) (h : (V.file i).stored.attribute? symlink ≠ none) :
      V.Step T hs (.readlink path size) r hs
  | readlinkNone {hs path i size e} (hp : V.Path path (some i)) (h : (V.file i).stored.attribute? symlink = none) : V.Step T hs (.readlink path size) (.fails e) hs
  | readlinkMissing {hs path size} (hp : V.Path path none) : V.Step T hs (.readlink path size) (.fails .enoent) hs
  | getxattr {hs path i name size value} (hp : V.Path path (some i)) (hv : (V.file i).stored.attribute? name = some value) (h0 : 0 < size) (hsz : value.length ≤ size)
      (hm : size < 2 ^ 31) : V.Step T hs (.getxattr path name size) (.value (.value (.bytes value))) hs
  | getxattrSize {hs path i name value} (hp : V.Path path (some i)) (hv : (V.file i).stored.attribute? name = some value) (hm : value.length < 2 ^ 31) :
      V.Step T hs (.getxattr path name 0) (.value (.value (.needs value.length))) hs
  | getxattrShort {hs path i name size value} (hp : V.Path path (some i)) (hv : (V.file i).stored.attribute? name = some value) (h0 : 0 < size) (hsz : size < value.length)
      (hm : value.length < 2 ^ 31) : V.Step T hs (.getxattr path name size) (.fails .erange) hs
  | getxattrHuge {hs path i name size value} (hp : V.Path path (some i)) (hv : (V.file i).stored.attribute? name = some value) (hsz : size < 2 ^ 31) (hm : 2 ^ 31 ≤ value.length) :
      V.Step T hs (.getxattr path name size) (.fails .e2big) hs
  | getxattrNone {hs path i name size} (hp : V.Path path (some i)) (hv : (V.file i).stored.attribute? name = none) (hsz : size < 2 ^ 31) :
      V.Step T hs (.getxattr path name size) (.fails .enodata) hs
  | getxattrMissing {hs path name size} (hp : V.Path path none) (hsz : size < 2 ^ 31) : V.Step T hs (.getxattr path name size) (.fails .enoent) hs
  | getxattrLarge {hs path name size} (hsz : 2 ^ 31 ≤ size) : V.Step T hs (.getxattr path name size) (.fails .einval) hs
  | listxattr {hs path i size} (hp : V.Path path (some i)) (h0 : 0 < size) (hsz : (V.file i).names.length ≤ size) (hm : size < 2 ^ 31) :
      V.Step T hs (.listxattr path size) (.value (.value (.bytes (V.file i).names))) hs
  | listxattrSize {hs path i} (hp : V.Path path (some i)) : V.Step T hs (.listxattr path 0) (.value (.value (.needs (V.file i).names.length))) hs
  | listxattrShort {hs path i size r} (hp : V.Path path (some i)) (h0 : 0 < size) (hsz : size < (V.file i).names.length) (hm : size < 2 ^ 31) (hr : T.shortList r) :
      V.Step T hs (.listxattr path size) r hs
  | listxattrMissing {hs path size} (hp : V.Path path none) (hsz : size < 2 ^ 31) : V.Step T hs (.listxattr path size) (.fails .enoent) hs
  | listxattrLarge {hs path size} (hsz : 2 ^ 31 ≤ size) : V.Step T hs (.listxattr path size) (.fails .einval) hs

/-- requests in a row with their answers -/
inductive View.Trace (V : View) (T : Terms) : List (Option Nat) → List Request → List (Reply Answer) → Prop
  | nil {hs} : V.Trace T hs [] []
  | cons {hs hs' r rs a as} (h : V.Step T hs r a hs') (rest : V.Trace T hs' rs as) : V.Trace T hs (r :: rs) (a :: as)

/-- names are shown without slashes and end-of-string characters, and without escapes they are the names -/
structure ShownNames (text : List Nat → Bytes) : Prop where
  nonempty : ∀ name, name ≠ [] → text name ≠ []
  slash : ∀ name, (∀ c ∈ name, Scalar c ∧ c ≠ 0) → (0x2f : UInt8) ∉ text name
  zero : ∀ name, (∀ c ∈ name, Scalar c ∧ c ≠ 0) → (0 : UInt8) ∉ text name
  means : ∀ name, (∀ c ∈ name, Scalar c ∧ c ≠ 0) → Escape.unescape (text name) = some (Utf8.encode name)

end Verif.Spec
