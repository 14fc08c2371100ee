import Verif.Spec.Dokan
import Verif.Spec.Mount
/-!
# A volume that is mounted on Windows

What a program sees of a volume on Windows: files by path, with their attributes and contents. Files that are open are those that they were when they were opened; no request changes anything but
which are open. The texts of names in `View` are those of other systems, here they are a parameter.
-/
namespace Verif.Spec.Windows
open Verif Spec Dokan

/-! ## Names -/

/-- characters that names cannot have on Windows ("Naming Files, Paths, and Namespaces") -/
def Forbidden (u : Nat) : Prop := u < 0x20 ∨ u ∈ [0x22, 0x2a, 0x2f, 0x3a, 0x3c, 0x3e, 0x3f, 0x5c, 0x7c]

instance (u : Nat) : Decidable (Forbidden u) := inferInstanceAs (Decidable (_ ∨ _))

/-- value of a hexadecimal digit -/
def digit (u : Nat) : Option Nat :=
  if 0x30 ≤ u ∧ u ≤ 0x39 then some (u - 0x30) else if 0x61 ≤ u ∧ u ≤ 0x66 then some (u - 0x61 + 10) else if 0x41 ≤ u ∧ u ≤ 0x46 then some (u - 0x41 + 10) else none

/-- value of hexadecimal digits behind those with value `v` -/
def hexNumber : Nat → Wide → Option Nat
  | v, [] => some v
  | v, u :: us =>
    match digit u.toNat with
    | none => none
    | some d => hexNumber (v * 16 + d) us

/-- The text without escapes, in UTF-16. A caret starts an escape: `^^` is a caret, `^x` and two or `^U` and eight hexadecimal digits are the character with that number. -/
def unescape : Wide → Option Wide
  | [] => some []
  | u :: r =>
    if u ≠ 0x5e then (unescape r).map (u :: ·)
    else
      match r with
      | [] => none
      | k :: r =>
        if k = 0x5e then (unescape r).map (k :: ·)
        else if k = 0x78 then
          match r with
          | d1 :: d2 :: r => (hexNumber 0 [d1, d2]).bind fun v => (unescape r).map (Utf16.encodeChar v ++ ·)
          | _ => none
        else if k = 0x55 then
          match r with
          | d1 :: d2 :: d3 :: d4 :: d5 :: d6 :: d7 :: d8 :: r =>
            (hexNumber 0 [d1, d2, d3, d4, d5, d6, d7, d8]).bind fun v => (unescape r).map (Utf16.encodeChar v ++ ·)
          | _ => none
        else none

/-- names are shown without characters that names cannot have, and without escapes they are the names -/
structure ShownNames (text : List Nat → Wide) : Prop where
  nonempty : ∀ name, name ≠ [] → text name ≠ []
  allowed : ∀ name, (∀ c ∈ name, Scalar c ∧ c ≠ 0) → ∀ u ∈ text name, ¬ Forbidden u.toNat
  means : ∀ name, (∀ c ∈ name, Scalar c ∧ c ≠ 0) → unescape (text name) = some (Utf16.encode name)

/-! ## Attributes -/

/-- nanoseconds since 1970, in two's complement -/
def nanoseconds (stored : Nat) : Int := if stored < 2 ^ 63 then stored else stored - 2 ^ 64

/-- A FILETIME has whole intervals of 100 nanoseconds since 1601, 11644473600 seconds before 1970. -/
def FileTime (stored ft : Nat) : Prop := (ft : Int) * 100 ≤ nanoseconds stored + 11644473600 * 1000000000 ∧ nanoseconds stored + 11644473600 * 1000000000 < (ft : Int) * 100 + 100

instance (stored ft : Nat) : Decidable (FileTime stored ft) := inferInstanceAs (Decidable (_ ∧ _))

/-- the attributes of a file -/
structure InfoOf (v : VolumeFile) (i : Info) : Prop where
  size : v.stored.size? = some i.size
  directory : i.directory = true ↔ v.type = 4
  creation : FileTime v.fixed.created i.creation
  access : FileTime v.fixed.accessed i.access
  write : FileTime v.fixed.modified i.write

/-- times that fsapfsmount shows: not 1970-01-01 00:00:00 itself, and before 1970 only whole intervals -/
def TimeShown (stored : Nat) : Prop := stored ≠ 0 ∧ (stored < 2 ^ 63 ∨ nanoseconds stored % 100 = 0)

/-- The attributes of a file, but whether it is a directory only if it is a directory, a regular file, a symbolic link, a character device, a pipe or a white-out; times only if they can be shown, and
those of creation and modification only if they are the same. -/
structure InfoShown (v : VolumeFile) (i : Info) : Prop where
  size : v.stored.size? = some i.size
  directory : v.type ∈ [1, 2, 4, 8, 10, 14] → (i.directory = true ↔ v.type = 4)
  creation : v.fixed.created = v.fixed.modified → TimeShown v.fixed.created → FileTime v.fixed.created i.creation
  access : TimeShown v.fixed.accessed → FileTime v.fixed.accessed i.access
  write : v.fixed.created = v.fixed.modified → TimeShown v.fixed.modified → FileTime v.fixed.modified i.write

/-! ## Requests -/

/-- what has to be said about answers: attributes, those of `..` in the root directory, which names are listed, which access is writing, and whether
files that exist are opened when they would be created otherwise, in programs for Dokan before 0.8 and since -/
structure Terms where
  info : VolumeFile → Info → Prop
  rootParent : VolumeFile → Info → Prop
  listed : List Nat → Prop
  writing : Nat → Prop
  always : Bool → Prop

/-- Rights that allow to change a file: `GENERIC_WRITE`, `FILE_WRITE_DATA`, `FILE_APPEND_DATA`, `DELETE` (winnt.h). The right bits are independent. -/
def changes (access : Nat) : Prop := access / 0x40000000 % 2 ≠ 0 ∨ access / 2 % 2 ≠ 0 ∨ access / 4 % 2 ≠ 0 ∨ access / 0x10000 % 2 ≠ 0

/-- what Windows says of a volume that cannot be written: names of up to 255 characters are listed (and longer ones are not on a volume); a file that exists is opened -/
def Terms.windows : Terms where
  info := InfoOf
  rootParent := InfoOf
  listed _ := True
  writing := changes
  always _ := True

/-- what fsapfsmount does: names of up to 25 characters of UTF-16 are listed -/
def Terms.shown : Terms where
  info := InfoShown
  rootParent _ _ := True
  listed name := (Utf16.encode name).length ≤ 25
  writing access := access / 0x40000000 % 2 ≠ 0
  always old := old = false

/-- whether existing files are opened: `OPEN_EXISTING` is 3 before Dokan 0.8, and since `FILE_OPEN` is 1 -/
def opens (old : Bool) (disposition : Nat) : Prop := if old then disposition = 3 else disposition = 1

/-- whether existing files are opened and others created: `OPEN_ALWAYS` is 4 before Dokan 0.8, and since `FILE_OPEN_IF` is 3 -/
def opensOrCreates (old : Bool) (disposition : Nat) : Prop := if old then disposition = 4 else disposition = 3

/-- a path of names as they are shown; the root directory is a backslash -/
def pathOf (text : List Nat → Wide) (names : List (List Nat)) : Wide := if names = [] then [0x5c] else names.flatMap (fun n => 0x5c :: text n)

/-- a path leads to a file, or to none -/
def Path (V : View) (text : List Nat → Wide) (path : Wide) (t : Option Nat) : Prop :=
  ∃ names, path = pathOf text names ∧ path.length < 2 ^ 62 - 1 ∧ (∀ n ∈ names, Component V.format n) ∧ V.Leads 2 names t

/-- an entry in a listing; a short name is the name or missing -/
def Entry (T : Terms) (v : VolumeFile) (name : Wide) (f : Found) : Prop := f.name = name ∧ (f.short = [] ∨ f.short = name) ∧ T.info v f.info

/-- entries of a directory in a listing -/
inductive Listed (V : View) (text : List Nat → Wide) (T : Terms) : List DirEntry → List Found → Prop
  | nil : Listed V text T [] []
  | cons {e : DirEntry} {es : List DirEntry} {f : Found} {l : List Found} (h : Entry T (V.file e.identifier) (text e.name) f) (rest : Listed V text T es l) :
      Listed V text T (e :: es) (f :: l)

/-- A request with its answer: which files are open before and after, by number. -/
inductive Step (V : View) (text : List Nat → Wide) (old : Bool) (T : Terms) : List (Option Nat) → Request → Reply Answer → List (Option Nat) → Prop
  | create {hs path access disposition i} (hw : ¬ T.writing access) (hd : opens old disposition) (hp : Path V text path (some i)) :
      Step V text old T hs (.create path access disposition) (.value (.handle hs.length)) (hs ++ [some i])
  | createMissing {hs path access disposition} (hw : ¬ T.writing access) (hd : opens old disposition) (hp : Path V text path none) :
      Step V text old T hs (.create path access disposition) (.fails .notFound) hs
  | createWriting {hs path access disposition} (hw : T.writing access) : Step V text old T hs (.create path access disposition) (.fails .writeProtect) hs
  | createExisting {hs path access disposition i} (hw : ¬ T.writing access) (hd : opensOrCreates old disposition) (ha : T.always old) (hp : Path V text path (some i)) :
      Step V text old T hs (.create path access disposition) (.value (.handle hs.length)) (hs ++ [some i])
  | createRefused {hs path access disposition t e} (hw : ¬ T.writing access) (hd : opensOrCreates old disposition) (hp : Path V text path t) (ha : T.always old → t = none) :
      Step V text old T hs (.create path access disposition) (.fails e) hs
  | createOther {hs path access disposition e} (hw : ¬ T.writing access) (hd : ¬ opens old disposition) (ho : ¬ opensOrCreates old disposition) :
      Step V text old T hs (.create path access disposition) (.fails e) hs
  | openDirectory {hs path i} (hp : Path V text path (some i)) : Step V text old T hs (.openDirectory path) (.value (.handle hs.length)) (hs ++ [some i])
  | openDirectoryMissing {hs path} (hp : Path V text path none) : Step V text old T hs (.openDirectory path) (.fails .notFound) hs
  | read {hs n i size content} {offset : Nat} (hn : hs[n]? = some (some i)) (hsz : size < 2 ^ 31) (hc : (V.file i).content = some content) :
      Step V text old T hs (.read n size offset) (.value (.bytes ((content.drop offset).take size))) hs
  | readNegative {hs n i size content} {offset : Int} (hn : hs[n]? = some (some i)) (hsz : size < 2 ^ 31) (hc : (V.file i).content = some content) (ho : offset < 0) :
      Step V text old T hs (.read n size offset) (.fails .readFault) hs
  | readUnknown {hs n i size offset r} (hn : hs[n]? = some (some i)) (hc : (V.file i).content = none) : Step V text old T hs (.read n size offset) r hs
  | readLarge {hs n i size offset} (hn : hs[n]? = some (some i)) (hsz : 2 ^ 31 ≤ size) : Step V text old T hs (.read n size offset) (.fails .badArguments) hs
  | readClosed {hs n size offset} (hn : ∀ i, hs[n]? ≠ some (some i)) : Step V text old T hs (.read n size offset) (.fails .badArguments) hs
  | close {hs n} : Step V text old T hs (.close n) (.value .done) (hs.set n none)
  | find {hs path i f f' l} (hp : Path V text path (some i)) (hl : ∀ e ∈ V.dirs i, T.listed e.name) (hd : Entry T (V.file i) [0x2e] f)
      (hr : i = 2 → f'.name = [0x2e, 0x2e] ∧ T.rootParent (V.file 2) f'.info) (hpar : i ≠ 2 → Entry T (V.file (V.file i).fixed.parent) [0x2e, 0x2e] f') (hls : Listed V text T (V.dirs i) l) :
      Step V text old T hs (.find path) (.value (.found (f :: f' :: l))) hs
  | findUnlisted {hs path i e} (hp : Path V text path (some i)) (hl : ¬ ∀ e ∈ V.dirs i, T.listed e.name) : Step V text old T hs (.find path) (.fails e) hs
  | findMissing {hs path} (hp : Path V text path none) : Step V text old T hs (.find path) (.fails .notFound) hs
  | info {hs path i x} (hp : Path V text path (some i)) (hi : T.info (V.file i) x) : Step V text old T hs (.info path) (.value (.info x)) hs
  | infoMissing {hs path} (hp : Path V text path none) : Step V text old T hs (.info path) (.fails .notFound) hs
  | volume {hs n k v} (hro : v.flags / 0x80000 % 2 = 1) (hn : n > 7 → v.name ≠ none) : Step V text old T hs (.volume n k) (.value (.volume v)) hs
  | unmount {hs} : Step V text old T hs .unmount (.value .done) hs

/-- requests in a row with their answers -/
inductive Trace (V : View) (text : List Nat → Wide) (old : Bool) (T : Terms) : List (Option Nat) → List Request → List (Reply Answer) → Prop
  | nil {hs} : Trace V text old T hs [] []
  | cons {hs hs' r rs a as} (h : Step V text old T hs r a hs') (rest : Trace V text old T hs' rs as) : Trace V text old T hs (r :: rs) (a :: as)

/-- the path in a request -/
def path? : Request → Option Wide
  | .create p _ _ => some p
  | .openDirectory p => some p
  | .find p => some p
  | .info p => some p
  | _ => none

end Verif.Spec.Windows
