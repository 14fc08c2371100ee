import Verif.Props.C73Limits
import Verif.Props.C56Examples
/-!
# C73 A volume mounted on Windows: examples

The volume of the examples for C56, and one with a block device that has a name of 26 characters.
-/
namespace Verif.Props
open Verif Res Spec BTree FsTree FileRead
open Verif.PathString (utf8Codec lawful_utf8Codec)
open Verif.PathWindows (Wide utf16Codec lawful_utf16Codec)
open Verif.Mount (Mounted)
open Verif.Dokan (Windows)
open Verif.Spec.Dokan (Reply Info Found Request Answer)
open Verif.Spec.Windows (InfoOf TimeShown)
open Verif.NameLookup.DirectoryExample (entry docs readme valid_entry)
open Verif.FsTree.TreeExample (key)
open HierarchyExample (una readsNames leafStorage leafTree plain)

namespace WindowsExample

/-- characters up to the end-of-string character in UTF-16 -/
def units : Nat → Bytes → Wide
  | 0, _ => []
  | n + 1, b =>
    match utf8Codec.decoder.next b with
    | none => []
    | some (c, r) => if c = 0 then [] else Utf16.encodeChar c ++ units n r

theorem units_stored : ∀ (name : List Nat) (n : Nat), (∀ c ∈ name, Scalar c ∧ c ≠ 0) → name.length < n → units n (Utf8.encode name ++ [0]) = Utf16.encode name
  | [], n + 1, _, _ => by
    have h := lawful_utf8Codec.reads 0 (by decide) []
    have h : utf8Codec.decoder.next [0] = some (0, []) := by simpa [Utf8.encodeChar] using h
    simp [units, Utf8.encode, Utf16.encode, h]
  | c :: cs, n + 1, hc, hn => by
    have h := lawful_utf8Codec.reads c (hc c (by simp)).1 (Utf8.encode cs ++ [0])
    have ih := units_stored cs n (fun c h => hc c (List.mem_cons_of_mem _ h)) (by simpa using hn)
    rw [show Utf8.encode (c :: cs) ++ [0] = Utf8.encodeChar c ++ (Utf8.encode cs ++ [0]) by simp [Utf8.encode]]
    unfold units
    rw [h]
    simp only
    rw [if_neg (hc c (by simp)).2, ih]
    simp [Utf16.encode]

def windows (m : Mounted) (old longPaths : Bool) : Windows := { base := m, wide := utf16Codec, names := fun b => ok (units b.length b), old, longPaths }

theorem wideLibraries {m : Mounted} (h : Libraries m) (old longPaths : Bool) : WideLibraries (windows m old longPaths) := by
  refine ⟨h, lawful_utf16Codec, fun _ => rfl, fun name hn => ?_⟩
  show ok (units (storedName name).length (storedName name)) = _
  unfold storedName
  rw [units_stored name _ hn]
  have := PathString.encode_length name
  simp only [List.length_append, List.length_singleton]
  omega

open MountExample (view mounted libraries mounts component dirs slash)

/-- `\Docs\readme` -/
theorem readmePath : Spec.Windows.Path view wideName (0x5c :: wideName docs ++ 0x5c :: wideName readme) (some 7) :=
  ⟨[docs, readme], by simp [Spec.Windows.pathOf], by decide +kernel, fun n hn => component (by simp at hn; simp [hn]),
    .step (e := entry docs 5) (by simp [MountExample.view, dirs]) (.step (e := entry readme 7) (by simp [MountExample.view, dirs, entry]) (.here 7))⟩

/-- `\Docs` -/
theorem docsPath : Spec.Windows.Path view wideName (0x5c :: wideName docs) (some 5) :=
  ⟨[docs], by simp [Spec.Windows.pathOf], by decide +kernel, fun n hn => component (by simp at hn; simp [hn]), .step (e := entry docs 5) (by simp [MountExample.view, dirs]) (.here 5)⟩

/-- `\readme` -/
theorem noPath : Spec.Windows.Path view wideName (0x5c :: wideName readme) none :=
  ⟨[readme], by simp [Spec.Windows.pathOf], by decide +kernel, fun n hn => component (by simp at hn; simp [hn]),
    .missing (i := 2) (show ∀ e ∈ dirs 2, ¬ SameName false readme e.name by unfold SameName; decide +kernel)⟩

/-- the root directory -/
theorem rootPath (V : View) : Spec.Windows.Path V wideName [0x5c] (some 2) := ⟨[], rfl, by decide, by simp, .here 2⟩

/-- a program lists directories, reads a file and asks for one that is missing -/
def requests : List Request := [.volume 20 20, .openDirectory (0x5c :: wideName docs), .find (0x5c :: wideName docs), .close 0, .find [0x5c], .info (0x5c :: wideName docs ++ 0x5c :: wideName readme),
  .create (0x5c :: wideName docs ++ 0x5c :: wideName readme) 1 1, .read 1 4096 3, .read 1 4 0, .close 1, .read 1 4 0, .create (0x5c :: wideName readme) 1 1, .info (0x5c :: wideName readme), .unmount]

theorem asked : ∀ r ∈ requests, WideAsked view r := by
  intro r hr p hp
  have : ∀ r ∈ requests, ∀ p, Spec.Windows.path? r = some p → p ∈ [[0x5c], 0x5c :: wideName docs, 0x5c :: wideName docs ++ 0x5c :: wideName readme, 0x5c :: wideName readme] := by
    intro r hr p hp
    simp only [requests, List.mem_cons, List.not_mem_nil, or_false] at hr
    rcases hr with rfl | rfl | rfl | rfl | rfl | rfl | rfl | rfl | rfl | rfl | rfl | rfl | rfl | rfl <;>
      first | (cases hp; done) | (have := Option.some.inj hp; subst this; simp)
  have := this r hr p hp
  simp only [List.mem_cons, List.not_mem_nil, or_false] at this
  rcases this with rfl | rfl | rfl | rfl
  · exact ⟨_, rootPath view⟩
  · exact ⟨_, docsPath⟩
  · exact ⟨_, readmePath⟩
  · exact ⟨_, noPath⟩

/-- `c73_session_partial` for these requests -/
example : Spec.Windows.Trace view wideName false Spec.Windows.Terms.shown [] requests (Dokan.serveAll (windows mounted false false) requests []).1 :=
  c73_session_partial.2 (windows mounted false false) (wideLibraries libraries _ _) rfl _ _ _ _ _ view mounts requests asked

theorem short : ∀ e ∈ view.dirs 2, (Utf16.encode e.name).length ≤ 25 := show ∀ e ∈ dirs 2, (Utf16.encode e.name).length ≤ 25 by decide

example := c73_exchanged (wideLibraries libraries false false) mounts readmePath (show TimeShown 1000000007 by unfold TimeShown; decide) (show TimeShown 2000000009 by unfold TimeShown; decide)
example : (view.file 7).fixed.created + 100 ≤ (view.file 7).fixed.modified ∧ (view.file 7).fixed.modified < 2 ^ 63 := by decide
example := c73_root_parent (wideLibraries libraries false false) mounts rfl short
example := c73_open_always (wideLibraries libraries true false) mounts rfl readmePath 1 (by unfold Spec.Windows.changes; decide)
example := c73_write_data (wideLibraries libraries false false) mounts rfl readmePath

/-- the file "a/b" is listed and not found -/
example : Dokan.openAt (windows mounted false false) (0x5c :: wideName slash) = .fails .notFound := by
  have h1 : ∀ n ∈ ([[0x61], [0x62]] : List (List Nat)), (n ≠ [] ∧ ∀ c ∈ n, Scalar c ∧ c ≠ 0 ∧ c ≠ 0x2f) ∧ (∀ c ∈ n, excluded c = false) ∧ InOrder (n.flatMap Unicode.decomposition) := by decide +kernel
  have hc : ∀ n ∈ ([[0x61], [0x62]] : List (List Nat)), Component plain n := fun n hn => ⟨(h1 n hn).1.1, (h1 n hn).1.2, (h1 n hn).2.1, (h1 n hn).2.2, fun h => (by cases h), fun h => (by cases h)⟩
  exact (c73_slash_missing (wideLibraries libraries false false) mounts rfl short (e := entry slash 9) (a := [0x61]) (b := [0x62]) (by simp [MountExample.view, dirs]) rfl (hc _ (by simp)) (hc _ (by simp))
    (.missing (i := 2) (show ∀ e ∈ dirs 2, ¬ SameName false [0x61] e.name by unfold SameName; decide +kernel)) (by decide +kernel)).2

end WindowsExample

/-! ## a device with a long name -/
namespace DeviceExample
open MountExample (fieldsOf inodeOf)

/-- 26 times "a" -/
def long : List Nat := List.replicate 26 0x61

def dirs : Nat → List DirEntry
  | 2 => [entry docs 5, entry long 9]
  | _ => []

/-- the device was accessed at the beginning of 1970, the file shortly before -/
def fixed (i mode accessed : Nat) : InodeFixed :=
  { parent := if i = 2 then 1 else 2, dataStream := i, created := 7000, modified := 7000, changed := 7000, accessed, flags := 0, links := 1, protectionClass := 0, generation := 0,
    bsdFlags := 0, owner := 0, group := 0, mode, padding := List.replicate 10 0 }

def root : VolumeFile := { identifier := 2, fixed := fixed 2 0x41ed 7000, name := [0x72, 0x6f, 0x6f, 0x74], attributes := [], size := 0, content := none }
def file : VolumeFile := { identifier := 5, fixed := fixed 5 0x81a4 (2 ^ 64 - 1), name := docs, attributes := [], size := 0, content := none }
def device : VolumeFile := { identifier := 9, fixed := fixed 9 0x61a4 0, name := long, attributes := [], size := 0, content := none }

def view : View where
  format := plain
  dirs := dirs
  file i := if i = 2 then root else if i = 5 then file else device
  text := shownName

def records : List Record := [inodeOf root, (entry docs 5).record plain 2, (entry long 9).record plain 2, inodeOf file, inodeOf device]

def image (_ : Nat) : Option Bytes := none

def mounted : Mounted where
  files := { disk := fun _ _ => err, xts := none, tree := volumeOf (leafStorage records), xid := 9, folding := false }
  text := utf8Codec
  una := una
  compare := FileExample.compare
  unpack := FileExample.codec
  junk := List.replicate 65536 0

theorem libraries : Libraries mounted := ⟨lawful_utf8Codec, fun _ => rfl, readsNames, FileExample.codec_ok, List.length_replicate⟩

theorem serves : Serves mounted.files (leafStorage records) 9 image none := ⟨rfl, rfl, rfl, nofun, nofun, fun _ h => nomatch h⟩

theorem holds : FsHolds (leafStorage records) 9 records := by
  refine ⟨⟨_, leafTree _, VolumeExample.fsLeaf records, ⟨(by decide), rfl, ⟨by decide +kernel, by decide +kernel, by decide +kernel, by decide +kernel, by decide +kernel, by decide +kernel, by decide +kernel, by decide +kernel⟩,
    by decide +kernel, by decide +kernel, by decide +kernel, by decide +kernel, by decide +kernel⟩, .inl (by decide +kernel)⟩, by decide +kernel, ?_⟩
  unfold fsLe
  decide +kernel

theorem reach {i : Nat} (h : Reach dirs i) : i ∈ [2, 5, 9] := by
  induction h with
  | root => decide
  | step h he ih =>
    simp only [List.mem_cons, List.not_mem_nil, or_false] at ih
    rcases ih with rfl | rfl | rfl
    · simp only [dirs, List.mem_cons, List.not_mem_nil, or_false] at he
      rcases he with rfl | rfl <;> decide
    · cases he
    · cases he

theorem valid {i : Nat} {e : DirEntry} (h : e ∈ dirs i) : e.Valid ∧ e.name ≠ [] := by
  unfold dirs at h
  split at h
  · simp only [List.mem_cons, List.not_mem_nil, or_false] at h
    rcases h with rfl | rfl
    · exact ⟨valid_entry docs 5 (by decide) (by decide) (by decide) (by decide), by decide⟩
    · exact ⟨valid_entry long 9 (by decide) (by decide) (by decide) (by decide), by decide⟩
  · cases h

theorem hierarchy : FileHierarchy records plain dirs := by
  refine ⟨fun i hr => ?_, fun i _ e he => (valid he).2⟩
  have hi := reach hr
  have h1 : ∀ i ∈ [2, 5, 9], (∃ r ∈ records, IsOf i 3 r) ∧ recordsOf records i 9 = (dirs i).map (DirEntry.record plain i) := by decide +kernel
  have h2 : ∀ i ∈ [2, 5, 9], (dirs i).Pairwise (DirEntry.Before plain) := by unfold DirEntry.Before; decide +kernel
  exact ⟨(h1 i hi).1, (h1 i hi).2, fun e he => (valid he).1, h2 i hi⟩

theorem findable {name : List Nat} (h : name ∈ [docs, long]) : Findable plain name := by
  have h1 : ∀ name ∈ [docs, long], (∀ c ∈ name, excluded c = false) ∧ InOrder (name.flatMap Unicode.decomposition) := by decide +kernel
  exact ⟨(h1 name h).1, (h1 name h).2, fun h => (by cases h), fun h => (by cases h)⟩

/-- what is to be checked of a file: its inode is there and is the only one -/
theorem facts : ∀ i ∈ [2, 5, 9], (view.file i).identifier = i ∧ (i ≠ 2 → 2 < i) ∧ inodeOf (view.file i) ∈ records ∧
    records.Pairwise (fun a b => ¬ (IsOf i 3 a ∧ IsOf i 3 b)) ∧ recordsOf records i 4 = [] ∧ recordsOf records i 8 = [] ∧ (view.file i).stored.size? = some (view.file i).size ∧ (view.file i).size < 2 ^ 63 ∧
    (view.file i).stored.sparse = false ∧ (view.file i).name ≠ [] ∧ (∀ x ∈ (view.file i).name, Scalar x ∧ x ≠ 0) ∧ (Utf8.encode (view.file i).name).length < 65535 ∧ (view.file i).fixed.dataStream = i := by
  decide +kernel

theorem fits : ∀ i ∈ [2, 5, 9], (view.file i).fixed.Fits := by
  intro i hi
  simp only [List.mem_cons, List.not_mem_nil, or_false] at hi
  rcases hi with rfl | rfl | rfl <;> exact ⟨by decide, by decide, by decide, by decide, by decide, by decide, by decide, by decide, by decide, by decide, by decide, by decide⟩

theorem fields_ok : ∀ i ∈ [2, 5, 9], (∀ x ∈ fieldsOf (view.file i), InodeField x) ∧ (fieldsOf (view.file i)).Pairwise (fun x y => y.type ≠ x.type) ∧
    (inodeValue (view.file i).fixed.bytes (some (fieldsOf (view.file i)))).length < 2 ^ 63 ∧ (view.file i).fixed.bytes.length = 92 ∧
    xvalue (fieldsOf (view.file i)) 4 = some (storedName (view.file i).name) ∧ ((xvalue (fieldsOf (view.file i)) 8).map (fun b => leNat (b.take 8))).getD 0 = (view.file i).size ∧
    field (view.file i).fixed.bytes 8 8 = (view.file i).fixed.dataStream ∧ field (view.file i).fixed.bytes 48 8 = 0 := by unfold InodeField; decide +kernel

theorem attributes_nil {i : Nat} (hi : i ∈ [2, 5, 9]) : (view.file i).attributes = [] := by
  simp only [List.mem_cons, List.not_mem_nil, or_false] at hi
  rcases hi with rfl | rfl | rfl <;> rfl

theorem fileIn {i : Nat} (hi : i ∈ [2, 5, 9]) : FileIn records image none (view.file i).stored (view.file i).fixed.dataStream := by
  obtain ⟨f1, f2, f3, f4, f5, f6, f7, f8, f9, _, _, _, f13⟩ := facts i hi
  obtain ⟨g1, g2, g3, g4, g5, g6, g7, g8⟩ := fields_ok i hi
  have hb : 2 ≤ i ∧ i < 2 ^ 60 := (show ∀ i ∈ [2, 5, 9], 2 ≤ i ∧ i < 2 ^ 60 by decide) i hi
  have hx : (view.file i).stored.attributes = [] := attributes_nil hi
  refine ⟨⟨fun x h => (by rw [hx] at h; cases h), by rw [hx]; exact .nil, by have : (view.file i).stored.size = (view.file i).size := rfl; omega⟩, by show (view.file i).identifier < _; rw [f1]; exact hb.2,
    ⟨_, f3, ⟨?_, _, some (fieldsOf (view.file i)), rfl, g4, ?_, g3, g7, ?_, g6⟩⟩, ?_, ?_, ?_, ?_⟩
  · show key 3 (view.file i).identifier [] = _
    unfold key
    rw [List.append_nil]
    rfl
  · intro l hl
    rw [Option.mem_some_iff] at hl
    subst hl
    exact ⟨(by show 2 < _; decide), g1, g2⟩
  · rw [f9, g8]
    decide
  · show records.Pairwise (fun a b => ¬ (IsOf (view.file i).identifier 3 a ∧ IsOf (view.file i).identifier 3 b))
    rw [f1]
    exact f4
  · rw [hx]
    show recordsOf records (view.file i).identifier 4 = _
    rw [f1]
    exact f5
  · intro x h
    rw [hx] at h
    cases h
  · rw [f13, f9]
    exact ⟨[], hb.1, hb.2, [], fun _ _ => [], f6, by simp, trivial, by decide, by simp, by simp, by simp⟩

theorem has : VolumeHas mounted.unpack records image none view where
  hierarchy := hierarchy
  unique i hr := (show ∀ i ∈ [2, 5, 9], (dirs i).Pairwise (fun a b => ¬ SameName false a.name b.name) by unfold SameName; decide +kernel) i (reach hr)
  findable i hr e he := findable ((show ∀ i ∈ [2, 5, 9], ∀ e ∈ dirs i, e.name ∈ [docs, long] by decide) i (reach hr) e he)
  types := by decide +kernel
  identifier i hr := (facts i (reach hr)).1
  reserved i hr := (facts i (reach hr)).2.1
  parent i hr h2 := by
    have hr := reach hr
    simp only [List.mem_cons, List.not_mem_nil, or_false] at hr
    rcases hr with rfl | rfl | rfl
    · exact absurd rfl h2
    · exact .root
    · exact .root
  inode i hr := by
    obtain ⟨g1, g2, g3, g4, g5, g6, g7, g8⟩ := fields_ok i (reach hr)
    refine ⟨_, (facts i (reach hr)).2.2.1, ?_, fits i (reach hr), some (fieldsOf (view.file i)), rfl, ?_, g3, g5, g6⟩
    · show key 3 (view.file i).identifier [] = _
      unfold key
      rw [List.append_nil]
    · intro l hl
      rw [Option.mem_some_iff] at hl
      subst hl
      exact ⟨(by show 2 < _; decide), g1, g2⟩
  file i hr := fileIn (reach hr)
  size i hr := ⟨_, (facts i (reach hr)).2.2.2.2.2.2.1, (facts i (reach hr)).2.2.2.2.2.2.2.1⟩
  named i hr := by
    obtain ⟨_, _, _, _, _, _, _, _, _, h1, h2, h3, _⟩ := facts i (reach hr)
    exact ⟨h1, h2, h3⟩
  attributes i hr := by
    rw [attributes_nil (reach hr)]
    intro x hx
    cases hx
  content i hr content hc := by
    have hr := reach hr
    simp only [List.mem_cons, List.not_mem_nil, or_false] at hr
    rcases hr with rfl | rfl | rfl <;> cases hc

theorem mounts : Mounts mounted (leafStorage records) 9 records image none view := ⟨serves, rfl, holds, has, fun _ _ => FileExample.compares _⟩

theorem component {name : List Nat} (h : name ∈ [docs, long]) : Component plain name :=
  ⟨(show ∀ n ∈ [docs, long], n ≠ [] by decide) name h, (show ∀ n ∈ [docs, long], ∀ c ∈ n, Scalar c ∧ c ≠ 0 ∧ c ≠ 0x2f by decide) name h, findable h⟩

theorem devicePath : Spec.Windows.Path view wideName (0x5c :: wideName long) (some 9) :=
  ⟨[long], by simp [Spec.Windows.pathOf], by decide +kernel, fun n hn => component (by simp at hn; simp [hn]), .step (e := entry long 9) (by simp [view, dirs]) (.here 9)⟩

theorem filePath : Spec.Windows.Path view wideName (0x5c :: wideName docs) (some 5) :=
  ⟨[docs], by simp [Spec.Windows.pathOf], by decide +kernel, fun n hn => component (by simp at hn; simp [hn]), .step (e := entry docs 5) (by simp [view, dirs]) (.here 5)⟩

open WindowsExample (windows wideLibraries rootPath)

example := c73_devices (wideLibraries libraries false false) mounts devicePath (.inl (by decide +kernel))
example := c73_epoch (wideLibraries libraries false false) mounts devicePath rfl
example := c73_before_1970 (wideLibraries libraries false false) mounts filePath (by decide +kernel) (by decide +kernel)
example : Dokan.findFiles (windows mounted false false) [0x5c] = .fails .generic :=
  c73_long_name (wideLibraries libraries false false) mounts rfl (rootPath view) (e := entry long 9) (by simp [view, dirs]) (by decide +kernel)
example : Dokan.findFiles (windows mounted false true) [0x5c] = .ub :=
  c73_overflow (wideLibraries libraries false true) mounts rfl (rootPath view) (show ∀ e ∈ dirs 2, (Utf16.encode e.name).length ≤ 3276 by decide +kernel) (e := entry long 9) (by simp [view, dirs]) (by decide +kernel)

end DeviceExample
end Verif.Props
