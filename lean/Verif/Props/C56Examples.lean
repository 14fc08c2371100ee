import Verif.Props.C56Limits
import Verif.Props.C55Examples
import Verif.Lemmas.FileExample
/-!
# C56 A mounted volume: examples

A volume with a directory, a file with three links and an extended attribute, a symbolic link and a file with a slash in its name.
-/
namespace Verif.Props
open Verif Res Spec BTree FsTree FileRead
open Verif.PathString (utf8Codec lawful_utf8Codec slashed)
open Verif.Mount (Mounted Handle Session fileAt nodeAt nameOf statOf setStat)
open Verif.Spec.Fuse (Errno Reply Stat Value Request Answer)
open Verif.NameLookup.DirectoryExample (entry docs readme format valid_entry)
open Verif.FsTree.TreeExample (key)
open HierarchyExample (una readsNames leafStorage leafTree plain)

namespace MountExample

/-- "a/b" -/
def slash : List Nat := [0x61, 0x2f, 0x62]

def dirs : Nat → List DirEntry
  | 2 => [entry docs 5, entry slash 9]
  | 5 => [entry docs 8, entry readme 7]
  | _ => []

/-- fixed fields: the time of modification is not that of creation, a file was accessed in 1969 -/
def fixed (i parent links mode : Nat) : InodeFixed :=
  { parent, dataStream := i, created := 1000000007, modified := 2000000009, changed := 3000000000, accessed := if i = 7 then 2 ^ 64 - 1500000000 else 5, flags := 0, links, protectionClass := 0, generation := 0,
    bsdFlags := 0, owner := 501, group := 20, mode, padding := List.replicate 10 0 }

def root : VolumeFile := { identifier := 2, fixed := fixed 2 1 2 0x41ed, name := [0x72, 0x6f, 0x6f, 0x74], attributes := [], size := 0, content := none }
def directory : VolumeFile := { identifier := 5, fixed := fixed 5 2 2 0x41ed, name := docs, attributes := [], size := 0, content := none }
def file : VolumeFile :=
  { identifier := 7, fixed := fixed 7 5 3 0x81a4, name := readme, attributes := [{ name := [0x74, 0x61, 0x67], value := [1, 2] }], size := 9, content := some (List.replicate 9 0x61) }
def link : VolumeFile := { identifier := 8, fixed := fixed 8 5 1 0xa1ed, name := docs, attributes := [{ name := symlink, value := storedName readme }], size := 0, content := none }
def other : VolumeFile := { identifier := 9, fixed := fixed 9 2 1 0xc1a4, name := slash, attributes := [], size := 0, content := none }

def view : View where
  format := plain
  dirs := dirs
  file i := if i = 2 then root else if i = 5 then directory else if i = 7 then file else if i = 8 then link else other
  text := shownName

def fieldsOf (v : VolumeFile) : List XField := [{ type := 4, flags := 2, value := storedName v.name }, { type := 8, flags := 0x20, value := toLE 8 v.size ++ List.replicate 32 0 }]

def inodeOf (v : VolumeFile) : Record := (key 3 v.identifier [], inodeValue v.fixed.bytes (some (fieldsOf v)))

def extents : List (Mapping × Nat) := [({ logical := 0, block := 60, length := 4096, crypto := 0 }, 0)]

def records : List Record := [inodeOf root, (entry docs 5).record plain 2, (entry slash 9).record plain 2, inodeOf directory, (entry docs 8).record plain 5, (entry readme 7).record plain 5, inodeOf file] ++
  file.attributes.map (·.record 7) ++ extents.map (Mapping.record 7) ++ [inodeOf link] ++ link.attributes.map (·.record 8) ++ [inodeOf other]

def block : Bytes := List.replicate 4096 0x61
attribute [irreducible] block
theorem block_length : block.length = 4096 := by unfold block; rw [List.length_replicate]

def image (b : Nat) : Option Bytes := if b = 60 then some block else none

def mounted : Mounted where
  files := { disk := fun offset n => if offset = 60 * 4096 ∧ n = 4096 then ok block else err, xts := none, tree := volumeOf (leafStorage records), xid := 9, folding := false }
  text := utf8Codec
  una := una
  compare := FileExample.compare
  unpack := FileExample.codec
  junk := List.replicate 65536 0

theorem libraries : Libraries mounted := ⟨lawful_utf8Codec, fun _ => rfl, readsNames, FileExample.codec_ok, List.length_replicate⟩

theorem serves : Serves mounted.files (leafStorage records) 9 image none := by
  refine ⟨rfl, rfl, rfl, fun b raw h => ?_, fun b raw h => ?_, fun _ h => nomatch h⟩
  · unfold image at h
    split at h
    · subst b
      cases h
      show (if 60 * 4096 = 60 * 4096 ∧ 4096 = 4096 then ok block else err) = ok block
      exact if_pos ⟨rfl, rfl⟩
    · cases h
  · unfold image at h
    split at h
    · omega
    · cases h

theorem holds : FsHolds (leafStorage records) 9 records := by
  refine ⟨⟨_, leafTree _, VolumeExample.fsLeaf records, ⟨(by decide), rfl, ⟨by decide +kernel, by decide +kernel, by decide +kernel, by decide +kernel, by decide +kernel, by decide +kernel, by decide +kernel, by decide +kernel⟩,
    by decide +kernel, by decide +kernel, by decide +kernel, by decide +kernel, by decide +kernel⟩, .inl (by decide +kernel)⟩, by decide +kernel, ?_⟩
  unfold fsLe
  decide +kernel

theorem reach {i : Nat} (h : Reach dirs i) : i ∈ [2, 5, 7, 8, 9] := by
  induction h with
  | root => decide
  | step h he ih =>
    simp only [List.mem_cons, List.not_mem_nil, or_false] at ih
    rcases ih with rfl | rfl | rfl | rfl | rfl
    · simp only [dirs, List.mem_cons, List.not_mem_nil, or_false] at he
      rcases he with rfl | rfl <;> decide
    · simp only [dirs, List.mem_cons, List.not_mem_nil, or_false] at he
      rcases he with rfl | rfl <;> decide
    · cases he
    · cases he
    · cases he

theorem valid {i : Nat} {e : DirEntry} (h : e ∈ dirs i) : e.Valid ∧ e.name ≠ [] := by
  unfold dirs at h
  split at h
  · simp only [List.mem_cons, List.not_mem_nil, or_false] at h
    rcases h with rfl | rfl
    · exact ⟨valid_entry docs 5 (by decide) (by decide) (by decide) (by decide), by decide⟩
    · exact ⟨valid_entry slash 9 (by decide) (by decide) (by decide) (by decide), by decide⟩
  · simp only [List.mem_cons, List.not_mem_nil, or_false] at h
    rcases h with rfl | rfl
    · exact ⟨valid_entry docs 8 (by decide) (by decide) (by decide) (by decide), by decide⟩
    · exact ⟨valid_entry readme 7 (by decide) (by decide) (by decide) (by decide), by decide⟩
  · cases h

theorem hierarchy : FileHierarchy records plain dirs := by
  refine ⟨fun i hr => ?_, fun i _ e he => (valid he).2⟩
  have hi := reach hr
  have h1 : ∀ i ∈ [2, 5, 7, 8, 9], (∃ r ∈ records, IsOf i 3 r) ∧ recordsOf records i 9 = (dirs i).map (DirEntry.record plain i) := by decide +kernel
  have h2 : ∀ i ∈ [2, 5, 7, 8, 9], (dirs i).Pairwise (DirEntry.Before plain) := by unfold DirEntry.Before; decide +kernel
  exact ⟨(h1 i hi).1, (h1 i hi).2, fun e he => (valid he).1, h2 i hi⟩

theorem findable {name : List Nat} (h : name ∈ [docs, slash, readme]) : Findable plain name := by
  have h1 : ∀ name ∈ [docs, slash, readme], (∀ c ∈ name, excluded c = false) ∧ InOrder (name.flatMap Unicode.decomposition) := by decide +kernel
  exact ⟨(h1 name h).1, (h1 name h).2, fun h => (by cases h), fun h => (by cases h)⟩

/-- what is to be checked of a file: its inode is there, it is the only one, its extended attributes are there -/
theorem facts : ∀ i ∈ [2, 5, 7, 8, 9], (view.file i).identifier = i ∧ (i ≠ 2 → 2 < i) ∧ inodeOf (view.file i) ∈ records ∧
    records.Pairwise (fun a b => ¬ (IsOf i 3 a ∧ IsOf i 3 b)) ∧ recordsOf records i 4 = (view.file i).attributes.map (·.record i) ∧
    recordsOf records i 8 = (if i = 7 then extents.map (Mapping.record 7) else []) ∧ (view.file i).stored.size? = some (view.file i).size ∧ (view.file i).size < 2 ^ 63 ∧
    (view.file i).stored.sparse = false ∧
    (view.file i).name ≠ [] ∧ (∀ x ∈ (view.file i).name, Scalar x ∧ x ≠ 0) ∧ (Utf8.encode (view.file i).name).length < 65535 ∧ (view.file i).fixed.dataStream = i := by decide +kernel

theorem fits : ∀ i ∈ [2, 5, 7, 8, 9], (view.file i).fixed.Fits := by
  intro i hi
  simp only [List.mem_cons, List.not_mem_nil, or_false] at hi
  rcases hi with rfl | rfl | rfl | rfl | rfl <;> exact ⟨by decide, by decide, by decide, by decide, by decide, by decide, by decide, by decide, by decide, by decide, by decide, by decide⟩

theorem fields_ok : ∀ i ∈ [2, 5, 7, 8, 9], (∀ x ∈ fieldsOf (view.file i), InodeField x) ∧ (fieldsOf (view.file i)).Pairwise (fun x y => y.type ≠ x.type) ∧
    (inodeValue (view.file i).fixed.bytes (some (fieldsOf (view.file i)))).length < 2 ^ 63 ∧ (view.file i).fixed.bytes.length = 92 ∧
    xvalue (fieldsOf (view.file i)) 4 = some (storedName (view.file i).name) ∧ ((xvalue (fieldsOf (view.file i)) 8).map (fun b => leNat (b.take 8))).getD 0 = (view.file i).size ∧
    field (view.file i).fixed.bytes 8 8 = (view.file i).fixed.dataStream ∧ field (view.file i).fixed.bytes 48 8 = 0 := by unfold InodeField; decide +kernel

theorem empty_stream {i : Nat} (h2 : 2 ≤ i) (hi : i < 2 ^ 60) (h : recordsOf records i 8 = []) : StreamIn records image none i false [] :=
  ⟨h2, hi, [], fun _ _ => [], h, by simp, trivial, by decide, by simp, by simp, by simp⟩

theorem file_stream : StreamIn records image none 7 false (List.replicate 9 0x61) := by
  refine ⟨by decide, by decide, extents, fun _ _ => block, by decide +kernel, ?_, ?_, by decide, ?_, by decide, ?_⟩
  · intro m hm
    simp only [extents, List.mem_cons, List.not_mem_nil, or_false] at hm
    subst hm
    exact ⟨⟨by decide, by decide, by decide, by decide, by decide, by decide⟩, by decide⟩
  · simp [extents, Contiguous]
  · intro m hm hns k hk
    simp only [extents, List.mem_cons, List.not_mem_nil, or_false] at hm
    subst hm
    have : k = 0 := by simp only at hk; omega
    subst this
    exact ⟨fun h => absurd rfl h, block_length, block, rfl, rfl⟩
  · intro i hi
    have h9 : i < 9 := by simpa using hi
    refine ⟨_, by simp only [extents, List.map_cons]; exact List.mem_cons_self, by simp, by simp only; omega, ?_⟩
    rw [if_neg (by simp)]
    simp only [Nat.sub_zero]
    rw [Nat.mod_eq_of_lt (by omega)]
    unfold block
    rw [List.getElem?_replicate, if_pos (by omega), List.getElem_replicate]

theorem fileIn {i : Nat} (hi : i ∈ [2, 5, 7, 8, 9]) : FileIn records image none (view.file i).stored (view.file i).fixed.dataStream := by
  obtain ⟨f1, f2, f3, f4, f5, f6, f7, f8, f9, _, _, _, f13⟩ := facts i hi
  obtain ⟨g1, g2, g3, g4, g5, g6, g7, g8⟩ := fields_ok i hi
  have hb : 2 ≤ i ∧ i < 2 ^ 60 := (show ∀ i ∈ [2, 5, 7, 8, 9], 2 ≤ i ∧ i < 2 ^ 60 by decide) i hi
  have hattr : ∀ x ∈ (view.file i).attributes, x.Fits ∧ x.stream = none := by
    simp only [List.mem_cons, List.not_mem_nil, or_false] at hi
    rcases hi with rfl | rfl | rfl | rfl | rfl
    · intro x hx; cases hx
    · intro x hx; cases hx
    · intro x hx
      rw [show (view.file 7).attributes = [{ name := [0x74, 0x61, 0x67], value := [1, 2] }] from rfl, List.mem_singleton] at hx
      subst hx
      exact ⟨⟨by decide, by decide⟩, rfl⟩
    · intro x hx
      rw [show (view.file 8).attributes = [{ name := symlink, value := storedName readme }] from rfl, List.mem_singleton] at hx
      subst hx
      exact ⟨⟨by decide +kernel, by decide⟩, rfl⟩
    · intro x hx; cases hx
  have huniq : (view.file i).attributes.Pairwise fun x y => x.name ≠ y.name := by
    simp only [List.mem_cons, List.not_mem_nil, or_false] at hi
    rcases hi with rfl | rfl | rfl | rfl | rfl
    · exact .nil
    · exact .nil
    · rw [show (view.file 7).attributes = [{ name := [0x74, 0x61, 0x67], value := [1, 2] }] from rfl]; simp
    · rw [show (view.file 8).attributes = [{ name := symlink, value := storedName readme }] from rfl]; simp
    · exact .nil
  refine ⟨⟨fun x hx => (hattr x hx).1, huniq, by have : (view.file i).stored.size = (view.file i).size := rfl; omega⟩, by show (view.file i).identifier < _; rw [f1]; exact hb.2,
    ⟨_, f3, ⟨?_, _, some (fieldsOf (view.file i)), rfl, g4, ?_, g3, g7, ?_, g6⟩⟩, ?_, ?_, ?_, ?_⟩
  · show key 3 (view.file i).identifier [] = _
    unfold key
    rw [List.append_nil]
    rfl
  · intro l hl
    rw [Option.mem_some_iff] at hl
    subst hl
    exact ⟨(by show 2 < _; decide), g1, g2⟩
  · rw [f9, g8]
    decide
  · show records.Pairwise (fun a b => ¬ (IsOf (view.file i).identifier 3 a ∧ IsOf (view.file i).identifier 3 b))
    rw [f1]
    exact f4
  · show recordsOf records (view.file i).identifier 4 = (view.file i).attributes.map (·.record (view.file i).identifier)
    rw [f1]
    exact f5
  · intro x hx s hs
    rw [(hattr x hx).2] at hs
    cases hs
  · rw [f13, f9]
    by_cases h7 : i = 7
    · subst h7
      exact ⟨_, file_stream⟩
    · exact ⟨[], empty_stream hb.1 hb.2 (by rw [f6, if_neg h7])⟩

theorem names {i : Nat} (hi : i ∈ [2, 5, 7, 8, 9]) {e : DirEntry} (he : e ∈ dirs i) : e.name ∈ [docs, slash, readme] ∧ e.identifier ∈ [5, 7, 8, 9] :=
  (show ∀ i ∈ [2, 5, 7, 8, 9], ∀ e ∈ dirs i, e.name ∈ [docs, slash, readme] ∧ e.identifier ∈ [5, 7, 8, 9] by decide) i hi e he

theorem has : VolumeHas mounted.unpack records image none view where
  hierarchy := hierarchy
  unique i hr := (show ∀ i ∈ [2, 5, 7, 8, 9], (dirs i).Pairwise (fun a b => ¬ SameName false a.name b.name) by unfold SameName; decide +kernel) i (reach hr)
  findable i hr e he := findable (names (reach hr) he).1
  types := by decide +kernel
  identifier i hr := (facts i (reach hr)).1
  reserved i hr := (facts i (reach hr)).2.1
  parent i hr h2 := by
    have h5 : Reach dirs 5 := .step (e := entry docs 5) .root (by simp [dirs])
    have hr := reach hr
    simp only [List.mem_cons, List.not_mem_nil, or_false] at hr
    rcases hr with rfl | rfl | rfl | rfl | rfl
    · exact absurd rfl h2
    · exact .root
    · exact h5
    · exact h5
    · exact .root
  inode i hr := by
    obtain ⟨g1, g2, g3, g4, g5, g6, g7, g8⟩ := fields_ok i (reach hr)
    refine ⟨_, (facts i (reach hr)).2.2.1, ?_, fits i (reach hr), some (fieldsOf (view.file i)), rfl, ?_, g3, g5, g6⟩
    · show key 3 (view.file i).identifier [] = _
      unfold key
      rw [List.append_nil]
    · intro l hl
      rw [Option.mem_some_iff] at hl
      subst hl
      exact ⟨(by show 2 < _; decide), g1, g2⟩
  file i hr := fileIn (reach hr)
  size i hr := ⟨_, (facts i (reach hr)).2.2.2.2.2.2.1, (facts i (reach hr)).2.2.2.2.2.2.2.1⟩
  named i hr := by
    obtain ⟨_, _, _, _, _, _, _, _, _, h1, h2, h3, _⟩ := facts i (reach hr)
    exact ⟨h1, h2, h3⟩
  attributes i hr := by
    have hr := reach hr
    simp only [List.mem_cons, List.not_mem_nil, or_false] at hr
    rcases hr with rfl | rfl | rfl | rfl | rfl
    · intro x hx; cases hx
    · intro x hx; cases hx
    · intro x hx
      rw [show (view.file 7).attributes = [{ name := [0x74, 0x61, 0x67], value := [1, 2] }] from rfl, List.mem_singleton] at hx
      subst hx
      exact ⟨[0x74, 0x61, 0x67], by decide, by decide⟩
    · intro x hx
      rw [show (view.file 8).attributes = [{ name := symlink, value := storedName readme }] from rfl, List.mem_singleton] at hx
      subst hx
      exact ⟨symlink.map (·.toNat), by decide +kernel, by decide +kernel⟩
    · intro x hx; cases hx
  content i hr content hc := by
    have hr := reach hr
    simp only [List.mem_cons, List.not_mem_nil, or_false] at hr
    rcases hr with rfl | rfl | rfl | rfl | rfl
    · cases hc
    · cases hc
    · have : List.replicate 9 0x61 = content := Option.some.inj hc
      subst this
      exact .inl ⟨by decide +kernel, by decide, file_stream⟩
    · cases hc
    · cases hc

theorem mounts : Mounts mounted (leafStorage records) 9 records image none view := ⟨serves, rfl, holds, has, fun _ _ => FileExample.compares _⟩

theorem component {name : List Nat} (h : name ∈ [docs, readme]) : Component plain name :=
  ⟨(show ∀ n ∈ [docs, readme], n ≠ [] by decide) name h, (show ∀ n ∈ [docs, readme], ∀ c ∈ n, Scalar c ∧ c ≠ 0 ∧ c ≠ 0x2f by decide) name h,
    findable ((show ∀ n ∈ [docs, readme], n ∈ [docs, slash, readme] by decide) name h)⟩

theorem rootPath : view.Path [0x2f] (some 2) := ⟨[], rfl, by decide, by simp, .here 2⟩

/-- "/Docs" -/
theorem docsPath : view.Path (0x2f :: Utf8.encode docs) (some 5) :=
  ⟨[docs], by decide +kernel, by decide +kernel, fun n hn => component (by simp at hn; simp [hn]), .step (e := entry docs 5) (by simp [view, dirs]) (.here 5)⟩

/-- "/Docs/readme" -/
theorem readmePath : view.Path (0x2f :: Utf8.encode docs ++ 0x2f :: Utf8.encode readme) (some 7) :=
  ⟨[docs, readme], by decide +kernel, by decide +kernel, fun n hn => component (by simp at hn; simp [hn]),
    .step (e := entry docs 5) (by simp [view, dirs]) (.step (e := entry readme 7) (by simp [view, dirs, entry]) (.here 7))⟩

/-- "/Docs/Docs" -/
theorem linkPath : view.Path (0x2f :: Utf8.encode docs ++ 0x2f :: Utf8.encode docs) (some 8) :=
  ⟨[docs, docs], by decide +kernel, by decide +kernel, fun n hn => component (by simp at hn; simp [hn]),
    .step (e := entry docs 5) (by simp [view, dirs]) (.step (e := entry docs 8) (by simp [view, dirs, entry]) (.here 8))⟩

/-- "/readme" -/
theorem noPath : view.Path (0x2f :: Utf8.encode readme) none :=
  ⟨[readme], by decide +kernel, by decide +kernel, fun n hn => component (by simp at hn; simp [hn]),
    .missing (i := 2) (show ∀ e ∈ dirs 2, ¬ SameName false readme e.name by unfold SameName; decide +kernel)⟩

theorem linksTo : LinksTo (view.file 8) readme := ⟨by decide +kernel, by decide, by decide⟩

/-- a program lists a directory, reads a file and a symbolic link and asks for extended attributes and for a file that is missing -/
def requests : List Request := [.opendir (0x2f :: Utf8.encode docs), .readdir 0, .releasedir 0, .getattr (0x2f :: Utf8.encode docs ++ 0x2f :: Utf8.encode readme),
  .open_ (0x2f :: Utf8.encode docs ++ 0x2f :: Utf8.encode readme) 0, .read 1 4096 3, .read 1 4 0, .release 1, .read 1 4 0, .readlink (0x2f :: Utf8.encode docs ++ 0x2f :: Utf8.encode docs) 100,
  .getxattr (0x2f :: Utf8.encode docs ++ 0x2f :: Utf8.encode readme) [0x74, 0x61, 0x67] 10, .listxattr (0x2f :: Utf8.encode docs ++ 0x2f :: Utf8.encode readme) 0, .getattr (0x2f :: Utf8.encode readme)]

theorem asked : ∀ r ∈ requests, Asked view r := by
  intro r hr
  refine ⟨fun p hp => ?_, fun path name size h => ?_⟩
  · have : ∀ r ∈ requests, ∀ p, r.path? = some p → p ∈ [0x2f :: Utf8.encode docs, 0x2f :: Utf8.encode docs ++ 0x2f :: Utf8.encode readme, 0x2f :: Utf8.encode docs ++ 0x2f :: Utf8.encode docs,
        0x2f :: Utf8.encode readme] := by
      intro r hr p hp
      simp only [requests, List.mem_cons, List.not_mem_nil, or_false] at hr
      rcases hr with rfl | rfl | rfl | rfl | rfl | rfl | rfl | rfl | rfl | rfl | rfl | rfl | rfl <;>
        first | (cases hp; done) | (have := Option.some.inj hp; subst this; simp)
    have := this r hr p hp
    simp only [List.mem_cons, List.not_mem_nil, or_false] at this
    rcases this with rfl | rfl | rfl | rfl
    · exact ⟨_, docsPath⟩
    · exact ⟨_, readmePath⟩
    · exact ⟨_, linkPath⟩
    · exact ⟨_, noPath⟩
  · subst h
    simp only [requests, List.mem_cons, reduceCtorEq, Request.getxattr.injEq, false_or, List.not_mem_nil, or_false] at hr
    rw [hr.2.1]
    decide

/-- `c56_session_partial` for these requests -/
example : view.Trace Terms.shown [] requests (Mount.serveAll mounted requests {}).1 :=
  c56_session_partial.2 mounted libraries _ _ _ _ _ view mounts rfl requests asked

example : ∃ st, Mount.getattr mounted (0x2f :: Utf8.encode docs ++ 0x2f :: Utf8.encode readme) = .value st ∧ st.links ≠ 3 := c56_links libraries mounts rfl readmePath (.inl (by decide))
example := c56_modification libraries mounts rfl readmePath (by decide)
example := c56_before_1970 libraries mounts rfl readmePath (by decide +kernel) (by decide +kernel)
example := c56_root_parent libraries mounts rfl
example : Mount.listxattr mounted (0x2f :: Utf8.encode docs ++ 0x2f :: Utf8.encode readme) 3 = .fails .eio := c56_short_list libraries mounts rfl readmePath (by decide) (by decide) (by decide)
example : Mount.readlink mounted (0x2f :: Utf8.encode docs ++ 0x2f :: Utf8.encode docs) 6 = .fails .eio := c56_short_link libraries mounts rfl linkPath linksTo (by decide)
example (k : Nat) : (Mount.serveAll mounted (visits [0x2f] k 0) {}).2.lost = k := c56_leak libraries mounts rfl rootPath k
example (k : Nat) := c56_getxattr_leak libraries mounts rfl readmePath (name := [0x74, 0x61, 0x67]) (value := [1, 2]) (size := 1) (by decide) (by decide +kernel) (by decide) (by decide) (by decide) k

/-- "/a/b" -/
theorem slashPath : view.Path (slashed ([[0x61], [0x62]].map shownName)) none := by
  have hc : ∀ n ∈ ([[0x61], [0x62]] : List (List Nat)), Component plain n := by
    intro n hn
    have h1 : ∀ n ∈ ([[0x61], [0x62]] : List (List Nat)), (n ≠ [] ∧ ∀ c ∈ n, Scalar c ∧ c ≠ 0 ∧ c ≠ 0x2f) ∧ (∀ c ∈ n, excluded c = false) ∧ InOrder (n.flatMap Unicode.decomposition) := by decide +kernel
    exact ⟨(h1 n hn).1.1, (h1 n hn).1.2, (h1 n hn).2.1, (h1 n hn).2.2, fun h => (by cases h), fun h => (by cases h)⟩
  exact ⟨[[0x61], [0x62]], by decide +kernel, by decide +kernel, hc, .missing (i := 2) (show ∀ e ∈ dirs 2, ¬ SameName false [0x61] e.name by unfold SameName; decide +kernel)⟩

/-- the file "a/b" is listed and not found -/
example : Mount.getattr mounted (0x2f :: view.text slash) = .fails .enoent := by
  have h1 : ∀ n ∈ ([[0x61], [0x62]] : List (List Nat)), (n ≠ [] ∧ ∀ c ∈ n, Scalar c ∧ c ≠ 0 ∧ c ≠ 0x2f) ∧ (∀ c ∈ n, excluded c = false) ∧ InOrder (n.flatMap Unicode.decomposition) := by decide +kernel
  have hc : ∀ n ∈ ([[0x61], [0x62]] : List (List Nat)), Component plain n := fun n hn => ⟨(h1 n hn).1.1, (h1 n hn).1.2, (h1 n hn).2.1, (h1 n hn).2.2, fun h => (by cases h), fun h => (by cases h)⟩
  exact (c56_slash_missing libraries mounts rfl (e := entry slash 9) (a := [0x61]) (b := [0x62]) (by simp [view, dirs]) rfl (hc _ (by simp)) (hc _ (by simp)) slashPath (by decide +kernel)).2

/-- a volume whose inodes have no names -/
def unnamed : Mounted := { mounted with files := linkFiles }

/-- the directory "Docs" of the volume cannot be listed -/
example : ∃ n, (lookups unnamed.files).inode 5 = ok (some n) ∧ ∀ l, (Mount.readDirectory unnamed (.new [] { inode := n, record := none })).1 ≠ .value l := by
  have h : (match (lookups linkFiles).inode 5 with
    | .ok (some n) => (match parentNode (lookups linkFiles) { inode := n, record := none } with
      | .ok (.node p) => p.record.isNone && p.inode.name.isNone
      | _ => false)
    | _ => false) = true := by decide +kernel
  cases hn : (lookups linkFiles).inode 5 with
  | err => rw [hn] at h; cases h
  | ub => rw [hn] at h; cases h
  | ok n =>
    cases n with
    | none => rw [hn] at h; cases h
    | some n =>
      rw [hn] at h
      simp only at h
      refine ⟨n, hn, ?_⟩
      cases hp : parentNode (lookups linkFiles) { inode := n, record := none } with
      | err => rw [hp] at h; cases h
      | ub => rw [hp] at h; cases h
      | ok x =>
        cases x with
        | number _ => rw [hp] at h; cases h
        | none => rw [hp] at h; cases h
        | node p =>
          rw [hp] at h
          simp only [Bool.and_eq_true, Option.isNone_iff_eq_none] at h
          exact c56_unnamed_parent hp h.1 h.2

/-- a root directory with an entry without inode, and one with -/
def danglingRecords : List Record := [inodeOf root, (entry docs 5).record plain 2, (entry readme 7).record plain 2, inodeOf directory]

theorem dangling_holds : FsHolds (leafStorage danglingRecords) 9 danglingRecords := by
  refine ⟨⟨_, leafTree _, VolumeExample.fsLeaf danglingRecords, ⟨(by decide), rfl, ⟨by decide +kernel, by decide +kernel, by decide +kernel, by decide +kernel, by decide +kernel, by decide +kernel, by decide +kernel, by decide +kernel⟩,
    by decide +kernel, by decide +kernel, by decide +kernel, by decide +kernel, by decide +kernel⟩, .inl (by decide +kernel)⟩, by decide +kernel, ?_⟩
  unfold fsLe
  decide +kernel

example {n : FileNode} (hn : n.inode.identifier = 2) (hc : n.children = none) : ∀ l, (Mount.readDirectory { mounted with files := { mounted.files with tree := volumeOf (leafStorage danglingRecords) } } (.new [] n)).1 ≠ .value l :=
  c56_dangling ⟨rfl, rfl⟩ dangling_holds (fmt := plain) (entries := [entry docs 5, entry readme 7]) (e := entry readme 7)
    ⟨by decide +kernel, by decide +kernel, fun e he => by
      simp only [List.mem_cons, List.not_mem_nil, or_false] at he
      rcases he with rfl | rfl
      · exact valid_entry docs 5 (by decide) (by decide) (by decide) (by decide)
      · exact valid_entry readme 7 (by decide) (by decide) (by decide) (by decide), by unfold DirEntry.Before; decide +kernel⟩ (by simp) (by decide) (by decide +kernel) (by decide +kernel) hn hc []

end MountExample
end Verif.Props
