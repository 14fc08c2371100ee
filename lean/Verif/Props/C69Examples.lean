import Verif.Props.C69
import Verif.Props.C56Examples
import Verif.Props.C68Examples
/-!
# C69 The bodyfile of a volume: examples

The volume of `MountExample` has a directory with a file and a symbolic link, and a file with a slash in its name. Another volume has a file that is compressed with LZFSE.
-/
namespace Verif.Props
open Verif Res Spec BTree FsTree FileRead
open Verif.PathString (utf8Codec lawful_utf8Codec)
open Verif.Mount (Mounted)
open Verif.Spec.Bodyfile (Each endOf LineFor PlainTargets Known)
open Verif.NameLookup.DirectoryExample (entry docs readme)
open Verif.FsTree.TreeExample (key)
open HierarchyExample (una readsNames leafStorage leafTree plain)
open MountExample (view mounted mounts libraries dirs reach)

namespace BodyfileExample

theorem plainTargets : PlainTargets view := by
  intro i hr
  have hi := reach hr
  simp only [List.mem_cons, List.not_mem_nil, or_false] at hi
  rcases hi with rfl | rfl | rfl | rfl | rfl
  · exact .inl (by decide +kernel)
  · exact .inl (by decide +kernel)
  · exact .inl (by decide +kernel)
  · exact .inr ⟨readme, ⟨by decide +kernel, by decide, by decide +kernel⟩, by decide +kernel⟩
  · exact .inl (by decide +kernel)

theorem known (digest : Option (Bytes → Bytes)) : Known digest view := by
  intro _ i hr h8
  have hi := reach hr
  have : ∀ i ∈ [2, 5, 7, 8, 9], (view.file i).type = 8 → (view.file i).content.isSome = true := by decide +kernel
  intro h
  have := this i hi h8
  rw [h] at this
  cases this

theorem calculates : Calculates (some DigestExample.md5) (some DigestExample.digest) := DigestExample.incremental

theorem levels : ∀ p, Chain dirs 2 p → p.length ≤ 2 := by
  intro p hp
  cases hp with
  | here => decide
  | step he rest =>
    rename_i e es
    have h1 : e.identifier ∈ [5, 9] := (show ∀ e ∈ dirs 2, e.identifier ∈ [5, 9] by decide) e he
    cases rest with
    | here => simp
    | step he2 rest2 =>
      rename_i e2 es2
      have h2 : e2.identifier ∈ [7, 8] := (show ∀ i ∈ [5, 9], ∀ e ∈ dirs i, e.identifier ∈ [7, 8] by decide) _ h1 e2 he2
      cases rest2 with
      | here => simp
      | step he3 =>
        exfalso
        rename_i e3 es3 _
        exact (show ∀ i ∈ [7, 8], ∀ e ∈ dirs i, False by decide) _ h2 _ he3

theorem slashPrefix : Prefix [0x2f] := ⟨by decide, by decide, by decide⟩

example : (paths dirs 2 2).map endOf = [5, 8, 7, 9] := by decide +kernel

/-- five lines, with digests -/
example : ∃ root out, (lookups mounted.files).inode 2 = ok (some root) ∧ Bodyfile.listing mounted (some DigestExample.md5) 3 [0x2f] { inode := root, record := none } = (out, ok ()) ∧ (Escape.lines out).length = 5 ∧
    Each (fun p line => LineFor (some DigestExample.digest) (·.fixed.created) (·.fixed.modified) (view.file (endOf p)) ([0x2f] ++ Utf8.encode (pathText p)) line) ([] :: paths dirs 2 2) (Escape.lines out) := by
  obtain ⟨root, out, h1, h2, h3⟩ := c69_lines_partial libraries mounts plainTargets calculates (known _) levels (by decide) slashPrefix 3 (by decide)
  exact ⟨root, out, h1, h2, (each_length h3).trans (by decide +kernel), h3⟩

/-- without digests -/
example := c69_lines_partial libraries mounts plainTargets (md5 := none) (digest := none) trivial (known _) levels (by decide) slashPrefix 3 (by decide)

/-- the times of "Docs/readme" are in the wrong columns -/
example := c69_swapped libraries mounts plainTargets calculates (known _) levels (by decide) slashPrefix 3 (by decide) (p := [entry docs 5, entry readme 7])
  (.step (by show _ ∈ dirs 2; simp [dirs]) (.step (by show _ ∈ dirs 5; simp [dirs]) (.here _))) (by decide +kernel) (by decide +kernel) (by decide +kernel)

/-- two volumes, and one that is locked -/
example (uuid : Bytes) (hu : uuid.length = 16) : ∃ out, Bodyfile.bodyfile none 3 0 [ok { uuid, files := ok mounted }, ok { uuid, files := err }] = (out, err) ∧
    Bodyfile.bodyfile none 3 1 [ok { uuid, files := ok mounted }, ok { uuid, files := err }] = (out, ok ()) ∧
    Bodyfile.bodyfile none 3 0 [ok { uuid, files := ok mounted }, ok { uuid, files := ok mounted }] = (out ++ out, ok ()) := by
  obtain ⟨out, h, _⟩ := c69_volume_partial libraries mounts plainTargets (md5 := none) (digest := none) trivial (known _) levels (by decide) (v := { uuid, files := ok mounted }) rfl hu 3 (by decide)
  have hw : Writes none 3 (ok { uuid, files := ok mounted }) out := ⟨_, rfl, h⟩
  refine ⟨out, ?_, c69_selected rfl hw, ?_⟩
  · have := c69_volume_fails (vs := [(ok { uuid, files := ok mounted }, out)]) (by intro v hv; cases List.mem_singleton.1 hv; exact hw) (w := ok { uuid, files := err }) (.inr ⟨_, rfl, rfl⟩) []
    simpa using this
  · have := c69_volumes (vs := [(ok { uuid, files := ok mounted }, out), (ok { uuid, files := ok mounted }, out)]) (by
      intro v hv
      rcases List.mem_cons.1 hv with rfl | hv
      · exact hw
      · cases List.mem_singleton.1 hv
        exact hw)
    simpa using this

/-- both volumes are written -/
example (uuid : Bytes) (hu : uuid.length = 16) : (Bodyfile.bodyfile none 3 0 [ok { uuid, files := ok mounted }, ok { uuid, files := ok mounted }]).2 = ok () ∧
    (Bodyfile.bodyfile none 3 0 [err, ok { uuid, files := ok mounted }]).2 = err := by
  obtain ⟨out, h, _⟩ := c69_volume_partial libraries mounts plainTargets (md5 := none) (digest := none) trivial (known _) levels (by decide) (v := { uuid, files := ok mounted }) rfl hu 3 (by decide)
  have hw : Writes none 3 (ok { uuid, files := ok mounted }) out := ⟨_, rfl, h⟩
  constructor
  · have := c69_volumes (vs := [(ok { uuid, files := ok mounted }, out), (ok { uuid, files := ok mounted }, out)]) (by
      intro v hv
      rcases List.mem_cons.1 hv with rfl | hv
      · exact hw
      · cases List.mem_singleton.1 hv
        exact hw)
    exact congrArg Prod.snd this
  · exact congrArg Prod.snd (c69_volume_fails (md5 := none) (depth := 3) (vs := []) (by simp) (.inl rfl) [ok { uuid, files := ok mounted }])

/-! A volume whose files were not modified. -/

namespace Packed

def dirs : Nat → List DirEntry
  | 2 => [entry readme 7]
  | _ => []

def fixed (i parent links mode : Nat) : InodeFixed :=
  { parent, dataStream := i, created := 7, modified := 7, changed := 3000000000, accessed := 5, flags := 0, links, protectionClass := 0, generation := 0, bsdFlags := 0, owner := 501, group := 20, mode, padding := List.replicate 10 0 }

def root : VolumeFile := { identifier := 2, fixed := fixed 2 1 2 0x41ed, name := [0x72, 0x6f, 0x6f, 0x74], attributes := [], size := 0, content := none }
def packed : VolumeFile :=
  { identifier := 7, fixed := fixed 7 2 1 0x81a4, name := readme, attributes := [{ name := decmpfs, value := DigestExample.header 11 }], size := 0, content := none }

def view : View where
  format := plain
  dirs := dirs
  file i := if i = 2 then root else packed
  text := shownName

def inodeOf (v : VolumeFile) : Record := MountExample.inodeOf v

def records : List Record := [inodeOf root, (entry readme 7).record plain 2, inodeOf packed] ++ packed.attributes.map (·.record 7)

def mounted : Mounted where
  files := { disk := fun _ _ => err, xts := none, tree := volumeOf (leafStorage records), xid := 9, folding := false }
  text := utf8Codec
  una := una
  compare := FileExample.compare
  unpack := FileExample.codec
  junk := List.replicate 65536 0

theorem libraries : Libraries mounted := ⟨lawful_utf8Codec, fun _ => rfl, readsNames, FileExample.codec_ok, List.length_replicate⟩

theorem serves : Serves mounted.files (leafStorage records) 9 (fun _ => none) none := ⟨rfl, rfl, rfl, fun _ _ h => (by cases h), fun _ _ h => (by cases h), fun _ h => nomatch h⟩

theorem holds : FsHolds (leafStorage records) 9 records := by
  refine ⟨⟨_, leafTree _, VolumeExample.fsLeaf records, ⟨(by decide), rfl, ⟨by decide +kernel, by decide +kernel, by decide +kernel, by decide +kernel, by decide +kernel, by decide +kernel, by decide +kernel, by decide +kernel⟩,
    by decide +kernel, by decide +kernel, by decide +kernel, by decide +kernel, by decide +kernel⟩, .inl (by decide +kernel)⟩, by decide +kernel, ?_⟩
  unfold fsLe
  decide +kernel

theorem reach {i : Nat} (h : Reach dirs i) : i ∈ [2, 7] := by
  induction h with
  | root => decide
  | step h he ih =>
    simp only [List.mem_cons, List.not_mem_nil, or_false] at ih
    rcases ih with rfl | rfl
    · simp only [dirs, List.mem_cons, List.not_mem_nil, or_false] at he
      subst he
      decide
    · cases he

theorem valid {i : Nat} {e : DirEntry} (h : e ∈ dirs i) : e.Valid ∧ e.name ≠ [] := by
  unfold dirs at h
  split at h
  · simp only [List.mem_cons, List.not_mem_nil, or_false] at h
    subst h
    exact ⟨Verif.NameLookup.DirectoryExample.valid_entry readme 7 (by decide) (by decide) (by decide) (by decide), by decide⟩
  · cases h

theorem hierarchy : FileHierarchy records plain dirs := by
  refine ⟨fun i hr => ?_, fun i _ e he => (valid he).2⟩
  have hi := reach hr
  have h1 : ∀ i ∈ [2, 7], (∃ r ∈ records, IsOf i 3 r) ∧ recordsOf records i 9 = (dirs i).map (DirEntry.record plain i) := by decide +kernel
  have h2 : ∀ i ∈ [2, 7], (dirs i).Pairwise (DirEntry.Before plain) := by unfold DirEntry.Before; decide +kernel
  exact ⟨(h1 i hi).1, (h1 i hi).2, fun e he => (valid he).1, h2 i hi⟩

theorem facts : ∀ i ∈ [2, 7], (view.file i).identifier = i ∧ (i ≠ 2 → 2 < i) ∧ inodeOf (view.file i) ∈ records ∧
    records.Pairwise (fun a b => ¬ (IsOf i 3 a ∧ IsOf i 3 b)) ∧ recordsOf records i 4 = (view.file i).attributes.map (·.record i) ∧ recordsOf records i 8 = [] ∧
    (view.file i).stored.size? = some (if i = 7 then 300 else 0) ∧ (view.file i).stored.sparse = false ∧
    (view.file i).name ≠ [] ∧ (∀ x ∈ (view.file i).name, Scalar x ∧ x ≠ 0) ∧ (Utf8.encode (view.file i).name).length < 65535 ∧ (view.file i).fixed.dataStream = i := by decide +kernel

theorem fits : ∀ i ∈ [2, 7], (view.file i).fixed.Fits := by
  intro i hi
  simp only [List.mem_cons, List.not_mem_nil, or_false] at hi
  rcases hi with rfl | rfl <;> exact ⟨by decide, by decide, by decide, by decide, by decide, by decide, by decide, by decide, by decide, by decide, by decide, by decide⟩

theorem fields_ok : ∀ i ∈ [2, 7], (∀ x ∈ MountExample.fieldsOf (view.file i), InodeField x) ∧ (MountExample.fieldsOf (view.file i)).Pairwise (fun x y => y.type ≠ x.type) ∧
    (inodeValue (view.file i).fixed.bytes (some (MountExample.fieldsOf (view.file i)))).length < 2 ^ 63 ∧ (view.file i).fixed.bytes.length = 92 ∧
    xvalue (MountExample.fieldsOf (view.file i)) 4 = some (storedName (view.file i).name) ∧ ((xvalue (MountExample.fieldsOf (view.file i)) 8).map (fun b => leNat (b.take 8))).getD 0 = (view.file i).size ∧
    field (view.file i).fixed.bytes 8 8 = (view.file i).fixed.dataStream ∧ field (view.file i).fixed.bytes 48 8 = 0 := by unfold InodeField; decide +kernel

theorem fileIn {i : Nat} (hi : i ∈ [2, 7]) : FileIn records (fun _ => none) none (view.file i).stored (view.file i).fixed.dataStream := by
  obtain ⟨f1, f2, f3, f4, f5, f6, f7, f8, _, _, _, f12⟩ := facts i hi
  obtain ⟨g1, g2, g3, g4, g5, g6, g7, g8⟩ := fields_ok i hi
  have hb : 2 ≤ i ∧ i < 2 ^ 60 := (show ∀ i ∈ [2, 7], 2 ≤ i ∧ i < 2 ^ 60 by decide) i hi
  have hs : (view.file i).size = 0 := (show ∀ i ∈ [2, 7], (view.file i).size = 0 by decide +kernel) i hi
  have hattr : ∀ x ∈ (view.file i).attributes, x.Fits ∧ x.stream = none := by
    simp only [List.mem_cons, List.not_mem_nil, or_false] at hi
    rcases hi with rfl | rfl
    · intro x hx; cases hx
    · intro x hx
      rw [show (view.file 7).attributes = [{ name := decmpfs, value := DigestExample.header 11 }] from rfl, List.mem_singleton] at hx
      subst hx
      exact ⟨⟨by decide +kernel, by decide +kernel⟩, rfl⟩
  have huniq : (view.file i).attributes.Pairwise fun x y => x.name ≠ y.name := by
    simp only [List.mem_cons, List.not_mem_nil, or_false] at hi
    rcases hi with rfl | rfl
    · exact .nil
    · rw [show (view.file 7).attributes = [{ name := decmpfs, value := DigestExample.header 11 }] from rfl]; simp
  refine ⟨⟨fun x hx => (hattr x hx).1, huniq, by have : (view.file i).stored.size = (view.file i).size := rfl; omega⟩, by show (view.file i).identifier < _; rw [f1]; exact hb.2,
    ⟨_, f3, ⟨?_, _, some (MountExample.fieldsOf (view.file i)), rfl, g4, ?_, g3, g7, ?_, g6⟩⟩, ?_, ?_, ?_, ?_⟩
  · show key 3 (view.file i).identifier [] = _
    unfold key
    rw [List.append_nil]
    rfl
  · intro l hl
    rw [Option.mem_some_iff] at hl
    subst hl
    exact ⟨(by show 2 < _; decide), g1, g2⟩
  · rw [f8, g8]
    decide
  · show records.Pairwise (fun a b => ¬ (IsOf (view.file i).identifier 3 a ∧ IsOf (view.file i).identifier 3 b))
    rw [f1]
    exact f4
  · show recordsOf records (view.file i).identifier 4 = (view.file i).attributes.map (·.record (view.file i).identifier)
    rw [f1]
    exact f5
  · intro x hx s hs
    rw [(hattr x hx).2] at hs
    cases hs
  · rw [f12, f8]
    exact ⟨[], hb.1, hb.2, [], fun _ _ => [], f6, by simp, trivial, by decide, by simp, by simp, by simp⟩

theorem has : VolumeHas mounted.unpack records (fun _ => none) none view where
  hierarchy := hierarchy
  unique i hr := (show ∀ i ∈ [2, 7], (dirs i).Pairwise (fun a b => ¬ SameName false a.name b.name) by unfold SameName; decide +kernel) i (reach hr)
  findable i hr e he := MountExample.findable ((show ∀ i ∈ [2, 7], ∀ e ∈ dirs i, e.name ∈ [docs, MountExample.slash, readme] by decide) i (reach hr) e he)
  types := by decide +kernel
  identifier i hr := (facts i (reach hr)).1
  reserved i hr := (facts i (reach hr)).2.1
  parent i hr h2 := by
    have hr := reach hr
    simp only [List.mem_cons, List.not_mem_nil, or_false] at hr
    rcases hr with rfl | rfl
    · exact absurd rfl h2
    · exact .root
  inode i hr := by
    obtain ⟨g1, g2, g3, g4, g5, g6, g7, g8⟩ := fields_ok i (reach hr)
    refine ⟨_, (facts i (reach hr)).2.2.1, ?_, fits i (reach hr), some (MountExample.fieldsOf (view.file i)), rfl, ?_, g3, g5, g6⟩
    · show key 3 (view.file i).identifier [] = _
      unfold key
      rw [List.append_nil]
    · intro l hl
      rw [Option.mem_some_iff] at hl
      subst hl
      exact ⟨(by show 2 < _; decide), g1, g2⟩
  file i hr := fileIn (reach hr)
  size i hr := ⟨_, (facts i (reach hr)).2.2.2.2.2.2.1, by split <;> decide⟩
  named i hr := by
    obtain ⟨_, _, _, _, _, _, _, _, h1, h2, h3, _⟩ := facts i (reach hr)
    exact ⟨h1, h2, h3⟩
  attributes i hr := by
    have hr := reach hr
    simp only [List.mem_cons, List.not_mem_nil, or_false] at hr
    rcases hr with rfl | rfl
    · intro x hx; cases hx
    · intro x hx
      rw [show (view.file 7).attributes = [{ name := decmpfs, value := DigestExample.header 11 }] from rfl, List.mem_singleton] at hx
      subst hx
      exact ⟨decmpfs.map (·.toNat), by decide +kernel, by decide +kernel⟩
  content i hr content hc := by
    have hr := reach hr
    simp only [List.mem_cons, List.not_mem_nil, or_false] at hr
    rcases hr with rfl | rfl <;> cases hc

theorem mounts : Mounts mounted (leafStorage records) 9 records (fun _ => none) none view := ⟨serves, rfl, holds, has, fun _ _ => FileExample.compares _⟩

theorem chain : Chain dirs 2 [entry readme 7] := .step (by show _ ∈ dirs 2; simp [dirs]) (.here _)

/-- with digests there is an error -/
example : ∃ root, (lookups mounted.files).inode 2 = ok (some root) ∧ ∀ depth, (Bodyfile.listing mounted (some DigestExample.md5) depth [0x2f] { inode := root, record := none }).2 ≠ ok () := by
  have h := fun depth => c69_lzfse libraries mounts DigestExample.md5 chain (by decide +kernel) (method := 11) (size := 300) (.inl rfl) (by decide +kernel) slashPrefix depth
  obtain ⟨root, h1, _⟩ := h 0
  refine ⟨root, h1, fun depth => ?_⟩
  obtain ⟨root', h2, h3⟩ := h depth
  rw [h1] at h2
  cases h2
  exact h3

theorem levels : ∀ p, Chain dirs 2 p → p.length ≤ 1 := by
  intro p hp
  cases hp with
  | here => decide
  | step he rest =>
    rename_i e es
    have h1 : e.identifier = 7 := (show ∀ e ∈ dirs 2, e.identifier = 7 by decide) e he
    cases rest with
    | here => simp
    | step he2 =>
      exfalso
      rw [h1] at he2
      cases he2

/-- without digests there are two lines, and the times are in the right columns -/
example : ∃ root out, (lookups mounted.files).inode 2 = ok (some root) ∧ Bodyfile.listing mounted none 2 [0x2f] { inode := root, record := none } = (out, ok ()) ∧
    Each (fun p line => LineFor none (·.fixed.modified) (·.fixed.created) (view.file (endOf p)) ([0x2f] ++ Utf8.encode (pathText p)) line) [[], [entry readme 7]] (Escape.lines out) :=
  c69_untouched libraries mounts (by
    intro i hr
    have hi := reach hr
    exact .inl ((show ∀ i ∈ [2, 7], (view.file i).stored.attribute? symlink = none by decide +kernel) i hi)) (md5 := none) (digest := none) trivial (fun h => absurd rfl h) levels (by decide) slashPrefix 2 (by decide)
    (by intro i; show (if i = 2 then root else packed).fixed.created = _; by_cases h : i = 2 <;> simp [view, h, root, packed, fixed])

end Packed

/-- every file entry that is found has a line -/
example : ∃ root sub, (lookups mounted.files).inode 2 = ok (some root) ∧ ∃ text a b, Bodyfile.line mounted none [0x2f] (Utf8.encode docs) sub = ok text ∧
    (Bodyfile.listing mounted none 3 [0x2f] { inode := root, record := none }).1 = a ++ text ++ b := by
  obtain ⟨root, out, h1, h2, _⟩ := c69_lines_partial libraries mounts plainTargets (md5 := none) (digest := none) trivial (known _) levels (by decide) slashPrefix 3 (by decide)
  obtain ⟨i, i1, i2⟩ := mounts.shows (i := 5) (.step (e := entry docs 5) .root (by show _ ∈ dirs 2; simp [dirs]))
  obtain ⟨root', q1, q2⟩ := mounts.shows .root
  rw [h1] at q1
  cases q1
  have hdir : (lookups mounted.files).directory 2 = ok ((dirs 2).map (NameLookup.recordOf plain)) := directory_listed mounts.ofTree mounts.holds (mounts.has.hierarchy.directory 2 .root)
  have hid : root.identifier = 2 := q2.mirrors.identifier
  have hin : Inside mounted [0x2f] { inode := root, record := none } [0x2f] { inode := i, record := some (NameLookup.recordOf plain (entry docs 5)) } := by
    refine .step (by rw [hid]; exact hdir) (r := NameLookup.recordOf plain (entry docs 5)) (List.mem_map.2 ⟨entry docs 5, by simp [dirs], rfl⟩) (name := Utf8.encode (view.file 2).name)
      (sub := { inode := i, record := some (NameLookup.recordOf plain (entry docs 5)) }) ?_ ?_ ?_
    · show (match root.name with | none => err | some b => mounted.una b) = _
      rw [q2.mirrors.name]
      exact libraries.names _ (by unfold PathString.Name; decide)
    · unfold subNode
      rw [show (NameLookup.recordOf plain (entry docs 5)).identifier = 5 from rfl, i1]
    · rw [if_neg (not_not_intro hid)]
      exact .here _ _
  obtain ⟨name, text, a, b, t1, t2, t3⟩ := c69_no_omission (md5 := none) hin (depth := 3) (by rw [h2])
  have : nodeName mounted.una { inode := i, record := some (NameLookup.recordOf plain (entry docs 5)) } = ok (Utf8.encode docs) := libraries.names docs (by unfold PathString.Name; decide)
  rw [this] at t1
  cases t1
  exact ⟨root, _, h1, text, a, b, t2, t3⟩

end BodyfileExample
end Verif.Props
