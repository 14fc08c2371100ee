import Verif.Props.C55Volumes
import Verif.Lemmas.VolumeExample
/-!
# C55 The printed hierarchy has one line per file: examples

A container with a volume that is printed, a volume with a directory that contains itself, a volume with two files that have the same line.
-/
namespace Verif.Props
open Verif Res Spec BTree FsTree FileRead
open Verif.PathString (escaped Lawful utf8Codec lawful_utf8Codec)
open Verif.NameLookup.DirectoryExample (entry docs readme format valid_entry)
open Verif.FsTree.TreeExample (key)

namespace HierarchyExample

/-- names up to the end-of-string character -/
def una (b : Bytes) : Res Bytes := ok (b.takeWhile (· ≠ 0))

theorem readsNames : ReadsNames una := by
  intro name hn
  unfold una storedName
  have h := encode_nonzero hn
  rw [List.takeWhile_append_of_pos (fun b hb => by simpa using h b hb)]
  simp

def dirs : Nat → List DirEntry
  | 2 => [entry docs 5]
  | 5 => [entry docs 8, entry readme 7]
  | _ => []

theorem reach {i : Nat} (h : Reach dirs i) : i = 2 ∨ i = 5 ∨ i = 7 ∨ i = 8 := by
  induction h with
  | root => exact .inl rfl
  | step h he ih =>
    rcases ih with rfl | rfl | rfl | rfl
    · simp only [dirs, List.mem_cons, List.not_mem_nil, or_false] at he
      subst he
      exact .inr (.inl rfl)
    · simp only [dirs, List.mem_cons, List.not_mem_nil, or_false] at he
      rcases he with rfl | rfl
      · exact .inr (.inr (.inr rfl))
      · exact .inr (.inr (.inl rfl))
    · cases he
    · cases he

theorem valid {i : Nat} {e : DirEntry} (h : e ∈ dirs i) : e.Valid ∧ e.name ≠ [] ∧ 0x2f ∉ e.name := by
  unfold dirs at h
  split at h
  · simp only [List.mem_cons, List.not_mem_nil, or_false] at h
    subst h
    exact ⟨valid_entry docs 5 (by decide) (by decide) (by decide) (by decide), by decide, by decide⟩
  · simp only [List.mem_cons, List.not_mem_nil, or_false] at h
    rcases h with rfl | rfl
    · exact ⟨valid_entry docs 8 (by decide) (by decide) (by decide) (by decide), by decide, by decide⟩
    · exact ⟨valid_entry readme 7 (by decide) (by decide) (by decide) (by decide), by decide, by decide⟩
  · cases h

theorem hierarchy : FileHierarchy VolumeExample.files format dirs := by
  refine ⟨fun i hr => ?_, fun i _ e he => (valid he).2.1⟩
  rcases reach hr with rfl | rfl | rfl | rfl
  · exact ⟨by decide +kernel, by decide +kernel, fun e he => (valid he).1, by unfold DirEntry.Before dirs; decide +kernel⟩
  · exact ⟨by decide +kernel, by decide +kernel, fun e he => (valid he).1, by unfold DirEntry.Before dirs; decide +kernel⟩
  · exact ⟨by decide +kernel, by decide +kernel, fun e he => (valid he).1, .nil⟩
  · exact ⟨by decide +kernel, by decide +kernel, fun e he => (valid he).1, .nil⟩

theorem inodes : Inodes VolumeExample.files ReadableInode :=
  ⟨fun i => one_of_nodup (by decide +kernel) i, fun r hr ht => readsInode_readable ((show ∀ r ∈ VolumeExample.files, fsType r.1 = 3 → readsInode r = true by decide +kernel) r hr ht), by decide +kernel⟩

theorem chain_zero {dirs : Nat → List DirEntry} {i : Nat} (h0 : dirs i = []) {p : List DirEntry} (h : Chain dirs i p) : p.length ≤ 0 := by
  cases h with
  | here => exact Nat.le_refl _
  | step he _ => rw [h0] at he; cases he

theorem levels {p : List DirEntry} (h : Chain dirs 2 p) : p.length ≤ 2 := by
  cases h with
  | here => exact Nat.zero_le _
  | step he rest =>
    simp only [dirs, List.mem_cons, List.not_mem_nil, or_false] at he
    subst he
    cases rest with
    | here => simp
    | step he rest =>
      have he : _ ∈ [entry docs 8, entry readme 7] := he
      simp only [List.mem_cons, List.not_mem_nil, or_false] at he
      rcases he with rfl | rfl
      · have := chain_zero (i := 8) rfl rest
        simp only [List.length_cons]; omega
      · have := chain_zero (i := 7) rfl rest
        simp only [List.length_cons]; omega

/-- the name of the inode of the root directory -/
def rootName (rs : List Record) : Bool := rs.all fun r => !(fsType r.1 = 3 && fsId r.1 = 2) ||
  match Records.readInode r with
  | .ok i => i.name = some [0x72, 0x6f, 0x6f, 0x74, 0]
  | _ => false

theorem rootNamed {rs : List Record} (h : rootName rs = true) {r : Record} (hr : r ∈ rs) (ho : IsOf 2 3 r) {i : Records.Inode} (hi : Records.readInode r = ok i) : RootNamed una i := by
  have := List.all_eq_true.1 h r hr
  rw [hi] at this
  simp only [ho.1, ho.2, decide_true, Bool.and_true, Bool.not_true, Bool.false_or, decide_eq_true_eq] at this
  exact ⟨[0x72, 0x6f, 0x6f, 0x74], _, this, by decide, by unfold PathString.Name; decide, by decide⟩

open VolumeExample in
/-- the hierarchy of the first volume of a container -/
theorem prints (p : KeyBag.Prims) (ops : List Volume.Op) : ∃ v, VolumeOpen.volumeByIndex ⟨fun _ _ d => d, none⟩ (fun _ => true) image opened 0 = ok v ∧
    ∀ s, Volume.run p v.state ops = ok s → ∃ out, Prints utf8Codec una 3 (ok (printedVolume ⟨fun _ _ d => d, none⟩ image opened v s)) out ∧
      (Escape.lines out).map Escape.unescape = some (0x2f :: uuidText (Apsb.uuid b10) ++ [0x2f]) :: (paths dirs 2 2).map (fun p => some (0x2f :: uuidText (Apsb.uuid b10) ++ [0x2f] ++ Utf8.encode (pathText p))) ∧
      (paths dirs 2 2).Nodup ∧ ∀ p, p ∈ paths dirs 2 2 ↔ p ≠ [] ∧ Chain dirs 2 p := by
  obtain ⟨_, _, _, _, _, _, _, f8, _, f10, f11, f12, _, _⟩ := superblock_facts
  obtain ⟨g1, g2, g3, g4, g5, g6⟩ := b10_facts
  obtain ⟨n1, n2⟩ := newest_volume (oid := 1026) (block := 10) (by decide)
  refine c55_volume_partial (o := opened) (d0 := superblock) (d := b10) (root := 8) (vs := []) (records := volumes) (mappings := mappings) (files := files) (index := 0) lawful_utf8Codec readsNames blocks rfl
    superblock_valid rfl containerTree ?_ ?_ ?_ ?_ (.inl ⟨g4, rfl⟩) (.inl rfl) volumeTree ?_ ?_ inodes hierarchy (fun p hp => levels hp) (by decide)
    (fun r hr ho i hi => rootNamed (rs := files) (by decide +kernel) hr ho hi) (by decide) p ops
  · rw [number]; omega
  · rw [f10]; omega
  · rw [f10, f8]
    intro r hr
    rw [n2 r hr]
    exact storedVolume rfl (by omega) lengths.2.2.2.1 g1 g2 g3
  · rw [f10, f8]; exact n1
  · rw [g3, g5]; exact newest_root.1
  · rw [g3, g5]
    intro r hr
    rw [newest_root.2 r hr]
    exact holds

/-- it has the directories "Docs" and the files "Docs/Docs" and "Docs/readme" -/
example : (paths dirs 2 2).map (fun p => pathText p) = [docs, docs ++ 0x2f :: docs, docs ++ 0x2f :: readme] := by decide

/-- whose texts differ -/
example {p q : List DirEntry} (hp : p ∈ paths dirs 2 2) (hq : q ∈ paths dirs 2 2) (h : [0x2f] ++ Utf8.encode (pathText p) = [0x2f] ++ Utf8.encode (pathText q)) : p = q :=
  c55_distinct_partial hierarchy (fun _ _ _ he => (valid he).2.2) hp hq h

/-! Volumes of one leaf -/

def leafStorage (rs : List Record) : Storage :=
  { omImage := fun b => if b = 8 then some (VolumeExample.omLeaf VolumeExample.mappings) else none, omRoot := 8, fsImage := fun b => if b = 20 then some (VolumeExample.fsLeaf rs) else none, fsRoot := 20 }

def leafFiles (rs : List Record) : Files := { disk := fun _ _ => err, xts := none, tree := volumeOf (leafStorage rs), xid := 9, folding := false }

theorem leafFiles_tree (rs : List Record) : OfTree (leafFiles rs) (leafStorage rs) 9 := ⟨rfl, rfl⟩

theorem leafTree (rs : List Record) : OmTree (leafStorage rs).omImage (leafStorage rs).omRoot VolumeExample.mappings := by
  refine ⟨⟨VolumeExample.omLeaf VolumeExample.mappings, ⟨(by show 8 < 2 ^ 31; decide), rfl, ⟨by decide +kernel, by decide +kernel, by decide +kernel, by decide +kernel, by decide +kernel, by decide +kernel, by decide +kernel, by decide +kernel⟩,
    by decide +kernel, by decide +kernel, by decide +kernel, by decide +kernel, by decide +kernel⟩, .inl (by decide +kernel)⟩, ?_⟩
  unfold Ascending omLt
  decide +kernel

/-- the root directory -/
def rootRecord : Record := (key 3 2 [], VolumeExample.inode 1 2 0 0x41ed (some [{ type := 4, flags := 2, value := [0x72, 0x6f, 0x6f, 0x74, 0] }]))

/-! A directory that contains itself -/

def cycleRecords : List Record := [rootRecord, (entry docs 5).record format 2, (key 3 5 [], VolumeExample.inode 2 5 0 0x41ed none), (entry readme 5).record format 5]
def cycleDirs : Nat → List DirEntry
  | 2 => [entry docs 5]
  | 5 => [entry readme 5]
  | _ => []

theorem cycle_holds : FsHolds (leafStorage cycleRecords) 9 cycleRecords := by
  refine ⟨⟨_, leafTree _, VolumeExample.fsLeaf cycleRecords, ⟨(by decide), rfl, ⟨by decide +kernel, by decide +kernel, by decide +kernel, by decide +kernel, by decide +kernel, by decide +kernel, by decide +kernel, by decide +kernel⟩,
    by decide +kernel, by decide +kernel, by decide +kernel, by decide +kernel, by decide +kernel⟩, .inl (by decide +kernel)⟩, by decide +kernel, ?_⟩
  unfold fsLe
  decide +kernel

theorem cycle_inodes : Inodes cycleRecords ReadableInode :=
  ⟨fun i => one_of_nodup (by decide +kernel) i, fun r hr ht => readsInode_readable ((show ∀ r ∈ cycleRecords, fsType r.1 = 3 → readsInode r = true by decide +kernel) r hr ht), by decide +kernel⟩

theorem cycle_reach {i : Nat} (h : Reach cycleDirs i) : i = 2 ∨ i = 5 := by
  induction h with
  | root => exact .inl rfl
  | step h he ih =>
    rcases ih with rfl | rfl
    · simp only [cycleDirs, List.mem_cons, List.not_mem_nil, or_false] at he
      subst he
      exact .inr rfl
    · simp only [cycleDirs, List.mem_cons, List.not_mem_nil, or_false] at he
      subst he
      exact .inr rfl

theorem cycle_valid {i : Nat} {e : DirEntry} (h : e ∈ cycleDirs i) : e.Valid ∧ e.name ≠ [] := by
  unfold cycleDirs at h
  split at h
  · simp only [List.mem_cons, List.not_mem_nil, or_false] at h
    subst h
    exact ⟨valid_entry docs 5 (by decide) (by decide) (by decide) (by decide), by decide⟩
  · simp only [List.mem_cons, List.not_mem_nil, or_false] at h
    subst h
    exact ⟨valid_entry readme 5 (by decide) (by decide) (by decide) (by decide), by decide⟩
  · cases h

theorem cycle_hierarchy : FileHierarchy cycleRecords format cycleDirs := by
  refine ⟨fun i hr => ?_, fun i _ e he => (cycle_valid he).2⟩
  rcases cycle_reach hr with rfl | rfl
  · exact ⟨by decide +kernel, by decide +kernel, fun e he => (cycle_valid he).1, by unfold DirEntry.Before cycleDirs; decide +kernel⟩
  · exact ⟨by decide +kernel, by decide +kernel, fun e he => (cycle_valid he).1, by unfold DirEntry.Before cycleDirs; decide +kernel⟩

/-- printing it ends with a stack overflow -/
theorem cycle_overflow {depth : Nat} (hd : depth < 2 ^ 48) : ∃ root, (lookups (leafFiles cycleRecords)).inode 2 = ok (some root) ∧
    (FileRead.hierarchy utf8Codec una (lookups (leafFiles cycleRecords)) depth [0x2f] { inode := root, record := none }).2 = ub := by
  obtain ⟨i, i1, ⟨r, i2, i3, i4⟩, _⟩ := inode_found (leafFiles_tree cycleRecords) cycle_holds cycle_inodes (cycle_hierarchy.directory 2 .root).inode
  refine ⟨i, i1, ?_⟩
  exact c55_cycle lawful_utf8Codec readsNames (leafFiles_tree cycleRecords) cycle_holds cycle_inodes cycle_hierarchy i1 (rootNamed (rs := cycleRecords) (by decide +kernel) i2 i3 i4) ⟨by decide, by decide, by decide⟩ depth hd
    (i := 5) (p := [entry docs 5]) (q := []) (e := entry readme 5) (.step (by simp [cycleDirs]) (.here _)) rfl (.step (by simp [cycleDirs]) (.here _)) rfl

/-! Names with slashes -/

def plain : NameFormat := { hashed := false, caseInsensitive := false }

/-- a directory "a" with a file "b", and a file "a/b" -/
def slashRecords : List Record := [rootRecord, (entry [0x61] 5).record plain 2, (entry [0x61, 0x2f, 0x62] 7).record plain 2, (key 3 5 [], VolumeExample.inode 2 5 0 0x41ed none), (entry [0x62] 8).record plain 5,
  (key 3 7 [], VolumeExample.inode 2 7 0 0x81a4 none), (key 3 8 [], VolumeExample.inode 5 8 0 0x81a4 none)]
def slashDirs : Nat → List DirEntry
  | 2 => [entry [0x61] 5, entry [0x61, 0x2f, 0x62] 7]
  | 5 => [entry [0x62] 8]
  | _ => []

theorem slash_holds : FsHolds (leafStorage slashRecords) 9 slashRecords := by
  refine ⟨⟨_, leafTree _, VolumeExample.fsLeaf slashRecords, ⟨(by decide), rfl, ⟨by decide +kernel, by decide +kernel, by decide +kernel, by decide +kernel, by decide +kernel, by decide +kernel, by decide +kernel, by decide +kernel⟩,
    by decide +kernel, by decide +kernel, by decide +kernel, by decide +kernel, by decide +kernel⟩, .inl (by decide +kernel)⟩, by decide +kernel, ?_⟩
  unfold fsLe
  decide +kernel

theorem slash_inodes : Inodes slashRecords ReadableInode :=
  ⟨fun i => one_of_nodup (by decide +kernel) i, fun r hr ht => readsInode_readable ((show ∀ r ∈ slashRecords, fsType r.1 = 3 → readsInode r = true by decide +kernel) r hr ht), by decide +kernel⟩

theorem slash_reach {i : Nat} (h : Reach slashDirs i) : i = 2 ∨ i = 5 ∨ i = 7 ∨ i = 8 := by
  induction h with
  | root => exact .inl rfl
  | step h he ih =>
    rcases ih with rfl | rfl | rfl | rfl
    · simp only [slashDirs, List.mem_cons, List.not_mem_nil, or_false] at he
      rcases he with rfl | rfl
      · exact .inr (.inl rfl)
      · exact .inr (.inr (.inl rfl))
    · simp only [slashDirs, List.mem_cons, List.not_mem_nil, or_false] at he
      subst he
      exact .inr (.inr (.inr rfl))
    · cases he
    · cases he

theorem slash_valid {i : Nat} {e : DirEntry} (h : e ∈ slashDirs i) : e.Valid ∧ e.name ≠ [] := by
  unfold slashDirs at h
  split at h
  · simp only [List.mem_cons, List.not_mem_nil, or_false] at h
    rcases h with rfl | rfl
    · exact ⟨valid_entry [0x61] 5 (by decide) (by decide) (by decide) (by decide), by decide⟩
    · exact ⟨valid_entry [0x61, 0x2f, 0x62] 7 (by decide) (by decide) (by decide) (by decide), by decide⟩
  · simp only [List.mem_cons, List.not_mem_nil, or_false] at h
    subst h
    exact ⟨valid_entry [0x62] 8 (by decide) (by decide) (by decide) (by decide), by decide⟩
  · cases h

theorem slash_hierarchy : FileHierarchy slashRecords plain slashDirs := by
  refine ⟨fun i hr => ?_, fun i _ e he => (slash_valid he).2⟩
  rcases slash_reach hr with rfl | rfl | rfl | rfl
  · exact ⟨by decide +kernel, by decide +kernel, fun e he => (slash_valid he).1, by unfold DirEntry.Before slashDirs; decide +kernel⟩
  · exact ⟨by decide +kernel, by decide +kernel, fun e he => (slash_valid he).1, by unfold DirEntry.Before slashDirs; decide +kernel⟩
  · exact ⟨by decide +kernel, by decide +kernel, fun e he => (slash_valid he).1, .nil⟩
  · exact ⟨by decide +kernel, by decide +kernel, fun e he => (slash_valid he).1, .nil⟩

theorem slash_levels {p : List DirEntry} (h : Chain slashDirs 2 p) : p.length ≤ 2 := by
  cases h with
  | here => exact Nat.zero_le _
  | step he rest =>
    simp only [slashDirs, List.mem_cons, List.not_mem_nil, or_false] at he
    rcases he with rfl | rfl
    · cases rest with
      | here => simp
      | step he rest =>
        have he : _ ∈ [entry [0x62] 8] := he
        simp only [List.mem_cons, List.not_mem_nil, or_false] at he
        subst he
        have := chain_zero (i := 8) rfl rest
        simp only [List.length_cons]; omega
    · have := chain_zero (i := 7) rfl rest
      simp only [List.length_cons]; omega

end HierarchyExample

open HierarchyExample in
/-- The lines of a volume do not tell its files apart: two different files have the same line. -/
theorem c55_slash (before : Bytes) (hb : Prefix before) : ∃ (root : Records.Inode) (out : Bytes) (p q : List DirEntry), (lookups (leafFiles slashRecords)).inode 2 = ok (some root) ∧
    FileRead.hierarchy utf8Codec una (lookups (leafFiles slashRecords)) 3 before { inode := root, record := none } = (out, ok ()) ∧
    Chain slashDirs 2 p ∧ Chain slashDirs 2 q ∧ (p.getLast?.map (·.identifier)) = some 8 ∧ (q.getLast?.map (·.identifier)) = some 7 ∧
    (Escape.lines out).map Escape.unescape = [before, before ++ [0x61], before ++ Utf8.encode (pathText p), before ++ Utf8.encode (pathText q)].map some ∧ pathText p = pathText q := by
  obtain ⟨i, i1, ⟨r, i2, i3, i4⟩, _⟩ := inode_found (leafFiles_tree slashRecords) slash_holds slash_inodes (slash_hierarchy.directory 2 .root).inode
  obtain ⟨out, h1, h2⟩ := c55_lines_partial lawful_utf8Codec readsNames (leafFiles_tree slashRecords) slash_holds slash_inodes slash_hierarchy (levels := 2) (fun p hp => slash_levels hp) (by decide) i1
    (rootNamed (rs := slashRecords) (by decide +kernel) i2 i3 i4) hb 3 (by decide)
  exact ⟨i, out, [entry [0x61] 5, entry [0x62] 8], [entry [0x61, 0x2f, 0x62] 7], i1, h1, .step (by simp [slashDirs]) (.step (by simp [slashDirs, entry]) (.here _)), .step (by simp [slashDirs]) (.here _), rfl, rfl, h2, rfl⟩

/-- a root directory without name -/
example : (nodeOfIdentifier (lookups linkFiles) 2).map (fun n => n.inode.name) = some none := by decide +kernel

/-- a locked volume in front of the volume of `HierarchyExample.prints` -/
example (p : KeyBag.Prims) (ops : List Volume.Op) (s : Volume.State) (hs : ∀ v : VolumeOpen.Opened, Volume.run p v.state ops = ok s) (u : Bytes) : ∃ v,
    printHierarchy utf8Codec HierarchyExample.una 3 0 [ok { uuid := u, files := err }, ok (printedVolume ⟨fun _ _ d => d, none⟩ VolumeExample.image VolumeExample.opened v s)] = (hierarchyHeader, err) := by
  obtain ⟨v, _, h⟩ := HierarchyExample.prints p ops
  obtain ⟨out, h1, _⟩ := h s (hs v)
  exact ⟨v, c55_hidden h1 u⟩

end Verif.Props
