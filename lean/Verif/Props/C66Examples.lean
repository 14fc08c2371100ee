import Verif.Props.C56Examples
import Verif.Props.C66
/-!
# C66 A volume in Python: examples

The volume of the examples of C56.
-/
namespace Verif.Props
open Verif Res Spec FsTree FileRead
open Verif.Mount (Mounted)
open Verif.Name (utf8 Decodes)
open Verif.NameLookup.DirectoryExample (entry docs readme)
open HierarchyExample (leafStorage plain)
open MountExample (mounted view records libraries mounts slash dirs)

namespace PyVolumeExample

/-- a decoder of UTF-8 -/
def decodeAll : Nat → Bytes → Option (List Nat)
  | _, [] => some []
  | 0, _ => none
  | n + 1, b =>
    match utf8.next b with
    | some (c, t) => (decodeAll n t).map (c :: ·)
    | none => none

theorem decodeAll_decodes {b r : Bytes} {cs : List Nat} (h : Decodes utf8 b cs r) (hr : r = []) : ∀ n, cs.length ≤ n → decodeAll n b = some cs := by
  induction h with
  | done s =>
    intro n _
    subst hr
    cases n <;> rfl
  | step h hs ih =>
    intro n hn
    cases n with
    | zero => simp at hn
    | succ n =>
      have hne := Name.next_ne_nil utf8 h
      rename_i s _ _ _ _
      cases s with
      | nil => exact absurd rfl hne
      | cons x xs =>
        rw [decodeAll, h]
        · simp only
          rw [ih hr n (by simpa using hn)]
          rfl
        · intro h
          cases h

def decode (b : Bytes) : Option (List Nat) := decodeAll b.length b

theorem decodes_length {b r : Bytes} {cs : List Nat} (h : Decodes utf8 b cs r) : cs.length + r.length ≤ b.length := by
  induction h with
  | done => simp
  | step h _ ih =>
    have := utf8.shorter h
    simp only [List.length_cons]
    omega

theorem decodes : DecodesUtf8 decode := by
  intro cs hcs
  have h := Name.decodes_utf8 cs hcs []
  rw [List.append_nil] at h
  have := decodes_length h
  exact decodeAll_decodes h rfl _ (by simpa using this)

/-- A program takes the root directory, a file by its path, by its identifier and by its name in the directory, and asks for their fields; it asks for a file that is missing. -/
def requests : List Py.Ask := [.root, .path (docs ++ 0x2f :: readme), .identifier 5, .sub 2 readme, .name 3, .field 3 .added, .field 1 .created, .size 3, .sub 0 (docs ++ 0x2f :: docs), .target 4,
  .has 3 [0x74, 0x61, 0x67], .path readme, .identifier 77]

/-- `c66_session_partial` for these requests -/
example : Py.Trace .shown view (InVolume records) [] (PyVolume.asks mounted decode requests []) := c66_session_partial libraries decodes mounts requests

/-- the path of the second request leads to the file, by its entry in the directory -/
theorem readmeText : Py.Text view ⟨2, none⟩ (docs ++ 0x2f :: readme) (some ⟨7, some (entry readme 7)⟩) :=
  .path (names := [docs, readme]) false false (by simp) (fun n hn => MountExample.component (by simpa using hn)) (by decide +kernel) (by decide +kernel)
    (.step (e := entry docs 5) (by simp [view, dirs]) (.step (e := entry readme 7) (by simp [view, dirs, entry]) (.here _)))

/-- the symbolic link, from the root directory -/
theorem linkText : Py.Text view ⟨2, none⟩ (docs ++ 0x2f :: docs) (some ⟨8, some (entry docs 8)⟩) :=
  .path (names := [docs, docs]) false false (by simp) (fun n hn => MountExample.component (by simp at hn; simp [hn])) (by decide +kernel) (by decide +kernel)
    (.step (e := entry docs 5) (by simp [view, dirs]) (.step (e := entry docs 8) (by simp [view, dirs, entry]) (.here _)))

theorem noText : Py.Text view ⟨2, none⟩ readme none :=
  .path (names := [readme]) false false (by simp) (fun n hn => MountExample.component (by simp at hn; simp [hn])) (by decide +kernel) (by decide +kernel)
    (.missing (show ∀ e ∈ dirs 2, ¬ SameName false readme e.name by unfold SameName; decide +kernel))

/-- no file has the identifier 77 -/
theorem notStored : ¬ InVolume records 77 := by
  rintro ⟨r, hr, h⟩
  exact (show ∀ r ∈ records, ¬ IsOf 77 3 r by decide +kernel) r hr h

example := c66_absent_raises decode mounts (by omega) notStored []

/-- the root directory, and "x" in it -/
example : (PyVolume.ask mounted decode (PyVolume.ask mounted decode [] .root).2 (.sub 0 [0x78])).1 = .object := by
  obtain ⟨n, h1, h2⟩ := mounts.identified .root
  have hr : PyVolume.ask mounted decode [] .root = (.object, [.new { inode := n, record := none }]) := by
    unfold PyVolume.ask PyVolume.root
    simp only
    rw [h1]
    rfl
  rw [hr]
  exact (c66_one_character decode mounts (hs := [some ⟨2, none⟩]) ⟨rfl, fun k x hk => by
    cases k with
    | zero => cases hk; exact ⟨_, rfl, goodObj_new .root h2 rfl (fun e he => by cases he)⟩
    | succ k => cases hk⟩ (k := 0) rfl (by omega)).1

end PyVolumeExample

end Verif.Props
