import Verif.Spec.PiecesPython
import Verif.Props.C90
/-!
# C90 Reading in pieces in Python

`read(size)` again and again, until it returns no bytes, also after exceptions.
-/
namespace Verif.Props
open Verif Res Spec BTree FsTree FileRead FileSeekLemmas PiecesLemmas

/-- calls of the method `read` with sizes -/
def c90Calls (ns : List (Nat × FileSeek.Env)) : List (PyAttribute.Call × FileSeek.Env) := ns.map fun y => (.read (.int y.1), y.2)

namespace PiecesLemmas
variable {content : Bytes} {G : FileSeek.Env → Prop}

/-- results as answers of the library -/
def asAnswer : Res PyAttribute.Value → Res ValueAnswer
  | .ok (.bytes b) => ok (.bytes b)
  | .ok _ => ub
  | .err => err
  | .ub => ub

theorem pyGathered_eq : ∀ rs : List (Res PyAttribute.Value), gathered (rs.map asAnswer) = pyGathered rs
  | [] => rfl
  | .ok (.bytes b) :: l => by simp only [List.map_cons, asAnswer, gathered, pyGathered, pyGathered_eq l]
  | .ok .none_ :: l => by simp only [List.map_cons, asAnswer, gathered, pyGathered, pyGathered_eq l]
  | .ok (.int _) :: l => by simp only [List.map_cons, asAnswer, gathered, pyGathered, pyGathered_eq l]
  | .err :: l => by simp only [List.map_cons, asAnswer, gathered, pyGathered, pyGathered_eq l]
  | .ub :: l => by simp only [List.map_cons, asAnswer, gathered, pyGathered, pyGathered_eq l]

theorem of_python : ∀ (ns : List (Nat × FileSeek.Env)) (rs : List (Res PyAttribute.Value)) (pos : Nat), (∀ y ∈ ns, y.1 ≤ Spec.PyAttribute.largest) → (∀ r ∈ rs, r ≠ ub) → rs.length = ns.length →
    PyAnswers content pos (List.zipWith (fun y x => (y.1, G y.2, PyAttribute.given x)) (c90Calls ns) rs) →
    Answers content pos (paired G ns (rs.map asAnswer)) ∧ ∀ r ∈ rs.map asAnswer, r ≠ ub
  | [], [], _, _, _, _, _ => ⟨trivial, by simp⟩
  | [], _ :: _, _, _, _, hl, _ => by simp at hl
  | _ :: _, [], _, _, _, hl, _ => by simp at hl
  | (n, env) :: ns, x :: rs, pos, hn, hr, hl, h => by
    have hn' : ∀ y ∈ ns, y.1 ≤ Spec.PyAttribute.largest := fun y hy => hn y (by simp [hy])
    have hr' : ∀ r ∈ rs, r ≠ ub := fun r hy => hr r (by simp [hy])
    have hl' : rs.length = ns.length := by simpa using hl
    obtain ⟨p, h1, h2⟩ := h
    have h1 : Spec.PyAttribute.Step content (G env) pos (.read (.int (n : Int))) (PyAttribute.given x) p := h1
    obtain ⟨i1, i2⟩ := of_python ns rs p hn' hr' hl' h2
    have hx := hr x (by simp)
    have hle : n ≤ Spec.PyAttribute.largest := hn (n, env) (by simp)
    have hlt : n < 2 ^ 63 := by unfold Spec.PyAttribute.largest at hle; omega
    have key : (x = ok (.bytes ((content.drop pos).take n)) ∧ p = pos + ((content.drop pos).take n).length) ∨ (G env ∧ x = err ∧ p = pos) := by
      generalize hk : PyAttribute.Call.read (.int (n : Int)) = k at h1
      generalize hg : PyAttribute.given x = g at h1
      cases h1 with
      | readAll hs _ => rcases hs with rfl | rfl <;> cases hk
      | read m _ =>
        have e : n = m := by
          injection hk with hk
          injection hk with hk
          omega
        subst e
        left
        cases x with
        | ok a => exact ⟨by rw [Option.some.inj hg], rfl⟩
        | err => cases hg
        | ub => cases hg
      | readRefused hs _ =>
        injection hk with hk
        have := hs n hk.symm
        omega
      | failed hf _ =>
        right
        cases x with
        | ok a => cases hg
        | err => exact ⟨hf, rfl, rfl⟩
        | ub => exact (hx rfl).elim
      | readAt => cases hk
      | readNothing => cases hk
      | seek => cases hk
      | offset => cases hk
      | size => cases hk
      | readAtRefused => cases hk
      | seekRefused => cases hk
      | moved => cases hk
    rcases key with ⟨e, rfl⟩ | ⟨g, e, rfl⟩
    · subst e
      refine ⟨Or.inl ⟨?_, ?_⟩, ?_⟩
      · simp only [valueStep, if_pos hlt]
        rfl
      · simp only [valueStep, if_pos hlt]
        exact i1
      · intro r hr
        rcases List.mem_cons.1 hr with rfl | hr
        · simp [asAnswer]
        · exact i2 r hr
    · subst e
      refine ⟨Or.inr ⟨g, rfl, by simp, p, .stays _, i1⟩, ?_⟩
      intro r hr
      rcases List.mem_cons.1 hr with rfl | hr
      · simp [asAnswer]
      · exact i2 r hr

end PiecesLemmas

variable {F : Files} {s : Storage} {xid : Nat} {files : List Record} {image : Nat → Option Bytes} {cipher : Option (Cipher × Cipher)}

/-- A Python program that calls `read` with sizes of less than 2 GiB: there is an exception only if the storage fails; what was returned is a start of the content, all that was asked for if nothing failed; and if
a call for at least one byte returns none, what was returned before is the content. Missing as for C89. -/
theorem c90_python_partial (hF : Serves F s xid image cipher) (h : FsHolds s xid files) (hroot : ∃ r ∈ files, IsOf 2 3 r) {f : StoredFile} {stream : Nat}
    (hf : FileIn files image (cipher.map (·.1)) f stream) {c : Codec} (hc : Compressed.CodecOk c) {content : Bytes} (hcon : HasContent c files image (cipher.map (·.1)) f stream content)
    {compare : Bytes → Bytes → Res Bool} (hcmp : Compares compare f) {i : Records.Inode} (hi : ReadsAs i f stream) {e : FileEntry.Entry} (he : FileEntry.Reached f e)
    {junk : Bytes} (hj : junk.length = 65536) :
    ∃ reader, openFile F compare junk i e = ok reader ∧ ∀ e', FileEntry.Reached f e' → ∀ ns : List (Nat × FileSeek.Env), (∀ y ∈ ns, y.1 ≤ Spec.PyAttribute.largest ∧ Faithful F y.2) →
      ∀ rs, FileSeek.calls c (FileEntry.getSize (FileRead.env F compare i) e').1 (c90Calls ns) reader = rs →
        rs.length = ns.length ∧ pyGathered rs <+: content ∧ (∀ y ∈ ns.zip rs, y.2 = err → ¬ Works F y.1.2) ∧ (∀ r ∈ rs, r ≠ ub) ∧
        ((∀ r ∈ rs, r ≠ err) → pyGathered rs = content.take (ns.map (·.1)).sum) ∧
        ∀ ns' n env rs', ns = ns' ++ [(n, env)] → 0 < n → rs = rs' ++ [ok (.bytes [])] → pyGathered rs' = content := by
  obtain ⟨reader, h1, h2⟩ := c89_python_partial hF h hroot hf hc hcon hcmp hi he hj
  refine ⟨reader, h1, fun e' he' ns hns rs hrs => ?_⟩
  obtain ⟨g1, g2, g3⟩ := h2 e' he' (c90Calls ns) (by
    intro y hy
    obtain ⟨z, hz, rfl⟩ := List.mem_map.1 hy
    exact (hns z hz).2)
  rw [hrs] at g1 g2 g3
  have hl : rs.length = ns.length := by rw [g1, c90Calls, List.length_map]
  have hsize : ∀ y ∈ ns, y.1 < 2 ^ 63 := by
    intro y hy
    have := (hns y hy).1
    unfold Spec.PyAttribute.largest at this
    omega
  obtain ⟨a1, a2⟩ := of_python (G := fun env => ¬ Works F env) ns rs 0 (fun y hy => (hns y hy).1) g2 hl g3
  obtain ⟨p1, p2, p3⟩ := pieces (G := fun env => ¬ Works F env) ns _ 0 hsize a2 (by rw [List.length_map, hl]) a1
  rw [pyGathered_eq, List.drop_zero] at p1
  refine ⟨hl, by rw [p1]; exact List.take_prefix _ _, ?_, g2, ?_, ?_⟩
  · intro y hy hye
    have : (y.1, asAnswer y.2) ∈ ns.zip (rs.map asAnswer) := by
      rw [List.zip_map_right]
      exact List.mem_map.2 ⟨y, hy, rfl⟩
    exact p2 _ this (by rw [hye]; rfl)
  · intro hne
    rw [p1, p3]
    intro r hr
    obtain ⟨x, hx, rfl⟩ := List.mem_map.1 hr
    have := hne x hx
    unfold asAnswer
    split <;> simp_all
  · rintro ns' n env rs' rfl h0 rfl
    have := until_end (G := fun env => ¬ Works F env) ns' (rs'.map asAnswer) 0 (n := n) (env := env) h0 (hsize (n, env) (by simp)) (fun y hy => hsize y (by simp [hy])) (fun r hr => a2 r (by simp at hr ⊢; exact Or.inl hr))
      (by simpa using hl) (by simpa [asAnswer] using a1)
    rw [pyGathered_eq] at this
    exact this

namespace PiecesExample
open MountExample (mounted)
open FileSeekExample (works fails)

/-- the file of C90 in Python -/
example : ∃ i e reader, openFile mounted.files mounted.compare mounted.junk i e = ok reader ∧
    ∀ rs, FileSeek.calls mounted.unpack (FileEntry.getSize (FileRead.env mounted.files mounted.compare i) e).1 (c90Calls pieces) reader = rs →
      rs.length = 6 ∧ pyGathered rs <+: List.replicate 9 0x61 ∧ ∀ rs', rs = rs' ++ [ok (.bytes [])] → pyGathered rs' = List.replicate 9 0x61 := by
  have hin := MountExample.fileIn (i := 7) (by simp)
  let inode : Records.Inode := { identifier := 7, parent := 5, dataStream := 7, modification := 0, creation := 0, change := 0, access := 0, flags := 0, links := 1, owner := 0, group := 0, mode := 0x81a4, name := none, size := 9, device := 0 }
  have hreach : FileEntry.Reached MountExample.file.stored { inodeSize := MountExample.file.stored.size, inodeFlags := 0 } := .new 0 (by decide +kernel)
  have hmirror : ReadsAs inode MountExample.file.stored 7 := ⟨by decide +kernel, by decide +kernel, by decide +kernel, by decide +kernel⟩
  have hcontent := MountExample.mounts.has.content 7 (.step (.step .root (e := NameLookup.DirectoryExample.entry NameLookup.DirectoryExample.docs 5) (.head _)) (e := NameLookup.DirectoryExample.entry NameLookup.DirectoryExample.readme 7) (.tail _ (.head _))) _ rfl
  obtain ⟨reader, h1, h2⟩ := c90_python_partial MountExample.mounts.serves MountExample.mounts.holds MountExample.mounts.root hin MountExample.libraries.codec
    hcontent (FileExample.compares _) hmirror hreach MountExample.libraries.junk
  refine ⟨inode, _, reader, h1, fun rs hrs => ?_⟩
  obtain ⟨g1, g2, _, _, _, g6⟩ := h2 _ hreach pieces (fun y hy => ⟨by revert y; simp [pieces, Spec.PyAttribute.largest], FileSeekExample.faithful (by simp [pieces]) y hy⟩) rs hrs
  exact ⟨g1, g2, fun rs' h => g6 [(4, works), (4, fails), (4, works), (4, fails), (4, works)] 4 works rs' rfl (by decide) h⟩

end PiecesExample
end Verif.Props
