import Verif.Spec.Pieces
import Verif.Props.C89
/-!
# C90 Reading in pieces

A file that is read in pieces of any sizes, again and again after errors, is put together from the answers: nothing is lost, nothing is there twice, and who reads until there is nothing more has all of it.
-/
namespace Verif.Props
open Verif Res Spec BTree FsTree FileRead FileSeekLemmas

/-- calls that read -/
def c90Reads (ns : List (Nat × FileSeek.Env)) : List (ValueOp × FileSeek.Env) := ns.map fun y => (.read y.1, y.2)

namespace PiecesLemmas
variable {content : Bytes} {G : FileSeek.Env → Prop}

/-- calls and answers as in `Answers` -/
def paired (G : FileSeek.Env → Prop) (ns : List (Nat × FileSeek.Env)) (rs : List (Res ValueAnswer)) : List (ValueOp × Prop × Option ValueAnswer) :=
  List.zipWith (fun y x => (y.1, G y.2, AttributeRead.given x)) (c90Reads ns) rs

theorem step {pos n : Nat} (hn : n < 2 ^ 63) {env : FileSeek.Env} {x : Res ValueAnswer} (hx : x ≠ ub) {rest : List (ValueOp × Prop × Option ValueAnswer)}
    (h : Answers content pos ((.read n, G env, AttributeRead.given x) :: rest)) :
    (x = ok (.bytes ((content.drop pos).take n)) ∧ Answers content (pos + ((content.drop pos).take n).length) rest) ∨ (G env ∧ x = err ∧ Answers content pos rest) := by
  unfold Answers at h
  rcases h with ⟨h1, h2⟩ | ⟨h1, h2, _, p, h4, h5⟩
  · simp only [valueStep, if_pos hn] at h1 h2
    cases x with
    | ok a => exact Or.inl ⟨by rw [Option.some.inj h1], h2⟩
    | err => cases h1
    | ub => cases h1
  · cases x with
    | ok a => cases h2
    | err =>
      cases h4
      exact Or.inr ⟨h1, rfl, h5⟩
    | ub => exact (hx rfl).elim

theorem take_more (l : Bytes) (pos n m : Nat) : (l.drop pos).take n ++ (l.drop (pos + ((l.drop pos).take n).length)).take m = (l.drop pos).take (n + m) := by
  by_cases h : n ≤ (l.drop pos).length
  · rw [List.length_take, Nat.min_eq_left h, ← List.drop_drop, List.take_add]
  · have e : l.drop (pos + (l.drop pos).length) = [] := List.drop_eq_nil_of_le (by rw [List.length_drop]; omega)
    rw [List.take_of_length_le (i := n) (by omega), e, List.take_nil, List.append_nil, List.take_of_length_le (by omega)]

theorem drop_more (l : Bytes) (pos n : Nat) : (l.drop pos).take n ++ l.drop (pos + ((l.drop pos).take n).length) = l.drop pos := by
  by_cases h : n ≤ (l.drop pos).length
  · rw [List.length_take, Nat.min_eq_left h, ← List.drop_drop, List.take_append_drop]
  · have e : l.drop (pos + (l.drop pos).length) = [] := List.drop_eq_nil_of_le (by rw [List.length_drop]; omega)
    rw [List.take_of_length_le (by omega), e, List.append_nil]

theorem pieces : ∀ (ns : List (Nat × FileSeek.Env)) (rs : List (Res ValueAnswer)) (pos : Nat), (∀ y ∈ ns, y.1 < 2 ^ 63) → (∀ r ∈ rs, r ≠ ub) → rs.length = ns.length → Answers content pos (paired G ns rs) →
    gathered rs = (content.drop pos).take (askedFor (ns.map (·.1)) rs) ∧ (∀ y ∈ ns.zip rs, y.2 = err → G y.1.2) ∧
      ((∀ r ∈ rs, r ≠ err) → askedFor (ns.map (·.1)) rs = (ns.map (·.1)).sum)
  | [], [], _, _, _, _, _ => by simp [gathered, askedFor]
  | [], _ :: _, _, _, _, hl, _ => by simp at hl
  | _ :: _, [], _, _, _, hl, _ => by simp at hl
  | (n, env) :: ns, x :: rs, pos, hn, hr, hl, h => by
    have hn' : ∀ y ∈ ns, y.1 < 2 ^ 63 := fun y hy => hn y (by simp [hy])
    have hr' : ∀ r ∈ rs, r ≠ ub := fun r hy => hr r (by simp [hy])
    have hl' : rs.length = ns.length := by simpa using hl
    rcases step (hn (n, env) (by simp)) (hr x (by simp)) h with ⟨e, h2⟩ | ⟨g, e, h2⟩
    · obtain ⟨i1, i2, i3⟩ := pieces ns rs _ hn' hr' hl' h2
      subst e
      refine ⟨?_, ?_, ?_⟩
      · simp only [gathered, List.map_cons, askedFor]
        rw [i1, take_more]
      · intro y hy he
        rcases List.mem_cons.1 hy with rfl | hy
        · cases he
        · exact i2 y hy he
      · intro hne
        simp only [List.map_cons, askedFor, List.sum_cons]
        rw [i3 (fun r hy => hne r (by simp [hy]))]
    · obtain ⟨i1, i2, i3⟩ := pieces ns rs _ hn' hr' hl' h2
      subst e
      refine ⟨?_, ?_, ?_⟩
      · simp only [gathered, List.map_cons, askedFor]
        exact i1
      · intro y hy he
        rcases List.mem_cons.1 hy with rfl | hy
        · exact g
        · exact i2 y hy he
      · exact fun hne => (hne err (by simp) rfl).elim

theorem until_end : ∀ (ns : List (Nat × FileSeek.Env)) (rs : List (Res ValueAnswer)) (pos : Nat) {n : Nat} {env : FileSeek.Env}, 0 < n → n < 2 ^ 63 → (∀ y ∈ ns, y.1 < 2 ^ 63) → (∀ r ∈ rs, r ≠ ub) →
    rs.length = ns.length → Answers content pos (paired G (ns ++ [(n, env)]) (rs ++ [ok (.bytes [])])) → gathered rs = content.drop pos
  | [], [], pos, n, env, h0, hn, _, _, _, h => by
    rcases step (rest := []) hn (by simp) h with ⟨e, _⟩ | ⟨_, e, _⟩
    · have e : [] = (content.drop pos).take n := by
        injection e with e
        injection e
      have := congrArg List.length e
      rw [List.length_take, List.length_nil] at this
      exact (List.eq_nil_of_length_eq_zero (by omega)).symm
    · cases e
  | [], _ :: _, _, _, _, _, _, _, _, hl, _ => by simp at hl
  | _ :: _, [], _, _, _, _, _, _, _, hl, _ => by simp at hl
  | (m, env') :: ns, x :: rs, pos, n, env, h0, hn0, hn, hr, hl, h => by
    have hn' : ∀ y ∈ ns, y.1 < 2 ^ 63 := fun y hy => hn y (by simp [hy])
    have hr' : ∀ r ∈ rs, r ≠ ub := fun r hy => hr r (by simp [hy])
    have hl' : rs.length = ns.length := by simpa using hl
    rcases step (hn (m, env') (by simp)) (hr x (by simp)) h with ⟨e, h2⟩ | ⟨g, e, h2⟩
    · have i := until_end ns rs _ h0 hn0 hn' hr' hl' h2
      subst e
      simp only [gathered]
      rw [i, drop_more]
    · have i := until_end ns rs _ h0 hn0 hn' hr' hl' h2
      subst e
      simp only [gathered]
      exact i

end PiecesLemmas
open PiecesLemmas

variable {F : Files} {s : Storage} {xid : Nat} {files : List Record} {image : Nat → Option Bytes} {cipher : Option (Cipher × Cipher)}

/-- Reading an open file in pieces of any sizes while the storage may fail: what was given is the start of the content, as long as what was asked for in the calls that did not fail, or all of it; a call fails only
if the storage does; and if some call gives nothing, what was given before it is the content.

What is missing is as for C89: files compressed with LZFSE. -/
theorem c90_pieces_partial (hF : Serves F s xid image cipher) (h : FsHolds s xid files) (hroot : ∃ r ∈ files, IsOf 2 3 r) {f : StoredFile} {stream : Nat}
    (hf : FileIn files image (cipher.map (·.1)) f stream) {c : Codec} (hc : Compressed.CodecOk c) {content : Bytes} (hcon : HasContent c files image (cipher.map (·.1)) f stream content)
    {compare : Bytes → Bytes → Res Bool} (hcmp : Compares compare f) {i : Records.Inode} (hi : ReadsAs i f stream) {e : FileEntry.Entry} (he : FileEntry.Reached f e)
    {junk : Bytes} (hj : junk.length = 65536) :
    ∃ reader, openFile F compare junk i e = ok reader ∧ ∀ e', FileEntry.Reached f e' → ∀ ns : List (Nat × FileSeek.Env), (∀ y ∈ ns, y.1 < 2 ^ 63 ∧ Faithful F y.2) →
      ∀ rs, FileSeek.asks c (FileEntry.getSize (FileRead.env F compare i) e').1 (c90Reads ns) reader = rs →
        rs.length = ns.length ∧ gathered rs = content.take (askedFor (ns.map (·.1)) rs) ∧ (∀ y ∈ ns.zip rs, y.2 = err → ¬ Works F y.1.2) ∧ (∀ r ∈ rs, r ≠ ub) ∧ ((∀ r ∈ rs, r ≠ err) → askedFor (ns.map (·.1)) rs = (ns.map (·.1)).sum) ∧
        ∀ ns' n env rs', ns = ns' ++ [(n, env)] → 0 < n → rs = rs' ++ [ok (.bytes [])] → gathered rs' = content := by
  obtain ⟨reader, h1, h2⟩ := c89_library_partial hF h hroot hf hc hcon hcmp hi he hj
  refine ⟨reader, h1, fun e' he' ns hns rs hrs => ?_⟩
  obtain ⟨g1, g2, g3⟩ := h2 e' he' (c90Reads ns) (by
    intro y hy
    obtain ⟨z, hz, rfl⟩ := List.mem_map.1 hy
    exact (hns z hz).2)
  rw [hrs] at g1 g2 g3
  have hl : rs.length = ns.length := by rw [g1, c90Reads, List.length_map]
  obtain ⟨p1, p2, p3⟩ := pieces (G := fun env => ¬ Works F env) ns rs 0 (fun y hy => (hns y hy).1) g2 hl g3
  refine ⟨hl, p1, p2, g2, p3, ?_⟩
  rintro ns' n env rs' rfl h0 rfl
  exact until_end (G := fun env => ¬ Works F env) ns' rs' 0 h0 (hns (n, env) (by simp)).1 (fun y hy => (hns y (by simp [hy])).1) (fun r hr => g2 r (by simp [hr])) (by simpa using hl) g3

/-- Without failures the pieces are the content up to what was asked for. -/
theorem c90_whole_partial (hF : Serves F s xid image cipher) (h : FsHolds s xid files) (hroot : ∃ r ∈ files, IsOf 2 3 r) {f : StoredFile} {stream : Nat}
    (hf : FileIn files image (cipher.map (·.1)) f stream) {c : Codec} (hc : Compressed.CodecOk c) {content : Bytes} (hcon : HasContent c files image (cipher.map (·.1)) f stream content)
    {compare : Bytes → Bytes → Res Bool} (hcmp : Compares compare f) {i : Records.Inode} (hi : ReadsAs i f stream) {e : FileEntry.Entry} (he : FileEntry.Reached f e)
    {junk : Bytes} (hj : junk.length = 65536) :
    ∃ reader, openFile F compare junk i e = ok reader ∧ ∀ e', FileEntry.Reached f e' → ∀ ns : List (Nat × FileSeek.Env), (∀ y ∈ ns, y.1 < 2 ^ 63 ∧ Works F y.2) →
      gathered (FileSeek.asks c (FileEntry.getSize (FileRead.env F compare i) e').1 (c90Reads ns) reader) = content.take (ns.map (·.1)).sum ∧
      ∀ r ∈ FileSeek.asks c (FileEntry.getSize (FileRead.env F compare i) e').1 (c90Reads ns) reader, r ≠ err := by
  obtain ⟨reader, h1, h2⟩ := c90_pieces_partial hF h hroot hf hc hcon hcmp hi he hj
  refine ⟨reader, h1, fun e' he' ns hns => ?_⟩
  obtain ⟨g1, g2, g3, _, g5, _⟩ := h2 e' he' ns (fun y hy => ⟨(hns y hy).1, fun o n => Or.inr (by rw [(hns y hy).2.disk])⟩) _ rfl
  have hne : ∀ r ∈ FileSeek.asks c (FileEntry.getSize (FileRead.env F compare i) e').1 (c90Reads ns) reader, r ≠ err := by
    intro r hr he
    obtain ⟨k, hk, rfl⟩ := List.getElem_of_mem hr
    have hk' : k < ns.length := by omega
    refine g3 (ns[k], _) ?_ he (hns ns[k] (List.getElem_mem hk')).2
    rw [← List.getElem_zip (h := by rw [List.length_zip]; omega)]
    exact List.getElem_mem _
  rw [g2, g5 hne]
  exact ⟨rfl, hne⟩

namespace PiecesExample
open MountExample (mounted)
open FileSeekExample (works fails)

/-- the file of the volume of C56, of 9 bytes, in pieces of 4, where the second call and the fourth one fail -/
def pieces : List (Nat × FileSeek.Env) := [(4, works), (4, fails), (4, works), (4, fails), (4, works), (4, works)]

example : ∃ i e reader, openFile mounted.files mounted.compare mounted.junk i e = ok reader ∧
    ∀ rs, FileSeek.asks mounted.unpack (FileEntry.getSize (FileRead.env mounted.files mounted.compare i) e).1 (c90Reads pieces) reader = rs →
      rs.length = 6 ∧ gathered rs = (List.replicate 9 0x61).take (askedFor (pieces.map (·.1)) rs) ∧ ∀ rs', rs = rs' ++ [ok (.bytes [])] → gathered rs' = List.replicate 9 0x61 := by
  have hin := MountExample.fileIn (i := 7) (by simp)
  let inode : Records.Inode := { identifier := 7, parent := 5, dataStream := 7, modification := 0, creation := 0, change := 0, access := 0, flags := 0, links := 1, owner := 0, group := 0, mode := 0x81a4, name := none, size := 9, device := 0 }
  have hreach : FileEntry.Reached MountExample.file.stored { inodeSize := MountExample.file.stored.size, inodeFlags := 0 } := .new 0 (by decide +kernel)
  have hmirror : ReadsAs inode MountExample.file.stored 7 := ⟨by decide +kernel, by decide +kernel, by decide +kernel, by decide +kernel⟩
  have hcontent := MountExample.mounts.has.content 7 (.step (.step .root (e := NameLookup.DirectoryExample.entry NameLookup.DirectoryExample.docs 5) (.head _)) (e := NameLookup.DirectoryExample.entry NameLookup.DirectoryExample.readme 7) (.tail _ (.head _))) _ rfl
  obtain ⟨reader, h1, h2⟩ := c90_pieces_partial MountExample.mounts.serves MountExample.mounts.holds MountExample.mounts.root hin MountExample.libraries.codec
    hcontent (FileExample.compares _) hmirror hreach MountExample.libraries.junk
  refine ⟨inode, _, reader, h1, fun rs hrs => ?_⟩
  obtain ⟨g1, g2, _, _, _, g6⟩ := h2 _ hreach pieces (fun y hy => ⟨by revert y; simp [pieces], FileSeekExample.faithful (by simp [pieces]) y hy⟩) rs hrs
  exact ⟨g1, g2, fun rs' h => g6 [(4, works), (4, fails), (4, works), (4, fails), (4, works)] 4 works rs' rfl (by decide) h⟩

/-- what is put together -/
example : gathered [ok (.bytes [1, 2]), err, ok (.bytes [3])] = [1, 2, 3] ∧ askedFor [2, 2, 2] [ok (.bytes [1, 2]), err, ok (.bytes [3])] = 4 := ⟨rfl, rfl⟩

end PiecesExample
end Verif.Props
