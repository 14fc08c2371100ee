import Verif.Spec.Range
import Verif.Props.C90Python
import Verif.Props.C91Python
/-!
# C92 Reading at an offset does not depend on what was done before

The bytes at an offset are the same in every call, whatever was read, moved or failed before, and with whichever handle.
-/
namespace Verif.Props
open Verif Res Spec BTree FsTree FileRead FileSeekLemmas
open Verif.FileEntry (attr)

namespace RangeLemmas
variable {content : Bytes} {G : FileSeek.Env → Prop} {H : AttributeRead.Env → Prop}

theorem inRange (offset n : Nat) : InRange content offset n ((content.drop offset).take n) := by
  refine ⟨by rw [List.length_take, List.length_drop], fun i hi => ?_⟩
  rw [List.length_take] at hi
  rw [List.getElem?_take_of_lt (by omega), List.getElem?_drop]

theorem seekTo_start (size pos offset : Nat) : seekTo size pos (offset : Int) 0 = some offset := by
  unfold seekTo
  simp

theorem readAt_value {n : Nat} (hn : n < 2 ^ 63) (pos offset : Nat) : (valueStep content pos (.readAt n offset)).1 = some (.bytes ((content.drop offset).take n)) := by
  simp only [valueStep, seekTo_start, if_pos hn]

theorem library : ∀ (os : List (ValueOp × FileSeek.Env)) (rs : List (Res ValueAnswer)) (pos : Nat), (∀ r ∈ rs, r ≠ ub) →
    Answers content pos (List.zipWith (fun y x => (y.1, G y.2, AttributeRead.given x)) os rs) → ∀ y ∈ os.zip rs, ∀ n offset : Nat, n < 2 ^ 63 → y.1.1 = .readAt n offset →
    (∃ d, y.2 = ok (.bytes d) ∧ InRange content offset n d) ∨ (y.2 = err ∧ G y.1.2)
  | [], _, _, _, _, y, hy => by simp at hy
  | _ :: _, [], _, _, _, y, hy => by simp at hy
  | (o, env) :: os, x :: rs, pos, hr, h, y, hy => by
    intro n offset hn ho
    have hr' : ∀ r ∈ rs, r ≠ ub := fun r hy => hr r (by simp [hy])
    rcases List.mem_cons.1 hy with rfl | hy
    · subst ho
      rcases h with ⟨h1, _⟩ | ⟨h1, h2, _⟩
      · rw [readAt_value hn] at h1
        exact Or.inl ⟨_, HandleLemmas.given_some h1, inRange offset n⟩
      · exact Or.inr ⟨HandleLemmas.given_err h2 (hr x (by simp)), h1⟩
    · rcases h with ⟨_, h⟩ | ⟨_, _, _, p, _, h⟩
      · exact library os rs _ hr' h y hy n offset hn ho
      · exact library os rs _ hr' h y hy n offset hn ho

theorem python_step {fault : Prop} {pos p n offset : Nat} (hn : n ≤ Spec.PyAttribute.largest) (ho : offset < 2 ^ 63) {x : Res PyAttribute.Value} (hx : x ≠ ub)
    (h : Spec.PyAttribute.Step content fault pos (.readAt (.int (n : Int)) (offset : Int)) (PyAttribute.given x) p) :
    (∃ d, x = ok (.bytes d) ∧ InRange content offset n d) ∨ (x = err ∧ fault) := by
  generalize hc : PyAttribute.Call.readAt (.int (n : Int)) (offset : Int) = c at h
  generalize hg : PyAttribute.given x = g at h
  cases h with
  | readAt m o _ _ _ =>
    injection hc with h1 h2
    injection h1 with h1
    have e1 : n = m := by omega
    have e2 : offset = o := by omega
    subst e1 e2
    exact Or.inl ⟨_, ObjectLemmas.given_some hg, inRange offset n⟩
  | readNothing o _ _ =>
    injection hc with h1 h2
    injection h1 with h1
    have e1 : n = 0 := by omega
    subst e1
    exact Or.inl ⟨_, ObjectLemmas.given_some hg, by simp, by simp⟩
  | readAtRefused hs =>
    injection hc with h1 h2
    rcases hs n h1.symm with h | h | h | h <;> omega
  | failed hf _ => exact Or.inr ⟨ObjectLemmas.given_err hg hx, hf⟩
  | moved p hf => exact Or.inr ⟨ObjectLemmas.given_err hg hx, hf⟩
  | readAll => cases hc
  | read => cases hc
  | seek => cases hc
  | offset => cases hc
  | size => cases hc
  | readRefused => cases hc
  | seekRefused => cases hc

theorem python : ∀ (ks : List (PyAttribute.Call × FileSeek.Env)) (rs : List (Res PyAttribute.Value)) (pos : Nat), (∀ r ∈ rs, r ≠ ub) →
    PyAnswers content pos (List.zipWith (fun y x => (y.1, G y.2, PyAttribute.given x)) ks rs) → ∀ y ∈ ks.zip rs, ∀ n offset : Nat, n ≤ Spec.PyAttribute.largest → offset < 2 ^ 63 →
    y.1.1 = .readAt (.int (n : Int)) (offset : Int) → (∃ d, y.2 = ok (.bytes d) ∧ InRange content offset n d) ∨ (y.2 = err ∧ G y.1.2)
  | [], _, _, _, _, y, hy => by simp at hy
  | _ :: _, [], _, _, _, y, hy => by simp at hy
  | (k, env) :: ks, x :: rs, pos, hr, h, y, hy => by
    intro n offset hn ho hk
    obtain ⟨p, h1, h2⟩ := h
    rcases List.mem_cons.1 hy with rfl | hy
    · subst hk
      exact python_step hn ho (hr x (by simp)) h1
    · exact python ks rs p (fun r hy => hr r (by simp [hy])) h2 y hy n offset hn ho hk

theorem handles : ∀ (l : List (ValueAction × AttributeRead.Env)) (rs : List (Res ValueAnswer)) (hs : List (Option Nat)), ValueSeen content hs (HandleLemmas.paired H l rs) →
    ∀ y ∈ l.zip rs, ∀ k n offset : Nat, n < 2 ^ 63 → y.1.1 = .ask k (.readAt n offset) → ∀ a, y.2 = ok a → ∃ d, a = .bytes d ∧ InRange content offset n d
  | [], _, _, _, y, hy => by simp at hy
  | _ :: _, [], _, _, y, hy => by simp at hy
  | (x, env) :: l, r :: rs, hs, h, y, hy => by
    intro k n offset hn hx a ha
    have h : ValueSeen content hs ((x, H env, AttributeRead.given r) :: HandleLemmas.paired H l rs) := h
    rcases List.mem_cons.1 hy with rfl | hy
    · subst hx ha
      unfold ValueSeen at h
      split at h
      · cases h.1
      · rcases h with ⟨h1, _⟩ | ⟨_, _, h2, _⟩
        · rw [readAt_value hn] at h1
          exact ⟨_, Option.some.inj h1, inRange offset n⟩
        · cases h2
    · have : ∃ hs', ValueSeen content hs' (HandleLemmas.paired H l rs) := by
        cases x with
        | another => rcases h with ⟨_, h⟩ | ⟨_, _, h⟩ <;> exact ⟨_, h⟩
        | free j => exact ⟨_, h.2⟩
        | other => exact ⟨_, h⟩
        | ask j o =>
          unfold ValueSeen at h
          split at h
          · exact ⟨_, h.2⟩
          · rcases h with ⟨_, h⟩ | ⟨_, _, _, p, _, h⟩ <;> exact ⟨_, h⟩
      obtain ⟨hs', h'⟩ := this
      exact handles l rs hs' h' y hy k n offset hn hx a ha

/-- a handle that was given out, and not freed, is still there -/
theorem remains {k : Nat} : ∀ (l : List (ValueAction × AttributeRead.Env)) (rs : List (Res ValueAnswer)) (hs : List (Option Nat)) (rest : List (ValueAction × Prop × Option ValueAnswer)), rs.length = l.length →
    (∀ y ∈ l, y.1 ≠ .free k) → (∀ j < hs.length, j = k → ∃ pos, hs[j]? = some (some pos)) → k < hs.length + handlesGiven (l.map (·.1)) rs → ValueSeen content hs (HandleLemmas.paired H l rs ++ rest) →
    ∃ (hs' : List (Option Nat)) (pos : Nat), hs'[k]? = some (some pos) ∧ ValueSeen content hs' rest
  | [], [], hs, _, _, _, hk, hlt, h => by
    obtain ⟨pos, hp⟩ := hk k (by simpa [handlesGiven] using hlt) rfl
    exact ⟨hs, pos, hp, h⟩
  | [], _ :: _, _, _, hl, _, _, _, _ => by simp at hl
  | _ :: _, [], _, _, hl, _, _, _, _ => by simp at hl
  | (x, env) :: l, r :: rs, hs, rest, hl, hf, hk, hlt, h => by
    have hl' : rs.length = l.length := by simpa using hl
    have hf' : ∀ y ∈ l, y.1 ≠ .free k := fun y hy => hf y (by simp [hy])
    cases x with
    | another =>
      rcases h with ⟨e, h⟩ | ⟨_, e, h⟩
      · obtain rfl := HandleLemmas.given_some e
        refine remains l rs _ rest hl' hf' ?_ ?_ h
        · intro j hj e
          by_cases hj' : j < hs.length
          · rw [List.getElem?_append_left hj']
            exact hk j hj' e
          · have : j = hs.length := by
              simp at hj
              omega
            subst this
            exact ⟨0, by simp⟩
        · simp only [List.map_cons, handlesGiven] at hlt
          simp
          omega
      · refine remains l rs _ rest hl' hf' hk ?_ h
        cases r with
        | ok a => cases e
        | err => simpa only [List.map_cons, handlesGiven] using hlt
        | ub => simpa only [List.map_cons, handlesGiven] using hlt
    | free j =>
      have hj : j ≠ k := fun e => hf (.free j, env) (by simp) (by rw [e])
      refine remains l rs _ rest hl' hf' ?_ (by simpa only [List.map_cons, handlesGiven, List.length_set] using hlt) h.2
      intro i hi e
      rw [List.getElem?_set_ne (by omega)]
      exact hk i (by simpa using hi) e
    | other => exact remains l rs _ rest hl' hf' hk (by simpa only [List.map_cons, handlesGiven] using hlt) h
    | ask j o =>
      have h : ValueSeen content hs ((.ask j o, H env, AttributeRead.given r) :: (HandleLemmas.paired H l rs ++ rest)) := h
      have hset : ∀ p, ∀ i < (hs.set j (some p)).length, i = k → ∃ pos, (hs.set j (some p))[i]? = some (some pos) := by
        intro p i hi e
        have hi : i < hs.length := by simpa using hi
        by_cases hj : j = i
        · subst hj
          exact ⟨p, by rw [List.getElem?_set_self hi]⟩
        · rw [List.getElem?_set_ne hj]
          exact hk i hi e
      unfold ValueSeen at h
      split at h
      · exact remains l rs _ rest hl' hf' hk (by simpa only [List.map_cons, handlesGiven] using hlt) h.2
      · rcases h with ⟨_, h⟩ | ⟨_, _, _, p, _, h⟩
        · exact remains l rs _ rest hl' hf' (hset _) (by simpa only [List.map_cons, handlesGiven, List.length_set] using hlt) h
        · exact remains l rs _ rest hl' hf' (hset _) (by simpa only [List.map_cons, handlesGiven, List.length_set] using hlt) h

end RangeLemmas

variable {F : Files} {s : Storage} {xid : Nat} {files : List Record} {image : Nat → Option Bytes} {cipher : Option (Cipher × Cipher)}

/-- In any row of calls of an open file, every call that reads at an offset gives the bytes of the content there, or an error, and that only if the storage fails during this call.

What is missing is as for C89: files compressed with LZFSE. -/
theorem c92_file_partial (hF : Serves F s xid image cipher) (h : FsHolds s xid files) (hroot : ∃ r ∈ files, IsOf 2 3 r) {f : StoredFile} {stream : Nat}
    (hf : FileIn files image (cipher.map (·.1)) f stream) {c : Codec} (hc : Compressed.CodecOk c) {content : Bytes} (hcon : HasContent c files image (cipher.map (·.1)) f stream content)
    {compare : Bytes → Bytes → Res Bool} (hcmp : Compares compare f) {i : Records.Inode} (hi : ReadsAs i f stream) {e : FileEntry.Entry} (he : FileEntry.Reached f e)
    {junk : Bytes} (hj : junk.length = 65536) :
    ∃ reader, openFile F compare junk i e = ok reader ∧ ∀ e', FileEntry.Reached f e' → ∀ os : List (ValueOp × FileSeek.Env), (∀ y ∈ os, Faithful F y.2) →
      ∀ rs, FileSeek.asks c (FileEntry.getSize (FileRead.env F compare i) e').1 os reader = rs → rs.length = os.length ∧
        ∀ y ∈ os.zip rs, ∀ n offset : Nat, n < 2 ^ 63 → y.1.1 = .readAt n offset → (∃ d, y.2 = ok (.bytes d) ∧ InRange content offset n d) ∨ (y.2 = err ∧ ¬ Works F y.1.2) := by
  obtain ⟨reader, h1, h2⟩ := c89_library_partial hF h hroot hf hc hcon hcmp hi he hj
  refine ⟨reader, h1, fun e' he' os hos rs hrs => ?_⟩
  obtain ⟨g1, g2, g3⟩ := h2 e' he' os hos
  rw [hrs] at g1 g2 g3
  exact ⟨g1, RangeLemmas.library (G := fun env => ¬ Works F env) os rs 0 g2 g3⟩

/-- The same for `read_buffer_at_offset` in Python, with sizes of less than 2 GiB. -/
theorem c92_python_partial (hF : Serves F s xid image cipher) (h : FsHolds s xid files) (hroot : ∃ r ∈ files, IsOf 2 3 r) {f : StoredFile} {stream : Nat}
    (hf : FileIn files image (cipher.map (·.1)) f stream) {c : Codec} (hc : Compressed.CodecOk c) {content : Bytes} (hcon : HasContent c files image (cipher.map (·.1)) f stream content)
    {compare : Bytes → Bytes → Res Bool} (hcmp : Compares compare f) {i : Records.Inode} (hi : ReadsAs i f stream) {e : FileEntry.Entry} (he : FileEntry.Reached f e)
    {junk : Bytes} (hj : junk.length = 65536) :
    ∃ reader, openFile F compare junk i e = ok reader ∧ ∀ e', FileEntry.Reached f e' → ∀ ks : List (PyAttribute.Call × FileSeek.Env), (∀ y ∈ ks, Faithful F y.2) →
      ∀ rs, FileSeek.calls c (FileEntry.getSize (FileRead.env F compare i) e').1 ks reader = rs → rs.length = ks.length ∧
        ∀ y ∈ ks.zip rs, ∀ n offset : Nat, n ≤ Spec.PyAttribute.largest → offset < 2 ^ 63 → y.1.1 = .readAt (.int (n : Int)) (offset : Int) →
          (∃ d, y.2 = ok (.bytes d) ∧ InRange content offset n d) ∨ (y.2 = err ∧ ¬ Works F y.1.2) := by
  obtain ⟨reader, h1, h2⟩ := c89_python_partial hF h hroot hf hc hcon hcmp hi he hj
  refine ⟨reader, h1, fun e' he' ks hks rs hrs => ?_⟩
  obtain ⟨g1, g2, g3⟩ := h2 e' he' ks hks
  rw [hrs] at g1 g2 g3
  exact ⟨g1, RangeLemmas.python (G := fun env => ¬ Works F env) ks rs 0 g2 g3⟩

/-- With any handles of an extended attribute, every call that reads at an offset and does not fail gives the bytes of the value there. -/
theorem c92_attribute_partial (hF : Serves F s xid image cipher) (h : FsHolds s xid files) (hroot : ∃ r ∈ files, IsOf 2 3 r) {f : StoredFile} {stream : Nat}
    (hf : FileIn files image (cipher.map (·.1)) f stream) {x : XAttr} (hx : x ∈ f.attributes) (l : List (ValueAction × AttributeRead.Env))
    (hl : ∀ y ∈ l, AttributeRead.Faithful F (valueExtents F x) y.2) {rs : List (Res ValueAnswer)} (ha : AttributeRead.acts F (attr x) l {} = rs) :
    ∀ y ∈ l.zip rs, ∀ k n offset : Nat, n < 2 ^ 63 → y.1.1 = .ask k (.readAt n offset) → ∀ a, y.2 = ok a → ∃ d, a = .bytes d ∧ InRange x.value offset n d := by
  obtain ⟨_, h2⟩ := c82_value_partial hF h hroot hf hx l hl
  rw [ha] at h2
  exact RangeLemmas.handles (H := fun env => ¬ AttributeRead.Working F (valueExtents F x) env) l rs [] h2

/-- With a handle that was obtained and not freed, reading at an offset fails only if storage or memory do. -/
theorem c92_attribute_fails_partial (hF : Serves F s xid image cipher) (h : FsHolds s xid files) (hroot : ∃ r ∈ files, IsOf 2 3 r) {f : StoredFile} {stream : Nat}
    (hf : FileIn files image (cipher.map (·.1)) f stream) {x : XAttr} (hx : x ∈ f.attributes) (l₁ l₂ : List (ValueAction × AttributeRead.Env)) {k n offset : Nat} (hn : n < 2 ^ 63) (e : AttributeRead.Env)
    (r₁ r₂ : List (Res ValueAnswer)) (r : Res ValueAnswer) (hl : ∀ y ∈ l₁ ++ (.ask k (.readAt n offset), e) :: l₂, AttributeRead.Faithful F (valueExtents F x) y.2)
    (ha : AttributeRead.acts F (attr x) (l₁ ++ (.ask k (.readAt n offset), e) :: l₂) {} = r₁ ++ r :: r₂) (hr : r₁.length = l₁.length) (hk : k < handlesGiven (l₁.map (·.1)) r₁) (hfree : ∀ y ∈ l₁, y.1 ≠ .free k) :
    (∃ d, r = ok (.bytes d) ∧ InRange x.value offset n d) ∨ (r = err ∧ ¬ AttributeRead.Working F (valueExtents F x) e) := by
  obtain ⟨h1, h2⟩ := c82_value_partial hF h hroot hf hx _ hl
  rw [ha] at h1 h2
  have hz : AttributeRead.seen F (valueExtents F x) (l₁ ++ (.ask k (.readAt n offset), e) :: l₂) (r₁ ++ r :: r₂) =
      HandleLemmas.paired (fun env => ¬ AttributeRead.Working F (valueExtents F x) env) l₁ r₁ ++
        (.ask k (.readAt n offset), ¬ AttributeRead.Working F (valueExtents F x) e, AttributeRead.given r) :: HandleLemmas.paired (fun env => ¬ AttributeRead.Working F (valueExtents F x) env) l₂ r₂ := by
    unfold AttributeRead.seen HandleLemmas.paired
    rw [List.zipWith_append hr.symm]
    rfl
  rw [hz] at h2
  obtain ⟨hs, pos, g1, g2⟩ := RangeLemmas.remains (k := k) l₁ r₁ [] _ hr hfree (by simp) (by simpa using hk) h2
  unfold ValueSeen at g2
  simp only [g1, Option.join_some] at g2
  rcases g2 with ⟨g, _⟩ | ⟨g, _, g', _⟩
  · rw [RangeLemmas.readAt_value hn] at g
    exact Or.inl ⟨_, HandleLemmas.given_some g, RangeLemmas.inRange offset n⟩
  · exact Or.inr ⟨HandleLemmas.given_err g' (h1 r (by simp)), g⟩

namespace RangeExample
open MountExample (mounted)
open FileSeekExample (works fails)

/-- the file of the volume of C56, of 9 bytes: a range over its end is read, the storage fails, and the range is read again after seeking elsewhere -/
def ranges : List (ValueOp × FileSeek.Env) := [(.readAt 4 7, works), (.seek 2 0, works), (.readAt 4 7, fails), (.read 3, works), (.readAt 4 7, works)]

example : ∃ i e reader, openFile mounted.files mounted.compare mounted.junk i e = ok reader ∧
    ∀ r₁ r₂ r₃ r₄ r₅, FileSeek.asks mounted.unpack (FileEntry.getSize (FileRead.env mounted.files mounted.compare i) e).1 ranges reader = [r₁, r₂, r₃, r₄, r₅] →
      ∃ d, r₅ = ok (.bytes d) ∧ d.length = 2 := by
  have hin := MountExample.fileIn (i := 7) (by simp)
  let inode : Records.Inode := { identifier := 7, parent := 5, dataStream := 7, modification := 0, creation := 0, change := 0, access := 0, flags := 0, links := 1, owner := 0, group := 0, mode := 0x81a4, name := none, size := 9, device := 0 }
  have hreach : FileEntry.Reached MountExample.file.stored { inodeSize := MountExample.file.stored.size, inodeFlags := 0 } := .new 0 (by decide +kernel)
  have hmirror : ReadsAs inode MountExample.file.stored 7 := ⟨by decide +kernel, by decide +kernel, by decide +kernel, by decide +kernel⟩
  have hcontent := MountExample.mounts.has.content 7 (.step (.step .root (e := NameLookup.DirectoryExample.entry NameLookup.DirectoryExample.docs 5) (.head _)) (e := NameLookup.DirectoryExample.entry NameLookup.DirectoryExample.readme 7) (.tail _ (.head _))) _ rfl
  obtain ⟨reader, h1, h2⟩ := c92_file_partial MountExample.mounts.serves MountExample.mounts.holds MountExample.mounts.root hin MountExample.libraries.codec
    hcontent (FileExample.compares _) hmirror hreach MountExample.libraries.junk
  refine ⟨inode, _, reader, h1, fun r₁ r₂ r₃ r₄ r₅ hrs => ?_⟩
  obtain ⟨_, g⟩ := h2 _ hreach ranges (FileSeekExample.faithful (by simp [ranges])) _ hrs
  rcases g ((.readAt 4 7, works), r₅) (by simp [ranges]) 4 7 (by decide) rfl with ⟨d, e, hd, _⟩ | ⟨_, hw⟩
  · exact ⟨d, e, hd.trans (by decide +kernel)⟩
  · exact (hw ⟨rfl, fun _ _ => rfl⟩).elim

/-- the same in Python -/
def pyRanges : List (PyAttribute.Call × FileSeek.Env) := [(.readAt (.int 4) 7, works), (.seek 2 0, works), (.readAt (.int 4) 7, fails), (.read .missing, works), (.readAt (.int (4 : Nat)) (7 : Nat), works)]

example : ∃ i e reader, openFile mounted.files mounted.compare mounted.junk i e = ok reader ∧
    ∀ r₁ r₂ r₃ r₄ r₅, FileSeek.calls mounted.unpack (FileEntry.getSize (FileRead.env mounted.files mounted.compare i) e).1 pyRanges reader = [r₁, r₂, r₃, r₄, r₅] →
      ∃ d, r₅ = ok (.bytes d) ∧ d.length = 2 := by
  have hin := MountExample.fileIn (i := 7) (by simp)
  let inode : Records.Inode := { identifier := 7, parent := 5, dataStream := 7, modification := 0, creation := 0, change := 0, access := 0, flags := 0, links := 1, owner := 0, group := 0, mode := 0x81a4, name := none, size := 9, device := 0 }
  have hreach : FileEntry.Reached MountExample.file.stored { inodeSize := MountExample.file.stored.size, inodeFlags := 0 } := .new 0 (by decide +kernel)
  have hmirror : ReadsAs inode MountExample.file.stored 7 := ⟨by decide +kernel, by decide +kernel, by decide +kernel, by decide +kernel⟩
  have hcontent := MountExample.mounts.has.content 7 (.step (.step .root (e := NameLookup.DirectoryExample.entry NameLookup.DirectoryExample.docs 5) (.head _)) (e := NameLookup.DirectoryExample.entry NameLookup.DirectoryExample.readme 7) (.tail _ (.head _))) _ rfl
  obtain ⟨reader, h1, h2⟩ := c92_python_partial MountExample.mounts.serves MountExample.mounts.holds MountExample.mounts.root hin MountExample.libraries.codec
    hcontent (FileExample.compares _) hmirror hreach MountExample.libraries.junk
  refine ⟨inode, _, reader, h1, fun r₁ r₂ r₃ r₄ r₅ hrs => ?_⟩
  obtain ⟨_, g⟩ := h2 _ hreach pyRanges (FileSeekExample.faithful (by simp [pyRanges])) _ hrs
  rcases g ((.readAt (.int (4 : Nat)) (7 : Nat), works), r₅) (by simp [pyRanges]) 4 7 (by decide) (by decide) rfl with ⟨d, e, hd, _⟩ | ⟨_, hw⟩
  · exact ⟨d, e, hd.trans (by decide +kernel)⟩
  · exact (hw ⟨rfl, fun _ _ => rfl⟩).elim

open AttributeExample (working faithful)
open HandleExample (tag)

/-- two handles of an attribute -/
example := c92_attribute_partial ExtentsExample.serves VolumeExample.holds Verif.FileExample.hasRoot (Verif.FileExample.readme_in Verif.FileExample.plain_blocks) (x := tag) (by decide +kernel)
  [(.another, working tag), (.another, working tag), (.ask 0 (.readAt 1 1), { working tag with alloc := err }), (.ask 1 (.read 2), working tag), (.ask 0 (.readAt 1 1), working tag), (.ask 1 (.readAt 1 1), working tag)]
  (by
    intro y hy
    simp only [List.mem_cons, List.not_mem_nil, or_false] at hy
    rcases hy with rfl | rfl | rfl | rfl | rfl | rfl <;> exact faithful tag _ (by simp))
  (rs := [ok .done, ok .done, err, ok (.bytes [1, 2]), ok (.bytes [2]), ok (.bytes [2])]) (by decide +kernel)

/-- the first handle is freed, the second one is read from -/
example : ∃ d, (ok (.bytes [2]) : Res ValueAnswer) = ok (.bytes d) ∧ InRange tag.value 1 5 d := by
  rcases c92_attribute_fails_partial ExtentsExample.serves VolumeExample.holds Verif.FileExample.hasRoot (Verif.FileExample.readme_in Verif.FileExample.plain_blocks) (x := tag) (by decide +kernel)
    [(.another, working tag), (.another, working tag), (.ask 1 (.read 2), working tag), (.free 0, working tag)] [] (k := 1) (n := 5) (offset := 1) (by decide) (working tag)
    [ok .done, ok .done, ok (.bytes [1, 2]), ok .done] [] (ok (.bytes [2])) (by
      intro y hy
      simp only [List.cons_append, List.nil_append, List.mem_cons, List.not_mem_nil, or_false] at hy
      rcases hy with rfl | rfl | rfl | rfl | rfl <;> exact faithful tag _ (by simp))
    (by decide +kernel) rfl (by decide) (by simp) with h | ⟨h, _⟩
  · exact h
  · cases h

/-- the bytes of a range, and others that are not -/
example : InRange [1, 2, 3] 1 9 [2, 3] ∧ ¬ InRange [1, 2, 3] 1 9 [2] ∧ ¬ InRange [1, 2, 3] 1 1 [1] ∧ InRange [1, 2, 3] 7 2 [] := by
  refine ⟨?_, ?_, ?_, ?_⟩ <;> unfold InRange <;> decide

end RangeExample
end Verif.Props
