import Verif.Model.FileSeek
import Verif.Spec.FileSeek
import Verif.Lemmas.PyAttribute
import Verif.Props.C64
/-!
# C89 Positions in a file

An open file has one position: it starts at 0, moves with what is read, is set from the start, the position or the end, and is told. So in C and in Python.
-/
namespace Verif.Props
open Verif Res Spec BTree FsTree FileRead
open _root_.Verif.FileSeek (posOf)

namespace FileSeekLemmas

/-- nothing fails -/
structure Works (F : Files) (env : FileSeek.Env) : Prop where
  disk : env.disk = F.disk
  stream : ∀ a b, env.stream a b = true

/-- reading from the storage gives what is there or fails -/
def Faithful (F : Files) (env : FileSeek.Env) : Prop := ∀ o n, env.disk o n = err ∨ env.disk o n = F.disk o n

/-- a reader at a position of a content -/
inductive Follows (F : Files) (c : Codec) (content : Bytes) : Nat → Reader → Prop
  | extents {hd : DataStream.Handle} {pos : Nat} : hd.disk = F.disk → (∀ off n, DataStream.streamRead hd content.length off n = ok ((content.drop off).take n)) →
    Follows F c content pos (.extents hd content.length pos)
  | compressed {D : Bytes} {T : List Nat} {blocks : List Bytes} {method : Nat} {h : Compressed.Handle} : (method = methodDeflate ∨ method = methodLzvn) →
    Compressed.getOffsets method D = ok T → content.length ≤ 0xffff0000 → Compressed.Layout D T blocks → Holds (Compressed.plain c method) blocks content →
    Compressed.Inv c method content.length D T h → Follows F c content h.pos (.compressed D h)

variable {F : Files} {c : Codec} {content : Bytes} {pos : Nat} {r : Reader} {env : FileSeek.Env}

theorem Follows.posIs (h : Follows F c content pos r) : FileSeek.posOf r = pos := by cases h <;> rfl

theorem Follows.sizeIs (h : Follows F c content pos r) : FileSeek.sizeOf r = content.length := by
  cases h with
  | extents => rfl
  | compressed _ _ _ _ _ hI => exact hI.size

theorem Follows.readStep (hc : Compressed.CodecOk c) (he : Faithful F env) (h : Follows F c content pos r) (n : Nat) :
    (∃ r', FileSeek.readStep c env n r = (ok ((content.drop pos).take n), r') ∧ Follows F c content (pos + ((content.drop pos).take n).length) r') ∨
      (¬ Works F env ∧ ∃ r', FileSeek.readStep c env n r = (err, r') ∧ Follows F c content pos r') := by
  cases h with
  | @extents hd _ hdisk hread =>
    unfold FileSeek.readStep
    rcases AttributeRead.streamRead_orErr hd (disk := env.disk) (fun o n => by rw [hdisk]; exact he o n) content.length pos n with e | e
    · right
      refine ⟨fun hw => ?_, ?_⟩
      · rw [hw.disk, ← hdisk] at e
        have := (hread pos n).symm.trans e
        cases this
      · simp only [e]
        exact ⟨_, rfl, .extents hdisk hread⟩
    · left
      rw [hread] at e
      simp only [e]
      exact ⟨_, rfl, .extents hdisk hread⟩
  | @compressed D T blocks method hh hm hO hbig hL hH hI =>
    obtain ⟨hcov, hby⟩ := hL.covers hm hH
    unfold FileSeek.readStep
    rcases Compressed.streamRead_spec hc (io := env.stream) hL.steps hm hO hbig hcov n hh hI with ⟨bs, h', e, hI', hp, hl, hb⟩ | ⟨h', e, hp, hwhy⟩
    · left
      have hbs : bs = (content.drop hh.pos).take n := by
        apply List.ext_getElem?
        intro k
        by_cases hk : k < bs.length
        · rw [← hb k hk, hby (hh.pos + k) (by omega), List.getElem?_take_of_lt (by omega), List.getElem?_drop, List.getElem?_eq_getElem (by omega)]
        · rw [List.getElem?_eq_none (by omega), List.getElem?_eq_none (by simp; omega)]
      simp only [e]
      refine ⟨_, by rw [hbs], ?_⟩
      rw [← hbs, ← hp]
      exact .compressed hm hO hbig hL hH hI'
    · right
      rcases hwhy with ⟨hI', a, b, hio⟩ | ⟨q, _, _, q3, q4⟩
      · refine ⟨fun hw => Bool.noConfusion ((hw.stream a b).symm.trans hio), ?_⟩
        simp only [e]
        refine ⟨_, rfl, ?_⟩
        rw [← hp]
        exact .compressed hm hO hbig hL hH hI'
      · rw [hby q q3] at q4
        cases q4

theorem Follows.seekStep (h : Follows F c content pos r) (o : Int) :
    (o < 0 ∧ FileRead.step c (.seek o) r = (err, r)) ∨ (0 ≤ o ∧ ∃ r', FileRead.step c (.seek o) r = (ok [], r') ∧ Follows F c content o.toNat r') := by
  cases h with
  | extents hdisk hread =>
    by_cases ho : o < 0
    · left
      simp only [FileRead.step, if_pos ho]
      exact ⟨ho, trivial⟩
    · right
      simp only [FileRead.step, if_neg ho]
      exact ⟨by omega, _, rfl, .extents hdisk hread⟩
  | @compressed D T blocks method hh hm hO hbig hL hH hI =>
    rcases Compressed.seek_spec o hh with ⟨h0, e⟩ | ⟨h0, e⟩
    · right
      simp only [FileRead.step, e]
      exact ⟨h0, _, rfl, .compressed (h := { hh with pos := o.toNat }) hm hO hbig hL hH (hI.of_same rfl rfl rfl (hI.cached.congr rfl rfl rfl rfl rfl))⟩
    · left
      simp only [FileRead.step, e]
      exact ⟨h0, trivial⟩

theorem Follows.read (hc : Compressed.CodecOk c) (he : Faithful F env) (h : Follows F c content pos r) (n : Nat) :
    (∃ r', FileSeek.read c env n r = ((match (valueStep content pos (.read n)).1 with | some x => ok x | none => err), r') ∧ Follows F c content (valueStep content pos (.read n)).2 r') ∨
      (¬ Works F env ∧ ∃ r', FileSeek.read c env n r = (err, r') ∧ Follows F c content pos r') := by
  unfold FileSeek.read valueStep
  by_cases hn : n < 2 ^ 63
  · rcases h.readStep hc he n with ⟨r', h1, h2⟩ | ⟨hw, r', h1, h2⟩
    · left
      simp only [hn, not_true_eq_false, if_false, if_true, h1]
      exact ⟨r', rfl, h2⟩
    · right
      simp only [hn, not_true_eq_false, if_false, h1]
      exact ⟨hw, r', rfl, h2⟩
  · left
    simp only [hn, not_false_eq_true, if_true, if_false]
    exact ⟨r, rfl, h⟩

theorem Follows.seek (h : Follows F c content pos r) (o : Int) (w : Nat) : ∃ r', FileSeek.seek c o w r = ((match seekTo content.length pos o w with | some p => ok (.position p) | none => err), r') ∧
    Follows F c content ((seekTo content.length pos o w).getD pos) r' := by
  unfold FileSeek.seek seekTo
  by_cases hw : w > 2
  · simp only [hw, if_true]
    rw [if_neg (by omega), if_neg (by omega), if_neg (by omega)]
    exact ⟨r, rfl, h⟩
  · have key : ∀ t : Int, ∃ r', (match FileRead.step c (.seek t) r with
        | (.ok _, r) => (ok (.position (posOf r)), r)
        | (.err, r) => ((err : Res ValueAnswer), r)
        | (.ub, r) => (ub, r)) = ((match (if t < 0 then none else some t.toNat : Option Nat) with | some p => ok (.position p) | none => err), r') ∧
        Follows F c content ((if t < 0 then none else some t.toNat : Option Nat).getD pos) r' := by
      intro t
      rcases h.seekStep t with ⟨ht, h1⟩ | ⟨ht, r', h1, h2⟩
      · simp only [h1, ht, if_true]
        exact ⟨r, rfl, h⟩
      · simp only [h1, show ¬ t < 0 by omega, if_false]
        exact ⟨r', by rw [h2.posIs], h2⟩
    simp only [hw, if_false]
    rw [h.posIs, h.sizeIs]
    have : w = 0 ∨ w = 1 ∨ w = 2 := by omega
    rcases this with rfl | rfl | rfl
    · exact key o
    · exact key (pos + o)
    · exact key (content.length + o)

theorem Follows.ask (hc : Compressed.CodecOk c) (he : Faithful F env) (h : Follows F c content pos r) (o : ValueOp) :
    (∃ r', FileSeek.ask c (ok content.length) env o r = ((match (valueStep content pos o).1 with | some x => ok x | none => err), r') ∧ Follows F c content (valueStep content pos o).2 r') ∨
      (¬ Works F env ∧ o ≠ .size ∧ ∃ p r', FileSeek.ask c (ok content.length) env o r = (err, r') ∧ Moved content pos o p ∧ Follows F c content p r') := by
  cases o with
  | read n =>
    rcases h.read hc he n with h1 | ⟨hw, r', h1, h2⟩
    · exact Or.inl h1
    · exact Or.inr ⟨hw, by simp, pos, r', h1, .stays _, h2⟩
  | readAt n o =>
    obtain ⟨r', h1, h2⟩ := h.seek o 0
    unfold FileSeek.ask
    simp only [h1, valueStep]
    cases hs : seekTo content.length pos o 0 with
    | none =>
      rw [hs] at h2
      exact Or.inl ⟨r', rfl, h2⟩
    | some p =>
      rw [hs] at h2
      have ho : o = p := by
        simp only [seekTo, if_true] at hs
        split at hs
        · cases hs
        · cases hs
          omega
      rcases Follows.read hc he h2 n with h3 | ⟨hw, r', h3, h4⟩
      · exact Or.inl h3
      · refine Or.inr ⟨hw, by simp, p, r', h3, ?_, h4⟩
        rw [ho]
        exact .readAt n p
  | seek o w =>
    obtain ⟨r', h1, h2⟩ := h.seek o w
    left
    unfold FileSeek.ask
    simp only [h1, valueStep]
    cases hs : seekTo content.length pos o w with
    | none =>
      rw [hs] at h2
      exact ⟨r', rfl, h2⟩
    | some p =>
      rw [hs] at h2
      exact ⟨r', rfl, h2⟩
  | offset => exact Or.inl ⟨r, by simp only [FileSeek.ask, valueStep, h.posIs], h⟩
  | size => exact Or.inl ⟨r, rfl, h⟩

theorem Follows.asks (hc : Compressed.CodecOk c) : ∀ (os : List (ValueOp × FileSeek.Env)) {pos : Nat} {r : Reader}, (∀ y ∈ os, Faithful F y.2) → Follows F c content pos r →
    (∀ x ∈ FileSeek.asks c (ok content.length) os r, x ≠ ub) ∧
    Answers content pos (List.zipWith (fun y x => (y.1, ¬ Works F y.2, AttributeRead.given x)) os (FileSeek.asks c (ok content.length) os r))
  | [], _, _, _, _ => ⟨by simp [FileSeek.asks], trivial⟩
  | (o, env) :: os, pos, r, hl, h => by
    simp only [FileSeek.asks, List.zipWith_cons_cons, List.mem_cons, forall_eq_or_imp, Answers]
    rcases h.ask hc (hl (o, env) (by simp)) o with ⟨r', h1, h2⟩ | ⟨hw, ho, p, r', h1, hm, h2⟩
    · obtain ⟨i1, i2⟩ := Follows.asks hc os (fun y hy => hl y (by simp [hy])) h2
      rw [h1]
      refine ⟨⟨?_, i1⟩, Or.inl ⟨?_, i2⟩⟩
      · cases (valueStep content pos o).1 <;> simp
      · cases (valueStep content pos o).1 <;> rfl
    · obtain ⟨i1, i2⟩ := Follows.asks hc os (fun y hy => hl y (by simp [hy])) h2
      rw [h1]
      exact ⟨⟨by simp, i1⟩, Or.inr ⟨hw, rfl, ho, p, hm, i2⟩⟩

theorem Follows.call (hc : Compressed.CodecOk c) (he : Faithful F env) (h : Follows F c content pos r) (hl : content.length < 2 ^ 64) (k : PyAttribute.Call) :
    (FileSeek.call c (ok content.length) env k r).1 ≠ ub ∧
    ∃ p, PyAttribute.Step content (¬ Works F env) pos k (PyAttribute.given (FileSeek.call c (ok content.length) env k r).1) p ∧ Follows F c content p (FileSeek.call c (ok content.length) env k r).2 := by
  have hm := PyAttribute.opOf_means content hl k
  unfold FileSeek.call
  cases ho : PyAttribute.opOf (ok content.length) k with
  | ub => rw [ho] at hm; exact hm.elim
  | err => rw [ho] at hm; exact ⟨by simp, pos, hm _ pos, h⟩
  | ok x =>
    rw [ho] at hm
    cases x with
    | none => exact ⟨by simp, pos, hm _ pos, h⟩
    | some o =>
      rcases h.ask hc he o with ⟨r', h1, h2⟩ | ⟨hw, ho, p, r', h1, hmv, h2⟩
      · simp only [h1]
        have m1 := hm.1 (¬ Works F env) pos
        have e : PyAttribute.given (PyAttribute.answer k (match (valueStep content pos o).1 with | some x => ok x | none => err)) = PyAttribute.result k (valueStep content pos o).1 := by
          cases (valueStep content pos o).1 with
          | none => rfl
          | some y =>
            show PyAttribute.given (PyAttribute.answer k (ok y)) = match PyAttribute.answer k (ok y) with | .ok y => some y | _ => none
            cases PyAttribute.answer k (ok y) <;> rfl
        refine ⟨?_, _, by rw [e]; exact m1, h2⟩
        cases (valueStep content pos o).1 with
        | none => simp [PyAttribute.answer]
        | some y =>
          cases y <;> simp only [PyAttribute.answer] <;> try simp
          cases k <;> simp
          split <;> simp
      · simp only [h1]
        exact ⟨by simp [PyAttribute.answer], p, hm.2 _ pos p hw ho hmv, h2⟩

theorem Follows.calls (hc : Compressed.CodecOk c) (hl : content.length < 2 ^ 64) : ∀ (ks : List (PyAttribute.Call × FileSeek.Env)) {pos : Nat} {r : Reader}, (∀ y ∈ ks, Faithful F y.2) →
    Follows F c content pos r → (∀ x ∈ FileSeek.calls c (ok content.length) ks r, x ≠ ub) ∧
    PyAnswers content pos (List.zipWith (fun y x => (y.1, ¬ Works F y.2, PyAttribute.given x)) ks (FileSeek.calls c (ok content.length) ks r))
  | [], _, _, _, _ => ⟨by simp [FileSeek.calls], trivial⟩
  | (k, env) :: ks, pos, r, he, h => by
    obtain ⟨c1, p, c2, c3⟩ := h.call hc (he (k, env) (by simp)) hl k
    obtain ⟨i1, i2⟩ := Follows.calls hc hl ks (fun y hy => he y (by simp [hy])) c3
    simp only [FileSeek.calls, List.zipWith_cons_cons, List.mem_cons, forall_eq_or_imp, PyAnswers]
    exact ⟨⟨c1, i1⟩, p, c2, i2⟩

theorem asks_length (c : Codec) (size : Res Nat) : ∀ (os : List (ValueOp × FileSeek.Env)) (r : Reader), (FileSeek.asks c size os r).length = os.length
  | [], _ => rfl
  | (o, env) :: os, r => by simp only [FileSeek.asks, List.length_cons, asks_length c size os]

theorem calls_length (c : Codec) (size : Res Nat) : ∀ (ks : List (PyAttribute.Call × FileSeek.Env)) (r : Reader), (FileSeek.calls c size ks r).length = ks.length
  | [], _ => rfl
  | (k, env) :: ks, r => by simp only [FileSeek.calls, List.length_cons, calls_length c size ks]

end FileSeekLemmas
open FileSeekLemmas

variable {F : Files} {s : Storage} {xid : Nat} {files : List Record} {image : Nat → Option Bytes} {cipher : Option (Cipher × Cipher)}

/-- the stream that is opened is at the start and has the size of the content -/
theorem opened_follows (hF : Serves F s xid image cipher) (h : FsHolds s xid files) (hroot : ∃ r ∈ files, IsOf 2 3 r) {f : StoredFile} {stream : Nat}
    (hf : FileIn files image (cipher.map (·.1)) f stream) {c : Codec} (hc : Compressed.CodecOk c) {content : Bytes} (hcon : HasContent c files image (cipher.map (·.1)) f stream content)
    {compare : Bytes → Bytes → Res Bool} (hcmp : Compares compare f) {i : Records.Inode} (hi : ReadsAs i f stream) {e : FileEntry.Entry} (he : FileEntry.Reached f e)
    {junk : Bytes} (hj : junk.length = 65536) : ∃ reader, openFile F compare junk i e = ok reader ∧ Follows F c content 0 reader := by
  have hh := healthy_env hF h hroot hf hcmp hi
  have h5 : ∀ n, f.kind ≠ .compressed 5 n := by
    intro n hk
    rcases hcon with ⟨g, _⟩ | ⟨_, _, g, _⟩ <;>
    · unfold StoredFile.source? at g
      rw [hk] at g
      cases g
  obtain ⟨reader, h1, _⟩ := c53_opened_partial hF h hroot hf hc hcon hcmp hi he hj
  refine ⟨reader, h1, ?_⟩
  unfold openFile at h1
  split at h1
  · next size sp hs =>
    obtain ⟨src, g1, g2⟩ := c40_source_partial f hf.valid e he _ hh.faithful h5 _ hs
    cases g2
    obtain ⟨hd, g3, g4⟩ := bind_eq_ok.1 h1
    cases g4
    rcases hcon with ⟨g, hz, hst⟩ | ⟨_, _, g, _⟩
    · rw [g1] at g
      cases g
      obtain ⟨hd', r1, r2⟩ := extentStream_reads hF h hroot hst
      rw [hi.dataStream, r1] at g3
      cases g3
      unfold extentStream at r1
      obtain ⟨es, _, r3⟩ := bind_eq_ok.1 r1
      exact .extents (AttributeRead.initHandle_disk r3) (r2 hz)
    · rw [g1] at g
      cases g
  · next data size method hs =>
    obtain ⟨src, g1, g2⟩ := c40_source_partial f hf.valid e he _ hh.faithful h5 _ hs
    obtain ⟨hd, g3, g4⟩ := bind_eq_ok.1 h1
    cases g4
    rcases hcon with ⟨g, _⟩ | ⟨algorithm, D, g, hen⟩
    · rw [g1] at g
      cases g
      cases g2
    · rw [g1] at g
      cases g
      obtain ⟨_, blocks, hS, hH⟩ := hen
      have hmet : method = (if algorithm = .zlib then methodDeflate else methodLzvn) ∧ size = content.length ∧ data = D := by
        cases g2 <;> exact ⟨rfl, rfl, rfl⟩
      obtain ⟨hmet, rfl, rfl⟩ := hmet
      rw [← hmet] at hS hH
      obtain ⟨hm, T, hO, hL⟩ := stored_layout hS
      have hbig : content.length ≤ 0xffff0000 := by
        have := hH.1
        have : blocks.length ≤ 16383 := by
          cases hS with
          | lzvn _ _ h => exact h
          | zlib _ _ _ _ _ _ _ _ h => omega
          | inline => simp
        omega
      unfold Compressed.Handle.init at g3
      split at g3
      · cases g3
      · cases g3
        exact .compressed (h := ⟨0, content.length, method, none, junk, 0, none⟩) hm hO hbig hL hH ⟨rfl, rfl, Or.inl rfl, hj, by simp⟩
  · cases h1
  · cases h1

/-- Any calls for an open file, while reading from the storage may fail, are those of a file with its content and one position.

What is missing: files compressed with LZFSE; positions of 2^63 and more, for which libfdata is not known. -/
theorem c89_library_partial (hF : Serves F s xid image cipher) (h : FsHolds s xid files) (hroot : ∃ r ∈ files, IsOf 2 3 r) {f : StoredFile} {stream : Nat}
    (hf : FileIn files image (cipher.map (·.1)) f stream) {c : Codec} (hc : Compressed.CodecOk c) {content : Bytes} (hcon : HasContent c files image (cipher.map (·.1)) f stream content)
    {compare : Bytes → Bytes → Res Bool} (hcmp : Compares compare f) {i : Records.Inode} (hi : ReadsAs i f stream) {e : FileEntry.Entry} (he : FileEntry.Reached f e)
    {junk : Bytes} (hj : junk.length = 65536) :
    ∃ reader, openFile F compare junk i e = ok reader ∧ ∀ e', FileEntry.Reached f e' → ∀ os : List (ValueOp × FileSeek.Env), (∀ y ∈ os, Faithful F y.2) →
      (FileSeek.asks c (FileEntry.getSize (FileRead.env F compare i) e').1 os reader).length = os.length ∧
      (∀ r ∈ FileSeek.asks c (FileEntry.getSize (FileRead.env F compare i) e').1 os reader, r ≠ ub) ∧
      Answers content 0 (List.zipWith (fun y x => (y.1, ¬ Works F y.2, AttributeRead.given x)) os (FileSeek.asks c (FileEntry.getSize (FileRead.env F compare i) e').1 os reader)) := by
  obtain ⟨reader, h1, h2⟩ := opened_follows hF h hroot hf hc hcon hcmp hi he hj
  obtain ⟨z1, z2⟩ := size_content hcon
  refine ⟨reader, h1, fun e' he' os hos => ?_⟩
  have hz := c40_size_available f hf.valid e' he' _ (healthy_env hF h hroot hf hcmp hi) (by
    intro m n hk hn
    unfold StoredFile.size? at z1
    rw [hk] at z1
    have := Option.some.inj z1
    omega) _ z1
  rw [hz]
  exact ⟨asks_length _ _ _ _, Follows.asks hc os hos h2⟩

/-- So do the methods in Python, where whence is any integer. Missing as above. -/
theorem c89_python_partial (hF : Serves F s xid image cipher) (h : FsHolds s xid files) (hroot : ∃ r ∈ files, IsOf 2 3 r) {f : StoredFile} {stream : Nat}
    (hf : FileIn files image (cipher.map (·.1)) f stream) {c : Codec} (hc : Compressed.CodecOk c) {content : Bytes} (hcon : HasContent c files image (cipher.map (·.1)) f stream content)
    {compare : Bytes → Bytes → Res Bool} (hcmp : Compares compare f) {i : Records.Inode} (hi : ReadsAs i f stream) {e : FileEntry.Entry} (he : FileEntry.Reached f e)
    {junk : Bytes} (hj : junk.length = 65536) :
    ∃ reader, openFile F compare junk i e = ok reader ∧ ∀ e', FileEntry.Reached f e' → ∀ ks : List (PyAttribute.Call × FileSeek.Env), (∀ y ∈ ks, Faithful F y.2) →
      (FileSeek.calls c (FileEntry.getSize (FileRead.env F compare i) e').1 ks reader).length = ks.length ∧
      (∀ r ∈ FileSeek.calls c (FileEntry.getSize (FileRead.env F compare i) e').1 ks reader, r ≠ ub) ∧
      PyAnswers content 0 (List.zipWith (fun y x => (y.1, ¬ Works F y.2, PyAttribute.given x)) ks (FileSeek.calls c (FileEntry.getSize (FileRead.env F compare i) e').1 ks reader)) := by
  obtain ⟨reader, h1, h2⟩ := opened_follows hF h hroot hf hc hcon hcmp hi he hj
  obtain ⟨z1, z2⟩ := size_content hcon
  refine ⟨reader, h1, fun e' he' ks hks => ?_⟩
  have hz := c40_size_available f hf.valid e' he' _ (healthy_env hF h hroot hf hcmp hi) (by
    intro m n hk hn
    unfold StoredFile.size? at z1
    rw [hk] at z1
    have := Option.some.inj z1
    omega) _ z1
  rw [hz]
  exact ⟨calls_length _ _ _ _, Follows.calls hc (by omega) ks hks h2⟩

namespace FileSeekExample
open MountExample (mounted)

/-- storage that works, and that does not -/
def works : FileSeek.Env := ⟨mounted.files.disk, fun _ _ => true⟩
def fails : FileSeek.Env := ⟨fun _ _ => err, fun _ _ => false⟩

def ops : List (ValueOp × FileSeek.Env) := [(.read 4, works), (.readAt 2 1, fails), (.seek (-3) 2, works), (.offset, fails), (.read 9, works), (.seek (-10) 1, works), (.seek 1 3, works), (.readAt 2 8, works), (.size, works)]

def methods : List (PyAttribute.Call × FileSeek.Env) := [(.read .missing, fails), (.read .missing, works), (.seek (-3) 2, works), (.getOffset, works), (.read .none_, works), (.seek 0 (-1), works), (.getSize, works)]

theorem faithful {α : Type} {l : List (α × FileSeek.Env)} (h : ∀ y ∈ l, y.2 = works ∨ y.2 = fails) : ∀ y ∈ l, Faithful mounted.files y.2 := by
  intro y hy
  rcases h y hy with e | e
  · rw [e]
    exact fun _ _ => Or.inr rfl
  · rw [e]
    exact fun _ _ => Or.inl rfl

/-- the file of the volume of C56, of 9 bytes -/
example : ∃ i e reader, openFile mounted.files mounted.compare mounted.junk i e = ok reader ∧
    Answers (List.replicate 9 0x61) 0 (List.zipWith (fun y x => (y.1, ¬ Works mounted.files y.2, AttributeRead.given x)) ops
      (FileSeek.asks mounted.unpack (FileEntry.getSize (FileRead.env mounted.files mounted.compare i) e).1 ops reader)) ∧
    PyAnswers (List.replicate 9 0x61) 0 (List.zipWith (fun y x => (y.1, ¬ Works mounted.files y.2, PyAttribute.given x)) methods
      (FileSeek.calls mounted.unpack (FileEntry.getSize (FileRead.env mounted.files mounted.compare i) e).1 methods reader)) := by
  have hin := MountExample.fileIn (i := 7) (by simp)
  let inode : Records.Inode := { identifier := 7, parent := 5, dataStream := 7, modification := 0, creation := 0, change := 0, access := 0, flags := 0, links := 1, owner := 0, group := 0, mode := 0x81a4, name := none, size := 9, device := 0 }
  have hreach : FileEntry.Reached MountExample.file.stored { inodeSize := MountExample.file.stored.size, inodeFlags := 0 } := .new 0 (by decide +kernel)
  have hmirror : ReadsAs inode MountExample.file.stored 7 := ⟨by decide +kernel, by decide +kernel, by decide +kernel, by decide +kernel⟩
  have hcontent := MountExample.mounts.has.content 7 (.step (.step .root (e := NameLookup.DirectoryExample.entry NameLookup.DirectoryExample.docs 5) (.head _)) (e := NameLookup.DirectoryExample.entry NameLookup.DirectoryExample.readme 7) (.tail _ (.head _))) _ rfl
  obtain ⟨reader, h1, h2⟩ := c89_library_partial MountExample.mounts.serves MountExample.mounts.holds MountExample.mounts.root hin MountExample.libraries.codec
    hcontent (FileExample.compares _) hmirror hreach MountExample.libraries.junk
  obtain ⟨reader', h3, h4⟩ := c89_python_partial MountExample.mounts.serves MountExample.mounts.holds MountExample.mounts.root hin MountExample.libraries.codec
    hcontent (FileExample.compares _) hmirror hreach MountExample.libraries.junk
  obtain rfl : reader = reader' := by
    have := h1.symm.trans h3
    injection this
  exact ⟨inode, _, reader, h1, (h2 _ hreach _ (faithful (by simp [ops]))).2.2, (h4 _ hreach _ (faithful (by simp [methods]))).2.2⟩

/-- what a file with nine bytes answers; the second call failed and has moved the position to 1 -/
example : Answers [1, 2, 3, 4, 5, 6, 7, 8, 9] 0 [(.read 4, False, some (.bytes [1, 2, 3, 4])), (.readAt 2 1, True, none), (.read 1, False, some (.bytes [2])), (.seek (-3) 2, False, some (.position 6)),
    (.offset, True, some (.position 6)), (.read 9, False, some (.bytes [7, 8, 9])), (.seek (-10) 1, False, none), (.seek 1 3, False, none), (.readAt 2 8, False, some (.bytes [9])), (.size, False, some (.size 9))] :=
  Or.inl ⟨rfl, Or.inr ⟨trivial, rfl, by simp, 1, .readAt 2 1, Or.inl ⟨rfl, Or.inl ⟨rfl, Or.inl ⟨rfl, Or.inl ⟨rfl, Or.inl ⟨rfl, Or.inl ⟨rfl, Or.inl ⟨rfl, Or.inl ⟨rfl, trivial⟩⟩⟩⟩⟩⟩⟩⟩⟩⟩

end FileSeekExample
end Verif.Props
