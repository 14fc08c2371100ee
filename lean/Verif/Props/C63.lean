import Verif.Spec.FileObject
/-!
# C63: A file object of Python is read as the image that it is

Any computation that reads a file object gets the bytes of the file; a file object that returns more bytes than asked writes behind the buffer.
-/
namespace Verif.Props
open Verif Res PyFile Spec.FileObject

section
variable {σ : Type} {o : Object σ} {content : Bytes} {at_ : σ → Nat → Prop}

theorem getOffset_file (h : File o content at_) {s : σ} {p : Nat} (hs : at_ s p) (hp : p < 2 ^ 63) : ∃ s', PyFile.getOffset o s = (some (p : Int), s') ∧ at_ s' p := by
  have hm : ∃ s', o.getOffset.getD o.tell s = (.value (.int p), s') ∧ at_ s' p := by
    cases ho : o.getOffset with
    | none => exact h.tell s p hs
    | some m => exact h.getOffset m ho s p hs
  obtain ⟨s', h1, h2⟩ := hm
  refine ⟨s', ?_, h2⟩
  unfold PyFile.getOffset
  rw [h1]
  dsimp only
  unfold signed
  dsimp only
  rw [if_pos (by omega)]

theorem handleSeek_file (h : File o content at_) {s : σ} {p k : Nat} (hs : at_ s p) (hk : k < 2 ^ 63) : ∃ s', handleSeek o (k : Int) 0 s = (some (k : Int), s') ∧ at_ s' k := by
  obtain ⟨v, s1, h1, h2⟩ := h.seekStart s p k hs
  obtain ⟨s2, h3, h4⟩ := getOffset_file h h2 hk
  refine ⟨s2, ?_, h4⟩
  have hseek : seekOffset o (k : Int) 0 s = (true, s1) := by
    unfold seekOffset
    rw [if_neg (by omega)]
    rw [show (k : Int) = Int.ofNat k from rfl, h1]
  unfold handleSeek
  rw [hseek]
  dsimp only
  rw [h3]
  dsimp only
  rw [if_neg (by omega)]

theorem readBuffer_file (h : File o content at_) {s : σ} {p n : Nat} (hs : at_ s p) (h0 : 0 < n) (hn : n < 2 ^ 63) :
    ∃ b s', o.read n s = (.value (.bytes b), s') ∧ readBuffer o n s = (ok b, s') ∧ b <+: content.drop p ∧ b.length ≤ n ∧ at_ s' (p + b.length) := by
  obtain ⟨b, s', h1, h2, h3, h4⟩ := h.read s p n hs h0
  refine ⟨b, s', h1, ?_, h2, h3, h4⟩
  unfold readBuffer
  rw [if_neg (by omega), if_neg (by omega), h1]
  dsimp only
  rw [if_pos h3]

/-- **C63.** Reading a file gives bytes of the file at that offset, whatever its position was. -/
theorem c63_read (h : File o content at_) {s : σ} {p offset n : Nat} (hs : at_ s p) (ho : offset < 2 ^ 63) (h0 : 0 < n) (hn : n < 2 ^ 63) :
    ∃ b s' p', readAtOffset o offset n s = (ok b, s') ∧ at_ s' p' ∧ b <+: content.drop offset ∧ b.length ≤ n := by
  obtain ⟨s1, h1, h2⟩ := handleSeek_file h hs ho
  obtain ⟨b, s2, _, h3, h4, h5, h6⟩ := readBuffer_file h h2 h0 hn
  refine ⟨b, s2, _, ?_, h6, h4, h5⟩
  unfold readAtOffset
  rw [if_neg (by omega), h1]
  exact h3

/-- what the library gets: the bytes asked for, or an error -/
theorem readFully_file (h : File o content at_) {s : σ} {p offset n : Nat} (hs : at_ s p) (h0 : 0 < n) (hn : n < 2 ^ 63) :
    ∃ s' p', at_ s' p' ∧ ((offset < 2 ^ 63 ∧ offset + n ≤ content.length ∧ readFully o offset n s = (ok ((content.drop offset).take n), s')) ∨
      (readFully o offset n s = (err, s') ∧ (Buffered o content at_ → ¬ (offset < 2 ^ 63 ∧ offset + n ≤ content.length)))) := by
  by_cases ho : offset < 2 ^ 63
  · obtain ⟨s1, h1, h2⟩ := handleSeek_file h hs ho
    obtain ⟨b, s2, hr, h3, h4, h5, h6⟩ := readBuffer_file h h2 h0 hn
    have hra : readAtOffset o offset n s = (ok b, s2) := by
      unfold readAtOffset
      rw [if_neg (by omega), h1]
      exact h3
    refine ⟨s2, _, h6, ?_⟩
    have hf : readFully o offset n s = (if b.length = n then ok b else err, s2) := by
      unfold readFully
      rw [hra]
    have hl := h4.length_le
    rw [List.length_drop] at hl
    by_cases hb : b.length = n
    · left
      refine ⟨ho, by omega, ?_⟩
      rw [hf, if_pos hb, List.prefix_iff_eq_take.1 h4, hb]
    · right
      refine ⟨by rw [hf, if_neg hb], fun hB => ?_⟩
      have := hB s1 offset n b s2 h2 h0 hr
      omega
  · refine ⟨s, p, hs, .inr ⟨?_, fun _ => by omega⟩⟩
    unfold readFully readAtOffset
    rw [if_pos (by omega)]

/-- **C63.** A computation that reads a file object that is a buffered file gives the result that it gives for the bytes of the file, whatever the position was before and whichever reads it makes. -/
theorem c63_results (h : File o content at_) (hB : Buffered o content at_) {α : Type} : ∀ {c : Client α}, c.Proper → ∀ {s : σ} {p : Nat}, at_ s p → (c.run (readFully o) s).1 = ok (c.result content) := by
  intro c
  induction c with
  | done a => intros; rfl
  | read offset n next ih =>
    intro hc s p hs
    obtain ⟨h0, hn, hc⟩ := hc
    obtain ⟨s', p', hs', hr⟩ := readFully_file h (offset := offset) hs h0 hn
    unfold Client.run Client.result
    rcases hr with ⟨ho, hle, hr⟩ | ⟨hr, hno⟩
    · rw [hr, if_pos ⟨ho, hle⟩]
      exact ih _ (hc _) hs'
    · rw [hr, if_neg (hno hB)]
      exact ih _ (hc _) hs'

/-- **C63.** If reads can return less, nothing else than the bytes of the file is used: every read of the computation gets its bytes or fails. -/
theorem c63_short {α : Type} (h : File o content at_) : ∀ {c : Client α}, c.Proper → ∀ {s : σ} {p : Nat}, at_ s p →
    ∃ fails : Nat → Nat → σ → Bool × σ, (c.run (readFully o) s).1 = (c.run (fun offset n s => match fails offset n s with
      | (true, s) => (err, s)
      | (false, s) => (if offset < 2 ^ 63 ∧ offset + n ≤ content.length then ok ((content.drop offset).take n) else err, s)) s).1 := by
  intro c hc s p hs
  refine ⟨fun offset n s => match readFully o offset n s with
    | (.ok _, s) => (false, s)
    | (_, s) => (true, s), ?_⟩
  revert hc s p
  induction c with
  | done a => intros; rfl
  | read offset n next ih =>
    intro hc s p hs
    obtain ⟨h0, hn, hc⟩ := hc
    obtain ⟨s', p', hs', hr⟩ := readFully_file h (offset := offset) hs h0 hn
    unfold Client.run
    rcases hr with ⟨ho, hle, hr⟩ | ⟨hr, _⟩
    · simp only [hr, if_pos (And.intro ho hle)]
      exact ih _ (hc _) hs'
    · simp only [hr]
      exact ih _ (hc _) hs'

/-- **C63.** Whatever a file object does otherwise, no memory is accessed out of bounds if it never returns more bytes than asked. -/
theorem c63_safe_partial (hp : Polite o) {α : Type} : ∀ (c : Client α) (s : σ), (c.run (readFully o) s).1 ≠ ub := by
  intro c
  induction c with
  | done a => intro s h; cases h
  | read offset n next ih =>
    intro s
    have hb : ∀ s s', readBuffer o n s ≠ (ub, s') := by
      intro s s'
      unfold readBuffer
      split
      · intro h; cases h
      · split
        · intro h; cases h
        · split
          · rename_i b s1 h1
            rw [if_pos (hp n s b s1 h1)]
            intro h; cases h
          · intro h; cases h
    have ha : ∀ s', readAtOffset o offset n s ≠ (ub, s') := by
      intro s'
      unfold readAtOffset
      split
      · intro h; cases h
      · split
        · intro h; cases h
        · exact hb _ _
    have hf : ∀ s', readFully o offset n s ≠ (ub, s') := by
      intro s'
      unfold readFully
      split
      · split <;> (intro h; cases h)
      · intro h; cases h
      · rename_i s1 h1
        exact absurd h1 (ha s1)
    unfold Client.run
    split
    · exact ih _ _
    · exact ih _ _
    · rename_i s1 h1
      exact absurd h1 (hf s1)

/-- **C63.** Data comes from `read` of the object at that offset: a method that raises or returns something else than bytes makes the read fail. -/
theorem c63_data {s s' : σ} {offset n : Nat} (hn : 0 < n) {b : Bytes} (h : readFully o offset n s = (ok b, s')) :
    b.length = n ∧ ∃ v s1 i s2, o.seek offset 0 s = (.value v, s1) ∧ o.getOffset.getD o.tell s1 = (.value (.int i), s2) ∧ o.read n s2 = (.value (.bytes b), s') := by
  have hra : readAtOffset o offset n s = (ok b, s') ∧ b.length = n := by
    unfold readFully at h
    split at h
    · rename_i b' s1 h1
      by_cases hb : b'.length = n
      · rw [if_pos hb] at h
        cases h
        exact ⟨h1, hb⟩
      · rw [if_neg hb] at h
        cases h
    · cases h
    · cases h
  refine ⟨hra.2, ?_⟩
  have h := hra.1
  unfold readAtOffset at h
  split at h
  · cases h
  split at h
  · cases h
  rename_i i s2 hk
  have hrd : o.read n s2 = (.value (.bytes b), s') := by
    unfold readBuffer at h
    split at h
    · cases h
    rw [if_neg (by omega)] at h
    split at h
    · rename_i b' s3 h3
      split at h
      · cases h
        exact h3
      · cases h
    · cases h
  unfold handleSeek at hk
  split at hk
  · cases hk
  rename_i s1 hsk
  unfold seekOffset at hsk
  rw [if_neg (by omega)] at hsk
  split at hsk
  · rename_i v s1' hv
    cases hsk
    unfold PyFile.getOffset at hk
    split at hk
    · cases hk
    rename_i j s3 hj
    obtain ⟨_, rfl⟩ := Prod.mk.inj hk
    split at hj
    · rename_i w s4 hw
      obtain ⟨hj1, rfl⟩ := Prod.mk.inj hj
      cases w with
      | int k => exact ⟨v, s1, k, s4, hv, hw, hrd⟩
      | bytes _ => cases hj1
      | other => cases hj1
    · cases hj
  · cases hsk

/-- **C63, refuted for objects that return more than asked**: whenever `read` does, memory behind the buffer is written. -/
theorem c63_overflow {s s1 s2 : σ} {offset n : Nat} {i : Int} {b : Bytes} (ho : offset < 2 ^ 63) (h0 : 0 < n) (hn : n < 2 ^ 63) (hs : handleSeek o offset 0 s = (some i, s1))
    (hr : o.read n s1 = (.value (.bytes b), s2)) (hb : n < b.length) {α : Type} (next : Option Bytes → Client α) : ((Client.read offset n next).run (readFully o) s).1 = ub := by
  have h1 : readBuffer o n s1 = (ub, s2) := by
    unfold readBuffer
    rw [if_neg (by omega), if_neg (by omega), hr]
    dsimp only
    rw [if_neg (by omega)]
  have h2 : readFully o offset n s = (ub, s2) := by
    unfold readFully readAtOffset
    rw [if_neg (by omega), hs]
    dsimp only
    rw [h1]
  unfold Client.run
  rw [h2]

/-- **C63.** The size of a file object that is a file is the number of its bytes, and its position is kept. -/
theorem c63_size (h : File o content at_) (hl : content.length < 2 ^ 63) {s : σ} {p : Nat} (hs : at_ s p) (hp : p < 2 ^ 63) (size : Nat) : ∃ s', handleSize o size s = ((true, content.length), s') ∧ at_ s' p := by
  unfold handleSize
  cases hg : o.getSize with
  | some m =>
    obtain ⟨s', h1, h2⟩ := h.getSize m hg s p hs
    refine ⟨s', ?_, h2⟩
    have : objectSize m s = (some content.length, s') := by
      unfold objectSize
      rw [h1]
      dsimp only
      unfold PyFile.unsigned
      dsimp only
      rw [if_pos (by omega), if_neg (by omega)]
      simp
    dsimp only
    rw [this]
  | none =>
    obtain ⟨s1, h1, h2⟩ := getOffset_file h hs hp
    obtain ⟨v, s2, h3, h4⟩ := h.seekEnd s1 p h2
    obtain ⟨s3, h5, h6⟩ := getOffset_file h h4 hl
    obtain ⟨w, s4, h7, h8⟩ := h.seekStart s3 _ p h6
    have e1 : seekOffset o 0 2 s1 = (true, s2) := by
      unfold seekOffset
      rw [if_neg (by omega), h3]
    have e2 : seekOffset o (p : Int) 0 s3 = (true, s4) := by
      unfold seekOffset
      rw [if_neg (by omega), show (p : Int) = Int.ofNat p from rfl, h7]
    refine ⟨s4, ?_, h8⟩
    dsimp only
    rw [h1]
    dsimp only
    rw [e1]
    dsimp only
    rw [h5]
    dsimp only
    rw [e2]
    have : ((content.length : Int) % 2 ^ 64).toNat = content.length := by omega
    rw [this]

/-- **C63, refuted for the size**: an object whose size cannot be retrieved has, without an error, the size that was in the variable before. -/
theorem c63_size_failed {s : σ} (h : (∃ m, o.getSize = some m ∧ (m s).1 = .raised) ∨ (o.getSize = none ∧ (o.getOffset.getD o.tell s).1 = .raised)) (size : Nat) : (handleSize o size s).1 = (true, size) := by
  unfold handleSize
  rcases h with ⟨m, hm, hr⟩ | ⟨hm, hr⟩
  · rw [hm]
    dsimp only
    have : (objectSize m s).1 = none := by
      unfold objectSize
      split
      · rename_i h1; rw [h1] at hr; cases hr
      · rfl
    split
    · rename_i h1; rw [h1] at this; cases this
    · rfl
  · rw [hm]
    dsimp only
    have : (PyFile.getOffset o s).1 = none := by
      unfold PyFile.getOffset
      split
      · rename_i h1; rw [h1] at hr; cases hr
      · rfl
    split
    · rfl
    · rename_i h1; rw [h1] at this; cases this

end

theorem blocksFrom_blocks (content : Bytes) : ∀ k b, Container.blocksFrom (blocks content) b k = some ((content.drop (b * 4096)).take (k * 4096))
  | 0, b => by simp [Container.blocksFrom]
  | k + 1, b => by
    unfold Container.blocksFrom
    rw [blocksFrom_blocks content k (b + 1)]
    show some ((content.drop (b * 4096)).take 4096 ++ (content.drop ((b + 1) * 4096)).take (k * 4096)) = _
    congr 1
    rw [Nat.add_mul, Nat.add_mul, Nat.one_mul, Nat.add_comm (k * 4096), List.take_add, List.drop_drop]

/-- **C63.** Reads of the bytes of a file are those of the image of its blocks in the model of the library. -/
theorem c63_image (content : Bytes) {offset n : Nat} (h0 : 0 < n) :
    FileRead.readBytes (blocks content) offset n = if offset < 2 ^ 63 ∧ offset + n ≤ content.length then ok ((content.drop offset).take n) else err := by
  unfold FileRead.readBytes
  by_cases ho : offset ≥ 2 ^ 63
  · rw [if_pos ho, if_neg (by omega)]
  · rw [if_neg ho, blocksFrom_blocks]
    dsimp only
    have hl : ((content.drop (offset / 4096 * 4096)).take ((offset % 4096 + n + 4095) / 4096 * 4096)).length = min ((offset % 4096 + n + 4095) / 4096 * 4096) (content.length - offset / 4096 * 4096) := by
      rw [List.length_take, List.length_drop]
    rw [hl]
    by_cases hc : offset + n ≤ content.length
    · rw [if_pos (by omega), if_pos ⟨by omega, hc⟩, List.drop_take, List.drop_drop, List.take_take]
      congr 2
      · omega
      · congr 1
        omega
    · rw [if_neg (by omega), if_neg (by omega)]

/-- the same for reads at the start of a block -/
theorem c63_image_blocks (content : Bytes) {b n : Nat} (h0 : 0 < n) :
    Container.readAt (blocks content) (b * 4096) n = if b * 4096 < 2 ^ 63 ∧ b * 4096 + n ≤ content.length then ok ((content.drop (b * 4096)).take n) else err := by
  rw [← c63_image content h0]
  unfold Container.readAt FileRead.readBytes
  have : b * 4096 % 4096 = 0 := Nat.mul_mod_left _ _
  rw [this, Nat.zero_add]
  rfl

/-! examples -/

/-- `BytesIO`, without `get_offset` and `get_size` -/
def bytesIO (content : Bytes) : Object Nat where
  read n p := (.value (.bytes ((content.drop p).take n)), p + ((content.drop p).take n).length)
  seek k whence p := let q := if whence = 0 then k else if whence = 1 then p + k else content.length + k
    if q < 0 then (.raised, p) else (.value (.int q), q.toNat)
  tell p := (.value (.int p), p)
  getOffset := none
  getSize := none

theorem bytesIO_file (content : Bytes) : File (bytesIO content) content (fun s p => s = p) where
  read s p n hs hn := by
    subst hs
    exact ⟨_, _, rfl, List.take_prefix _ _, by rw [List.length_take]; omega, rfl⟩
  seekStart s p k hs := ⟨.int k, k, rfl, rfl⟩
  seekEnd s p hs := ⟨.int (content.length + 0), content.length, rfl, rfl⟩
  tell s p hs := ⟨s, by subst hs; rfl, hs⟩
  getOffset m h := by cases h
  getSize m h := by cases h

theorem bytesIO_buffered (content : Bytes) : Buffered (bytesIO content) content (fun s p => s = p) := by
  intro s p n b s' hs hn h
  subst hs
  cases h
  rw [List.length_take, List.length_drop]

/-- a computation that reads where the first byte tells -/
def follow : Client (Option Bytes) := .read 0 1 fun r => match r with
  | some [a] => .read a.toNat 2 .done
  | _ => .done none

theorem follow_proper : follow.Proper := by
  refine ⟨by decide, by decide, fun r => ?_⟩
  dsimp only
  split
  · exact ⟨by decide, by decide, fun _ => trivial⟩
  · trivial

example : (follow.run (readFully (bytesIO [3, 0, 0, 7, 8, 9])) 5).1 = ok (some [7, 8]) :=
  c63_results (bytesIO_file _) (bytesIO_buffered _) follow_proper rfl

example : handleSize (bytesIO [3, 0, 0, 7, 8, 9]) 0 5 = ((true, 6), 5) := by
  obtain ⟨s', h, hs⟩ := c63_size (bytesIO_file [3, 0, 0, 7, 8, 9]) (by decide) (s := 5) (p := 5) rfl (by decide) 0
  subst hs
  exact h

/-- an object whose `read` returns all that is left -/
def readsAll (content : Bytes) : Object Nat := { bytesIO content with read := fun _ p => (.value (.bytes (content.drop p)), content.length) }

example : (follow.run (readFully (readsAll [3, 0, 0, 7, 8, 9])) 0).1 = ub :=
  c63_overflow (s1 := 0) (s2 := 6) (i := 0) (b := [3, 0, 0, 7, 8, 9]) (by decide) (by decide) (by decide) rfl rfl (by decide) _

/-- an object that raises in `get_size` -/
example : (handleSize { bytesIO [1] with getSize := some fun p => (.raised, p) } 77 0).1 = (true, 77) :=
  c63_size_failed (.inl ⟨_, rfl, rfl⟩) 77

end Verif.Props
