import Verif.Props.C64
import Verif.Props.C49
import Verif.Model.Digest
import Verif.Spec.Digest
/-!
# C68: The MD5 column of a bodyfile

The first column of the line of a regular file is the MD5 of its contents.
-/
namespace Verif.Props
open Verif Res Spec BTree FsTree FileRead
open Verif.Digest (copyLoop copyToString Md5 readLoop calculate column zeros ofFile)
open Verif.Spec.Digest (ofText LowerHex Incremental)

/-- the two digits of a byte -/
def pair (b : UInt8) : Bytes := [Digest.digit (b.toNat / 16), Digest.digit (b.toNat % 16)]

theorem digit_value : ∀ d, d < 16 → Spec.Escape.digit (Digest.digit d) = some d ∧ LowerHex (Digest.digit d) ∧ Digest.digit d ≠ 0 := by
  have h : ∀ d : Fin 16, Spec.Escape.digit (Digest.digit d.1) = some d.1 ∧ ((0x30 ≤ (Digest.digit d.1).toNat ∧ (Digest.digit d.1).toNat ≤ 0x39) ∨ (0x61 ≤ (Digest.digit d.1).toNat ∧ (Digest.digit d.1).toNat ≤ 0x66)) ∧
    Digest.digit d.1 ≠ 0 := by decide +kernel
  exact fun d hd => h ⟨d, hd⟩

theorem ofText_pairs : ∀ d : Bytes, ofText (d.flatMap pair) = some d
  | [] => rfl
  | b :: d => by
    have hb := b.toNat_lt
    have h1 := (digit_value (b.toNat / 16) (by omega)).1
    have h2 := (digit_value (b.toNat % 16) (by omega)).1
    rw [List.flatMap_cons]
    show ofText (Digest.digit (b.toNat / 16) :: Digest.digit (b.toNat % 16) :: d.flatMap pair) = _
    unfold ofText
    have hx : Spec.Escape.hexNumber 0 [Digest.digit (b.toNat / 16), Digest.digit (b.toNat % 16)] = some b.toNat := by
      simp only [Spec.Escape.hexNumber, h1, h2]
      congr 1
      omega
    rw [hx, ofText_pairs d]
    simp

theorem mem_pairs {d : Bytes} {x : UInt8} (h : x ∈ d.flatMap pair) : LowerHex x ∧ x ≠ 0 := by
  obtain ⟨b, _, hx⟩ := List.mem_flatMap.1 h
  have hb := b.toNat_lt
  rcases List.mem_cons.1 hx with rfl | hx
  · exact (digit_value _ (by omega)).2
  · rcases List.mem_cons.1 hx with rfl | hx
    · exact (digit_value _ (by omega)).2
    · cases hx

theorem pairs_length (d : Bytes) : (d.flatMap pair).length = 2 * d.length := by
  induction d with
  | nil => rfl
  | cons b d ih =>
    rw [List.flatMap_cons, List.length_append, ih]
    simp [pair]
    omega

theorem shows_pairs (d : Bytes) : Spec.Digest.Shows (d.flatMap pair) d := ⟨ofText_pairs d, fun _ hb => (mem_pairs hb).1⟩

/-- writing behind what has been written -/
theorem wr_behind (done rest : Bytes) (x : UInt8) (y : UInt8) : wr (done ++ x :: rest) done.length y = ok (done ++ y :: rest) := by
  unfold wr
  rw [if_pos (by simp)]
  simp

theorem copyLoop_writes (hash : Bytes) : ∀ (n i : Nat) (done rest : Bytes), i + n ≤ hash.length → 2 * n ≤ rest.length →
    copyLoop hash n i done.length (done ++ rest) = ok (done.length + 2 * n, done ++ ((hash.drop i).take n).flatMap pair ++ rest.drop (2 * n))
  | 0, i, done, rest, _, _ => by simp [copyLoop]
  | n + 1, i, done, rest, h1, h2 => by
    match rest, h2 with
    | x :: y :: rest, h2 =>
      have hi : i < hash.length := by omega
      unfold copyLoop
      have hr : rd hash i = ok hash[i] := by simp [rd, hi]
      rw [hr, ok_bind, wr_behind, ok_bind]
      have e1 : done.length + 1 = (done ++ [Digest.digit (hash[i].toNat / 16)]).length := by simp
      rw [show done ++ Digest.digit (hash[i].toNat / 16) :: y :: rest = (done ++ [Digest.digit (hash[i].toNat / 16)]) ++ y :: rest by simp, e1, wr_behind, ok_bind]
      have e2 : done.length + 2 = (done ++ pair hash[i]).length := by simp [pair]
      rw [show (done ++ [Digest.digit (hash[i].toNat / 16)]) ++ Digest.digit (hash[i].toNat % 16) :: rest = (done ++ pair hash[i]) ++ rest by simp [pair], e2,
        copyLoop_writes hash n (i + 1) _ rest (by omega) (by simp only [List.length_cons] at h2; omega)]
      rw [List.drop_eq_getElem_cons hi, List.take_succ_cons, List.flatMap_cons]
      congr 2
      · simp [pair]
        omega
      · simp [Nat.mul_add]

/-- **C68, text.** The text of any digest is written, with an end-of-string character, to any buffer that it fits in; nothing is written behind it. -/
theorem c68_text (hash string : Bytes) (h : 2 * hash.length + 1 ≤ string.length) (hs : string.length < 2 ^ 63) :
    ∃ text, copyToString hash hash.length string string.length = ok (text ++ 0 :: string.drop (2 * hash.length + 1)) ∧ Spec.Digest.Shows text hash ∧ text.length = 2 * hash.length := by
  refine ⟨hash.flatMap pair, ?_, shows_pairs hash, pairs_length hash⟩
  unfold copyToString
  rw [require_true (by omega), ok_bind, require_true (by omega), ok_bind, require_true (by omega), ok_bind]
  have hl := copyLoop_writes hash hash.length 0 [] string (by omega) (by omega)
  simp only [List.nil_append, List.length_nil, Nat.zero_add, List.drop_zero, List.take_length] at hl
  rw [hl, ok_bind]
  dsimp only
  rw [List.drop_eq_getElem_cons (by omega : 2 * hash.length < string.length)]
  have := wr_behind (hash.flatMap pair) (string.drop (2 * hash.length + 1)) string[2 * hash.length] 0
  rw [pairs_length] at this
  exact this

/-- **C68, memory.** Whatever sizes are passed, no access is outside of the digest and the buffer, if these have the sizes; a buffer that is too small is refused. -/
theorem c68_safe (hash string : Bytes) : copyToString hash hash.length string string.length ≠ ub ∧
    (string.length < 2 * hash.length + 1 → copyToString hash hash.length string string.length = err) := by
  have hsmall : string.length < 2 * hash.length + 1 → copyToString hash hash.length string string.length = err := by
    intro h
    unfold copyToString
    by_cases h1 : hash.length ≤ 2 ^ 63 - 1
    · rw [require_true h1, ok_bind]
      by_cases h2 : string.length ≤ 2 ^ 63 - 1
      · rw [require_true h2, ok_bind, require_false (by omega), err_bind]
      · rw [require_false h2, err_bind]
    · rw [require_false h1, err_bind]
  refine ⟨?_, hsmall⟩
  by_cases h : string.length < 2 * hash.length + 1
  · rw [hsmall h]
    exact nofun
  · by_cases h2 : string.length < 2 ^ 63
    · obtain ⟨text, ht, _⟩ := c68_text hash string (by omega) h2
      rw [ht]
      exact nofun
    · unfold copyToString
      by_cases h1 : hash.length ≤ 2 ^ 63 - 1
      · rw [require_true h1, ok_bind, require_false (by omega), err_bind]
        exact nofun
      · rw [require_false h1, err_bind]
        exact nofun

example : copyToString [0xd4, 0x1d, 0x8c] 3 (List.replicate 8 0xff) 8 = ok ([0x64, 0x34, 0x31, 0x64, 0x38, 0x63, 0, 0xff] : Bytes) := by decide +kernel

/-- **C68, identity.** Texts tell digests apart. -/
theorem c68_distinct {text d d' : Bytes} (h : Spec.Digest.Shows text d) (h' : Spec.Digest.Shows text d') : d = d' := by
  have := h.1.symm.trans h'.1
  exact Option.some.inj this

example : Spec.Digest.Shows [0x37, 0x66] [0x7f] := ⟨by decide +kernel, by
  intro b hb
  rcases List.mem_cons.1 hb with rfl | hb
  · exact .inl (by decide)
  · cases List.mem_singleton.1 hb
    exact .inr (by decide)⟩

/-- reading in pieces of at most 4096 bytes from a reader that gives a content -/
theorem readLoop_gives {c : Codec} {m : Md5} {content : Bytes} : ∀ (left : Nat) (pos : Nat) (r : Reader) (x : m.Context), GivesFrom c content pos r → pos + left = content.length →
    ∃ ps : List Bytes, readLoop c m left r x = ok (ps.foldl m.update x) ∧ ps.flatten = content.drop pos := by
  intro left
  induction left using Nat.strongRecOn with
  | ind left ih =>
    intro pos r x hr hl
    by_cases h0 : left > 0
    · rw [readLoop, dif_pos h0]
      dsimp only
      have hn : (if 4096 > left then left else 4096) ≤ left ∧ 0 < (if 4096 > left then left else 4096) := by split <;> omega
      generalize (if 4096 > left then left else 4096) = n at hn
      obtain ⟨r', h1, h2⟩ := gives_read hr n
      have hlen : ((content.drop pos).take n).length = n := by
        rw [List.length_take, List.length_drop]
        omega
      rw [h1]
      dsimp only
      rw [if_neg (not_not_intro hlen)]
      rw [hlen] at h2
      obtain ⟨ps, h3, h4⟩ := ih (left - n) (by omega) (pos + n) r' (m.update x ((content.drop pos).take n)) h2 (by omega)
      refine ⟨(content.drop pos).take n :: ps, h3, ?_⟩
      rw [List.flatten_cons, h4, ← List.drop_drop, List.take_append_drop]
    · rw [readLoop, dif_neg h0]
      exact ⟨[], rfl, by rw [List.drop_of_length_le (by omega)]; rfl⟩

/-- the digest of a reader is that of its content, at whatever position it is -/
theorem calculate_gives {c : Codec} {m : Md5} {digest : Bytes → Bytes} (hm : Incremental m.Context m.start m.update m.finish digest) {content : Bytes} {pos : Nat} {r : Reader}
    (hr : GivesFrom c content pos r) (string : Bytes) (h33 : 33 ≤ string.length) (h63 : string.length < 2 ^ 63) :
    ∃ text, calculate c m (ok content.length) (ok r) string string.length = ok (text ++ 0 :: string.drop 33) ∧ Spec.Digest.Shows text (digest content) ∧ text.length = 32 := by
  unfold calculate
  rw [ok_bind, ok_bind]
  obtain ⟨r', h1, h2⟩ := gives_seek hr 0
  have h1' : FileRead.step c (.seek 0) r = (ok [], r') := h1
  rw [h1']
  dsimp only
  obtain ⟨ps, h3, h4⟩ := readLoop_gives (m := m) content.length 0 r' m.start h2 (by omega)
  rw [h3, ok_bind, hm.pieces, h4, List.drop_zero]
  have hz := hm.size content
  obtain ⟨text, t1, t2, t3⟩ := c68_text (digest content) string (by omega) h63
  rw [hz] at t1 t3
  exact ⟨text, t1, t2, t3⟩

theorem cString_lower {text : Bytes} (h : ∀ b ∈ text, LowerHex b) (rest : Bytes) : PathString.cString (text ++ 0 :: rest) = text := by
  unfold PathString.cString
  induction text with
  | nil => rfl
  | cons b t ih =>
    have hb : b ≠ 0 := by
      rintro rfl
      exact absurd (h 0 (List.mem_cons_self ..)) (by unfold LowerHex; decide)
    rw [List.cons_append, List.takeWhile_cons_of_pos (by simpa using hb), ih (fun x hx => h x (List.mem_cons_of_mem _ hx))]

section
variable {F : Files} {s : Storage} {xid : Nat} {files : List Record} {image : Nat → Option Bytes} {cipher : Option (Cipher × Cipher)}

/-- the MD5 string of a file -/
theorem ofFile_text (hF : Serves F s xid image cipher) (h : FsHolds s xid files) (hroot : ∃ r ∈ files, IsOf 2 3 r) {f : StoredFile} {stream : Nat}
    (hf : FileIn files image (cipher.map (·.1)) f stream) {c : Codec} (hc : Compressed.CodecOk c) {content : Bytes} (hcon : HasContent c files image (cipher.map (·.1)) f stream content)
    {compare : Bytes → Bytes → Res Bool} (hcmp : Compares compare f) {i : Records.Inode} (hi : ReadsAs i f stream) {e : FileEntry.Entry} (he : FileEntry.Reached f e)
    {junk : Bytes} (hj : junk.length = 65536) {m : Md5} {digest : Bytes → Bytes} (hm : Incremental m.Context m.start m.update m.finish digest) :
    ∃ text, ofFile c m F compare junk i e zeros 33 = ok (text ++ [0]) ∧ Spec.Digest.Shows text (digest content) ∧ text.length = 32 := by
  obtain ⟨z1, z2⟩ := size_content hcon
  have hh := healthy_env hF h hroot hf hcmp hi
  have hz := c40_size_available f hf.valid e he _ hh (by
    intro m n hk hn
    unfold StoredFile.size? at z1
    rw [hk] at z1
    have := Option.some.inj z1
    omega) _ z1
  obtain ⟨reader, h1, h2⟩ := c53_opened_partial hF h hroot hf hc hcon hcmp hi (he.call (FileRead.env F compare i) .size hh.faithful) hj
  obtain ⟨text, t1, t2, t3⟩ := calculate_gives hm h2 zeros (by decide) (by decide)
  refine ⟨text, ?_, t2, t3⟩
  unfold ofFile
  dsimp only
  rw [hz, show (FileEntry.getSize (FileRead.env F compare i) e).2 = FileEntry.after (FileRead.env F compare i) .size e from rfl, h1]
  exact t1

/-- **C68.** With the option to calculate MD5 hashes, the first column for a regular file has the digest of all of its contents, from the first byte on, whatever was called on the file entry before. Here `digest`
is what libhmac calculates of pieces of data. -/
theorem c68_column_partial (hF : Serves F s xid image cipher) (h : FsHolds s xid files) (hroot : ∃ r ∈ files, IsOf 2 3 r) {f : StoredFile} {stream : Nat}
    (hf : FileIn files image (cipher.map (·.1)) f stream) {c : Codec} (hc : Compressed.CodecOk c) {content : Bytes} (hcon : HasContent c files image (cipher.map (·.1)) f stream content)
    {compare : Bytes → Bytes → Res Bool} (hcmp : Compares compare f) {i : Records.Inode} (hi : ReadsAs i f stream) {e : FileEntry.Entry} (he : FileEntry.Reached f e)
    {junk : Bytes} (hj : junk.length = 65536) {m : Md5} {digest : Bytes → Bytes} (hm : Incremental m.Context m.start m.update m.finish digest) {mode : Nat} (hmode : mode / 0x1000 % 16 = 8) :
    ∃ text, column true mode (ofFile c m F compare junk i e) = ok text ∧ Spec.Digest.Shows text (digest content) ∧ text.length = 32 := by
  obtain ⟨text, t1, t2, t3⟩ := ofFile_text hF h hroot hf hc hcon hcmp hi he hj hm
  refine ⟨text, ?_, t2, t3⟩
  unfold column
  rw [if_neg (by simp), if_pos hmode, t1, ok_bind]
  show ok (PathString.cString (text ++ 0 :: [])) = ok text
  rw [cString_lower t2.2]

/-- **C68, in a line.** The first field of the line of a regular file, as programs that read bodyfiles see it, is that text. -/
theorem c68_line_partial (hF : Serves F s xid image cipher) (h : FsHolds s xid files) (hroot : ∃ r ∈ files, IsOf 2 3 r) {f : StoredFile} {stream : Nat}
    (hf : FileIn files image (cipher.map (·.1)) f stream) {c : Codec} (hc : Compressed.CodecOk c) {content : Bytes} (hcon : HasContent c files image (cipher.map (·.1)) f stream content)
    {compare : Bytes → Bytes → Res Bool} (hcmp : Compares compare f) {i : Records.Inode} (hi : ReadsAs i f stream) {e : FileEntry.Entry} (he : FileEntry.Reached f e)
    {junk : Bytes} (hj : junk.length = 65536) {m : Md5} {digest : Bytes → Bytes} (hm : Incremental m.Context m.start m.update m.finish digest)
    {k : PathString.Codec} (hk : PathString.Lawful k) (path name : Option (List Nat)) (hp : TextOk path) (hn : TextOk name) (v : PathString.Values) (ht : v.target = none)
    (h1 : 0 ≤ v.access) (h2 : 0 ≤ v.modification) (h3 : 0 ≤ v.change) (h4 : 0 ≤ v.creation) (hmode : v.mode / 0x1000 % 16 = 8) :
    ∃ line md5, (column true v.mode (ofFile c m F compare junk i e) >>= fun md5 => PathString.bodyfileLine k md5 (path.map Spec.Utf8.encode) (name.map Spec.Utf8.encode) v) = ok (line ++ [0x0a]) ∧
      (Spec.Escape.fields line).head? = some md5 ∧ (Spec.Escape.fields line).length = 11 ∧ Spec.Digest.Shows md5 (digest content) := by
  obtain ⟨text, t1, t2, t3⟩ := c68_column_partial hF h hroot hf hc hcon hcmp hi he hj hm hmode
  obtain ⟨line, _, _, _, _, _, _, _, _, _, _, l1, _, l3, _⟩ := c49_line_partial hk text t2.2 path name hp hn v ht h1 h2 h3 h4
  refine ⟨line, text, ?_, ?_, ?_, t2⟩
  · rw [t1, ok_bind, l1]
  · rw [l3]
    rfl
  · rw [l3]
    rfl

end

/-- **C68, other columns.** Without the option the column is the digit 0; with it, files that are not regular have 32 such digits, and their contents are not read. -/
theorem c68_other (mode : Nat) (md5 : Bytes → Nat → Res Bytes) : column false mode md5 = ok [0x30] ∧ (mode / 0x1000 % 16 ≠ 8 → column true mode md5 = ok (List.replicate 32 0x30)) := by
  constructor
  · rfl
  · intro h
    unfold column
    rw [if_neg (by simp), if_neg h, ok_bind]
    rfl

/-- pieces that were read one after the other -/
inductive Pieced (c : Codec) : Reader → List Bytes → Prop
  | nil (r : Reader) : Pieced c r []
  | cons {r r' : Reader} {b : Bytes} {n : Nat} {ps : List Bytes} (h : FileRead.step c (.read n) r = (ok b, r')) (hl : b.length = n) (rest : Pieced c r' ps) : Pieced c r (b :: ps)

theorem readLoop_pieces {c : Codec} {m : Md5} : ∀ (left : Nat) (r : Reader) (x y : m.Context), readLoop c m left r x = ok y →
    ∃ ps : List Bytes, y = ps.foldl m.update x ∧ ps.flatten.length = left ∧ Pieced c r ps := by
  intro left
  induction left using Nat.strongRecOn with
  | ind left ih =>
    intro r x y h
    rw [readLoop] at h
    by_cases h0 : left > 0
    · rw [dif_pos h0] at h
      dsimp only at h
      have hn : (if 4096 > left then left else 4096) ≤ left ∧ 0 < (if 4096 > left then left else 4096) := by split <;> omega
      generalize (if 4096 > left then left else 4096) = n at hn h
      cases hs : FileRead.step c (.read n) r with
      | mk z r' =>
        rw [hs] at h
        cases z with
        | err => cases h
        | ub => cases h
        | ok b =>
          dsimp only at h
          by_cases hb : b.length = n
          · rw [if_neg (not_not_intro hb)] at h
            obtain ⟨ps, h1, h2, h3⟩ := ih (left - n) (by omega) r' _ _ h
            refine ⟨b :: ps, h1, ?_, .cons hs hb h3⟩
            rw [List.flatten_cons, List.length_append, h2]
            omega
          · rw [if_pos hb] at h
            cases h
    · rw [dif_neg h0] at h
      cases h
      exact ⟨[], rfl, by simp; omega, .nil r⟩

/-- **C68, no partial digests.** If a text is shown for a file entry, whatever its data is and whatever fails, then it is of as many bytes as the file entry has, read without gaps from its start. -/
theorem c68_whole {c : Codec} {m : Md5} {digest : Bytes → Bytes} (hm : Incremental m.Context m.start m.update m.finish digest) {size : Res Nat} {opened : Res Reader} {mode : Nat} {text : Bytes}
    (hmode : mode / 0x1000 % 16 = 8) (h : column true mode (calculate c m size opened) = ok text) :
    ∃ n r r' ps, size = ok n ∧ opened = ok r ∧ FileRead.step c (.seek 0) r = (ok [], r') ∧ Pieced c r' ps ∧ ps.flatten.length = n ∧ Spec.Digest.Shows text (digest ps.flatten) := by
  unfold column at h
  rw [if_neg (by simp), if_pos hmode] at h
  obtain ⟨s, hs, h⟩ := bind_eq_ok.1 h
  cases h
  unfold calculate at hs
  obtain ⟨n, hn, hs⟩ := bind_eq_ok.1 hs
  obtain ⟨r, hr, hs⟩ := bind_eq_ok.1 hs
  cases hk : FileRead.step c (.seek 0) r with
  | mk z r' =>
    rw [hk] at hs
    cases z with
    | err => cases hs
    | ub => cases hs
    | ok b =>
      dsimp only at hs
      have hb : b = [] := by
        cases r with
        | extents hd sz p =>
          have : FileRead.step c (.seek 0) (.extents hd sz p) = (ok [], .extents hd sz 0) := rfl
          rw [this] at hk
          cases hk
          rfl
        | compressed d hd =>
          unfold FileRead.step at hk
          dsimp only at hk
          cases hq : Compressed.seek 0 hd with
          | mk q h' =>
            rw [hq] at hk
            cases q <;> cases hk
            rfl
      subst hb
      obtain ⟨y, hy, hs⟩ := bind_eq_ok.1 hs
      obtain ⟨ps, p1, p2, p3⟩ := readLoop_pieces _ _ _ _ hy
      refine ⟨n, r, r', ps, hn, hr, hk, p3, p2, ?_⟩
      rw [p1, hm.pieces] at hs
      have hz := hm.size ps.flatten
      obtain ⟨t, t1, t2, _⟩ := c68_text (digest ps.flatten) zeros (by rw [hz]; decide) (by decide)
      rw [hz] at t1
      have t1' : copyToString (digest ps.flatten) 16 zeros 33 = _ := t1
      rw [t1'] at hs
      cases hs
      rw [cString_lower t2.2]
      exact t2

/-- **C68, refuted for LZFSE**: the line of a file that is compressed with LZFSE is not written, neither with its digest nor without. -/
theorem c68_lzfse {F : Files} {compare : Bytes → Bytes → Res Bool} {i : Records.Inode} {f : StoredFile} (hv : f.Valid) {e : FileEntry.Entry} (he : FileEntry.Reached f e)
    (hh : FileEntry.Healthy f (FileRead.env F compare i)) {method n : Nat} (hm : method = 11 ∨ method = 12) (hn : n ≠ 2 ^ 64 - 1) (hk : f.kind = .compressed method n) (c : Codec) (m : Md5) (junk : Bytes)
    {mode : Nat} (hmode : mode / 0x1000 % 16 = 8) : column true mode (ofFile c m F compare junk i e) = err := by
  have hz := c40_size_available f hv e he _ hh (by
    intro a b h1 h2
    rw [hk] at h1
    cases h1
    exact hn h2) n (by unfold StoredFile.size?; rw [hk])
  have ho := c40_lzfse_refused f hv _ (he.call (FileRead.env F compare i) .size hh.faithful) (FileRead.env F compare i) hh.faithful method n hm hk
  unfold column
  rw [if_neg (by simp), if_pos hmode]
  unfold ofFile calculate
  dsimp only
  rw [hz, ok_bind, show (FileEntry.getSize (FileRead.env F compare i) e).2 = FileEntry.after (FileRead.env F compare i) .size e from rfl]
  unfold FileRead.openFile
  rw [ho]
  rfl

/-- **C68, refuted for compression method 5**: the digest that is shown is that of as many zeros as the file has bytes, whatever its contents are. -/
theorem c68_method5 {F : Files} {compare : Bytes → Bytes → Res Bool} {i : Records.Inode} {f : StoredFile} (hv : f.Valid) {e : FileEntry.Entry} (he : FileEntry.Reached f e)
    (hh : FileEntry.Healthy f (FileRead.env F compare i)) {n : Nat} (hn : n < 2 ^ 63) (hk : f.kind = .compressed 5 n) {v : Bytes} (ha : f.attribute? decmpfs = some v) (hl : v.length ≤ 65537)
    (c : Codec) (junk : Bytes) {m : Md5} {digest : Bytes → Bytes} (hm : Incremental m.Context m.start m.update m.finish digest) {mode : Nat} (hmode : mode / 0x1000 % 16 = 8) :
    ∃ text, column true mode (ofFile c m F compare junk i e) = ok text ∧ Spec.Digest.Shows text (digest (List.replicate n 0)) := by
  have hz := c40_size_available f hv e he _ hh (by
    intro a b h1 h2
    rw [hk] at h1
    cases h1
    omega) n (by unfold StoredFile.size?; rw [hk])
  obtain ⟨_, o1, handle, o2, o3⟩ := c40_method5_zeros f hv _ (he.call (FileRead.env F compare i) .size hh.faithful) (FileRead.env F compare i) hh n hn hk v ha hl c junk
  have hopen : FileRead.openFile F compare junk i (FileEntry.after (FileRead.env F compare i) .size e) = ok (.compressed v handle) := by
    unfold FileRead.openFile
    rw [o1]
    dsimp only
    rw [o2]
    rfl
  have hgives : GivesFrom c (List.replicate n 0) 0 (.compressed v handle) := by
    intro ops
    have h := o3 (ops.map (fun o => (o, fun _ _ => true)))
    rw [run_compressed, seen_observed]
    exact h
  obtain ⟨text, t1, t2, _⟩ := calculate_gives hm hgives zeros (by decide) (by decide)
  refine ⟨text, ?_, t2⟩
  rw [List.length_replicate] at t1
  unfold column
  rw [if_neg (by simp), if_pos hmode]
  unfold ofFile
  dsimp only
  rw [hz, show (FileEntry.getSize (FileRead.env F compare i) e).2 = FileEntry.after (FileRead.env F compare i) .size e from rfl, hopen]
  have t1' : calculate c m (ok n) (ok (.compressed v handle)) zeros 33 = _ := t1
  rw [t1', ok_bind]
  rw [cString_lower t2.2]
  rfl

end Verif.Props
