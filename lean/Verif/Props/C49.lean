import Verif.Lemmas.Bodyfile
/-! C49: lines of a bodyfile -/
namespace Verif.Props
open Verif Res PathString
open Verif.Spec (Scalar)

/-- a path or name of a file entry, if there is one -/
def TextOk (text : Option (List Nat)) : Prop := ∀ cs, text = some cs → (∀ c ∈ cs, Scalar c ∧ c ≠ 0) ∧ cs ≠ [] ∧ (Spec.Utf8.encode cs).length ≤ (ssizeMax - 1) / 10

/-- what is shown of path and name: the name of the root directory, with identifier 2, is left out -/
def shown (path name : Option (List Nat)) (identifier : Nat) : List Nat := path.getD [] ++ (if identifier = 2 then [] else name.getD [])

theorem printPath_escaped {k : Codec} (hk : Lawful k) (path name : Option (List Nat)) (identifier : Nat) (hp : TextOk path) (hn : TextOk name) :
    printPath k (path.map Spec.Utf8.encode) (name.map Spec.Utf8.encode) identifier = ok ((shown path name identifier).flatMap (escaped .bodyfile)) := by
  have ht : ∀ text, TextOk text → printText k (text.map Spec.Utf8.encode) = ok ((text.getD []).flatMap (escaped .bodyfile)) := by
    intro text h
    cases text with
    | none => rfl
    | some cs =>
      obtain ⟨h1, h2, h3⟩ := h cs rfl
      exact printName_escaped hk cs h1 h2 h3
  unfold printPath shown
  rw [ht path hp, ok_bind]
  by_cases hi : identifier = 2
  · rw [if_neg (fun h => h hi), if_pos hi, show (none : Option Bytes) = (none : Option (List Nat)).map Spec.Utf8.encode from rfl, ht none (by intro cs h; cases h), ok_bind,
      List.flatMap_append]
    rfl
  · rw [if_pos hi, if_neg hi, ht name hn, ok_bind, List.flatMap_append]
    rfl

theorem name_shown (path name : Option (List Nat)) (identifier : Nat) (hp : TextOk path) (hn : TextOk name) : ∀ c ∈ shown path name identifier, Scalar c ∧ c ≠ 0 := by
  intro c hc
  unfold shown at hc
  rcases List.mem_append.1 hc with h | h
  · cases path with
    | none => simp at h
    | some cs => exact (hp cs rfl).1 c h
  · split at h
    · simp at h
    · cases name with
      | none => simp at h
      | some cs => exact (hn cs rfl).1 c h

/-- Every file entry that is not a symbolic link and has no times before 1970 gets one line of 11 fields, from which its path and name, its identifier, type and permissions, owner,
group, size and times can be read back, whatever the characters of path and name. The full statement is without the conditions on `target` and the times; it is false, see
`c49_target` and `c49_negative_time`. -/
theorem c49_line_partial {k : Codec} (hk : Lawful k) (md5 : Bytes) (hm : ∀ b ∈ md5, (0x30 ≤ b.toNat ∧ b.toNat ≤ 0x39) ∨ (0x61 ≤ b.toNat ∧ b.toNat ≤ 0x66))
    (path name : Option (List Nat)) (hp : TextOk path) (hn : TextOk name) (v : Values) (ht : v.target = none)
    (h1 : 0 ≤ v.access) (h2 : 0 ≤ v.modification) (h3 : 0 ≤ v.change) (h4 : 0 ≤ v.creation) :
    ∃ line text inode mode owner group size atime mtime ctime crtime,
      bodyfileLine k md5 (path.map Spec.Utf8.encode) (name.map Spec.Utf8.encode) v = ok (line ++ [0x0a]) ∧ (0x0a : UInt8) ∉ line ∧
      Spec.Escape.fields line = [md5, text, inode, mode, owner, group, size, atime, mtime, ctime, crtime] ∧
      Spec.Escape.unescape text = some (Spec.Utf8.encode (shown path name v.identifier)) ∧ Spec.Escape.number inode = some v.identifier ∧
      mode.map (fun b => Char.ofNat b.toNat) = Spec.Escape.modeLetters v.mode ∧ Spec.Escape.number owner = some v.owner ∧ Spec.Escape.number group = some v.group ∧
      Spec.Escape.number size = some v.size ∧ Spec.Escape.time atime = some v.access ∧ Spec.Escape.time mtime = some v.modification ∧
      Spec.Escape.time ctime = some v.change ∧ Spec.Escape.time crtime = some v.creation := by
  have hs := name_shown path name v.identifier hp hn
  have hu := unescape_flatMap .bodyfile (shown path name v.identifier) hs []
  rw [List.append_nil] at hu
  have hmp : Plain md5 := by
    intro b hb
    have := hm b hb
    exact ⟨toNat_ne (n := 0x7c) (by decide) (by omega), toNat_ne (n := 0x5c) (by decide) (by omega)⟩
  have hml : (0x0a : UInt8) ∉ md5 := fun h => absurd (hm _ h) (by decide)
  have htl : (0x0a : UInt8) ∉ (shown path name v.identifier).flatMap (escaped .bodyfile) := fun h => absurd (mem_flatMap_escaped hs h).1 (by decide)
  refine ⟨md5 ++ 0x7c :: ((shown path name v.identifier).flatMap (escaped .bodyfile) ++ tailText v), _, _, _, _, _, _, _, _, _, _, ?_, ?_, ?_, by rw [hu]; simp [Spec.Escape.unescape],
    number_decimal _, mode_letters _, number_decimal _, number_decimal _, number_decimal _, time_timeField _ h1, time_timeField _ h2, time_timeField _ h3, time_timeField _ h4⟩
  · unfold bodyfileLine
    rw [printPath_escaped hk path name v.identifier hp hn, ok_bind, ht]
    simp [linkText]
  · have hd := fun n => numeric_line (numeric_decimal n)
    have hti := fun t => numeric_line (numeric_time t)
    have hmo := (plain_mode v.mode).2
    simp only [List.mem_append, List.mem_cons, not_or, tailText]
    exact ⟨hml, by decide, htl, by decide, hd _, by decide, hmo, by decide, hd _, by decide, hd _, by decide, hd _, by decide, hti _, by decide, hti _, by decide, hti _, by decide, hti _⟩
  · have hd := fun n => numeric_plain (numeric_decimal n)
    have hti := fun t => numeric_plain (numeric_time t)
    rw [fields_next _ hmp, fields_name _ hs, tailText, fields_bar, fields_next _ (hd _), fields_next _ (plain_mode _).1, fields_next _ (hd _), fields_next _ (hd _), fields_next _ (hd _),
      fields_next _ (hti _), fields_next _ (hti _), fields_next _ (hti _), fields_last _ (hti _)]
    simp [Spec.Escape.prepend]

example : TextOk (some [0x2f, 0x61, 0x7c, 0x2f]) ∧ TextOk (some [0x62, 0x0a]) ∧ TextOk none := by
  refine ⟨?_, ?_, ?_⟩
  · intro cs h; cases h; decide +kernel
  · intro cs h; cases h; decide +kernel
  · intro cs h; cases h

/-- The lines of a bodyfile are those that were written for the file entries. -/
theorem c49_lines (ls : List Bytes) (h : ∀ l ∈ ls, (0x0a : UInt8) ∉ l) : Spec.Escape.lines (ls.flatMap (· ++ [0x0a])) = ls := lines_append ls h

/-- a regular file -/
def exampleValues : Values :=
  { identifier := 16, mode := 0o100644, owner := 99, group := 20, size := 3, access := 1500000000000000001, modification := 1500000000000000002, change := 0,
    creation := 1, target := none }

example : modeString exampleValues.mode = "-rw-r--r--".toUTF8.toList ∧ timeField exampleValues.access = "1500000000.000000001".toUTF8.toList := by decide +kernel

theorem tail_line (v : Values) : (0x0a : UInt8) ∉ tailText v := by
  have hd := fun n => numeric_line (numeric_decimal n)
  have hti := fun t => numeric_line (numeric_time t)
  have hmo := (plain_mode v.mode).2
  simp only [List.mem_append, List.mem_cons, not_or, tailText]
  exact ⟨by decide, hd _, by decide, hmo, by decide, hd _, by decide, hd _, by decide, hd _, by decide, hti _, by decide, hti _, by decide, hti _, by decide, hti _⟩

/-- The target of a symbolic link is printed without escapes. Whoever can create a symbolic link can add a line to the bodyfile, which is the line of a file of any path `cs` although there
is no such file: what is written for the symbolic link is two lines, and the second one is what would be written for that file. -/
theorem c49_target {k : Codec} (hk : Lawful k) (md5 : Bytes) (hm : (0x0a : UInt8) ∉ md5) (path name : Option (List Nat)) (hp : TextOk path) (hn : TextOk name)
    (v : Values) (cs : List Nat) (hc : TextOk (some cs)) :
    ∃ out first second, bodyfileLine k md5 (path.map Spec.Utf8.encode) (name.map Spec.Utf8.encode)
        { v with target := some (0x0a :: 0x30 :: 0x7c :: cs.flatMap (escaped .bodyfile)) } = ok out ∧
      Spec.Escape.lines out = [first, second] ∧
      bodyfileLine k [0x30] (some (Spec.Utf8.encode cs)) none { v with target := none } = ok (second ++ [0x0a]) := by
  have hcs := (hc cs rfl).1
  have hs := name_shown path name v.identifier hp hn
  have h0 : ∀ b ∈ (0x0a :: 0x30 :: 0x7c :: cs.flatMap (escaped .bodyfile) : Bytes), b ≠ 0 := by
    intro b hb
    simp only [List.mem_cons] at hb
    rcases hb with rfl | rfl | rfl | hb
    · decide
    · decide
    · decide
    · intro e; subst e; exact absurd (mem_flatMap_escaped hcs hb).1 (by decide)
  have e1 := printPath_escaped hk path name v.identifier hp hn
  have e2 := printPath_escaped hk (some cs) none v.identifier hc (by intro cs h; cases h)
  have hsh : shown (some cs) none v.identifier = cs := by unfold shown; split <;> simp
  rw [hsh] at e2
  have htail := tail_line v
  refine ⟨md5 ++ 0x7c :: ((shown path name v.identifier).flatMap (escaped .bodyfile) ++
      (linkText (some (0x0a :: 0x30 :: 0x7c :: cs.flatMap (escaped .bodyfile))) ++ (tailText v ++ [0x0a]))),
    md5 ++ 0x7c :: ((shown path name v.identifier).flatMap (escaped .bodyfile) ++ [0x20, 0x2d, 0x3e, 0x20]),
    0x30 :: 0x7c :: (cs.flatMap (escaped .bodyfile) ++ tailText v), ?_, ?_, ?_⟩
  · unfold bodyfileLine
    rw [e1, ok_bind]
    rfl
  · unfold linkText
    simp only
    rw [cString_eq h0]
    have e : ∀ (a b c d t : Bytes), a ++ 0x7c :: (b ++ (([0x20, 0x2d, 0x3e, 0x20] ++ 0x0a :: c) ++ (t ++ d))) = (a ++ 0x7c :: (b ++ [0x20, 0x2d, 0x3e, 0x20])) ++ 0x0a :: ((c ++ t) ++ d) := by
      intros; simp
    rw [e, lines_line, lines_line]
    · rfl
    · show (0x0a : UInt8) ∉ 0x30 :: 0x7c :: cs.flatMap (escaped .bodyfile) ++ tailText v
      simp only [List.mem_append, List.mem_cons, not_or]
      exact ⟨⟨by decide, by decide, fun h => absurd (mem_flatMap_escaped hcs h).1 (by decide)⟩, htail⟩
    · simp only [List.mem_append, List.mem_cons, List.not_mem_nil, or_false, not_or]
      exact ⟨hm, by decide, fun h => absurd (mem_flatMap_escaped hs h).1 (by decide), by decide, by decide, by decide, by decide⟩
  · unfold bodyfileLine
    have e2' : printPath k (some (Spec.Utf8.encode cs)) none v.identifier = _ := e2
    rw [e2', ok_bind]
    simp [linkText, tailText]

-- "/etc/passwd"
example : TextOk (some [0x2f, 0x65, 0x74, 0x63, 0x2f, 0x70, 0x61, 0x73, 0x73, 0x77, 0x64]) := by intro cs h; cases h; decide +kernel

/-- The fraction of a time before 1970 has a sign of its own, so that the field is not a time. One nanosecond before 1970 is "0.-00000001". -/
theorem c49_negative_time (t : Int) (h : t < 0) (hf : t - t.tdiv 1000000000 * 1000000000 ≠ 0) : Spec.Escape.time (timeField t) = none := by
  have hneg : t - t.tdiv 1000000000 * 1000000000 < 0 := by
    have := Int.tmod_def t 1000000000
    have h2 : t.tmod 1000000000 ≤ 0 := by
      have := Int.tmod_nonneg (a := -t) 1000000000 (by omega)
      rw [Int.neg_tmod] at this
      omega
    rw [Int.mul_comm] at this
    omega
  have hq : t.tdiv 1000000000 ≤ 0 := by
    have := Int.tdiv_nonneg (a := -t) (b := 1000000000) (by omega) (by decide)
    rw [Int.neg_tdiv] at this
    omega
  generalize hN : (t - t.tdiv 1000000000 * 1000000000).natAbs = N
  have h9 : signed9 (t - t.tdiv 1000000000 * 1000000000) = 0x2d :: padded 8 N := by unfold signed9; rw [if_pos hneg, hN]
  have hnone : Spec.Escape.number (0x2d :: padded 8 N) = none := by
    unfold Spec.Escape.number
    rw [if_neg (by simp)]
    simp [Spec.Escape.decimalNumber]
  have key : ∀ M, Spec.Escape.unsignedTime (decimal M ++ 0x2e :: 0x2d :: padded 8 N) = none := by
    intro M
    have := takeWhile_dot (decimal M) (0x2d :: padded 8 N) (by
      intro b hb
      have := mem_decimal hb
      exact toNat_ne (n := 0x2e) (by decide) (by omega))
    unfold Spec.Escape.unsignedTime
    rw [this.2]
    simp only
    split
    · rw [hnone]
      simp
    · rfl
  unfold timeField
  rw [h9]
  unfold signed
  by_cases h0 : t.tdiv 1000000000 < 0
  · rw [if_pos h0]
    unfold Spec.Escape.time
    simp only [List.cons_append, if_true]
    rw [key]
    rfl
  · rw [if_neg h0]
    unfold Spec.Escape.time
    obtain ⟨b, r, e⟩ : ∃ b r, decimal (t.tdiv 1000000000).natAbs = b :: r := by
      cases hd : decimal (t.tdiv 1000000000).natAbs with
      | nil => exact absurd hd (decimal_ne_nil _)
      | cons b r => exact ⟨b, r, rfl⟩
    have hb : b ≠ 0x2d := by
      have := mem_decimal (n := (t.tdiv 1000000000).natAbs) (b := b) (by rw [e]; exact List.mem_cons_self ..)
      exact toNat_ne (n := 0x2d) (by decide) (by omega)
    have hk := key (t.tdiv 1000000000).natAbs
    rw [e] at hk ⊢
    simp only [List.cons_append] at hk ⊢
    rw [if_neg hb, hk]
    rfl

example : (-1 : Int) < 0 ∧ (-1 : Int) - (-1 : Int).tdiv 1000000000 * 1000000000 ≠ 0 ∧ timeField (-1) = "0.-00000001".toUTF8.toList ∧
    timeField (-1500000000) = "-1.-500000000".toUTF8.toList := by decide +kernel

end Verif.Props
