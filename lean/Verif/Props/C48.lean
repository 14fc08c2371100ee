import Verif.Lemmas.Bodyfile
/-! C48: names that the tools print identify files -/
namespace Verif.Props
open Verif Res PathString
open Verif.Spec (Scalar)

/-- For every string of bytes, well-formed or not, the three functions that escape a name stay inside of the buffer that they allocate, whatever libuna makes of the
bytes. -/
theorem c48_safe (k : Codec) (t : Tool) (s : Bytes) : Safe (copyFrom k t s) := copyFrom_total k t s

example : Safe (copyFrom utf8Codec .info (List.replicate 1000 0x1f)) := c48_safe _ _ _

/-- For every string of bytes the functions that take back the escapes of an argument or of a path in a mounted volume stay inside of the string and of the buffer. -/
theorem c48_safe_to (k : Codec) (separator : Nat) (s : Bytes) : Safe (copyTo k separator s) ∧ Safe (mountCopyTo k s) :=
  ⟨safe_copyTo k separator s, safe_mountCopyTo k s⟩

-- truncated escapes
example : unescapeCharacter false [] = err ∧ unescapeCharacter false [0x78, 0x31] = err ∧ unescapeCharacter true [0x55, 0x30, 0x30, 0x30, 0x30, 0x66, 0x66, 0x66] = err := by
  decide

/-- Every name can be printed, with every tool. The printed text consists of printable characters and unescaping it gives the name. The full statement does not exclude the
characters U+FDE0 to U+FDEF, for which it is false, see `c48_noncharacter`. -/
theorem c48_printed_partial {k : Codec} (hk : Lawful k) (t : Tool) (cs : List Nat) (hc : ∀ c ∈ cs, Scalar c ∧ c ≠ 0) (h0 : cs ≠ [])
    (hl : (Spec.Utf8.encode cs).length ≤ (ssizeMax - 1) / 10) (hx : ∀ c ∈ cs, ¬ (0xfde0 ≤ c ∧ c ≤ 0xfdef)) :
    ∃ out ps, copyFrom k t (Spec.Utf8.encode cs) = ok out ∧ Spec.Escape.unescape out = some (Spec.Utf8.encode cs) ∧
      out = Spec.Utf8.encode ps ∧ ∀ p ∈ ps, Spec.Escape.Printable p := by
  obtain ⟨ps, h1, h2⟩ := flatMap_printable t cs hc hx
  have hu := unescape_flatMap t cs hc []
  rw [List.append_nil] at hu
  exact ⟨_, ps, copyFrom_escaped hk t cs hc h0 hl, by rw [hu]; simp [Spec.Escape.unescape], h1, h2⟩

-- "a|b", a line feed, a line separator and "é"
example : (∀ c ∈ [0x61, 0x7c, 0x62, 0x0a, 0x2028, 0xe9], Scalar c ∧ c ≠ 0) ∧ (∀ c ∈ [0x61, 0x7c, 0x62, 0x0a, 0x2028, 0xe9], ¬ (0xfde0 ≤ c ∧ c ≤ 0xfdef)) ∧
    [0x61, 0x7c, 0x62, 0x0a, 0x2028, 0xe9].flatMap (escaped .bodyfile) = "a\\|b\\x0a\\U00002028é".toUTF8.toList := by decide +kernel
example : Lawful utf8Codec := lawful_utf8Codec

/-- Different names are printed differently. -/
theorem c48_unique {k : Codec} (hk : Lawful k) (t : Tool) (cs cs' : List Nat) (hc : ∀ c ∈ cs, Scalar c ∧ c ≠ 0) (hc' : ∀ c ∈ cs', Scalar c ∧ c ≠ 0) (out : Bytes)
    (h0 : cs ≠ []) (h0' : cs' ≠ []) (hl : (Spec.Utf8.encode cs).length ≤ (ssizeMax - 1) / 10) (hl' : (Spec.Utf8.encode cs').length ≤ (ssizeMax - 1) / 10)
    (h : copyFrom k t (Spec.Utf8.encode cs) = ok out) (h' : copyFrom k t (Spec.Utf8.encode cs') = ok out) : cs = cs' := by
  rw [copyFrom_escaped hk t cs hc h0 hl] at h
  rw [copyFrom_escaped hk t cs' hc' h0' hl'] at h'
  cases h
  have e := Res.ok.inj h'
  have h1 := unescape_flatMap t cs hc []
  have h2 := unescape_flatMap t cs' hc' []
  rw [e, h1] at h2
  simp only [Spec.Escape.unescape, Option.map_some, List.append_nil, Option.some.injEq] at h2
  exact encode_inj cs cs' (fun c h => (hc c h).1) (fun c h => (hc' c h).1) h2

-- a name that looks like an escape and the name that this is the escape of
example : copyFrom utf8Codec .info (Spec.Utf8.encode [0x0a]) ≠ copyFrom utf8Codec .info (Spec.Utf8.encode [0x5c, 0x78, 0x30, 0x61]) := by
  rw [copyFrom_escaped lawful_utf8Codec .info [0x0a] (by unfold PathString.Name; decide) (by decide) (by decide +kernel),
    copyFrom_escaped lawful_utf8Codec .info [0x5c, 0x78, 0x30, 0x61] (by unfold PathString.Name; decide) (by decide) (by decide +kernel)]
  decide +kernel

/-- A path that fsapfsinfo printed can be given to fsapfsinfo: it is taken for the same path. -/
theorem c48_info {k : Codec} (hk : Lawful k) (cs : List Nat) (hc : ∀ c ∈ cs, Scalar c ∧ c ≠ 0) (h0 : cs ≠ []) (hl : (Spec.Utf8.encode cs).length ≤ (ssizeMax - 1) / 10) :
    ∃ out, copyFrom k .info (Spec.Utf8.encode cs) = ok out ∧ copyTo k 0x2f out = ok (Spec.Utf8.encode cs) :=
  ⟨_, copyFrom_escaped hk .info cs hc h0 hl, copyTo_escaped hk cs hc h0 hl⟩

example : (∀ c ∈ [0x2f, 0x61, 0x1b, 0x2f, 0xffff], Scalar c ∧ c ≠ 0) ∧
    [0x2f, 0x61, 0x1b, 0x2f, 0xffff].flatMap (escaped .info) = "/a\\x1b/\\U0000ffff".toUTF8.toList := by decide +kernel

/-- The names that a mounted volume shows have no slash, and a path of them is taken for the path of the names of the files. The full statement is that a file is
found under its path, which is false for names with a slash, see `c48_mount_slash`. -/
theorem c48_mount_partial {k : Codec} (hk : Lawful k) (names : List (List Nat)) (hn : names ≠ []) (hc : ∀ cs ∈ names, (∀ c ∈ cs, Scalar c ∧ c ≠ 0) ∧ cs ≠ [])
    (hl : ∀ cs ∈ names, (Spec.Utf8.encode cs).length ≤ (ssizeMax - 1) / 10) :
    ∃ outs : List Bytes, names.map (fun cs => copyFrom k .mount (Spec.Utf8.encode cs)) = outs.map ok ∧ (∀ out ∈ outs, (0x2f : UInt8) ∉ out ∧ (0 : UInt8) ∉ out ∧ out ≠ []) ∧
      ((outs.flatMap (0x2f :: ·)).length < ssizeMax → mountCopyTo k (outs.flatMap (0x2f :: ·)) = ok ((names.map Spec.Utf8.encode).flatMap (0x2f :: ·))) := by
  refine ⟨names.map fun cs => cs.flatMap (escaped .mount), ?_, ?_, ?_⟩
  · rw [List.map_map]
    apply List.map_congr_left
    intro cs h
    exact copyFrom_escaped hk .mount cs (hc cs h).1 (hc cs h).2 (hl cs h)
  · intro out ho
    obtain ⟨cs, hcs, rfl⟩ := List.mem_map.1 ho
    refine ⟨fun h => (mem_flatMap_escaped (hc cs hcs).1 h).2.2 rfl rfl, fun h => absurd (mem_flatMap_escaped (hc cs hcs).1 h).1 (by decide), ?_⟩
    intro e
    cases cs with
    | nil => exact (hc _ hcs).2 rfl
    | cons c cs => exact escaped_ne_nil .mount c _ e
  · intro hs
    exact mountCopyTo_names hk names hn (fun cs h => (hc cs h).1) hs

example : ∀ cs ∈ [[0x61, 0x5c], [0x0a, 0x62]], (∀ c ∈ cs, Scalar c ∧ c ≠ 0) ∧ cs ≠ [] := by decide

/-- A stored name can have a slash. The mounted volume shows it as `\x2f`, but that path is taken for the same path as the one with a slash, so that the file in the
directory `a` is read instead of the file with the name `a/b`. -/
theorem c48_mount_slash : copyFrom utf8Codec .mount "a/b".toUTF8.toList = ok "a\\x2fb".toUTF8.toList ∧
    mountCopyTo utf8Codec "/a\\x2fb".toUTF8.toList = ok "/a/b".toUTF8.toList ∧ mountCopyTo utf8Codec "/a/b".toUTF8.toList = ok "/a/b".toUTF8.toList := by
  have h1 := copyFrom_escaped lawful_utf8Codec .mount [0x61, 0x2f, 0x62] (by unfold PathString.Name; decide) (by decide) (by decide +kernel)
  have h2 := mountCopyTo_names lawful_utf8Codec [[0x61, 0x2f, 0x62]] (by decide) (by unfold PathString.Name; decide) (by decide +kernel)
  have h3 := mountCopyTo_names lawful_utf8Codec [[0x61], [0x62]] (by decide) (by unfold PathString.Name; decide) (by decide +kernel)
  refine ⟨?_, ?_, ?_⟩
  · rw [show "a/b".toUTF8.toList = Spec.Utf8.encode [0x61, 0x2f, 0x62] by decide +kernel, h1]
    decide +kernel
  · rw [show "/a\\x2fb".toUTF8.toList = slashed ([[0x61, 0x2f, 0x62]].map fun cs => cs.flatMap (escaped .mount)) by decide +kernel, h2]
    decide +kernel
  · rw [show "/a/b".toUTF8.toList = slashed ([[0x61], [0x62]].map fun cs => cs.flatMap (escaped .mount)) by decide +kernel, h3]
    decide +kernel

/-- Half of the noncharacters U+FDD0 to U+FDEF are printed as they are. -/
theorem c48_noncharacter {k : Codec} (hk : Lawful k) (t : Tool) (c : Nat) (h : 0xfde0 ≤ c ∧ c ≤ 0xfdef) :
    Spec.Escape.Noncharacter c ∧ copyFrom k t (Spec.Utf8.encode [c]) = ok (Spec.Utf8.encode [c]) := by
  have hs : Scalar c := by unfold Scalar; omega
  refine ⟨by unfold Spec.Escape.Noncharacter; omega, ?_⟩
  have hlen := encodeChar_length c
  rw [copyFrom_escaped hk t [c] (by intro d hd; rw [List.mem_singleton] at hd; subst hd; exact ⟨hs, by omega⟩) (by simp)
    (by simp [Spec.Utf8.encode]; unfold ssizeMax; omega)]
  have h1 : isControl t c = false := by
    cases hi : isControl t c with
    | false => rfl
    | true => have := isControl_lt hi; omega
  have h2 : isUnprintable c = false := by
    unfold isUnprintable
    simp
    omega
  simp only [List.flatMap_cons, List.flatMap_nil, List.append_nil, Spec.Utf8.encode, escaped]
  rw [if_neg (by simp [h1]), if_neg (by simp [h2]), if_neg (by omega)]

example : (0xfde0 : Nat) ≤ 0xfde7 ∧ 0xfde7 ≤ 0xfdef := by decide

/-- The escape of an end-of-string character, which the first two tools print, is not accepted in an argument. -/
theorem c48_nul (s : Bytes) : unescapeCharacter false (0x78 :: 0x30 :: 0x30 :: s) = err := by
  unfold unescapeCharacter
  rw [require_true (by simp), ok_bind, rd_lt (by simp), ok_bind]
  simp only [List.getElem_cons_zero, List.drop_succ_cons, List.drop_zero]
  rw [if_neg (by decide), if_pos (by decide), require_true (by simp), ok_bind, rdN_le (by simp), ok_bind]
  simp only [List.drop_zero, List.take_succ_cons, List.take_zero]
  rfl

end Verif.Props
