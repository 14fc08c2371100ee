import Verif.Lemmas.Getopt
/-!
# C78: the command line of the tools
-/
namespace Verif.Props

open Verif Verif.Res Verif.Getopt Verif.Getopt.Spec

/-- **The options string.**  For every table of options and every size of the buffer nothing is stored
behind the buffer, and the string is made exactly if it fits with its end-of-string character. -/
theorem c78_options_string (size : Nat) (table : List Opt) :
    optionsString size table = if (encode table).length < size then ok (encode table) else err :=
  optionsString_eq size table

/-- the options strings of the tools fit into their buffers -/
theorem c78_tables :
    optionsString 32 infoOptions = ok (encode infoOptions) ∧ Names infoOptions ∧
    optionsString 32 mountOptions = ok (encode mountOptions) ∧ Names mountOptions := by
  refine ⟨?_, ?_, ?_, ?_⟩
  · rw [optionsString_eq]; rfl
  · intro o; revert o; decide
  · rw [optionsString_eq]; rfl
  · intro o; revert o; decide

/- a buffer of one character less than needed is not enough, and is not left -/
example : optionsString 3 [⟨111, true, true⟩, ⟨118, false, true⟩] = err ∧
    optionsString 4 [⟨111, true, true⟩, ⟨118, false, true⟩] = ok [111, 58, 118] := by decide

/-- **Options (part).**  For every table and every command line, in which no argument is `-` or starts
with `--` and more, the tools see the options, their arguments and the operands that POSIX says, and no
string is read behind its end.  What is missing is false: `c78_dash`, `c78_long`. -/
theorem c78_getopt_partial (zero : Bool) (table : List Opt) (program : Str) (args : List Str)
    (hn : Names table) (hz : Strings args) (hp : Plain args) (hp0 : Strings [program])
    (hp1 : Plain [program]) (fuel : Nat) (hf : enough args ≤ fuel) :
    scan zero (program :: args) (encode table) fuel start = ok (parse (takes table) [] args) := by
  have hz' : Strings (program :: args) := by
    intro a ha
    rcases List.mem_cons.mp ha with rfl | ha
    · exact hp0 _ (List.mem_singleton.mpr rfl)
    · exact hz a ha
  have hp' : Plain (program :: args) := by
    intro a ha
    rcases List.mem_cons.mp ha with rfl | ha
    · exact hp1 _ (List.mem_singleton.mpr rfl)
    · exact hp a ha
  exact (scan_eq zero (program :: args) table hn hz' hp' fuel 1 none).1 (by
    simp only [cost, List.drop_succ_cons, List.drop_zero, List.length_nil, Nat.zero_add]
    simp only [enough] at hf
    omega)

/- `fsapfsinfo -vo5 -f all image` -/
example : Names infoOptions ∧ Strings [[45, 118, 111, 53], [45, 102], [97, 108, 108], [105]] ∧
    Plain [[45, 118, 111, 53], [45, 102], [97, 108, 108], [105]] ∧
    parse (takes infoOptions) [] [[45, 118, 111, 53], [45, 102], [97, 108, 108], [105]] =
      ([(118, none), (111, some [53]), (102, some [97, 108, 108])], .operands [[105]]) := by
  refine ⟨by intro o; revert o; decide, by intro a; revert a; decide, ?_, by decide +kernel⟩
  intro a ha
  simp only [List.mem_cons, List.not_mem_nil, or_false] at ha
  rcases ha with rfl | rfl | rfl | rfl <;> simp [dash]

/-- **fsapfsinfo (part).**  For the same command lines fsapfsinfo does what they say: the first of `-h`
and `-V` ends it, else an invalid option, else a missing source; of every option the last argument
counts, and of `-E`, `-F` and `-H` the last one. -/
theorem c78_info_partial (zero : Bool) (program : Str) (args : List Str)
    (hz : Strings args) (hp : Plain args) (hp0 : Strings [program])
    (hp1 : Plain [program]) (fuel : Nat) (hf : enough args ≤ fuel) :
    infoLoop zero (program :: args) (encode infoOptions) fuel start {} =
      ok (info (parse (takes infoOptions) [] args).1 (parse (takes infoOptions) [] args).2) := by
  have hs := c78_getopt_partial zero infoOptions program args c78_tables.2.1 hz hp hp0 hp1 fuel hf
  rw [infoLoop_scan zero _ _ fuel start {} _ _ hs, info_eq, interp_eq]
  intro o ho
  exact takes_info (parse_known _ _ _ o ho)

/- `-H -o 1 -E 2 -o 3 image`: the identifier 2 of the container at 3 -/
example : info (parse (takes infoOptions) []
      [[45, 72], [45, 111], [49], [45, 69], [50], [45, 111], [51], [105]]).1
      (parse (takes infoOptions) []
      [[45, 72], [45, 111], [49], [45, 69], [50], [45, 111], [51], [105]]).2 =
    .source [105] { mode := some 69, identifier := some [50], offset := some [51] } := by decide +kernel

/-- **fsapfsmount (part).**  The same for fsapfsmount, which has two operands. -/
theorem c78_mount_partial (zero : Bool) (program : Str) (args : List Str)
    (hz : Strings args) (hp : Plain args) (hp0 : Strings [program])
    (hp1 : Plain [program]) (fuel : Nat) (hf : enough args ≤ fuel) :
    mountLoop zero (program :: args) (encode mountOptions) fuel start {} =
      ok (Getopt.Spec.mount (parse (takes mountOptions) [] args).1 (parse (takes mountOptions) [] args).2) := by
  have hs := c78_getopt_partial zero mountOptions program args c78_tables.2.2.2 hz hp hp0 hp1 fuel hf
  rw [mountLoop_scan zero _ _ fuel start {} _ _ hs, mount_eq, interpMount_eq]
  intro o ho
  exact takes_mount (parse_known _ _ _ o ho)

/- `-fall -vXro image point` -/
example : Getopt.Spec.mount (parse (takes mountOptions) []
      [[45, 102, 97, 108, 108], [45, 118, 88, 114, 111], [105], [112]]).1
      (parse (takes mountOptions) []
      [[45, 102, 97, 108, 108], [45, 118, 88, 114, 111], [105], [112]]).2 =
    .mount [105] [112] { index := some [97, 108, 108], verbose := true, extended := some [114, 111] } := by
  decide +kernel

/-- **`-` (refuted).**  If the first argument is `-`, a string is read behind its end, whatever the
table and the other arguments are. -/
theorem c78_dash (zero : Bool) (program : Str) (args : List Str) (options : Str) (fuel : Nat) :
    scan zero (program :: [dash] :: args) options (fuel + 1) start = ub ∧
    infoLoop zero (program :: [dash] :: args) options (fuel + 1) start {} = ub := by
  constructor
  · rw [scan]; rfl
  · rw [infoLoop]; rfl

/- POSIX has it as an operand -/
example : parse (takes infoOptions) [] [[dash]] = ([], .operands [[dash]]) := by decide +kernel

/-- **`--name` (refuted).**  An argument that starts with `--` and has more characters is dropped
silently and ends the options, where POSIX has an option that is not known. -/
theorem c78_long (zero : Bool) (table : List Opt) (program : Str) (x : Nat) (xs : Str)
    (args : List Str) (fuel : Nat) :
    scan zero (program :: (dash :: dash :: x :: xs) :: args) (encode table) (fuel + 1) start =
      ok ([], .operands args) ∧
    (takes table dash = none →
      parse (takes table) [] ((dash :: dash :: x :: xs) :: args) = ([], .invalid)) := by
  constructor
  · rw [scan]; rfl
  · intro h
    rw [parse, if_neg (by simp), if_neg (by simp)]
    exact parse_none h _ _

example : takes infoOptions dash = none ∧ takes mountOptions dash = none := by decide

/-- **Calling again (refuted).**  After an option that is not known and is not the last of its argument
the state is as before: who calls again gets the same answer for ever. -/
theorem c78_unknown_again (zero : Bool) (table : List Opt) (argv : List Str) (i c d : Nat) (rest : Str)
    (oa : Option Str) (hn : Names table) (ha : argv[i]? = some (dash :: c :: d :: rest))
    (h0 : c ≠ 0) (hd : c ≠ dash) (hc : c ≠ colon) (h : takes table c = none) :
    getopt zero argv (encode table) ⟨i, oa, none⟩ = ok (some question, ⟨i, oa, none⟩) := by
  have hs := search_encode zero c h0 hc table hn
  rw [h] at hs
  simp only [] at hs
  have hd' : deref (c :: d :: rest) ≠ dash := hd
  rw [getopt_some zero argv _ _ (c :: d :: rest) ⟨i, oa, none⟩ (by
    simp only [argument, ha, ne_eq, not_true, if_false]
    rw [if_neg hd'])]
  unfold option
  have hh : deref (c :: d :: rest) = c := rfl
  simp only [hh, hs]
  rw [if_neg (by simp)]
  rfl

/- `-zz` -/
example : takes infoOptions 122 = none := by decide

/-- **Word wrapping.**  If the line is wider than where it starts, printing ends; the lines put together
are the text, they are broken only behind a space or an end of line, and without its last word every
line is shorter than asked for. -/
theorem c78_wrap (width start : Int) (text : Str) (hw : start < width) :
    ∃ ls, wrap (text.length + 1) width start text = ok ls ∧ Lines text ls ∧
      ∀ l ∈ ls, Short (width - start).toNat l := by
  have hs : toSize (width - start) = (width - start).toNat := by
    rw [toSize, if_neg (by omega)]
  obtain ⟨ls, h1, h2, h3⟩ := wrapLoop_spec text (width - start).toNat (by omega) (text.length + 1) 0
    (Nat.zero_le _) (by omega)
  refine ⟨ls, ?_, by simpa using h2, h3⟩
  rw [wrap, hs]
  exact h1

example : wrap 10 4 0 [97, 98, 32, 99, 100, 32, 101] = ok [[97, 98, 32, 99, 100, 32], [101]] := by
  decide +kernel

/-- **Lines of the width (refuted).**  fsapfsinfo asks for lines of 80 characters and prints its
description in one line of 84, though it could be broken. -/
theorem c78_too_long :
    wrap (infoDescription.length + 1) 80 0 infoDescription = ok [infoDescription] ∧
    infoDescription.length = 84 ∧ 32 ∈ infoDescription.take 80 := by
  decide +kernel

/-- **Without width (refuted).**  If a line starts where it has to end, printing does not end. -/
theorem c78_wrap_endless (width : Int) (text : Str) (h : text ≠ []) (fuel : Nat) :
    wrap fuel width width text = err := by
  rw [wrap, show toSize (width - width) = 0 by rw [Int.sub_self]; rfl]
  exact wrapLoop_zero text h fuel

end Verif.Props
