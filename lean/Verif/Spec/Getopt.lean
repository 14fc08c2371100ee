import Verif.Model.Getopt
/-!
# What a command line means: the utility syntax guidelines of POSIX (XBD 12.2)
-/
namespace Verif.Getopt.Spec

open Verif.Getopt

/-- whether an option takes an argument; `none` if there is no such option.  What has the identifier 0
is an operand, what has no help text is not an option. -/
def takes (table : List Opt) (c : Nat) : Option Bool :=
  (table.find? fun o => (o.identifier != 0 && o.help) && o.identifier == c).map (·.name)

/-- The options and what ends them.  `group` are the options that are left in an argument, `args` the
arguments behind it. -/
def parse (takes : Nat → Option Bool) (group : Str) (args : List Str) :
    List (Nat × Option Str) × End :=
  match group, args with
  | [], [] => ([], .operands [])
  /- an argument that does not start with `-`, and `-` itself, is an operand -/
  | [], [] :: as => ([], .operands ([] :: as))
  | [], [x] :: as => ([], .operands ([x] :: as))
  | [], (x :: y :: ys) :: as =>
    if x ≠ dash then ([], .operands ((x :: y :: ys) :: as))
    /- `--` ends the options -/
    else if y = dash ∧ ys = [] then ([], .operands as)
    else parse takes (y :: ys) as
  | c :: rest, args =>
    match takes c with
    | none => ([], .invalid)
    | some false =>
      let (os, e) := parse takes rest args
      ((c, none) :: os, e)
    | some true =>
      if rest ≠ [] then
        let (os, e) := parse takes [] args
        ((c, some rest) :: os, e)
      else
        match args with
        | [] => ([], .invalid)
        | a :: as =>
          let (os, e) := parse takes [] as
          ((c, some a) :: os, e)
termination_by group.length + (args.map fun a => a.length + 1).sum
decreasing_by all_goals simp only [List.length_cons, List.length_nil, List.map_cons, List.sum_cons]; omega

/-- command lines of C: no string has the end-of-string character in it -/
def Strings (args : List Str) : Prop := ∀ a ∈ args, 0 ∉ a

/-- no argument is `-` or starts with `--` and has more characters -/
def Plain (args : List Str) : Prop :=
  ∀ a ∈ args, a ≠ [dash] ∧ ∀ x xs, a ≠ dash :: dash :: x :: xs

/-- tables whose options can be told from what `getopt` returns for errors -/
def Names (table : List Opt) : Prop :=
  ∀ o ∈ table, o.identifier ≠ colon ∧ o.identifier ≠ question

/-- the options string of a table as `getopt` of POSIX has it -/
def encode : List Opt → Str
  | [] => []
  | o :: os =>
    (if o.identifier ≠ 0 ∧ o.help then o.identifier :: (if o.name then [colon] else []) else [])
      ++ encode os

/-- the argument of the last option `c` -/
def last (c : Nat) (os : List (Nat × Option Str)) : Option Str :=
  (os.reverse.find? fun o => o.1 == c).bind (·.2)

/-- whether there is an option `c` -/
def given (c : Nat) (os : List (Nat × Option Str)) : Bool := os.any fun o => o.1 == c

/-- What fsapfsinfo is to do: the first of `-h` and `-V` ends it; of an option that is given more than
once the last argument counts, and of `-E`, `-F` and `-H` the last one. -/
def info (os : List (Nat × Option Str)) (e : End) : InfoEnd InfoVars :=
  match os.find? fun o => o.1 == 104 || o.1 == 86 with
  | some o => if o.1 = 104 then .help else .version
  | none =>
    match e with
    | .invalid => .invalid
    | .operands [] => .missing
    | .operands (a :: _) => .source a
      { bodyfile := last 66 os, md5 := given 100 os
        mode := (os.reverse.find? fun o => o.1 == 69 || o.1 == 70 || o.1 == 72).map (·.1)
        identifier := last 69 os, index := last 102 os, path := last 70 os, offset := last 111 os
        password := last 112 os, recovery := last 114 os, verbose := given 118 os }

/-- What fsapfsmount is to do: as fsapfsinfo, but with two operands. -/
def mount (os : List (Nat × Option Str)) (e : End) : MountEnd MountVars :=
  match os.find? fun o => o.1 == 104 || o.1 == 86 with
  | some o => if o.1 = 104 then .help else .version
  | none =>
    match e with
    | .invalid => .invalid
    | .operands [] => .missingSource
    | .operands [_] => .missingPoint
    | .operands (a :: b :: _) => .mount a b
      { index := last 102 os, offset := last 111 os, password := last 112 os, recovery := last 114 os
        verbose := given 118 os, extended := last 88 os }

/-- lines of a text: put together they are the text, and all but the last end with a space or an end
of line -/
structure Lines (text : Str) (lines : List Str) : Prop where
  text : lines.flatten = text
  ends : ∀ l ∈ lines.dropLast, ∃ c, l.getLast? = some c ∧ (c = 32 ∨ c = 10)

/-- a line without its last word is shorter than `max` -/
def Short (max : Nat) (l : Str) : Prop :=
  ∃ p w, l = p ++ w ∧ p.length < max ∧ ∀ c ∈ w.dropLast, c ≠ 32 ∧ c ≠ 10

end Verif.Getopt.Spec
