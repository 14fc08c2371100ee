import Verif.Model.Base
/-!
# Model of the command line options of the tools: fsapfstools_getopt.c

A string is a list of characters other than 0; a pointer into it is the part of the string from there,
`[]` is the end-of-string character.  `fsapfstools_getopt` is what the tools use if the system has no
`getopt` (Windows).
-/
namespace Verif.Getopt

open Verif Verif.Res

abbrev Str := List Nat

/-- the options of the tools, `struct fsapfstools_option`, fsapfstools_getopt.h 38-53: the character or
0, and whether the name of an argument and a help text are there -/
structure Opt where
  identifier : Nat
  name : Bool
  help : Bool
deriving DecidableEq, Repr

def colon : Nat := 58
def dash : Nat := 45
def question : Nat := 63

/-- a character is stored in a buffer of `size` characters behind those in `out`; beyond it the memory
of something else is changed -/
def store (size : Nat) (out : List Nat) (c : Nat) : Res (List Nat) :=
  if out.length < size then ok (out ++ [c]) else ub

/-- the loop of `fsapfstools_getopt_get_options_string`, fsapfstools_getopt.c 538-563 -/
def optionsLoop (size : Nat) : List Opt → List Nat → Res (List Nat)
  | [], out => ok out
  | o :: os, out =>
    if o.identifier = 0 ∨ o.help = false then optionsLoop size os out
    else if out.length ≥ size then err
    else do
      let out ← store size out o.identifier
      if o.name then
        if out.length ≥ size then err
        else do
          let out ← store size out colon
          optionsLoop size os out
      else optionsLoop size os out

/-- `fsapfstools_getopt_get_options_string`, fsapfstools_getopt.c 520-571: what is in the buffer
before the end-of-string character -/
def optionsString (size : Nat) (os : List Opt) : Res Str := do
  let out ← optionsLoop size os []
  if out.length ≥ size then err
  else do
    let _ ← store size out 0
    ok out

/-- the global variables of fsapfstools_getopt.c 37-52, but for `optopt`, which nothing else uses -/
structure State where
  optind : Nat
  optarg : Option Str
  next : Option Str
deriving DecidableEq, Repr

def start : State := ⟨1, none, none⟩

/-- `*pointer` -/
def deref (p : Str) : Nat := p.headD 0

/-- `system_string_search_character`, common/wide_string.h 105-113: `wmemchr` with the length of the
string, or `wcschr` (`zero`), which finds the end-of-string character too -/
def search (zero : Bool) : Str → Nat → Option Str
  | [], c => if zero ∧ c = 0 then some [] else none
  | x :: xs, c => if x = c then some (x :: xs) else search zero xs c

/-- the argument value that is looked at, fsapfstools_getopt.c 69-104; `none` if -1 is returned -/
def argument (argv : List Str) (s : State) : Option Str × State :=
  match s.next with
  | some p => (some p, { s with next := none })
  | none =>
    match argv[s.optind]? with
    | none => (none, s)
    | some [] => (none, s)
    | some (x :: p) =>
      if x ≠ dash then (none, s)
      else if deref p = dash then (none, { s with optind := s.optind + 1 })
      else (some p, s)

/-- the option at a pointer, fsapfstools_getopt.c 105-186 -/
def option (zero : Bool) (argv : List Str) (options : Str) (p : Str) (s : State) : Res (Nat × State) :=
  let found := search zero options (deref p)
  match p with
  /- `argument_value++` from the end-of-string character: what is behind it is read in 122 or, if the
  character was found, in 144 or 157 -/
  | [] => ub
  | c :: rest =>
    match found with
    | none => ok (question, if rest = [] then { s with optind := s.optind + 1 } else s)
    | some [] => ub
    | some (_ :: value) =>
      if c = colon then ok (question, if rest = [] then { s with optind := s.optind + 1 } else s)
      else if deref value ≠ colon then
        ok (c, if rest = [] then { s with optarg := none, optind := s.optind + 1 }
          else { s with optarg := none, next := some rest })
      else if rest ≠ [] then ok (c, { s with optarg := some rest, optind := s.optind + 1 })
      else
        match argv[s.optind + 1]? with
        | none => ok (colon, { s with optind := s.optind + 1 })
        | some a => ok (c, { s with optarg := some a, optind := s.optind + 2 })

/-- `fsapfstools_getopt`, fsapfstools_getopt.c 54-187; `none` is -1 -/
def getopt (zero : Bool) (argv : List Str) (options : Str) (s : State) : Res (Option Nat × State) :=
  match argument argv s with
  | (none, s) => ok (none, s)
  | (some p, s) => do
    let (c, s) ← option zero argv options p s
    ok (some c, s)

/-- how the options of a command line end -/
inductive End where
  /-- the arguments that follow -/
  | operands (args : List Str)
  /-- an option that is not known or has no argument -/
  | invalid
deriving DecidableEq, Repr

/-- the loop of the tools, fsapfsinfo.c 202-293 and fsapfsmount.c 218-289, but for what the options do:
the options with their arguments; `?`, `:` and characters without a case end it.  `fuel` bounds the
number of calls. -/
def scan (zero : Bool) (argv : List Str) (options : Str) :
    Nat → State → Res (List (Nat × Option Str) × End)
  | 0, _ => err
  | fuel + 1, s => do
    let (c, s) ← getopt zero argv options s
    match c with
    | none => ok ([], .operands (argv.drop s.optind))
    | some c =>
      if c = question ∨ c = colon then ok ([], .invalid)
      else do
        let (os, e) ← scan zero argv options fuel s
        ok ((c, s.optarg) :: os, e)

/-- what fsapfsinfo does with its command line -/
inductive InfoEnd (σ : Type) where
  | help
  | version
  | invalid
  | missing
  | source (name : Str) (settings : σ)
deriving DecidableEq, Repr

/-- the variables that the options of fsapfsinfo set, fsapfsinfo.c 138-153; `mode` is the option that
set `option_mode` -/
structure InfoVars where
  bodyfile : Option Str := none
  md5 : Bool := false
  mode : Option Nat := none
  identifier : Option Str := none
  index : Option Str := none
  path : Option Str := none
  offset : Option Str := none
  password : Option Str := none
  recovery : Option Str := none
  verbose : Bool := false
deriving DecidableEq, Repr

/-- the loop and what follows in `main` of fsapfsinfo, fsapfsinfo.c 202-309 -/
def infoLoop (zero : Bool) (argv : List Str) (options : Str) :
    Nat → State → InfoVars → Res (InfoEnd InfoVars)
  | 0, _, _ => err
  | fuel + 1, s, v => do
    let (c, s) ← getopt zero argv options s
    let again := infoLoop zero argv options fuel s
    match c with
    | none =>
      match argv[s.optind]? with
      | none => ok .missing
      | some a => ok (.source a v)
    | some 66 => again { v with bodyfile := s.optarg }
    | some 100 => again { v with md5 := true }
    | some 69 => again { v with mode := some 69, identifier := s.optarg }
    | some 102 => again { v with index := s.optarg }
    | some 70 => again { v with mode := some 70, path := s.optarg }
    | some 104 => ok .help
    | some 72 => again { v with mode := some 72 }
    | some 111 => again { v with offset := s.optarg }
    | some 112 => again { v with password := s.optarg }
    | some 114 => again { v with recovery := s.optarg }
    | some 118 => again { v with verbose := true }
    | some 86 => ok .version
    | some _ => ok .invalid

/-- what fsapfsmount does with its command line -/
inductive MountEnd (σ : Type) where
  | help
  | version
  | invalid
  | missingSource
  | missingPoint
  | mount (source point : Str) (settings : σ)
deriving DecidableEq, Repr

/-- the variables that the options of fsapfsmount set, fsapfsmount.c 134-152 -/
structure MountVars where
  index : Option Str := none
  offset : Option Str := none
  password : Option Str := none
  recovery : Option Str := none
  verbose : Bool := false
  extended : Option Str := none
deriving DecidableEq, Repr

/-- the loop and what follows in `main` of fsapfsmount, fsapfsmount.c 218-324, where there is FUSE -/
def mountLoop (zero : Bool) (argv : List Str) (options : Str) :
    Nat → State → MountVars → Res (MountEnd MountVars)
  | 0, _, _ => err
  | fuel + 1, s, v => do
    let (c, s) ← getopt zero argv options s
    let again := mountLoop zero argv options fuel s
    match c with
    | none =>
      match argv[s.optind]? with
      | none => ok .missingSource
      | some a =>
        match argv[s.optind + 1]? with
        | none => ok .missingPoint
        | some b => ok (.mount a b v)
    | some 102 => again { v with index := s.optarg }
    | some 104 => ok .help
    | some 111 => again { v with offset := s.optarg }
    | some 112 => again { v with password := s.optarg }
    | some 114 => again { v with recovery := s.optarg }
    | some 118 => again { v with verbose := true }
    | some 86 => ok .version
    | some 88 => again { v with extended := s.optarg }
    | some _ => ok .invalid

/-- the calls that a command line needs at most -/
def enough (argv : List Str) : Nat := (argv.map fun a => a.length + 1).sum + 1

/-- the options of fsapfsinfo, fsapfsinfo.c 120-133 -/
def infoOptions : List Opt :=
  [⟨66, true, true⟩, ⟨100, false, true⟩, ⟨69, true, true⟩, ⟨102, true, true⟩, ⟨70, true, true⟩,
   ⟨104, false, true⟩, ⟨72, false, true⟩, ⟨111, true, true⟩, ⟨112, true, true⟩, ⟨114, true, true⟩,
   ⟨118, false, true⟩, ⟨86, false, true⟩, ⟨0, true, true⟩]

/-- the options of fsapfsmount, fsapfsmount.c 117-130, with the option of 125-127 -/
def mountOptions : List Opt :=
  [⟨102, true, true⟩, ⟨104, false, true⟩, ⟨111, true, true⟩, ⟨112, true, true⟩, ⟨114, true, true⟩,
   ⟨118, false, true⟩, ⟨86, false, true⟩, ⟨88, true, true⟩, ⟨0, true, true⟩, ⟨0, true, true⟩]

/-- the text that the help of fsapfsinfo starts with, fsapfsinfo.c 117-118 -/
def infoDescription : Str := [
   85, 115, 101, 32, 102, 115, 97, 112, 102, 115, 105, 110, 102, 111, 32, 116, 111, 32, 100, 101, 116, 101, 114, 109,
   105, 110, 101, 32, 105, 110, 102, 111, 114, 109, 97, 116, 105, 111, 110, 32, 97, 98, 111, 117, 116, 32, 97, 110,
   32, 65, 112, 112, 108, 101, 32, 70, 105, 108, 101, 32, 83, 121, 115, 116, 101, 109, 32, 40, 65, 80, 70, 83,
   41, 32, 99, 111, 110, 116, 97, 105, 110, 101, 114, 46]

/-! ### Word wrapping -/

def isBreak (c : Nat) : Bool := c == 32 || c == 10

/-- fsapfstools_getopt.c 224-232: the offset of the next space or end of line, or the end -/
def wordEnd (text : Str) (n : Nat) : Nat :=
  if h : n < text.length then
    if isBreak text[n] then n else wordEnd text (n + 1)
  else n
termination_by text.length - n

theorem le_wordEnd (text : Str) (n : Nat) : n ≤ wordEnd text n := by
  rw [wordEnd]
  split
  · split
    · exact Nat.le_refl _
    · exact Nat.le_trans (Nat.le_succ n) (le_wordEnd text (n + 1))
  · exact Nat.le_refl _
termination_by text.length - n

/-- fsapfstools_getopt.c 222-242: the offset of the word behind a line that starts at `line`.
`word` and `next` are the variables `word_offset` and `next_word_offset`; both are returned. -/
def fill (text : Str) (max line next word : Nat) : Nat × Nat :=
  if next - line < max then
    let n := wordEnd text next
    if n ≥ text.length then (n, text.length)
    else fill text max line (n + 1) (n + 1)
  else (next, word)
termination_by text.length - next
decreasing_by
  have := le_wordEnd text next
  omega

/-- `(size_t)` of an `int` -/
def toSize (i : Int) : Nat := if i < 0 then (2 ^ 64 + i).toNat else i.toNat

/-- the loop of `fsapfstools_getopt_wrapped_fprint`, fsapfstools_getopt.c 220-271: the texts of the
lines; `err` if the loop has not ended after `fuel` lines -/
def wrapLoop (text : Str) (max : Nat) : Nat → Nat → Nat → Nat → Res (List Str)
  | 0, _, _, _ => err
  | fuel + 1, line, next, word =>
    if line < text.length then
      let (next, word) := fill text max line next word
      let out := (text.drop line).take (word - line)
      if word ≥ text.length then ok [out]
      else do
        let ls ← wrapLoop text max fuel word next next
        ok (out :: ls)
    else ok []

/-- `fsapfstools_getopt_wrapped_fprint`, fsapfstools_getopt.c 191-272: the texts of the lines, without
the indentation of all but the first -/
def wrap (fuel : Nat) (width start : Int) (text : Str) : Res (List Str) :=
  wrapLoop text (toSize (width - start)) fuel 0 0 0

end Verif.Getopt
