import Verif.Spec.Mount
import Verif.Spec.Escape
/-!
# What is shown about a file

A text has a line for each value: a label, tabs, a colon and a space, and the value.
-/
namespace Verif.Spec.Info
open Verif Spec

/-- the part of a line before the first tab, colon and space, and the part behind them -/
def cut : Bytes → Option (Bytes × Bytes)
  | [] => none
  | b :: r => if (b :: r).take 3 = [0x09, 0x3a, 0x20] then some ([], r.drop 2) else (cut r).map fun p => (b :: p.1, p.2)

/-- characters of ASCII -/
def chars (b : Bytes) : List Char := b.map fun c => Char.ofNat c.toNat

/-- the label of a line, without tabs, and its value -/
def entry (line : Bytes) : Option (List Char × Bytes) := (cut line).map fun p => (chars (p.1.filter (· ≠ 0x09)), p.2)

/-- labels and values of the lines of a text -/
def entries (text : Bytes) : List (Option (List Char × Bytes)) := (Escape.lines text).map entry

/-- a line with a label and a value -/
def row (label : String) (value : Bytes) : Option (List Char × Bytes) := some (label.toList, value)

/-- value of octal digits behind those with value `v` -/
def octalNumber : Nat → Bytes → Option Nat
  | v, [] => some v
  | v, b :: bs => if 0x30 ≤ b.toNat ∧ b.toNat ≤ 0x37 then octalNumber (v * 8 + (b.toNat - 0x30)) bs else none

/-- a time in two's complement -/
def signed (stored : Nat) : Int := if stored < 2 ^ 63 then stored else stored - 2 ^ 64

/-- a time: a text that is read as the time, with the letter Z; the time 0 stands for none -/
def TimeIs (read : Bytes → Option Int) (stored : Nat) (value : Bytes) : Prop :=
  (stored = 0 → chars value = "Not set (0)".toList) ∧ (stored ≠ 0 → ∃ s, value = s ++ [0x5a] ∧ read s = some (signed stored))

/-- the mode of a file, as `ls -l` shows it and with seven octal digits -/
def ModeIs (mode : Nat) (value : Bytes) : Prop :=
  ∃ letters digits, chars value = chars letters ++ [' ', '('] ++ chars digits ++ [')'] ∧ chars letters = Escape.modeLetters mode ∧ digits ≠ [] ∧ octalNumber 0 digits = some mode ∧ (mode < 2 ^ 21 → digits.length = 7)

/-- lines for the extended attributes behind `k` others -/
inductive Attributes : Nat → List XAttr → List (Option (List Char × Bytes)) → Prop
  | nil (k : Nat) : Attributes k [] []
  | cons {k : Nat} {x : XAttr} {xs : List XAttr} {digits : Bytes} {rest : List (Option (List Char × Bytes))} (number : Escape.number digits = some (k + 1)) (rest_ : Attributes (k + 1) xs rest) :
    Attributes k (x :: xs) (some ("Attribute: ".toList ++ chars digits, x.name) :: rest)

/-- A text shows a file, with its name and the time at which it was added to a directory. Numbers of devices are left out. -/
def ShowsFile (read : Bytes → Option Int) (modification creation : VolumeFile → Nat) (v : VolumeFile) (name : List Nat) (added : Option Nat) (text : Bytes) : Prop :=
  ∃ id shown size created modified changed accessed links owner group mode n addedRows device target attributes,
    entries text = [row "Identifier" id, row "Name" shown, row "Size" size, row "Creation time" created, row "Modification time" modified, row "Inode change time" changed, row "Access time" accessed] ++
      addedRows ++ [row "Number of links" links, row "Owner identifier" owner, row "Group identifier" group, row "File mode" mode] ++ device ++ target ++ attributes ∧
    Escape.number id = some v.identifier ∧ Escape.unescape shown = some (Utf8.encode name) ∧ v.stored.size? = some n ∧ Escape.number size = some n ∧
    TimeIs read (creation v) created ∧ TimeIs read (modification v) modified ∧ TimeIs read v.fixed.changed changed ∧ TimeIs read v.fixed.accessed accessed ∧
    (match added with | none => addedRows = [] | some t => ∃ value, addedRows = [row "Added time" value] ∧ TimeIs read t value) ∧
    Escape.number links = some v.fixed.links ∧ Escape.number owner = some v.fixed.owner ∧ Escape.number group = some v.fixed.group ∧ ModeIs v.fixed.mode mode ∧
    (v.type ≠ 2 ∧ v.type ≠ 6 → device = []) ∧ (∀ x ∈ device, ∃ value, x = row "Device number" value) ∧
    (v.stored.attribute? symlink = none → target = []) ∧ (∀ t, LinksTo v t → target = [row "Symbolic link target" (Utf8.encode t)]) ∧
    (v.attributes = [] → attributes = []) ∧ (v.attributes ≠ [] → ∃ rest, attributes = none :: rest ∧ Attributes 0 v.attributes rest)

/-- the targets of symbolic links and the names of extended attributes of a file are on one line -/
def OneLine (v : VolumeFile) : Prop := (v.stored.attribute? symlink = none ∨ ∃ target, LinksTo v target ∧ (0x0a : UInt8) ∉ Utf8.encode target) ∧ ∀ x ∈ v.attributes, (0x0a : UInt8) ∉ x.name

end Verif.Spec.Info
