import Verif.Model.PyRead
/-!
# Reading a file in Python

What a file with a content returns, in the terms of the documentation of the methods in pyfsapfs_file_entry.c: `read(size)` reads at the current offset, the whole file without a size.
-/
namespace Verif.Spec.PyRead
open Verif.PyRead (Size Call)

/-- the largest `int` of C: larger sizes are refused -/
def largest : Nat := 2 ^ 31 - 1

/-- a call at position `pos` with result `r`, `none` for an exception, leads to position `pos'` -/
inductive Step (content : Bytes) : Nat → Call → Option Bytes → Nat → Prop
  /-- the bytes up to the end of the file -/
  | readAll {pos s} : s = Size.missing ∨ s = Size.none_ → content.length ≤ largest → Step content pos (.read s) (some (content.drop pos)) (pos + (content.drop pos).length)
  /-- as many bytes as asked, up to the end of the file -/
  | read {pos} (n : Nat) : n ≤ largest → Step content pos (.read (.int n)) (some ((content.drop pos).take n)) (pos + ((content.drop pos).take n).length)
  /-- the bytes at another offset, which then is the position -/
  | readAt {pos} (n o : Nat) : 0 < n → n ≤ largest → o < 2 ^ 63 → Step content pos (.readAt (.int n) o) (some ((content.drop o).take n)) (o + ((content.drop o).take n).length)
  | readNothing {pos} (o : Int) : -2 ^ 63 ≤ o → o < 2 ^ 63 → Step content pos (.readAt (.int 0) o) (some []) pos
  | seek {pos} (o : Nat) : o < 2 ^ 63 → Step content pos (.seek o) (some []) o
  /-- arguments out of range or of other types -/
  | readRefused {pos s} : (∀ n : Nat, s = .int n → largest < n) → (s = Size.missing ∨ s = Size.none_ → largest < content.length) → Step content pos (.read s) none pos
  | readAtRefused {pos s} {o : Int} : (∀ n : Nat, s = .int n → largest < n ∨ (n ≠ 0 ∧ o < 0) ∨ o < -2 ^ 63 ∨ 2 ^ 63 ≤ o) → Step content pos (.readAt s o) none pos
  | seekRefused {pos} {o : Int} : o < 0 ∨ 2 ^ 63 ≤ o → Step content pos (.seek o) none pos

/-- a history of calls -/
inductive Trace (content : Bytes) : Nat → List (Call × Option Bytes) → Prop
  | nil {pos} : Trace content pos []
  | cons {pos k r pos' rest} : Step content pos k r pos' → Trace content pos' rest → Trace content pos ((k, r) :: rest)

/-- what a program sees -/
def seen (ks : List Call) (rs : List (Res Bytes)) : List (Call × Option Bytes) := List.zipWith (fun k r => (k, match r with | .ok b => some b | _ => none)) ks rs

end Verif.Spec.PyRead
