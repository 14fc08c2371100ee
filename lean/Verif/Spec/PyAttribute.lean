import Verif.Model.PyAttribute
/-!
# Reading an extended attribute in Python

Any number of objects for one value, each with a position. In the terms of the documentation of the methods in pyfsapfs_extended_attribute.c 47-110.
-/
namespace Verif.Spec.PyAttribute
open Verif.PyRead (Size)
open Verif.PyAttribute (Call Value Action)

/-- the largest `int` of C: larger sizes are refused -/
def largest : Nat := 2 ^ 31 - 1

/-- where seeking leads: from the start, the position or the end -/
inductive Target (length pos : Nat) : Int → Int → Int → Prop
  | start (o : Int) : Target length pos o 0 o
  | position (o : Int) : Target length pos o 1 (pos + o)
  | stop (o : Int) : Target length pos o 2 (length + o)

/-- a call at position `pos` with result `r`, `none` for an exception, leads to position `pos'`; `fault` if memory or storage fails meanwhile -/
inductive Step (v : Bytes) (fault : Prop) : Nat → Call → Option Value → Nat → Prop
  /-- the bytes up to the end of the value -/
  | readAll {pos s} : s = Size.missing ∨ s = Size.none_ → v.length ≤ largest → Step v fault pos (.read s) (some (.bytes (v.drop pos))) (pos + (v.drop pos).length)
  /-- as many bytes as asked, up to the end of the value -/
  | read {pos} (n : Nat) : n ≤ largest → Step v fault pos (.read (.int n)) (some (.bytes ((v.drop pos).take n))) (pos + ((v.drop pos).take n).length)
  /-- the bytes at another offset, which then is the position -/
  | readAt {pos} (n o : Nat) : 0 < n → n ≤ largest → o < 2 ^ 63 → Step v fault pos (.readAt (.int n) o) (some (.bytes ((v.drop o).take n))) (o + ((v.drop o).take n).length)
  | readNothing {pos} (o : Int) : -2 ^ 63 ≤ o → o < 2 ^ 63 → Step v fault pos (.readAt (.int 0) o) (some (.bytes [])) pos
  | seek {pos o w} (p : Nat) : -2 ^ 63 ≤ o → o < 2 ^ 63 → Target v.length pos o w p → Step v fault pos (.seek o w) (some .none_) p
  | offset {pos} : Step v fault pos .getOffset (some (.int pos)) pos
  | size {pos} : Step v fault pos .getSize (some (.int v.length)) pos
  /-- arguments out of range or of other types -/
  | readRefused {pos s} : (∀ n : Nat, s = .int n → largest < n) → (s = Size.missing ∨ s = Size.none_ → largest < v.length) → Step v fault pos (.read s) none pos
  | readAtRefused {pos s} {o : Int} : (∀ n : Nat, s = .int n → largest < n ∨ (n ≠ 0 ∧ o < 0) ∨ o < -2 ^ 63 ∨ 2 ^ 63 ≤ o) → Step v fault pos (.readAt s o) none pos
  | seekRefused {pos o w} : (∀ p : Nat, -2 ^ 63 ≤ o → o < 2 ^ 63 → ¬ Target v.length pos o w p) → Step v fault pos (.seek o w) none pos
  /-- a call that fails leaves the position, or has moved it to where it was to read; the size is always known -/
  | failed {pos c} : fault → c ≠ .getSize → Step v fault pos c none pos
  | moved {pos s} (p : Nat) : fault → Step v fault pos (.readAt s p) none p

/-- what a program sees: the positions of the objects, those that were deleted have none -/
def Seen (v : Bytes) : List (Option Nat) → List (Action × Prop × Option Value) → Prop
  | _, [] => True
  | ps, (.get, fault, r) :: rest => (r = some .none_ ∧ Seen v (ps ++ [some 0]) rest) ∨ (fault ∧ r = none ∧ Seen v ps rest)
  | ps, (.delete k, _, r) :: rest => r = some .none_ ∧ Seen v (ps.set k none) rest
  | ps, (.call k c, fault, r) :: rest =>
    match ps[k]?.join with
    | none => r = none ∧ Seen v ps rest
    | some pos => ∃ p, Step v fault pos c r p ∧ Seen v (ps.set k (some p)) rest

end Verif.Spec.PyAttribute
