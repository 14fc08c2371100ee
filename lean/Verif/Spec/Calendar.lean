/-!
# The Gregorian calendar

Days are numbered from 1 January 1970, which is 0.
-/
namespace Verif.Spec.Calendar

/-- years that can be divided by 4 and not by 100, or by 400 -/
def Leap (y : Nat) : Prop := (y % 4 = 0 ∧ y % 100 ≠ 0) ∨ y % 400 = 0

instance (y : Nat) : Decidable (Leap y) := by unfold Leap; infer_instance

def yearLength (y : Nat) : Nat := if Leap y then 366 else 365

/-- January to December -/
def monthLengths (y : Nat) : List Nat := [31, if Leap y then 29 else 28, 31, 30, 31, 30, 31, 31, 30, 31, 30, 31]

structure Date where
  year : Nat
  month : Nat
  day : Nat
deriving DecidableEq

def Date.Valid (d : Date) : Prop := 1970 ≤ d.year ∧ 1 ≤ d.month ∧ d.month ≤ 12 ∧ 1 ≤ d.day ∧ d.day ≤ (monthLengths d.year).getD (d.month - 1) 0

/-- the days of the years before, of the months before and of the days before -/
def Date.number (d : Date) : Nat := ((List.range (d.year - 1970)).map fun i => yearLength (1970 + i)).sum + ((monthLengths d.year).take (d.month - 1)).sum + (d.day - 1)

end Verif.Spec.Calendar
