import Verif.Model.Base
/-!
# Model of dates and times in Python

pyfsapfs/pyfsapfs_datetime.c, `pyfsapfs_datetime_new_from_time_elements` and `pyfsapfs_datetime_new_from_posix_time_in_micro_seconds`, and the getters of pyfsapfs/pyfsapfs_file_entry.c 782-1306 that use them.

`PyDateTime_FromDateAndTime` is of CPython: it raises `ValueError` for values out of range.
-/
namespace Verif.PyTime

/-- a `datetime` object -/
structure DateTime where
  year : Nat
  month : Nat
  day : Nat
  hours : Nat
  minutes : Nat
  seconds : Nat
  micro : Nat
deriving DecidableEq

/-- pyfsapfs_datetime.c 73-75, 101-103 -/
def isLeap (year : Nat) : Bool := (year % 4 = 0 ∧ year % 100 ≠ 0) ∨ year % 400 = 0

/-- pyfsapfs_datetime.c 52-59 -/
def daysInCentury (year : Nat) : Nat := if year % 400 = 0 then 36525 else 36524

/-- pyfsapfs_datetime.c 50-67: the year is `uint16_t` -/
def centuryLoop (year days : Nat) : Nat × Nat :=
  if days = 0 then (year, days)
  else if days ≤ daysInCentury year then (year, days)
  else centuryLoop ((year + 100) % 65536) (days - daysInCentury year)
termination_by days
decreasing_by
  unfold daysInCentury
  split <;> omega

/-- how often the body of that loop is run -/
def centuryRounds (year days : Nat) : Nat :=
  if days = 0 then 0
  else if days ≤ daysInCentury year then 1
  else centuryRounds ((year + 100) % 65536) (days - daysInCentury year) + 1
termination_by days
decreasing_by
  unfold daysInCentury
  split <;> omega

/-- pyfsapfs_datetime.c 73-82 -/
def daysInYear (year : Nat) : Nat := if isLeap year then 366 else 365

/-- pyfsapfs_datetime.c 68-90 -/
def yearLoop (year days : Nat) : Nat × Nat :=
  if days = 0 then (year, days)
  else if days ≤ daysInYear year then (year, days)
  else yearLoop ((year + 1) % 65536) (days - daysInYear year)
termination_by days
decreasing_by
  unfold daysInYear
  split <;> omega

/-- pyfsapfs_datetime.c 97-144; `none`: the month is not supported -/
def daysInMonth (year month : Nat) : Option Nat :=
  if month = 2 then some (if isLeap year then 29 else 28)
  else if month = 4 ∨ month = 6 ∨ month = 9 ∨ month = 11 then some 30
  else if month = 1 ∨ month = 3 ∨ month = 5 ∨ month = 7 ∨ month = 8 ∨ month = 10 ∨ month = 12 then some 31
  else none

/-- pyfsapfs_datetime.c 95-152: the month, which is `uint8_t`, and the days that are left -/
def monthLoop (year month days : Nat) : Option (Nat × Nat) :=
  if days = 0 then some (month, days)
  else
    match _h : daysInMonth year month with
    | none => none
    | some n =>
      if days ≤ n then some (month, days)
      else monthLoop year ((month + 1) % 256) (days - n)
termination_by days
decreasing_by
  unfold daysInMonth at _h
  split at _h
  · split at _h <;> (cases _h; omega)
  · split at _h
    · cases _h; omega
    · split at _h
      · cases _h; omega
      · cases _h

/-- `PyDateTime_FromDateAndTime` of CPython; `none`: `ValueError` -/
def fromDateAndTime (d : DateTime) : Option DateTime :=
  match daysInMonth d.year d.month with
  | none => none
  | some n => if 1 ≤ d.year ∧ d.year ≤ 9999 ∧ 1 ≤ d.day ∧ d.day ≤ n ∧ d.hours < 24 ∧ d.minutes < 60 ∧ d.seconds < 60 ∧ d.micro < 1000000 then some d else none

/-- `pyfsapfs_datetime_new_from_time_elements`, pyfsapfs_datetime.c 34-169; `none`: an exception. The day is `uint8_t`, 155. A number of microseconds of 2 ^ 31 or more becomes a negative `int` 159, which is out of range as well. -/
def fromElements (year days hours minutes seconds micro : Nat) : Option DateTime := do
  let (year, days) := centuryLoop year days
  let (year, days) := yearLoop year days
  let (month, days) ← monthLoop year 1 days
  fromDateAndTime { year := year, month := month, day := days % 256, hours := hours, minutes := minutes, seconds := seconds, micro := micro }

/-- conversion of an `int64_t` to an unsigned type of `n` bits -/
def unsigned (n : Nat) (x : Int) : Nat := (x % 2 ^ n).toNat

/-- the arguments of `pyfsapfs_datetime_new_from_time_elements` in `pyfsapfs_datetime_new_from_posix_time_in_micro_seconds`, pyfsapfs_datetime.c 646-680: divisions of `int64_t` round towards zero -/
def elements (t : Int) : Nat × Nat × Nat × Nat × Nat × Nat :=
  let micro := unsigned 32 (t.tmod 1000000)
  let t := t.tdiv 1000000
  let seconds := unsigned 8 (t.tmod 60)
  let t := t.tdiv 60
  let minutes := unsigned 8 (t.tmod 60)
  let t := t.tdiv 60
  let hours := unsigned 8 (t.tmod 24)
  let t := t.tdiv 24
  let t := t + 1
  if t ≥ 10957 then (2000, unsigned 64 (t - 10957), hours, minutes, seconds, micro) else (1970, unsigned 64 t, hours, minutes, seconds, micro)

/-- `pyfsapfs_datetime_new_from_posix_time_in_micro_seconds`, pyfsapfs_datetime.c 636-690 -/
def fromMicro (t : Int) : Option DateTime :=
  match elements t with
  | (year, days, hours, minutes, seconds, micro) => fromElements year days hours minutes seconds micro

/-- the properties `creation_time`, `modification_time`, `access_time`, `inode_change_time` and `added_time`, pyfsapfs_file_entry.c 832, 950, 1068, 1186, 1304; `t` is the number of nanoseconds that the library returns -/
def property (t : Int) : Option DateTime := fromMicro (t.tdiv 1000)

/-- the rounds of the first loop for a property -/
def propertyRounds (t : Int) : Nat :=
  match elements (t.tdiv 1000) with
  | (year, days, _) => centuryRounds year days

end Verif.PyTime
