import Verif.Spec.Calendar
import Verif.Model.PyTime
/-!
# C62: A time in Python is the stored time

For times from 1970 the date is that of the Gregorian calendar, except on 31 December 1999, for which an exception is raised; times before 1970 raise an exception or keep the program in a loop.
-/
namespace Verif.Props
open Verif PyTime Spec.Calendar

theorem isLeap_iff (y : Nat) : isLeap y = true ↔ Leap y := by
  unfold isLeap Leap
  simp

theorem daysInYear_eq (y : Nat) : daysInYear y = yearLength y := by
  unfold daysInYear yearLength
  by_cases h : Leap y
  · rw [if_pos ((isLeap_iff y).2 h), if_pos h]
  · rw [if_neg (fun h' => h ((isLeap_iff y).1 h')), if_neg h]

/-- the days before a year -/
def before (y : Nat) : Nat := ((List.range (y - 1970)).map fun i => yearLength (1970 + i)).sum

theorem before_succ {y : Nat} (h : 1970 ≤ y) : before (y + 1) = before y + yearLength y := by
  unfold before
  rw [show y + 1 - 1970 = (y - 1970) + 1 from by omega, List.range_succ, List.map_append, List.sum_append, List.map_cons, List.map_nil, List.sum_cons, List.sum_nil, Nat.add_zero, show 1970 + (y - 1970) = y from by omega]

/-- a closed form -/
theorem before_eq : ∀ n, before (1970 + n) + 477 = 365 * n + (1969 + n) / 4 - (1969 + n) / 100 + (1969 + n) / 400
  | 0 => by decide
  | n + 1 => by
    have ih := before_eq n
    rw [← Nat.add_assoc, before_succ (by omega)]
    unfold yearLength
    by_cases hl : Leap (1970 + n)
    · rw [if_pos hl]
      unfold Leap at hl
      omega
    · rw [if_neg hl]
      unfold Leap at hl
      omega

theorem before_century {y : Nat} (h : 1970 ≤ y) (hc : y % 100 = 0) : before (y + 100) = before y + daysInCentury y := by
  obtain ⟨n, rfl⟩ : ∃ n, y = 1970 + n := ⟨y - 1970, by omega⟩
  have h1 := before_eq n
  have h2 := before_eq (n + 100)
  rw [← Nat.add_assoc] at h2
  unfold daysInCentury
  split <;> omega

theorem before_ge {y : Nat} (h : 1970 ≤ y) : 365 * (y - 1970) ≤ before y := by
  obtain ⟨n, rfl⟩ : ∃ n, y = 1970 + n := ⟨y - 1970, by omega⟩
  have h1 := before_eq n
  omega

/-- the days of the months before -/
def monthsBefore (y m : Nat) : Nat := ((monthLengths y).take (m - 1)).sum

theorem daysInMonth_eq {y m : Nat} (h1 : 1 ≤ m) (h2 : m ≤ 12) : daysInMonth y m = some ((monthLengths y).getD (m - 1) 0) ∧ monthsBefore y (m + 1) = monthsBefore y m + (monthLengths y).getD (m - 1) 0 := by
  have hl : (if isLeap y = true then 29 else 28) = (if Leap y then 29 else 28) := by
    by_cases h : Leap y
    · rw [if_pos ((isLeap_iff y).2 h), if_pos h]
    · rw [if_neg (fun h' => h ((isLeap_iff y).1 h')), if_neg h]
  unfold daysInMonth monthsBefore monthLengths
  rw [hl]
  generalize (if Leap y then 29 else 28) = f
  have : m = 1 ∨ m = 2 ∨ m = 3 ∨ m = 4 ∨ m = 5 ∨ m = 6 ∨ m = 7 ∨ m = 8 ∨ m = 9 ∨ m = 10 ∨ m = 11 ∨ m = 12 := by omega
  rcases this with rfl | rfl | rfl | rfl | rfl | rfl | rfl | rfl | rfl | rfl | rfl | rfl <;> exact ⟨rfl, by simp <;> omega⟩

theorem months_year (y : Nat) : monthsBefore y 13 = yearLength y := by
  unfold monthsBefore monthLengths yearLength
  split <;> rfl

theorem centuryLoop_spec : ∀ (n : Nat) {y d : Nat}, n = d → 1 ≤ d → 1970 ≤ y → (y % 100 = 0 ∨ d ≤ daysInCentury y) → before y + d < 200000 →
    1970 ≤ (centuryLoop y d).1 ∧ 1 ≤ (centuryLoop y d).2 ∧ before (centuryLoop y d).1 + (centuryLoop y d).2 = before y + d := by
  intro n
  induction n using Nat.strongRecOn with
  | ind n ih =>
    intro y d hn hd hy hc hb
    rw [centuryLoop, if_neg (by omega)]
    by_cases hle : d ≤ daysInCentury y
    · rw [if_pos hle]
      exact ⟨hy, hd, rfl⟩
    · rw [if_neg hle]
      have hc : y % 100 = 0 := hc.resolve_right hle
      have h1 := before_century hy hc
      have h2 := before_ge hy
      have h0 : 0 < daysInCentury y := by unfold daysInCentury; split <;> omega
      have hm : (y + 100) % 65536 = y + 100 := Nat.mod_eq_of_lt (by omega)
      rw [hm]
      have := ih (d - daysInCentury y) (by omega) (y := y + 100) (d := d - daysInCentury y) rfl (by omega) (by omega) (.inl (by omega)) (by omega)
      omega

theorem yearLoop_spec : ∀ (n : Nat) {y d : Nat}, n = d → 1 ≤ d → 1970 ≤ y → before y + d < 200000 →
    1970 ≤ (yearLoop y d).1 ∧ 1 ≤ (yearLoop y d).2 ∧ (yearLoop y d).2 ≤ yearLength (yearLoop y d).1 ∧ before (yearLoop y d).1 + (yearLoop y d).2 = before y + d := by
  intro n
  induction n using Nat.strongRecOn with
  | ind n ih =>
    intro y d hn hd hy hb
    rw [yearLoop, if_neg (by omega)]
    by_cases hle : d ≤ daysInYear y
    · rw [if_pos hle]
      exact ⟨hy, hd, by rw [← daysInYear_eq]; exact hle, rfl⟩
    · rw [if_neg hle]
      rw [daysInYear_eq] at hle ⊢
      have h1 := before_succ hy
      have h2 := before_ge hy
      have h0 : 0 < yearLength y := by unfold yearLength; split <;> omega
      have hm : (y + 1) % 65536 = y + 1 := Nat.mod_eq_of_lt (by omega)
      rw [hm]
      have := ih (d - yearLength y) (by omega) (y := y + 1) (d := d - yearLength y) rfl (by omega) (by omega) (by omega)
      omega

theorem monthLoop_spec (y : Nat) : ∀ (k : Nat) {m d : Nat}, m + k = 12 → 1 ≤ m → 1 ≤ d → monthsBefore y m + d ≤ yearLength y →
    ∃ m' d', monthLoop y m d = some (m', d') ∧ 1 ≤ m' ∧ m' ≤ 12 ∧ 1 ≤ d' ∧ d' ≤ (monthLengths y).getD (m' - 1) 0 ∧ monthsBefore y m' + d' = monthsBefore y m + d := by
  intro k
  induction k with
  | zero =>
    intro m d hm h1 hd hb
    obtain ⟨e1, e2⟩ := daysInMonth_eq (y := y) h1 (by omega : m ≤ 12)
    have hm : m = 12 := by omega
    subst hm
    have h13 : monthsBefore y (12 + 1) = yearLength y := months_year y
    have hle : d ≤ (monthLengths y).getD (12 - 1) 0 := by omega
    refine ⟨12, d, ?_, by omega, by omega, hd, hle, rfl⟩
    rw [monthLoop, if_neg (by omega)]
    split
    · next h => rw [e1] at h; cases h
    · next n h =>
      rw [e1] at h
      cases h
      rw [if_pos hle]
  | succ k ih =>
    intro m d hm h1 hd hb
    obtain ⟨e1, e2⟩ := daysInMonth_eq (y := y) h1 (by omega : m ≤ 12)
    by_cases hle : d ≤ (monthLengths y).getD (m - 1) 0
    · refine ⟨m, d, ?_, h1, by omega, hd, hle, rfl⟩
      rw [monthLoop, if_neg (by omega)]
      split
      · next h => rw [e1] at h; cases h
      · next n h =>
        rw [e1] at h
        cases h
        rw [if_pos hle]
    · obtain ⟨m', d', h2, h3, h4, h5, h6, h7⟩ := ih (m := m + 1) (d := d - (monthLengths y).getD (m - 1) 0) (by omega) (by omega) (by omega) (by omega)
      refine ⟨m', d', ?_, h3, h4, h5, h6, by omega⟩
      rw [monthLoop, if_neg (by omega)]
      split
      · next h => rw [e1] at h; cases h
      · next n h =>
        rw [e1] at h
        cases h
        rw [if_neg hle, Nat.mod_eq_of_lt (by omega)]
        exact h2

theorem monthLength_le {y m : Nat} (h1 : 1 ≤ m) (h2 : m ≤ 12) : (monthLengths y).getD (m - 1) 0 ≤ 31 := by
  unfold monthLengths
  have : m = 1 ∨ m = 2 ∨ m = 3 ∨ m = 4 ∨ m = 5 ∨ m = 6 ∨ m = 7 ∨ m = 8 ∨ m = 9 ∨ m = 10 ∨ m = 11 ∨ m = 12 := by omega
  rcases this with rfl | rfl | rfl | rfl | rfl | rfl | rfl | rfl | rfl | rfl | rfl | rfl <;> simp
  split <;> omega

/-- the date from a year and the days from its beginning -/
theorem fromElements_spec {y d h mi s us : Nat} (hd : 1 ≤ d) (hy : 1970 ≤ y) (hc : y % 100 = 0 ∨ d ≤ daysInCentury y) (hb : before y + d < 200000) (h1 : h < 24) (h2 : mi < 60) (h3 : s < 60) (h4 : us < 1000000) :
    ∃ date : Date, date.Valid ∧ date.number + 1 = before y + d ∧ fromElements y d h mi s us = some ⟨date.year, date.month, date.day, h, mi, s, us⟩ := by
  obtain ⟨a1, a2, a3⟩ := centuryLoop_spec d rfl hd hy hc hb
  have hb' : before (centuryLoop y d).1 + (centuryLoop y d).2 < 200000 := by omega
  obtain ⟨b1, b2, b3, b4⟩ := yearLoop_spec _ rfl a2 a1 hb'
  have hm0 : monthsBefore (yearLoop (centuryLoop y d).1 (centuryLoop y d).2).1 1 = 0 := rfl
  obtain ⟨m, dd, c1, c2, c3, c4, c5, c6⟩ := monthLoop_spec (yearLoop (centuryLoop y d).1 (centuryLoop y d).2).1 11 (m := 1) (d := (yearLoop (centuryLoop y d).1 (centuryLoop y d).2).2) (by omega) (by omega) b2 (by omega)
  unfold fromElements
  dsimp only
  rw [c1]
  revert b1 b2 b3 b4 c1 c5 c6 hm0
  generalize yearLoop (centuryLoop y d).1 (centuryLoop y d).2 = r
  obtain ⟨yy, dy⟩ := r
  intro b1 b2 b3 b4 hm0 c1 c5 c6
  dsimp only at b1 b2 b3 b4 hm0 c1 c5 c6 ⊢
  have hdd : dd ≤ 31 := Nat.le_trans c5 (monthLength_le c2 c3)
  refine ⟨⟨yy, m, dd⟩, ⟨b1, c2, c3, c4, c5⟩, ?_, ?_⟩
  · show before yy + monthsBefore yy m + (dd - 1) + 1 = _
    omega
  · show fromDateAndTime _ = _
    unfold fromDateAndTime
    dsimp only
    rw [(daysInMonth_eq c2 c3).1, Nat.mod_eq_of_lt (by omega : dd < 256)]
    dsimp only
    have := before_ge b1
    rw [if_pos ⟨by omega, by omega, c4, c5, h1, h2, h3, h4⟩]

theorem tdiv_nat (a b : Nat) : (a : Int).tdiv b = ((a / b : Nat) : Int) := rfl
theorem tmod_nat (a b : Nat) : (a : Int).tmod b = ((a % b : Nat) : Int) := rfl

theorem unsigned_nat {n a : Nat} (h : a < 2 ^ n) : unsigned n a = a := by
  unfold unsigned
  rw [Int.emod_eq_of_lt (by omega) (by exact_mod_cast h)]
  simp

/-- the elements of a time from 1970; the day 10956 is 31 December 1999 -/
theorem elements_nat (n : Nat) (hn : n < 2 ^ 63) : elements n = (if n / 86400000000 ≥ 10956 then 2000 else 1970,
    if n / 86400000000 ≥ 10956 then n / 86400000000 - 10956 else n / 86400000000 + 1, n / 3600000000 % 24, n / 60000000 % 60, n / 1000000 % 60, n % 1000000) := by
  have e1 : (n : Int).tdiv 1000000 = ((n / 1000000 : Nat) : Int) := rfl
  have e2 : ((n / 1000000 : Nat) : Int).tdiv 60 = ((n / 60000000 : Nat) : Int) := by
    rw [show ((60 : Int)) = ((60 : Nat) : Int) from rfl, tdiv_nat, Nat.div_div_eq_div_mul]
  have e3 : ((n / 60000000 : Nat) : Int).tdiv 60 = ((n / 3600000000 : Nat) : Int) := by
    rw [show ((60 : Int)) = ((60 : Nat) : Int) from rfl, tdiv_nat, Nat.div_div_eq_div_mul]
  have e4 : ((n / 3600000000 : Nat) : Int).tdiv 24 = ((n / 86400000000 : Nat) : Int) := by
    rw [show ((24 : Int)) = ((24 : Nat) : Int) from rfl, tdiv_nat, Nat.div_div_eq_div_mul]
  have f1 : (n : Int).tmod 1000000 = ((n % 1000000 : Nat) : Int) := rfl
  have f2 : ((n / 1000000 : Nat) : Int).tmod 60 = ((n / 1000000 % 60 : Nat) : Int) := rfl
  have f3 : ((n / 60000000 : Nat) : Int).tmod 60 = ((n / 60000000 % 60 : Nat) : Int) := rfl
  have f4 : ((n / 3600000000 : Nat) : Int).tmod 24 = ((n / 3600000000 % 24 : Nat) : Int) := rfl
  unfold elements
  dsimp only
  rw [e1, e2, e3, e4, f1, f2, f3, f4, unsigned_nat (by omega), unsigned_nat (by omega), unsigned_nat (by omega), unsigned_nat (by omega)]
  by_cases h : n / 86400000000 ≥ 10956
  · rw [if_pos h, if_pos h, if_pos (by omega)]
    have : ((n / 86400000000 : Nat) : Int) + 1 - 10957 = ((n / 86400000000 - 10956 : Nat) : Int) := by omega
    rw [this, unsigned_nat (by omega)]
  · rw [if_neg h, if_neg h, if_neg (by omega)]
    have : ((n / 86400000000 : Nat) : Int) + 1 = ((n / 86400000000 + 1 : Nat) : Int) := by omega
    rw [this, unsigned_nat (by omega)]

theorem fromMicro_nat {n : Nat} (hn : n < 2 ^ 63) : fromMicro (n : Int) = fromElements (if n / 86400000000 ≥ 10956 then 2000 else 1970)
    (if n / 86400000000 ≥ 10956 then n / 86400000000 - 10956 else n / 86400000000 + 1) (n / 3600000000 % 24) (n / 60000000 % 60) (n / 1000000 % 60) (n % 1000000) := by
  unfold fromMicro
  rw [elements_nat n hn]

theorem before_1970 : before 1970 = 0 := rfl

theorem before_2000 : before 2000 = 10957 := by decide +kernel

/-- **C62.** A time from 1970 that is stored as a number of nanoseconds is in Python the date of the Gregorian calendar and the time of that day, without the part below a microsecond, except on 31 December 1999. -/
theorem c62_time_partial {t : Int} (h0 : 0 ≤ t) (ht : t < 2 ^ 63) (h99 : t / 86400000000000 ≠ 10956) :
    ∃ (date : Date) (h m s us : Nat), date.Valid ∧ property t = some ⟨date.year, date.month, date.day, h, m, s, us⟩ ∧ h < 24 ∧ m < 60 ∧ s < 60 ∧ us < 1000000 ∧
      (((date.number * 24 + h) * 60 + m) * 60 + s) * 1000000 + us = t / 1000 := by
  obtain ⟨n, rfl⟩ := Int.eq_ofNat_of_zero_le h0
  have hp : property (n : Int) = fromMicro ((n / 1000 : Nat) : Int) := rfl
  have hn : n / 1000 < 2 ^ 63 := by omega
  rw [hp, fromMicro_nat hn]
  have hd : n / 1000 / 86400000000 < 106752 := by omega
  have hne : n / 1000 / 86400000000 ≠ 10956 := by omega
  by_cases h : n / 1000 / 86400000000 ≥ 10956
  · rw [if_pos h, if_pos h]
    obtain ⟨date, v1, v2, v3⟩ := fromElements_spec (y := 2000) (d := n / 1000 / 86400000000 - 10956) (h := n / 1000 / 3600000000 % 24) (mi := n / 1000 / 60000000 % 60) (s := n / 1000 / 1000000 % 60) (us := n / 1000 % 1000000)
      (by omega) (by omega) (.inl rfl) (by rw [before_2000]; omega) (by omega) (by omega) (by omega) (by omega)
    refine ⟨date, _, _, _, _, v1, v3, by omega, by omega, by omega, by omega, ?_⟩
    rw [before_2000] at v2
    have v2 : date.number = n / 1000 / 86400000000 := by omega
    rw [v2]
    omega
  · rw [if_neg h, if_neg h]
    obtain ⟨date, v1, v2, v3⟩ := fromElements_spec (y := 1970) (d := n / 1000 / 86400000000 + 1) (h := n / 1000 / 3600000000 % 24) (mi := n / 1000 / 60000000 % 60) (s := n / 1000 / 1000000 % 60) (us := n / 1000 % 1000000)
      (by omega) (by omega) (.inr (by unfold daysInCentury; split <;> omega)) (by rw [before_1970]; omega) (by omega) (by omega) (by omega) (by omega)
    refine ⟨date, _, _, _, _, v1, v3, by omega, by omega, by omega, by omega, ?_⟩
    rw [before_1970] at v2
    have v2 : date.number = n / 1000 / 86400000000 := by omega
    rw [v2]
    omega

theorem before_mono {y z : Nat} (h : 1970 ≤ y) (hz : y < z) : before y + yearLength y ≤ before z := by
  rw [← before_succ h]
  induction z with
  | zero => omega
  | succ z ih =>
    by_cases e : y = z
    · subst e
      exact Nat.le_refl _
    · have := ih (by omega)
      rw [before_succ (y := z) (by omega)]
      omega

theorem monthsBefore_mono {y m k : Nat} (h : 1 ≤ m) (hk : m < k) (h13 : k ≤ 13) : monthsBefore y m + (monthLengths y).getD (m - 1) 0 ≤ monthsBefore y k := by
  rw [← (daysInMonth_eq (y := y) h (by omega)).2]
  induction k with
  | zero => omega
  | succ k ih =>
    by_cases e : m = k
    · subst e
      exact Nat.le_refl _
    · have := ih (by omega) (by omega)
      rw [(daysInMonth_eq (y := y) (m := k) (by omega) (by omega)).2]
      omega

/-- the number of a date is in its year -/
theorem number_year {d : Date} (h : d.Valid) : before d.year ≤ d.number ∧ d.number < before d.year + yearLength d.year := by
  obtain ⟨h1, h2, h3, h4, h5⟩ := h
  have hn : d.number = before d.year + monthsBefore d.year d.month + (d.day - 1) := rfl
  have := monthsBefore_mono (y := d.year) h2 (show d.month < 13 by omega) (by omega)
  rw [months_year] at this
  omega

/-- **C62.** Dates with the same number are the same: the date in `c62_time_partial` is the only one. -/
theorem c62_unique {d e : Date} (hd : d.Valid) (he : e.Valid) (h : d.number = e.number) : d = e := by
  have a := number_year hd
  have b := number_year he
  have hy : d.year = e.year := by
    rcases Nat.lt_trichotomy d.year e.year with hlt | heq | hgt
    · have := before_mono hd.1 hlt
      omega
    · exact heq
    · have := before_mono he.1 hgt
      omega
  have hm : d.month = e.month := by
    have h1 : d.number = before d.year + monthsBefore d.year d.month + (d.day - 1) := rfl
    have h2 : e.number = before e.year + monthsBefore e.year e.month + (e.day - 1) := rfl
    obtain ⟨_, a2, a3, a4, a5⟩ := hd
    obtain ⟨_, b2, b3, b4, b5⟩ := he
    rw [hy] at h1 a5
    rcases Nat.lt_trichotomy d.month e.month with hlt | heq | hgt
    · have := monthsBefore_mono (y := e.year) a2 hlt (by omega)
      omega
    · exact heq
    · have := monthsBefore_mono (y := e.year) b2 hgt (by omega)
      omega
  have hdd : d.day = e.day := by
    have h1 : d.number = before d.year + monthsBefore d.year d.month + (d.day - 1) := rfl
    have h2 : e.number = before e.year + monthsBefore e.year e.month + (e.day - 1) := rfl
    have := hd.2.2.2.1
    have := he.2.2.2.1
    rw [hy, hm] at h1
    omega
  obtain ⟨y, m, k⟩ := d
  obtain ⟨y', m', k'⟩ := e
  dsimp only at hy hm hdd
  rw [hy, hm, hdd]

/-- days 0: the day of the month is 0 and an exception is raised -/
theorem fromElements_zero (y h m s us : Nat) : fromElements y 0 h m s us = none := by
  have e1 : centuryLoop y 0 = (y, 0) := by rw [centuryLoop, if_pos rfl]
  have e2 : yearLoop y 0 = (y, 0) := by rw [yearLoop, if_pos rfl]
  have e3 : monthLoop y 1 0 = some (1, 0) := by rw [monthLoop, if_pos rfl]
  unfold fromElements
  rw [e1]
  dsimp only
  rw [e2]
  dsimp only
  rw [e3]
  show fromDateAndTime ⟨y, 1, 0 % 256, h, m, s, us⟩ = none
  unfold fromDateAndTime
  dsimp only
  split
  · rfl
  · rw [if_neg (fun h => absurd h.2.2.1 (by decide))]

/-- **C62, refuted for 31 December 1999**: every time of that day raises an exception. -/
theorem c62_1999 {t : Int} (h99 : t / 86400000000000 = 10956) : property t = none := by
  have h0 : 0 ≤ t := by omega
  obtain ⟨n, rfl⟩ := Int.eq_ofNat_of_zero_le h0
  have hp : property (n : Int) = fromMicro ((n / 1000 : Nat) : Int) := rfl
  rw [hp, fromMicro_nat (by omega)]
  rw [if_pos (by omega), if_pos (by omega), show n / 1000 / 86400000000 - 10956 = 0 from by omega]
  exact fromElements_zero _ _ _ _ _

/-- every round takes away at most 36525 days -/
theorem centuryRounds_ge : ∀ (n : Nat) {y d : Nat}, n = d → d ≤ centuryRounds y d * 36525 := by
  intro n
  induction n using Nat.strongRecOn with
  | ind n ih =>
    intro y d hn
    rw [centuryRounds]
    have h0 : 0 < daysInCentury y ∧ daysInCentury y ≤ 36525 := by unfold daysInCentury; split <;> omega
    by_cases h1 : d = 0
    · rw [if_pos h1]
      omega
    · rw [if_neg h1]
      by_cases h2 : d ≤ daysInCentury y
      · rw [if_pos h2]
        omega
      · rw [if_neg h2]
        have := ih (d - daysInCentury y) (by omega) (y := (y + 100) % 65536) (d := d - daysInCentury y) rfl
        omega

/-- parts that are out of range -/
theorem fromElements_range {y d h m s us : Nat} (hr : ¬ (h < 24 ∧ m < 60 ∧ s < 60 ∧ us < 1000000)) : fromElements y d h m s us = none := by
  unfold fromElements
  dsimp only
  cases monthLoop (yearLoop (centuryLoop y d).1 (centuryLoop y d).2).1 1 (yearLoop (centuryLoop y d).1 (centuryLoop y d).2).2 with
  | none => rfl
  | some r =>
    show fromDateAndTime _ = none
    unfold fromDateAndTime
    dsimp only
    split
    · rfl
    · rw [if_neg (fun h => hr h.2.2.2.2)]

theorem tdiv_neg_nat (a b : Nat) : (-(a : Int)).tdiv b = -((a / b : Nat) : Int) := by
  rw [Int.neg_tdiv, tdiv_nat]
theorem tmod_neg_nat (a b : Nat) : (-(a : Int)).tmod b = -((a % b : Nat) : Int) := by
  rw [Int.neg_tmod, tmod_nat]

theorem elements_neg (n : Nat) : elements (-(n : Int)) = (1970, unsigned 64 (1 - ((n / 86400000000 : Nat) : Int)), unsigned 8 (-((n / 3600000000 % 24 : Nat) : Int)), unsigned 8 (-((n / 60000000 % 60 : Nat) : Int)), unsigned 8 (-((n / 1000000 % 60 : Nat) : Int)), unsigned 32 (-((n % 1000000 : Nat) : Int))) := by
  have e1 := tdiv_neg_nat n 1000000
  have e2 := tdiv_neg_nat (n / 1000000) 60
  have e3 := tdiv_neg_nat (n / 60000000) 60
  have e4 := tdiv_neg_nat (n / 3600000000) 24
  rw [Nat.div_div_eq_div_mul] at e2 e3 e4
  have f1 := tmod_neg_nat n 1000000
  have f2 := tmod_neg_nat (n / 1000000) 60
  have f3 := tmod_neg_nat (n / 60000000) 60
  have f4 := tmod_neg_nat (n / 3600000000) 24
  unfold elements
  dsimp only
  simp only [Int.cast_ofNat_Int] at e1 e2 e3 e4 f1 f2 f3 f4
  rw [e1, e2, e3, e4, f1, f2, f3, f4, if_neg (by omega)]
  rw [show -((n / 86400000000 : Nat) : Int) + 1 = 1 - ((n / 86400000000 : Nat) : Int) from by omega]

theorem unsigned_neg {a b : Nat} (h1 : 0 < a) (h2 : a ≤ 2 ^ b) : unsigned b (-(a : Int)) = 2 ^ b - a := by
  unfold unsigned
  have hc : ((2 : Int) ^ b) = ((2 ^ b : Nat) : Int) := by rw [Int.natCast_pow]; rfl
  rw [hc]
  generalize 2 ^ b = k at *
  rw [← Int.add_emod_right, Int.emod_eq_of_lt (by omega) (by omega)]
  omega

/-- **C62, refuted for times before 1970**: an exception is raised, or the first loop is run more than 5 · 10 ^ 14 times. -/
theorem c62_negative {t : Int} (h0 : t ≤ -1000) (ht : -2 ^ 63 ≤ t) : property t = none ∨ 500000000000000 < propertyRounds t := by
  obtain ⟨k, rfl⟩ : ∃ k : Nat, t = -(k : Int) := ⟨t.natAbs, by omega⟩
  have hk : (-(k : Int)).tdiv 1000 = -((k / 1000 : Nat) : Int) := tdiv_neg_nat k 1000
  unfold property propertyRounds fromMicro
  rw [hk, elements_neg]
  dsimp only
  generalize hn : k / 1000 = n
  have hn1 : 1 ≤ n := by omega
  have hn2 : n / 86400000000 < 106752 := by omega
  by_cases hd : n / 86400000000 ≥ 2
  · right
    have hu : unsigned 64 (1 - ((n / 86400000000 : Nat) : Int)) = 2 ^ 64 - (n / 86400000000 - 1) := by
      rw [show 1 - ((n / 86400000000 : Nat) : Int) = -((n / 86400000000 - 1 : Nat) : Int) from by omega, unsigned_neg (by omega) (by omega)]
    rw [hu]
    have := centuryRounds_ge (2 ^ 64 - (n / 86400000000 - 1)) (y := 1970) (d := 2 ^ 64 - (n / 86400000000 - 1)) rfl
    omega
  · left
    by_cases hd1 : n / 86400000000 = 1
    · rw [hd1]
      exact fromElements_zero _ _ _ _ _
    · refine fromElements_range ?_
      intro ⟨h1, h2, h3, h4⟩
      have g1 : n / 3600000000 % 24 = 0 := by
        refine Nat.eq_zero_of_not_pos fun hp => ?_
        rw [unsigned_neg hp (by omega)] at h1
        omega
      have g2 : n / 60000000 % 60 = 0 := by
        refine Nat.eq_zero_of_not_pos fun hp => ?_
        rw [unsigned_neg hp (by omega)] at h2
        omega
      have g3 : n / 1000000 % 60 = 0 := by
        refine Nat.eq_zero_of_not_pos fun hp => ?_
        rw [unsigned_neg hp (by omega)] at h3
        omega
      have g4 : n % 1000000 = 0 := by
        refine Nat.eq_zero_of_not_pos fun hp => ?_
        rw [unsigned_neg hp (by omega)] at h4
        omega
      omega

/-- examples: 29 February 2024 12:34:56.789012; the last second of 1999; the second before 1970; 1960 -/
example : (0 : Int) ≤ 1709210096789012345 ∧ (1709210096789012345 : Int) < 2 ^ 63 ∧ (1709210096789012345 : Int) / 86400000000000 ≠ 10956 := by decide
example : (⟨2024, 2, 29⟩ : Date).Valid ∧ (⟨2024, 2, 29⟩ : Date).number = 1709210096789012345 / 86400000000000 := by
  refine ⟨by unfold Date.Valid; decide +kernel, by decide +kernel⟩
example : property 1709210096789012345 = some ⟨2024, 2, 29, 12, 34, 56, 789012⟩ := by
  obtain ⟨date, h, m, s, us, v, hp, h1, h2, h3, h4, h5⟩ := c62_time_partial (t := 1709210096789012345) (by decide) (by decide) (by decide)
  have hn : date.number = 19782 := by omega
  have hd : date = ⟨2024, 2, 29⟩ := c62_unique v (by unfold Date.Valid; decide +kernel) (hn.trans (by decide +kernel))
  rw [hp, hd]
  have : h = 12 := by omega
  have : m = 34 := by omega
  have : s = 56 := by omega
  have : us = 789012 := by omega
  simp only [*]
example : (946684799000000000 : Int) / 86400000000000 = 10956 ∧ (⟨1999, 12, 31⟩ : Date).number = 10956 := by
  refine ⟨by decide, by decide +kernel⟩
example : (-1000000000 : Int) ≤ -1000 ∧ -2 ^ 63 ≤ (-1000000000 : Int) := by decide
example : (-315619200000000000 : Int) ≤ -1000 ∧ -2 ^ 63 ≤ (-315619200000000000 : Int) := by decide

end Verif.Props
