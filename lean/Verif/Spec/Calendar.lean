import Mathlib.Algebra.BigOperators.Group.Finset.Basic
import Mathlib.Data.Int.Interval
import Mathlib.Algebra.Order.Ring.Int
import Mathlib.Algebra.Order.Field.Basic
import Mathlib.Data.Rat.Cast.Defs

/-!
# The civil calendars, independently of the code

Leap rule, month lengths, and the Julian Day Number obtained by counting the days of whole years
and months.  Years are astronomical (year 0 exists).  `g = true` is the Gregorian calendar,
`g = false` the Julian one, both extended indefinitely in both directions.
-/

namespace Verif.Spec

/-- Every fourth year, but in the Gregorian calendar a century year only if 400 divides it. -/
def IsLeap (g : Bool) (y : ℤ) : Prop := 4 ∣ y ∧ (g = true → 100 ∣ y → 400 ∣ y)

instance (g : Bool) (y : ℤ) : Decidable (IsLeap g y) := by unfold IsLeap; infer_instance

/-- Thirty days hath September, ... -/
def monthLen (g : Bool) (y m : ℤ) : ℤ :=
  if m = 4 ∨ m = 6 ∨ m = 9 ∨ m = 11 then 30
  else if m = 2 then (if IsLeap g y then 29 else 28)
  else 31

def yearLen (g : Bool) (y : ℤ) : ℤ := if IsLeap g y then 366 else 365

/-- `d` is a whole day of the month. -/
def Valid (g : Bool) (y m d : ℤ) : Prop := 1 ≤ m ∧ m ≤ 12 ∧ 1 ≤ d ∧ d ≤ monthLen g y m

instance (g : Bool) (y m d : ℤ) : Decidable (Valid g y m d) := by unfold Valid; infer_instance

/-- Position of the date in its year (1 January is 1). -/
def dayOfYear (g : Bool) (y m d : ℤ) : ℤ := (∑ k ∈ Finset.Ico 1 m, monthLen g y k) + d

/-- Number of days from 1 January -4712 to 1 January of year `y` (negative for earlier years). -/
def daysToYear (g : Bool) (y : ℤ) : ℤ :=
  (∑ k ∈ Finset.Ico (-4712) y, yearLen g k) - ∑ k ∈ Finset.Ico y (-4712), yearLen g k

/-- The Julian Day Number of 1 January -4712: 0 in the Julian calendar by definition; the Gregorian
value is fixed by the reform (4 October 1582 Julian was followed by 15 October 1582 Gregorian),
which is what `Verif.Props.Calendar.reform` states. -/
def epoch (g : Bool) : ℤ := if g then 38 else 0

/-- Julian Day Number: the integer Julian Day at noon of the civil date. -/
def jdn (g : Bool) (y m d : ℤ) : ℤ := epoch g + daysToYear g y + (dayOfYear g y m d - 1)

/-- The Julian Day at the beginning (0h) of the civil date. -/
def jd0 (g : Bool) (y m d : ℤ) : ℚ := (jdn g y m d : ℚ) - 1 / 2

/-- The calendar day after `(y, m, d)`. -/
def next (g : Bool) (y m d : ℤ) : ℤ × ℤ × ℤ :=
  if d < monthLen g y m then (y, m, d + 1)
  else if m < 12 then (y, m + 1, 1)
  else (y + 1, 1, 1)

/-- Chronological order of dates: lexicographic. -/
def Before (a b : ℤ × ℤ × ℤ) : Prop :=
  a.1 < b.1 ∨ (a.1 = b.1 ∧ (a.2.1 < b.2.1 ∨ (a.2.1 = b.2.1 ∧ a.2.2 < b.2.2)))

end Verif.Spec
