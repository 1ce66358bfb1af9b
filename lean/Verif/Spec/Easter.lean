import Verif.Spec.Calendar

/-!
# The ecclesiastical Easter rules, independently of the code

Easter Sunday is the first Sunday strictly after the paschal full moon.  The paschal full moon is a
tabular date, not an astronomical event.  It is given here as a day of March (32 March is 1 April).
-/

namespace Verif.Spec

/-- Golden number of the year, 1 to 19. -/
def golden (y : ℤ) : ℤ := y % 19 + 1

/-- The Alexandrian table of paschal full moons by golden number (Julian calendar), as days of
March: 5 April, 25 March, 13 April, 2 April, 22 March, 10 April, 30 March, 18 April, 7 April,
27 March, 15 April, 4 April, 24 March, 12 April, 1 April, 21 March, 9 April, 29 March, 17 April. -/
def julianMoon (y : ℤ) : ℤ :=
  match golden y with
  | 1 => 31 + 5 | 2 => 25 | 3 => 31 + 13 | 4 => 31 + 2 | 5 => 22 | 6 => 31 + 10 | 7 => 30
  | 8 => 31 + 18 | 9 => 31 + 7 | 10 => 27 | 11 => 31 + 15 | 12 => 31 + 4 | 13 => 24 | 14 => 31 + 12
  | 15 => 31 + 1 | 16 => 21 | 17 => 31 + 9 | 18 => 29 | _ => 31 + 17

/-- Solar correction of the Gregorian reform: the number of leap days dropped in century years
(counted from a fixed epoch); `c` is the century `y / 100`. -/
def solar (c : ℤ) : ℤ := 3 * (c + 1) / 4 - 12

/-- Lunar correction: 8 days in 2500 years. -/
def lunarCorr (c : ℤ) : ℤ := (8 * (c + 1) + 5) / 25 - 5

/-- The Gregorian epact before the exceptional rule, 0 to 29. -/
def epact (y : ℤ) : ℤ := (11 * golden y + 20 + lunarCorr (y / 100) - solar (y / 100)) % 30

/-- Clavius' exception: epact 24 counts as 25, and 25 as 26 for golden numbers above 11. -/
def epact' (y : ℤ) : ℤ :=
  if epact y = 24 ∨ (epact y = 25 ∧ 11 < golden y) then epact y + 1 else epact y

/-- The Gregorian paschal full moon as a day of March: the fourteenth day of the lunation, on or
after 21 March. -/
def gregorianMoon (y : ℤ) : ℤ := if 44 - epact' y < 21 then 74 - epact' y else 44 - epact' y

/-- Sundays have Julian Day Number 6 modulo 7. -/
def IsSunday (n : ℤ) : Prop := n % 7 = 6

/-- The Julian Day Number of the paschal full moon. -/
def moonDay (g : Bool) (y : ℤ) : ℤ :=
  jdn g y 3 0 + if g then gregorianMoon y else julianMoon y

/-- `(m, d)` is the date of Easter: a valid date, a Sunday, the first one strictly after the
paschal full moon. -/
def IsEaster (g : Bool) (y m d : ℤ) : Prop :=
  Valid g y m d ∧ IsSunday (jdn g y m d) ∧ moonDay g y < jdn g y m d ∧
    ∀ n, moonDay g y < n → IsSunday n → jdn g y m d ≤ n

end Verif.Spec
