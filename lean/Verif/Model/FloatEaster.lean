import Verif.Model.Calendar
import Verif.Model.Util

/-!
# `calendar.easter` for years given as floats
-/

namespace Verif
variable (fl : ℚ → ℚ)

/-- NumPy's float `x // y` for `y > 0` (`npy_floor_divide`): `fmod`, a division, and a correction to the
nearest whole number.  Used for lines 383-410 of calendar.py. -/
def floatFloorDiv (x y : ℚ) : ℚ :=
  let mod := x - y * trunc (x / y)
  let div := fl (fl (x - mod) / y)
  let div := if mod < 0 then fl (div - 1) else div
  if div = 0 then 0
  else if fl (div - ⌊div⌋) > 1 / 2 then fl (⌊div⌋ + 1) else ⌊div⌋

/-- `calendar.py` 389-395 `_extracted_from_easter_31` (Julian). -/
def easterJulianF (year : ℚ) : ℚ :=
  let a := floatMod fl year 4
  let b := floatMod fl year 7
  let c := floatMod fl year 19
  let d := floatMod fl (fl (fl (19 * c) + 15)) 30
  let e := floatMod fl (fl (fl (fl (fl (2 * a) + fl (4 * b)) - d) + 34)) 7
  fl (fl (d + e) + 114)

/-- `calendar.py` 399-412 `_extracted_from_easter_17` (Gregorian). -/
def easterGregorianF (year : ℚ) : ℚ :=
  let a := floatMod fl year 19
  let b := floatFloorDiv fl year 100
  let c := floatMod fl year 100
  let d := floatFloorDiv fl b 4
  let e := floatMod fl b 4
  let f := floatFloorDiv fl (fl (b + 8)) 25
  let g := floatFloorDiv fl (fl (fl (b - f) + 1)) 3
  let h := floatMod fl (fl (fl (fl (fl (fl (19 * a) + b) - d) - g) + 15)) 30
  let i := floatFloorDiv fl c 4
  let k := floatMod fl c 4
  let weekday := floatMod fl (fl (fl (fl (fl (32 + fl (2 * e)) + fl (2 * i)) - h) - k)) 7
  let m := floatFloorDiv fl (fl (fl (a + fl (11 * h)) + fl (22 * weekday))) 451
  fl (fl (fl (h + weekday) - fl (7 * m)) + 114)

/-- `calendar.py` 360-385 `easter` on one float year: month and day. -/
def easterF (year : ℚ) (gregorian : Bool) : ℚ × ℚ :=
  let tmp := if gregorian then easterGregorianF fl year else easterJulianF fl year
  (floatFloorDiv fl tmp 31, fl (floatMod fl tmp 31 + 1))

end Verif
