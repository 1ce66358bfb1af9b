import Verif.Model.Py

/-!
# `src/astronomia/calendar.py`

Arrays are lists (`np.atleast_1d(scalar)` is a list of length one), and every function returns
`scalarIfOne` of its result list as the code does.  `fl` is the rounding function applied to the
result of every float operation (see `Verif.Model.Float`).  An integer operand of a mixed
operation is converted to float by NumPy; the model leaves that conversion implicit, which is
exact for integers up to `2^53`.  Overflow of int64 is not modelled.
-/

namespace Verif
variable (fl : ℚ → ℚ)

/-! ### Leap years -/

/-- `calendar.py` 495-520 `is_leap_year`, one element, after the cast to int64.
`np.fmod` on integers is the remainder of truncated division. -/
def isLeapYear1 (year : ℤ) (gregorian : Bool) : Bool :=
  let x := Int.tmod year 4
  if gregorian then
    let y := Int.tmod year 100
    let z := Int.tmod year 400
    !(x != 0) && (y != 0 || !(z != 0))
  else x == 0

/-- `calendar.py` 495-520 `is_leap_year`. -/
def isLeapYear (year : List Num) (gregorian : Bool) : Out Bool :=
  scalarIfOne (year.map fun y => isLeapYear1 y.toInt gregorian)

/-! ### `cal_to_jd` -/

/-- `calendar.py` 203-208 `_extracted_from_cal_to_jd_21`. -/
def checkInt (arg : List Num) (msg : String) : Except PyErr Unit :=
  if arg.any fun a => fl (a.val - a.toI32) > 0 then .error (.ValueError msg) else .ok ()

/-- `calendar.py` 184-199: the arithmetic of `cal_to_jd` on one element.
`365.25` is a binary64 number, `30.6001` is not, hence `fl (306001 / 10000)`.
`A`, `B` and the two truncated terms are int64. -/
def calToJdCore (year mon : ℚ) (day : ℚ) (gregorian : Bool) : ℚ :=
  let (year, mon) := if mon ≤ 2 then (fl (year - 1), fl (mon + 12)) else (year, mon)
  let B : ℤ :=
    if gregorian then
      let A := trunc (fl (year / 100))
      2 - A + trunc (fl (A / 4))
    else 0
  let t1 := trunc (fl (fl (1461 / 4) * fl (year + 4716)))
  let t2 := trunc (fl (fl (306001 / 10000) * fl (mon + 1)))
  fl (fl (fl (((t1 + t2 : ℤ) : ℚ) + day) + B) - 3049 / 2)

/-- `calendar.py` 133-199 `cal_to_jd`; the checks in source order, each over the whole array. -/
def calToJd (year mon : List Num) (day : List ℚ) (gregorian : Bool) :
    Except PyErr (Out ℚ) :=
  match checkInt fl year "Year must be integer. Use frac_yr_to_jd instead." with
  | .error e => .error e
  | .ok () =>
  match checkInt fl mon "Month must be integer. Use yr_frac_mon_to_jd instead." with
  | .error e => .error e
  | .ok () =>
  if mon.any (fun m => m.val > 12) || mon.any (fun m => m.val < 1) then
    .error (.ValueError "Month must be from 1 to 12")
  else if day.any (fun d => d > 31) || day.any (fun d => d < 1) then
    .error (.ValueError "Day must be from 1 to 31")
  else
  match bcast3 year mon day with
  | .error e => .error e
  | .ok rows =>
  -- for thirtydays in (9, 4, 6, 11)
  if [(9 : ℚ), 4, 6, 11].any fun thirty => rows.any fun r => r.2.1.val = thirty && r.2.2 > 30 then
    .error (.ValueError "Day must be from 1 to 30")
  else if rows.any fun r => isLeapYear1 r.1.toInt gregorian && (r.2.2 > 29 && r.2.1.val = 2) then
    .error (.ValueError "Day must be from 1 to 29")
  else if rows.any fun r => !isLeapYear1 r.1.toInt gregorian && (r.2.2 > 28 && r.2.1.val = 2) then
    .error (.ValueError "Day must be from 1 to 28")
  else
    .ok (scalarIfOne (rows.map fun r => calToJdCore fl r.1.val r.2.1.val r.2.2 gregorian))

/-! ### `jd_to_cal` -/

/-- `calendar.py` 231-247: `jd_to_cal` on one element; returns year, month and day.
`np.modf` is exact.  `A`, `B` and `Z` are float64, `alpha`, `C`, `D`, `E` int64. -/
def jdToCal1 (jd : ℚ) (gregorian : Bool) : ℤ × ℤ × ℚ :=
  let s := fl (jd + 1 / 2)
  let Z : ℚ := trunc s
  let F := s - Z
  let A :=
    if gregorian then
      let alpha := trunc (fl (fl (Z - 7468865 / 4) / (146097 / 4)))
      fl (fl (fl (Z + 1) + alpha) - trunc (fl (alpha / 4)))
    else Z
  let B := fl (A + 1524)
  let C := trunc (fl (fl (B - fl (1221 / 10)) / (1461 / 4)))
  let D := trunc (fl (fl (1461 / 4) * C))
  let E := trunc (fl (fl (B - D) / fl (306001 / 10000)))
  let day := fl (fl (fl (B - D) - trunc (fl (fl (306001 / 10000) * E))) + F)
  let mon := if E < 14 then E - 1 else E - 13
  let year := if mon > 2 then C - 4716 else C - 4715
  (year, mon, day)

/-- `calendar.py` 211-247 `jd_to_cal`. -/
def jdToCal (jd : List ℚ) (gregorian : Bool) : Out ℤ × Out ℤ × Out ℚ :=
  let rows := jd.map fun j => jdToCal1 fl j gregorian
  (scalarIfOne (rows.map (·.1)), scalarIfOne (rows.map (·.2.1)), scalarIfOne (rows.map (·.2.2)))

/-! ### Day of the year -/

/-- `calendar.py` 308-320: `cal_to_day_of_year` on one element after the casts to int64. -/
def calToDayOfYear1 (year mon day : ℤ) (gregorian : Bool) : ℤ :=
  let K : ℤ := if isLeapYear1 year gregorian then 1 else 2
  trunc (fl ((275 * mon : ℤ) / 9)) - K * trunc (fl ((mon + 9 : ℤ) / 12)) + day - 30

/-- `calendar.py` 284-320 `cal_to_day_of_year`. -/
def calToDayOfYear (year mon day : List Num) (gregorian : Bool) : Except PyErr (Out ℤ) :=
  match bcast3 (year.map Num.toInt) (mon.map Num.toInt) (day.map Num.toInt) with
  | .error e => .error e
  | .ok rows => .ok (scalarIfOne (rows.map fun r => calToDayOfYear1 fl r.1 r.2.1 r.2.2 gregorian))

/-- `calendar.py` 345-357: `day_of_year_to_cal` on one element; `N` may be a float. -/
def dayOfYearToCal1 (year : ℤ) (N : ℚ) (gregorian : Bool) : ℤ × ℤ :=
  let K : ℚ := if isLeapYear1 year gregorian then 1 else 2
  let mon : ℤ := trunc (fl (fl (fl (9 * fl (K + N)) / 275) + fl (98 / 100)))
  let mon : ℤ := if N < 32 then 1 else mon
  let day := trunc (fl (fl (fl (N - trunc (fl ((275 * mon : ℤ) / 9)))
    + fl (K * trunc (fl ((mon + 9 : ℤ) / 12)))) + 30))
  (mon, day)

/-- `calendar.py` 323-357 `day_of_year_to_cal`. -/
def dayOfYearToCal (year N : List Num) (gregorian : Bool) : Except PyErr (Out ℤ × Out ℤ) :=
  match bcast2 year N with
  | .error e => .error e
  | .ok rows =>
    let r := rows.map fun r => dayOfYearToCal1 fl r.1.toInt r.2.val gregorian
    .ok (scalarIfOne (r.map (·.1)), scalarIfOne (r.map (·.2)))

/-! ### Easter -/

/-- `calendar.py` 389-395 `_extracted_from_easter_31` (Julian).  `%` is Python's floor modulo,
which for these positive moduli is `Int.emod`. -/
def easterJulian (year : ℤ) : ℤ :=
  let a := year % 4
  let b := year % 7
  let c := year % 19
  let d := (19 * c + 15) % 30
  let e := (2 * a + 4 * b - d + 34) % 7
  d + e + 114

/-- `calendar.py` 399-412 `_extracted_from_easter_17` (Gregorian). -/
def easterGregorian (year : ℤ) : ℤ :=
  let a := year % 19
  let b := year / 100
  let c := year % 100
  let d := b / 4
  let e := b % 4
  let f := (b + 8) / 25
  let g := (b - f + 1) / 3
  let h := (19 * a + b - d - g + 15) % 30
  let i := c / 4
  let k := c % 4
  let weekday := (32 + 2 * e + 2 * i - h - k) % 7
  let m := (a + 11 * h + 22 * weekday) / 451
  h + weekday - 7 * m + 114

/-- `calendar.py` 360-385 `easter` on one (integer) year: month and day. -/
def easter1 (year : ℤ) (gregorian : Bool) : ℤ × ℤ :=
  let tmp := if gregorian then easterGregorian year else easterJulian year
  (tmp / 31, tmp % 31 + 1)

/-- `calendar.py` 360-385 `easter` (integer years; float years are in `Model/FloatEaster.lean`). -/
def easter (year : List ℤ) (gregorian : Bool) : Out ℤ × Out ℤ :=
  let r := year.map fun y => easter1 y gregorian
  (scalarIfOne (r.map (·.1)), scalarIfOne (r.map (·.2)))

/-! ### Times of day -/

/-- `calendar.py` 415-440 `fday_to_hms`.  The minutes are a float in Python, always with an
integral value; returned here as `ℚ`. -/
def fdayToHms (day : ℚ) : ℤ × ℚ × ℤ :=
  let fday := day - trunc day
  let seconds := fl (fday * 86400)
  let minutes := trunc (fl (seconds / 60))
  let seconds := fl (seconds - fl (minutes * 60))
  let hours := trunc (fl (minutes / 60))
  let minutes := fl (minutes - fl (hours * 60))
  (hours, minutes, trunc seconds)

/-- `calendar.py` 443-465 `hms_to_fday` on one element. `constants.py`: `minutes_per_day`
is 1440.0, `seconds_per_day` is 86400.0. -/
def hmsToFday1 (hr mn sec : ℚ) : ℚ :=
  fl (fl (fl (hr / 24) + fl (mn / 1440)) + fl (sec / 86400))

/-- `calendar.py` 443-465 `hms_to_fday`; returns an array, also for scalars. -/
def hmsToFday (hr mn sec : List ℚ) : Except PyErr (List ℚ) :=
  match bcast3 hr mn sec with
  | .error e => .error e
  | .ok rows => .ok (rows.map fun r => hmsToFday1 fl r.1 r.2.1 r.2.2)

/-- `calendar.py` 250-281 `cal_to_jde`. -/
def calToJde (year mon : List Num) (day : List ℚ) (hour minute sec : List ℚ) (gregorian : Bool) :
    Except PyErr (Out ℚ) :=
  match calToJd fl year mon day gregorian with
  | .error e => .error e
  | .ok jde =>
  match hmsToFday fl hour minute sec with
  | .error e => .error e
  | .ok f =>
  match bcast2 jde.toList f with
  | .error e => .error e
  | .ok rows => .ok (scalarIfOne (rows.map fun r => fl (r.1 + r.2)))

/-! ### Day of week, centuries -/

/-- `calendar.py` 523-539 `jd_to_day_of_week` on one element. -/
def jdToDayOfWeek1 (jd : ℚ) : ℤ := trunc (fl (jd + 3 / 2)) % 7

/-- `calendar.py` 523-539 `jd_to_day_of_week`. -/
def jdToDayOfWeek (jd : List ℚ) : Out ℤ := scalarIfOne (jd.map fun j => jdToDayOfWeek1 fl j)

/-- `calendar.py` 542-557 `jd_to_jcent` on one element. -/
def jdToJcent1 (jd : ℚ) : ℚ := fl (fl (jd - 2451545) / 36525)

/-! ### Fractional years and months -/

/-- Assignment `dst[mask] = vals` where `mask` is computed from the rows: the masked positions
receive the values in order.  Used for lines 85 and 128 of calendar.py. -/
def maskAssign : List Bool → List ℚ → List ℚ → List ℚ
  | true :: m, _ :: d, v :: vs => v :: maskAssign m d vs
  | true :: m, x :: d, [] => x :: maskAssign m d []
  | false :: m, x :: d, vs => x :: maskAssign m d vs
  | [], d, _ => d
  | _ :: _, [], _ => []

/-- Elementwise float subtraction of two equally long arrays.  Used for lines 80, 84, 116, 125-127 of calendar.py. -/
def subArr (a b : List ℚ) : List ℚ := List.zipWith (fun x y => fl (x - y)) a b

/-- Elementwise float product of two equally long arrays.  Used for lines 85 and 128 of calendar.py. -/
def mulArr (a b : List ℚ) : List ℚ := List.zipWith (fun x y => fl (x * y)) a b

/-- Elementwise float sum of two equally long arrays.  Used for lines 86 and 129 of calendar.py. -/
def addArr (a b : List ℚ) : List ℚ := List.zipWith (fun x y => fl (x + y)) a b

/-- `calendar.py` 56-87 `frac_yr_to_jd`.  The `gregorian` argument is accepted and ignored, as in
the source (the inner calls of `cal_to_jd` use its default `True`).  The arithmetic `year + 1` on
int32 arrays is modelled without overflow. -/
def fracYrToJd (year : List Num) (_gregorian : Bool) : Except PyErr (Out ℚ) :=
  let fyear := year.map fun y => fl (y.val - y.toI32)
  let mask := fyear.map fun f => decide (f > 0)
  let day := List.replicate year.length (0 : ℚ)
  if mask.any (· = true) then
    let yi := year.map Num.toI32
    let ym := ((yi.zip mask).filter (·.2)).map (·.1)
    let fm := ((fyear.zip mask).filter (·.2)).map (·.1)
    match calToJd fl (ym.map fun y => .int (y + 1)) [.int 1] [1] true with
    | .error e => .error e
    | .ok j1 =>
    match calToJd fl (ym.map fun y => .int y) [.int 1] [1] true with
    | .error e => .error e
    | .ok j0 =>
    let daysInYear := subArr fl j1.toList j0.toList
    let day := maskAssign mask day (mulArr fl daysInYear fm)
    match calToJd fl (yi.map fun y => .int y) [.int 1] [1] true with
    | .error e => .error e
    | .ok j => .ok (scalarIfOne (addArr fl j.toList day))
  else
    calToJd fl year [.int 1] [1] true

/-- `calendar.py` 90-130 `yr_frac_mon_to_jd`, with integer years.  `gregorian` is ignored as in
the source. -/
def yrFracMonToJd (year : List ℤ) (mon : List ℚ) (_gregorian : Bool) : Except PyErr (Out ℚ) :=
  match bcast2 year mon with
  | .error e => .error e
  | .ok rows =>
  let fmon := rows.map fun r => fl (r.2 - (Num.flt r.2).toI32)
  let mask := fmon.map fun f => decide (f > 0)
  let day := List.replicate rows.length (0 : ℚ)
  if mask.any (· = true) then
    let moni := rows.map fun r => (Num.flt r.2).toI32
    let years := rows.map (·.1)
    let nextMon := moni.map fun m => if m + 1 = 13 then 1 else m + 1
    let nextYear := List.zipWith (fun y m => if m + 1 = 13 then y + 1 else y) years moni
    let sel := fun (l : List ℤ) => ((l.zip mask).filter (·.2)).map (fun p => Num.int p.1)
    match calToJd fl (sel nextYear) (sel nextMon) [1] true with
    | .error e => .error e
    | .ok j1 =>
    match calToJd fl (sel years) (sel moni) [1] true with
    | .error e => .error e
    | .ok j0 =>
    let daysInMon := subArr fl j1.toList j0.toList
    let day := maskAssign mask day
      (mulArr fl daysInMon (((fmon.zip mask).filter (·.2)).map (·.1)))
    match calToJd fl (years.map .int) (moni.map .int) [1] true with
    | .error e => .error e
    | .ok j => .ok (scalarIfOne (addArr fl j.toList day))
  else
    calToJd fl (rows.map fun r => .int r.1) (rows.map fun r => .flt r.2) [1] true

/-! ### Formatting and local time -/

/-- Python `f"{n:02}"` for an integer: zero padded to width 2 (the sign counts).
Used for lines 588-594 of calendar.py. -/
def pad2 (n : ℤ) : String :=
  if 0 ≤ n ∧ n < 10 then "0" ++ toString n else toString n

/-- Python `f"{x:02}"` for a float with an integral value below `10^16`: `repr` gives `n.0`, which
is at least three characters long, so the width 2 never pads.  Used for lines 588-594 of calendar.py. -/
def fmtFloat (x : ℚ) : String := toString (trunc x) ++ ".0"

/-- `calendar.py` 560-596 `lt_to_str` for a scalar Julian Day. -/
def ltToStr (jd : ℚ) (zone level : String) : Except PyErr String :=
  let (year, mon, day) := jdToCal1 fl jd true
  let iday := trunc day
  let fday := day - iday
  let (hour, minute, sec) := fdayToHms fl fday
  if level = "second" then
    .ok s!"{year}-{pad2 mon}-{pad2 iday} {pad2 hour}:{fmtFloat minute}:{pad2 sec} {zone}"
  else if level = "minute" then
    .ok s!"{year}-{pad2 mon}-{pad2 iday} {pad2 hour}:{fmtFloat minute} {zone}"
  else if level = "hour" then
    .ok s!"{year}-{pad2 mon}-{pad2 iday} {pad2 hour} {zone}"
  else if level = "day" then
    .ok s!"{year}-{pad2 mon}-{pad2 iday}"
  else .error (.Error "calendar" s!"unknown time level = {level}")

/-- A `datetime.datetime` value: its six fields.  Used for line 491 of calendar.py. -/
structure Stamp where
  year : ℤ
  mon : ℤ
  day : ℤ
  hour : ℤ
  minute : ℤ
  second : ℤ

/-- CPython's `datetime.datetime(year, month, day, hour, minute, second)`: the arguments are first
all parsed as C ints in order (a float is a `TypeError`, a too large int an `OverflowError`), only
then the ranges are checked.  Used for line 491 of calendar.py. -/
def datetimeNew (year mon day hour minute second : Num) : Except PyErr Stamp :=
  let parse : Num → Except PyErr ℤ := fun
    | .int n => if -2 ^ 31 ≤ n ∧ n < 2 ^ 31 then .ok n
        else .error (.OverflowError "Python int too large to convert to C int")
    | .flt _ => .error (.TypeError "'float' object cannot be interpreted as an integer")
  match parse year, parse mon, parse day, parse hour, parse minute, parse second with
  | .ok y, .ok mo, .ok d, .ok h, .ok mi, .ok s =>
    if 1 ≤ y ∧ y ≤ 9999 ∧ 1 ≤ mo ∧ mo ≤ 12 ∧ 1 ≤ d ∧ d ≤ 31 ∧ 0 ≤ h ∧ h < 24 ∧ 0 ≤ mi ∧ mi < 60
        ∧ 0 ≤ s ∧ s < 60 then .ok ⟨y, mo, d, h, mi, s⟩
    else .error (.ValueError "out of range")
  | .error e, _, _, _, _, _ => .error e
  | _, .error e, _, _, _, _ => .error e
  | _, _, .error e, _, _, _ => .error e
  | _, _, _, .error e, _, _ => .error e
  | _, _, _, _, .error e, _ => .error e
  | _, _, _, _, _, .error e => .error e

/-- `calendar.py` 468-492 `is_dst`.  The time zone database (`time.mktime`, `time.localtime`) is
the arbitrary function `tmIsdst` from time stamps to the `tm_isdst` flag. -/
def isDst (tmIsdst : Stamp → ℤ) (jd : ℚ) : Except PyErr Bool :=
  let (year, mon, day) := jdToCal1 fl jd true
  let day := trunc day
  let (hr, minute, second) := fdayToHms fl jd
  match datetimeNew (.int year) (.int mon) (.int day) (.int hr) (.flt minute) (.int second) with
  | .error e => .error e
  | .ok stamp => .ok (tmIsdst stamp == 1)

/-- The time zone settings of `globals.py` 24-47. The daylight zone is `None` by default. -/
structure Zones where
  standardName : String
  standardOffset : ℚ
  daylightName : Option String
  daylightOffset : Option ℚ

/-- `calendar.py` 626-654 `ut_to_lt`. Subtracting `None` is a `TypeError`. -/
def utToLt (tmIsdst : Stamp → ℤ) (z : Zones) (jd : ℚ) : Except PyErr (ℚ × Option String) :=
  match isDst fl tmIsdst jd with
  | .error e => .error e
  | .ok true =>
    match z.daylightOffset with
    | none => .error (.TypeError "unsupported operand type(s) for -: 'float' and 'NoneType'")
    | some off => .ok (fl (jd - off), z.daylightName)
  | .ok false => .ok (fl (jd - z.standardOffset), some z.standardName)

end Verif
