import Verif.Model.Calendar
import Verif.Model.Util
import Verif.Data.DeltaT

/-!
# `dynamical.py`: ΔT
-/

namespace Verif

/-- `x < row` for Python tuples of two numbers.  Used for the comparisons of line 1225 of dynamical.py. -/
def rowLt (x r : ℚ × ℚ) : Bool := x.1 < r.1 || (x.1 == r.1 && x.2 < r.2)

/-- CPython `bisect.bisect_right(a, x)` between `lo` and `hi` (the loop, with a bound on the number of
turns that `bisect` makes large enough).  Used for line 1225 of dynamical.py. -/
def bisectGo (a : List (ℚ × ℚ)) (x : ℚ × ℚ) : ℕ → ℕ → ℕ → ℕ
  | 0, lo, _ => lo
  | n + 1, lo, hi =>
    if lo < hi then
      let mid := (lo + hi) / 2
      match a[mid]? with
      | none => lo
      | some r => if rowLt x r then bisectGo a x n lo mid else bisectGo a x n (mid + 1) hi
    else lo

/-- `bisect.bisect(a, x)`.  Used for line 1225 of dynamical.py. -/
def bisect (a : List (ℚ × ℚ)) (x : ℚ × ℚ) : ℕ := bisectGo a x a.length 0 a.length

/-- Python `a[i]`: negative indices count from the end; `none` is `IndexError`.
Used for lines 1227-1228 of dynamical.py. -/
def pyGet {α : Type} (a : List α) (i : ℤ) : Option α :=
  if 0 ≤ i then a[i.toNat]? else if -(a.length : ℤ) ≤ i then a[(i + a.length).toNat]? else none

section
variable (fl : ℚ → ℚ)

/-- `dynamical.py` 48-1197 `_tbl`; the seconds are decimal literals, hence rounded. -/
def deltaTTable : List (ℚ × ℚ) := Data.deltaTRaw.map fun r => ((r.1 : ℚ) / 4, fl ((r.2 : ℚ) / 10000))

/-- `dynamical.py` 1244: the middle of the month as a year. -/
def midMonth (yr mo : ℤ) : ℚ := fl (yr + fl (((mo : ℚ) - 1 / 2) / 12))

/-- A reciprocal such as `1 / 0.007129` in the coefficient lists.
Used for lines 1278, 1281, 1290, 1300 and 1303 of dynamical.py. -/
def recip (x : ℚ) : ℚ := fl (1 / fl x)

/-- `dynamical.py` 1245-1318: the formulae for year `yr` and month `mo`. -/
def deltaTFormula (yr mo : ℤ) : ℚ :=
  let y := midMonth fl yr mo
  let t (base : ℚ) : ℚ := fl (fl (y - base) / 100)
  let p (cs : List ℚ) (base : ℚ) : ℚ := horner fl (t base) (cs.map fl)
  let result :=
    if yr < -500 then p [-20, 0, 32] 1820
    else if yr < 500 then
      horner fl (fl (y / 100)) ([10583.6, -1014.41, 33.78311, -5.952053, -0.1798452, 0.022174192,
        0.0090316521].map fl)
    else if yr < 1600 then
      p [1574.2, -556.01, 71.23472, 0.319781, -0.8503463, -0.005050998, 0.0083572073] 1000
    else if yr < 1700 then p [120, -98.08, -153.2, recip fl 0.007129] 1600
    else if yr < 1800 then p [8.83, 16.03, -59.285, 133.36, -recip fl 0.01174] 1700
    else if yr < 1860 then
      p [13.72, -33.2447, 68.612, 4111.6, -37436, 121272, -169900, 87500] 1800
    else if yr < 1900 then
      p [7.62, 57.37, -2517.54, 16806.68, -44736.24, recip fl 0.0000233174] 1860
    else if yr < 1920 then p [-2.79, 149.4119, -598.939, 6196.6, -19700] 1900
    else if yr < 1941 then p [21.20, 84.493, -761, 2093.6] 1920
    else if yr < 1961 then p [29.07, 40.7, -recip fl 0.0233, recip fl 0.002547] 1950
    else if yr < 1986 then p [45.45, 106.7, -recip fl 0.026, -recip fl 0.000718] 1975
    else if yr < 2005 then p [63.86, 33.45, -603.74, 1727.5, 65181.4, 237359.9] 2000
    else if yr < 2050 then p [62.92, 32.217, 55.89] 2000
    else if yr < 2150 then
      let t := t 1820
      fl (fl (-20 + fl (32 * fl (t * t))) - fl (fl 0.5628 * fl (2150 - y)))
    else p [-20, 0, 32] 1820
  let u := fl (y - 1955)
  fl (result + fl (fl (-0.000012932) * fl (u * u)))

/-- `dynamical.py` 1203-1318 `deltaT_seconds` for a scalar. -/
def deltaTSeconds (jd : ℚ) : ℚ :=
  let (yr, mo, _) := jdToCal1 fl jd true
  if 1620 < yr ∧ yr < 2015 then
    let idx := bisect (deltaTTable fl) (jd, 0)
    match pyGet (deltaTTable fl) idx, pyGet (deltaTTable fl) ((idx : ℤ) - 1) with
    | some (jd1, secs1), some (jd0, secs0) =>
      fl (fl (fl (fl (jd - jd0) * fl (secs1 - secs0)) / fl (jd1 - jd0)) + secs0)
    | _, _ => deltaTFormula fl yr mo
  else deltaTFormula fl yr mo

/-- `dynamical.py` 1321-1335 `dt_to_ut` for a scalar. -/
def dtToUt (jd : ℚ) : ℚ := fl (jd - fl (deltaTSeconds fl jd / 86400))

end

end Verif
