import Verif.Model.Float
import Verif.Model.Py
import Mathlib.Analysis.Real.Pi.Bounds
import Mathlib.Algebra.Order.Round

/-!
# `util.py`: angles, sexagesimal numbers, interpolation, polynomials

Functions that only use the four operations are modelled over `ℚ` with the rounding parameter `fl`
(see `Model/Float.lean`); functions with `π` are modelled over the real numbers, where `pi2` is
exactly `2 * π`.
-/

namespace Verif

/-! ### Floats -/

section fl
variable (fl : ℚ → ℚ)

/-- Python and NumPy float `x % y` for `y > 0`: C `fmod` (exact), then `y` is added, rounded, when
the remainder is negative.  Used for lines 377 and 394 of util.py. -/
def floatMod (x y : ℚ) : ℚ :=
  let r := x - y * trunc (x / y)
  if r < 0 then fl (r + y) else r

/-- `util.py` 363-377 `modpi2` with `constants.pi2` the float nearest to `2 π`, any positive float. -/
def modpi2F (pi2 x : ℚ) : ℚ := floatMod fl x pi2

/-- `util.py` 380-394 `mod360`. -/
def mod360F (x : ℚ) : ℚ := floatMod fl x 360

/-- `util.py` 58-78 `d_to_dms`.  `np.modf` is exact and keeps the sign in both parts. -/
def dToDms (x : ℚ) : ℤ × ℤ × ℚ :=
  let frac := x - trunc x
  let m := fl (frac * 60)
  (trunc x, trunc m, fl ((m - trunc m) * 60))

/-- `util.py` 156-162 `dms_to_d` on one element. -/
def dmsToD1 (deg minute sec : ℚ) : ℚ :=
  let result := fl (fl (|deg| + fl (|minute| / 60)) + fl (|sec| / 3600))
  if deg < 0 ∨ minute < 0 ∨ sec < 0 then -result else result

/-- `util.py` 137-162 `dms_to_d`.  The `if` on a comparison of arrays raises unless there is exactly
one element.  (Empty arrays are not modelled faithfully: NumPy versions differ.) -/
def dmsToD (deg minute sec : List ℚ) : Except PyErr (Out ℚ) :=
  match bcast3 deg minute sec with
  | .error e => .error e
  | .ok [r] => .ok (.scalar (dmsToD1 fl r.1 r.2.1 r.2.2))
  | .ok _ => .error (.ValueError "The truth value of an array with more than one element is ambiguous. Use a.any() or a.all()")

end fl

/-- `np.polynomial.polynomial.polyval`: Horner's rule from the last coefficient, in any field with
rounding `fl`.  Used for lines 397-421 of util.py. -/
def horner {α : Type} [Add α] [Mul α] [Zero α] (fl : α → α) (x : α) : List α → α
  | [] => 0
  | [c] => c
  | c :: cs => fl (c + fl (horner fl x cs * x))

/-- `util.py` 397-421 `polynomial`.  `np.polynomial.Polynomial` refuses an empty sequence; with the
default domain and window the argument is used unchanged (`0 + 1 * x`). -/
def polynomial {α : Type} [Add α] [Mul α] [Zero α] (fl : α → α) (terms : List α) (x : α) :
    Except PyErr α :=
  if terms.isEmpty then .error (.ValueError "Coefficient array is empty")
  else .ok (horner fl x terms)

/-- `util.py` 165-189 `interpolate3`, in any ordered field with rounding `fl`; the three values are
`y[0]`, `y[1]`, `y[2]`.  (The number in the message is not modelled.) -/
def interpolate3 {α : Type} [Field α] [LinearOrder α] (fl : α → α) (n y0 y1 y2 : α) :
    Except PyErr α :=
  if ¬ (-1 < n ∧ n < 1) then .error (.Error "util" "interpolating factor out of range")
  else
    let a := fl (y1 - y0)
    let b := fl (y2 - y1)
    let c := fl (b - a)
    .ok (fl (y1 + fl (fl (n / 2) * fl (fl (a + b) + fl (n * c)))))

/-! ### Reals -/

noncomputable section
open Real

/-- Python's floor modulo on the reals.  Used for lines 377 and 394 of util.py. -/
def rmod (x y : ℝ) : ℝ := x - y * ⌊x / y⌋

/-- `constants.py`: `pi2 = 2 * pi`. -/
def pi2 : ℝ := 2 * π

/-- `util.py` 363-377 `modpi2`. -/
def modpi2 (x : ℝ) : ℝ := rmod x pi2

/-- `util.py` 380-394 `mod360`. -/
def mod360 (x : ℝ) : ℝ := rmod x 360

/-- `util.py` 81-95 `d_to_r`. -/
def dToR (d : ℝ) : ℝ := d * π / 180

/-- `util.py` 98-112 `r_to_d`. -/
def rToD (r : ℝ) : ℝ := r * 180 / π

/-- `util.py` 115-134 `diff_angle`. -/
def diffAngle (a b : ℝ) : ℝ :=
  let result := if b < a then b + pi2 - a else b - a
  if result > π then result - pi2 else result

/-- `util.py` 192-216 `interpolate_angle3`. -/
def interpolateAngle3 (n y0 y1 y2 : ℝ) : Except PyErr ℝ :=
  if ¬ (-1 < n ∧ n < 1) then .error (.Error "util" "interpolating factor out of range")
  else
    let a := diffAngle y0 y1
    let b := diffAngle y1 y2
    let c := diffAngle a b
    .ok (y1 + n / 2 * (a + b + n * c))

/-- `calendar.py` 542-557 `jd_to_jcent`, over the reals. -/
def jcent (jd : ℝ) : ℝ := (jd - 2451545) / 36525

/-- `calendar.py` 599-623 `sidereal_time_greenwich`. -/
def siderealTimeGreenwich (jd : ℝ) : ℝ :=
  let T := jcent jd
  let T2 := T * T
  let T3 := T2 * T
  let theta0 := 280.46061837 + 360.98564736629 * (jd - 2451545) + 0.000387933 * T2 - T3 / 38710000
  modpi2 (dToR theta0)

end

end Verif
