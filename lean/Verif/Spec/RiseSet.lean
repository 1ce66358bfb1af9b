import Verif.Spec.Sphere
import Verif.Spec.Sidereal
import Mathlib.Analysis.SpecialFunctions.Trigonometric.Inverse

/-!
# Specification of hour angle, altitude, transit, rising and setting

Times of a day are counted in days from the Julian Day `jd` of 0h UT.  The coordinates of the object
are given for the days before, of and after (in dynamical time), as unwrapped angles, and between them
by the parabola through the three values.
-/

namespace Verif
noncomputable section
open Real

/-- The parabola (in Lagrange's form) through `(-1, u.1)`, `(0, u.2.1)` and `(1, u.2.2)`. -/
def parabola (u : ℝ × ℝ × ℝ) (n : ℝ) : ℝ :=
  u.1 * (n * (n - 1) / 2) + u.2.1 * (1 - n ^ 2) + u.2.2 * (n * (n + 1) / 2)

/-- Steps from day to day of at most `s`, second difference of at most `c`. -/
def Slow (s c : ℝ) (u : ℝ × ℝ × ℝ) : Prop :=
  |u.2.1 - u.1| ≤ s ∧ |u.2.2 - u.2.1| ≤ s ∧ |u.2.2 - 2 * u.2.1 + u.1| ≤ c

/-- The angles `y` are the reductions to `[0, 2π)` of the unwrapped angles `u`. -/
def Reduced (y u : ℝ × ℝ × ℝ) : Prop :=
  (0 ≤ y.1 ∧ y.1 < 2 * π ∧ ∃ k : ℤ, y.1 = u.1 + k * (2 * π)) ∧
  (0 ≤ y.2.1 ∧ y.2.1 < 2 * π ∧ ∃ k : ℤ, y.2.1 = u.2.1 + k * (2 * π)) ∧
  (0 ≤ y.2.2 ∧ y.2.2 < 2 * π ∧ ∃ k : ℤ, y.2.2 = u.2.2 + k * (2 * π))

/-- Local hour angle (unreduced), `m` days after `jd`, of an object with right ascensions `u` for an
observer at the longitude `lon`, counted positive to the west; `dT` is the difference between
dynamical and universal time in days. -/
def hourAngle (jd lon dT : ℝ) (u : ℝ × ℝ × ℝ) (m : ℝ) : ℝ :=
  gmstDegrees (jd + m) * (π / 180) - lon - parabola u (m + dT)

/-- The object is in the upper meridian: the hour angle is a multiple of a whole turn. -/
def InMeridian (jd lon dT : ℝ) (u : ℝ × ℝ × ℝ) (m : ℝ) : Prop :=
  ∃ k : ℤ, hourAngle jd lon dT u m = k * (2 * π)

/-- Altitude above the horizon, for an observer at latitude `phi`, of the direction with hour angle `H`
and declination `d`. -/
def altitude (phi H d : ℝ) : ℝ := arcsin (toHorizon phi (direction H d)).z

end
end Verif
