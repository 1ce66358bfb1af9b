import Mathlib.Data.Real.Basic

/-!
# Specification of sidereal time
-/

namespace Verif

/-- The IAU 1982 expression for mean sidereal time in degrees (Meeus 12.4), in days and Julian
centuries from J2000. -/
noncomputable def gmstDegrees (jd : ℝ) : ℝ :=
  280.46061837 + 360.98564736629 * (jd - 2451545) + 0.000387933 * ((jd - 2451545) / 36525) ^ 2
    - ((jd - 2451545) / 36525) ^ 3 / 38710000

end Verif
