import Mathlib.Analysis.SpecialFunctions.Trigonometric.Basic

/-!
# Specification of the mean arguments of Sun and Moon

The polynomials of Chapront, in degrees, `T` in Julian centuries of 36525 days from 2000 January 1.5.
-/

namespace Verif
open Real

/-- Julian centuries from J2000. -/
noncomputable def centuries (jd : ℝ) : ℝ := (jd - 2451545) / 36525

/-- The angle of `x` degrees. -/
noncomputable def deg (x : ℝ) : ℝ := x * (π / 180)

/-- The angle of `x` seconds of arc. -/
noncomputable def arcsec (x : ℝ) : ℝ := x * (π / 648000)

namespace Mean

/-- Mean elongation of the Moon, degrees. -/
noncomputable def elongation (T : ℝ) : ℝ :=
  297.8501921 + 445267.1114034 * T - 0.0018819 * T ^ 2 + T ^ 3 / 545868 - T ^ 4 / 113065000

/-- Mean anomaly of the Sun, degrees. -/
noncomputable def sunAnomaly (T : ℝ) : ℝ :=
  357.5291092 + 35999.0502909 * T - 0.0001536 * T ^ 2 + T ^ 3 / 24490000

/-- Mean anomaly of the Moon, degrees. -/
noncomputable def moonAnomaly (T : ℝ) : ℝ :=
  134.9633964 + 477198.8675055 * T + 0.0087414 * T ^ 2 + T ^ 3 / 69699 - T ^ 4 / 14712000

/-- Argument of latitude of the Moon, degrees. -/
noncomputable def moonLatitude (T : ℝ) : ℝ :=
  93.2720950 + 483202.0175233 * T - 0.0036539 * T ^ 2 - T ^ 3 / 3526000 + T ^ 4 / 863310000

/-- Mean longitude of the Moon, degrees. -/
noncomputable def moonLongitude (T : ℝ) : ℝ :=
  218.3164477 + 481267.88123421 * T - 0.0015786 * T ^ 2 + T ^ 3 / 538841 - T ^ 4 / 65194000

/-- Mean longitude of the ascending node of the Moon, degrees. -/
noncomputable def node (T : ℝ) : ℝ :=
  125.0445479 - 1934.1362891 * T + 0.0020754 * T ^ 2 + T ^ 3 / 467441 - T ^ 4 / 60616000

end Mean
end Verif
