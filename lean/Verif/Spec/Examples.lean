import Mathlib.Data.Rat.Defs
import Mathlib.Tactic.NormNum

/-!
# Published positions of Sun and Moon

The mean elements of Sun and Moon in P. Schureman, Manual of harmonic analysis and prediction of tides
(U.S. Coast and Geodetic Survey, Special Publication 98), as quoted in `tests/test_elp2000.py` and
`tests/test_sun.py`.
-/

namespace Verif.Spec

/-- Julian day; longitudes, in degrees, of the ascending node of the Moon, of the perigee of the Moon, of the
mean Moon, of the mean Sun and of the perigee of the Sun.  1800 January 1 to 2000 January 1 in steps of 20
years, 1990 March 3 18h, 1999 January 10 3h. -/
def schureman : List (ℚ × ℚ × ℚ × ℚ × ℚ × ℚ) := [
  (2378496.5, 33.25, 225.45, 342.31, 280.41, 279.50),
  (2385800.5, 6.47, 319.15, 102.71, 279.57, 279.85),
  (2393105.5, 339.64, 52.96, 236.29, 279.73, 280.19),
  (2400410.5, 312.81, 146.77, 9.87, 279.88, 280.53),
  (2407715.5, 285.98, 240.58, 143.45, 280.04, 280.88),
  (2415020.5, 259.16, 334.38, 277.03, 280.19, 281.22),
  (2422324.5, 232.38, 68.08, 37.43, 279.36, 281.56),
  (2429629.5, 205.55, 161.88, 171.01, 279.51, 281.91),
  (2436934.5, 178.72, 255.69, 304.59, 279.67, 282.25),
  (2444239.5, 151.89, 349.49, 78.16, 279.82, 282.60),
  (2451544.5, 125.07, 83.29, 211.74, 279.97, 282.94),
  (2447954.25, 315.18, 43.32, 65.18, 341.25, 282.77),
  (2451188.625, 143.90, 43.64, 202.60, 289.20, 282.92)]

end Verif.Spec
