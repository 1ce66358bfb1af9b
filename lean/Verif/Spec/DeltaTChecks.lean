import Mathlib.Data.Rat.Defs

/-!
# The values of ΔT in the tests
-/

namespace Verif.Spec

/-- `tests/test_dynamical.py` 17-57: year, month and day, and ΔT in seconds. -/
def deltaTChecks : List (ℤ × ℤ × ℤ × ℚ) :=
  [(1977, 1, 18, 47.5), (2012, 12, 1, 66.8), (-600, 1, 1, 18635.4), (-499, 1, 1, 17106.9),
   (-400, 1, 1, 15458.5), (-300, 1, 1, 14011.8), (-200, 1, 1, 12731.5), (-100, 1, 1, 11582.4),
   (0, 1, 1, 10533.7), (100, 1, 1, 9551.9), (200, 1, 1, 8600.4), (300, 1, 1, 7645.2), (400, 1, 1, 6667.5),
   (500, 1, 1, 5682.2), (600, 1, 1, 4715.1), (700, 1, 1, 3792.4), (800, 1, 1, 2938.1), (900, 1, 1, 2185.6),
   (1000, 1, 1, 1562.1), (1100, 1, 1, 1079.2), (1200, 1, 1, 728.9), (1300, 1, 1, 486.2), (1400, 1, 1, 317.7),
   (1500, 1, 1, 195.6), (1600, 1, 1, 118.3), (1700, 1, 1, 21.0), (1750, 1, 1, 13.7), (1800, 1, 1, 12.6),
   (1850, 1, 1, 6.5), (1900, 1, 1, -2.7), (2012, 9, 1, 66.7), (2012, 10, 1, 66.8), (2013, 1, 1, 67.1),
   (2014, 12, 1, 68.9), (2015, 1, 1, 68.9), (2016, 1, 1, 69.4), (2050, 1, 1, 92.9), (2051, 1, 1, 95.0),
   (2150, 1, 1, 328.0), (2151, 1, 1, 330.1), (1950, 1, 1, 29.1)]

end Verif.Spec
