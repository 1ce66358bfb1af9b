import Mathlib.Data.Int.Notation

/-! Generated by tools/gen_tables.py from nutation.py; do not edit. -/

namespace Verif.Data

/-- `nutation.py` 47-111 `_tbl`: D, M, M1, F, omega, psiK, psiT, epsK, epsT. -/
def nutationTable : List (ℤ × ℤ × ℤ × ℤ × ℤ × ℤ × ℤ × ℤ × ℤ) := [
  (0, 0, 0, 0, 1, -171996, -1742, 92025, 89), (-2, 0, 0, 2, 2, -13187, -16, 5736, -31), (0, 0, 0, 2, 2, -2274, -2, 977, -5),
  (0, 0, 0, 0, 2, 2062, 2, -895, 5), (0, 1, 0, 0, 0, 1426, -34, 54, -1), (0, 0, 1, 0, 0, 712, 1, -7, 0),
  (-2, 1, 0, 2, 2, -517, 12, 224, -6), (0, 0, 0, 2, 1, -386, -4, 200, 0), (0, 0, 1, 2, 2, -301, 0, 129, -1),
  (-2, -1, 0, 2, 2, 217, -5, -95, 3), (-2, 0, 1, 0, 0, -158, 0, 0, 0), (-2, 0, 0, 2, 1, 129, 1, -70, 0),
  (0, 0, -1, 2, 2, 123, 0, -53, 0), (2, 0, 0, 0, 0, 63, 0, 0, 0), (0, 0, 1, 0, 1, 63, 1, -33, 0),
  (2, 0, -1, 2, 2, -59, 0, 26, 0), (0, 0, -1, 0, 1, -58, -1, 32, 0), (0, 0, 1, 2, 1, -51, 0, 27, 0),
  (-2, 0, 2, 0, 0, 48, 0, 0, 0), (0, 0, -2, 2, 1, 46, 0, -24, 0), (2, 0, 0, 2, 2, -38, 0, 16, 0),
  (0, 0, 2, 2, 2, -31, 0, 13, 0), (0, 0, 2, 0, 0, 29, 0, 0, 0), (-2, 0, 1, 2, 2, 29, 0, -12, 0),
  (0, 0, 0, 2, 0, 26, 0, 0, 0), (-2, 0, 0, 2, 0, -22, 0, 0, 0), (0, 0, -1, 2, 1, 21, 0, -10, 0),
  (0, 2, 0, 0, 0, 17, -1, 0, 0), (2, 0, -1, 0, 1, 16, 0, -8, 0), (-2, 2, 0, 2, 2, -16, 1, 7, 0),
  (0, 1, 0, 0, 1, -15, 0, 9, 0), (-2, 0, 1, 0, 1, -13, 0, 7, 0), (0, -1, 0, 0, 1, -12, 0, 6, 0),
  (0, 0, 2, -2, 0, 11, 0, 0, 0), (2, 0, -1, 2, 1, -10, 0, 5, 0), (2, 0, 1, 2, 2, -8, 0, 3, 0),
  (0, 1, 0, 2, 2, 7, 0, -3, 0), (-2, 1, 1, 0, 0, -7, 0, 0, 0), (0, -1, 0, 2, 2, -7, 0, 3, 0),
  (2, 0, 0, 2, 1, -7, 0, 3, 0), (2, 0, 1, 0, 0, 6, 0, 0, 0), (-2, 0, 2, 2, 2, 6, 0, -3, 0),
  (-2, 0, 1, 2, 1, 6, 0, -3, 0), (2, 0, -2, 0, 1, -6, 0, 3, 0), (2, 0, 0, 0, 1, -6, 0, 3, 0),
  (0, -1, 1, 0, 0, 5, 0, 0, 0), (-2, -1, 0, 2, 1, -5, 0, 3, 0), (-2, 0, 0, 0, 1, -5, 0, 3, 0),
  (0, 0, 2, 2, 1, -5, 0, 3, 0), (-2, 0, 2, 0, 1, 4, 0, 0, 0), (-2, 1, 0, 2, 1, 4, 0, 0, 0),
  (0, 0, 1, -2, 0, 4, 0, 0, 0), (-1, 0, 1, 0, 0, -4, 0, 0, 0), (-2, 1, 0, 0, 0, -4, 0, 0, 0),
  (1, 0, 0, 0, 0, -4, 0, 0, 0), (0, 0, 1, 2, 0, 3, 0, 0, 0), (0, 0, -2, 2, 2, -3, 0, 0, 0),
  (-1, -1, 1, 0, 0, -3, 0, 0, 0), (0, 1, 1, 0, 0, -3, 0, 0, 0), (0, -1, 1, 2, 2, -3, 0, 0, 0),
  (2, -1, -1, 2, 2, -3, 0, 0, 0), (0, 0, 3, 2, 2, -3, 0, 0, 0), (2, -1, 0, 2, 2, -3, 0, 0, 0)]

end Verif.Data
