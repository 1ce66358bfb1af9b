import Mathlib.Data.Int.Notation

/-! Generated by tools/gen_tables.py from equinox.py; do not edit. -/

namespace Verif.Data

/-- `equinox.py` 44-49 `_approx_1000`, in units of 1e-5. -/
def approx1000 : List (String × List ℤ) := [
  ("spring", [172113929189, 36524213740, 6134, 111, -71]),
  ("summer", [172123325401, 36524172562, -5323, 907, -25]),
  ("autumn", [172132570455, 36524249558, -11677, -297, 74]),
  ("winter", [172141439987, 36524288257, -769, -933, -6])]

/-- `equinox.py` 54-59 `_approx_3000`, in units of 1e-5. -/
def approx3000 : List (String × List ℤ) := [
  ("spring", [245162380984, 36524237404, 5169, -411, -57]),
  ("summer", [245171656767, 36524162603, 325, 888, -30]),
  ("autumn", [245181021715, 36524201767, -11575, 337, 78]),
  ("winter", [245190005952, 36524274049, -6223, -823, 32])]

/-- `equinox.py` 64-89 `_terms`: amplitude; phase and frequency (arguments of `d_to_r`) in units of 0.001 degree. -/
def equinoxTerms : List (ℤ × ℤ × ℤ) := [
  (485, 324960, 1934136), (203, 337230, 32964467), (199, 342080, 20186),
  (182, 27850, 445267112), (156, 73140, 45036886), (136, 171520, 22518443),
  (77, 222540, 65928934), (74, 296720, 3034906), (70, 243580, 9037513),
  (58, 119810, 33718147), (52, 297170, 150678), (50, 21020, 2281226),
  (45, 247540, 29929562), (44, 325150, 31555956), (29, 60930, 4443417),
  (18, 155120, 67555328), (17, 288790, 4562452), (16, 198040, 62894029),
  (14, 199760, 31436921), (12, 95390, 14577848), (12, 287110, 31931756),
  (12, 320810, 34777259), (9, 227730, 1222114), (8, 15450, 16859074)]

end Verif.Data
