import Verif.Model.Util
import Mathlib.Analysis.SpecialFunctions.Complex.Arg
import Mathlib.Analysis.SpecialFunctions.Trigonometric.Inverse

/-!
# Model of `coordinates.py`

Real arithmetic.  Arguments are single numbers; numpy applies every operation used here
elementwise to arrays.
-/

namespace Verif
noncomputable section
open Real

/-- `numpy.arctan2` on real numbers (no signed zeros): the argument of the point `(x, y)`,
`0` at the origin.  Used for lines 67, 100, 145 and 178 of coordinates.py and lines 248-249 of planets.py. -/
def arctan2 (y x : ℝ) : ℝ := Complex.arg ⟨x, y⟩

/-- `coordinates.py` 40-69 `ecl_to_equ`. -/
def eclToEqu (longitude latitude obliquity : ℝ) : ℝ × ℝ :=
  let cose := cos obliquity
  let sine := sin obliquity
  let sinl := sin longitude
  let ra := modpi2 (arctan2 (sinl * cose - tan latitude * sine) (cos longitude))
  let dec := arcsin (sin latitude * cose + cos latitude * sine * sinl)
  (ra, dec)

/-- `coordinates.py` 72-102 `equ_to_horiz`; the first argument is `globals.latitude`. -/
def equToHoriz (gLatitude H decl : ℝ) : ℝ × ℝ :=
  let cosH := cos H
  let sinLat := sin gLatitude
  let cosLat := cos gLatitude
  let A := arctan2 (sin H) (cosH * sinLat - tan decl * cosLat)
  let h := arcsin (sinLat * sin decl + cosLat * cos decl * cosH)
  (A, h)

/-- `constants.py` 45. -/
def earthEquRadius : ℝ := 6378.1363

/-- `coordinates.py` 105-148 `ell_to_geo`. -/
def ellToGeo (latitude longitude height : ℝ) : ℝ × ℝ × ℝ :=
  let f := 1.0 / 298.2564219846
  let ea := earthEquRadius / 1000
  let ee := 2.0 * f - f * f
  let sinLat := sin latitude
  let cosLat := cos latitude
  let N := ea / √(1.0 - ee * sinLat * sinLat)
  let Hx := (N + height) * cosLat
  let Hy := (N * (1 - ee) + height) * sinLat
  let r := √(Hx * Hx + Hy * Hy)
  let theta := arctan2 Hx Hy
  let phi := longitude
  (r, theta, phi)

/-- `coordinates.py` 151-180 `equ_to_ecl`. -/
def equToEcl (ra dec obliquity : ℝ) : ℝ × ℝ :=
  let cose := cos obliquity
  let sine := sin obliquity
  let sina := sin ra
  let longitude := modpi2 (arctan2 (sina * cose + tan dec * sine) (cos ra))
  let latitude := modpi2 (arcsin (sin dec * cose - cos dec * sine * sina))
  (longitude, latitude)

end
end Verif
