import Verif.Model.FloatSun
import Verif.Model.Coordinates

/-!
# `coordinates.py` in binary64

The same code as in `Model/Coordinates.lean` with every operation rounded.  `ell_to_geo` is in `Model/FloatMisc.lean`.
-/

namespace Verif

/-- The functions of NumPy used by `coordinates.py`.  `np.arcsin` of a number outside `[-1, 1]` is nan,
here `none`. -/
structure TrigLib extends NumLib where
  atan2F : ℚ → ℚ → ℚ
  asinF : ℚ → Option ℚ

/-- What is assumed of them: errors of at most `2^-50`, for the tangent relative to its size.  Zeros have
no sign here, so `np.arctan2` is determined up to whole turns only, and at the origin only by its range.
Used for lines 64-68, 97-101, 137-145 and 175-179 of coordinates.py. -/
structure TrigLib.Good (fl : ℚ → ℚ) (D : ℕ) (lib : TrigLib) : Prop where
  num : lib.toNumLib.Good fl D
  tanG : ∀ x : ℚ, |(lib.tanF x : ℝ) - Real.tan x| ≤ 1 / 2 ^ 50 * (1 + |Real.tan x|)
  atan2 : ∀ y x : ℚ, x ≠ 0 ∨ y ≠ 0 → ∃ k : ℤ,
    |(lib.atan2F y x : ℝ) - (arctan2 y x + k * (2 * Real.pi))| ≤ 1 / 2 ^ 50
  atan2_range : ∀ y x : ℚ, |lib.atan2F y x| ≤ piF
  asin : ∀ x : ℚ, |x| ≤ 1 → ∃ y, lib.asinF x = some y ∧ |(y : ℝ) - Real.arcsin x| ≤ 1 / 2 ^ 50
  asin_nan : ∀ x : ℚ, 1 < |x| → lib.asinF x = none

variable (fl : ℚ → ℚ)

/-- `coordinates.py` 40-69 `ecl_to_equ`. -/
def eclToEquF (lib : TrigLib) (longitude latitude obliquity : ℚ) : ℚ × Option ℚ :=
  let cose := lib.cosF obliquity
  let sine := lib.sinF obliquity
  let sinl := lib.sinF longitude
  let ra := modpi2F fl pi2F (lib.atan2F (fl (fl (sinl * cose) - fl (lib.tanF latitude * sine))) (lib.cosF longitude))
  let dec := lib.asinF (fl (fl (lib.sinF latitude * cose) + fl (fl (lib.cosF latitude * sine) * sinl)))
  (ra, dec)

/-- `coordinates.py` 72-102 `equ_to_horiz`; `gLatitude` is `globals.latitude`. -/
def equToHorizF (lib : TrigLib) (gLatitude H decl : ℚ) : ℚ × Option ℚ :=
  let cosH := lib.cosF H
  let sinLat := lib.sinF gLatitude
  let cosLat := lib.cosF gLatitude
  let A := lib.atan2F (lib.sinF H) (fl (fl (cosH * sinLat) - fl (lib.tanF decl * cosLat)))
  let h := lib.asinF (fl (fl (sinLat * lib.sinF decl) + fl (fl (cosLat * lib.cosF decl) * cosH)))
  (A, h)

/-- `coordinates.py` 151-180 `equ_to_ecl`. -/
def equToEclF (lib : TrigLib) (ra dec obliquity : ℚ) : ℚ × Option ℚ :=
  let cose := lib.cosF obliquity
  let sine := lib.sinF obliquity
  let sina := lib.sinF ra
  let longitude := modpi2F fl pi2F (lib.atan2F (fl (fl (sina * cose) + fl (lib.tanF dec * sine))) (lib.cosF ra))
  let latitude := (lib.asinF (fl (fl (lib.sinF dec * cose) - fl (fl (lib.cosF dec * sine) * sina)))).map
    (modpi2F fl pi2F)
  (longitude, latitude)

end Verif
