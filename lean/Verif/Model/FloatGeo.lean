import Verif.Model.FloatCoord
import Verif.Model.Geocentric

/-!
# `planets.geocentric_planet` in binary64

The code of `Model/Geocentric.lean` with every operation rounded, for a single time.
-/

namespace Verif

/-- The functions of NumPy used by `planets.py`. -/
structure GeoLib extends TrigLib where
  sqrtF : ℚ → ℚ

/-- The square root is assumed with a relative error of at most `2^-50` (IEEE 754 asks for the nearest
number, `2^-53`).  Used for lines 249 and 252 of planets.py. -/
structure GeoLib.Good (fl : ℚ → ℚ) (D : ℕ) (lib : GeoLib) : Prop where
  trig : lib.toTrigLib.Good fl D
  sqrt : ∀ x : ℚ, 0 ≤ x → |(lib.sqrtF x : ℝ) - √(x : ℝ)| ≤ 1 / 2 ^ 50 * √(x : ℝ)

variable (fl : ℚ → ℚ)

/-- `planets.py` 126-149 `VSOP87d.dimension3`, for a single time. -/
def helioF (lib : NumLib) (t : ℚ) (planet : String) : Except PyErr (ℚ × ℚ × ℚ) := do
  let L ← vsopDimensionF fl lib.cosF lib.sumF t planet "L"
  let B ← vsopDimensionF fl lib.cosF lib.sumF t planet "B"
  let R ← vsopDimensionF fl lib.cosF lib.sumF t planet "R"
  .ok (L, B, R)

/-- `planets.py` 241-246. -/
def rectOffsetF (lib : NumLib) (e p : ℚ × ℚ × ℚ) : ℚ × ℚ × ℚ :=
  let (L0, B0, R0) := e
  let (L, B, R) := p
  let cosB0 := lib.cosF B0
  let cosB := lib.cosF B
  (fl (fl (fl (R * cosB) * lib.cosF L) - fl (fl (R0 * cosB0) * lib.cosF L0)),
    fl (fl (fl (R * cosB) * lib.sinF L) - fl (fl (R0 * cosB0) * lib.sinF L0)),
    fl (fl (R * lib.sinF B) - fl (R0 * lib.sinF B0)))

/-- `planets.py` 232-264: the loop, with `n` passes left. -/
def geocentricLoopF (lib : GeoLib) (jd : ℚ) (planet : String) (delta : ℚ) :
    ℕ → ℚ → ℚ → Except PyErr (ℚ × ℚ)
  | 0, _, _ => .error (.Error "planets" "bailout")
  | n + 1, t, l0 => do
    let e ← helioF fl lib.toNumLib t "Earth"
    let p ← helioF fl lib.toNumLib t planet
    let (x, y, z) := rectOffsetF fl lib.toNumLib e p
    let x2 := fl (x * x)
    let y2 := fl (y * y)
    let geoL := lib.atan2F y x
    let b := lib.atan2F z (lib.sqrtF (fl (x2 + y2)))
    let dist := lib.sqrtF (fl (fl (x2 + y2) + fl (z * z)))
    let tau := fl (fl 0.0057755183 * dist)
    if |diffAngleF fl geoL l0| < fl (pi2F * delta) then .ok (geoL, b)
    else geocentricLoopF lib jd planet delta n (fl (jd - tau)) geoL

/-- `planets.py` 195-275 `geocentric_planet`. -/
def geocentricPlanetF (lib : GeoLib) (jd : ℚ) (planet : String) (deltaPsi epsilon delta : ℚ) :
    Except PyErr (ℚ × Option ℚ) := do
  let (geoL, b) ← geocentricLoopF fl lib jd planet delta 20 jd (-100)
  let (geoL, b) := vsopToFk5F fl lib.toNumLib jd geoL b
  let geoL := fl (geoL + deltaPsi)
  .ok (eclToEquF fl lib.toTrigLib geoL b epsilon)

end Verif
