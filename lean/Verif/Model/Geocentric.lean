import Verif.Model.Planets

/-!
# Model of `planets.geocentric_planet`

Real arithmetic, for a single time.
-/

namespace Verif
noncomputable section
open Real

/-- `planets.py` 233-239: one call of `dimension3` for a single time. -/
def helioScalars (planets : List ((String × String) × List (List Term))) (t : ℝ) (planet : String) :
    Except PyErr (ℝ × ℝ × ℝ) := do
  match ← vsopDimension3 planets [t] planet with
  | (.scalar L, .scalar B, .scalar R) => .ok (L, B, R)
  -- arrays are not possible for a single time
  | _ => .error (.TypeError "array")

/-- `planets.py` 241-246: the rectangular offset of the planet (`p`) from the Earth (`e`). -/
def rectOffset (e p : ℝ × ℝ × ℝ) : ℝ × ℝ × ℝ :=
  let (L0, B0, R0) := e
  let (L, B, R) := p
  let cosB0 := cos B0
  let cosB := cos B
  (R * cosB * cos L - R0 * cosB0 * cos L0, R * cosB * sin L - R0 * cosB0 * sin L0,
    R * sin B - R0 * sin B0)

/-- `planets.py` 232-264: the loop, with `n` passes left, as a function of the variables `t` and `l0`;
the result is the pair `geo_l, b` after the loop. -/
def geocentricLoop (planets : List ((String × String) × List (List Term))) (jd : ℝ) (planet : String)
    (delta : ℝ) : ℕ → ℝ → ℝ → Except PyErr (ℝ × ℝ)
  | 0, _, _ => .error (.Error "planets" "bailout")
  | n + 1, t, l0 => do
    let e ← helioScalars planets t "Earth"
    let p ← helioScalars planets t planet
    let (x, y, z) := rectOffset e p
    let x2 := x * x
    let y2 := y * y
    let geoL := arctan2 y x
    let b := arctan2 z (√(x2 + y2))
    let dist := √(x2 + y2 + z * z)
    let tau := 0.0057755183 * dist
    if |diffAngle geoL l0| < pi2 * delta then .ok (geoL, b)
    else geocentricLoop planets jd planet delta n (jd - tau) geoL

/-- `planets.py` 195-275 `geocentric_planet`, with the table of the planets loaded by `VSOP87d()`. -/
def geocentricPlanet (jd : ℝ) (planet : String) (deltaPsi epsilon delta : ℝ) :
    Except PyErr (ℝ × ℝ) := do
  let (geoL, b) ← geocentricLoop vsopDict jd planet delta 20 jd (-100)
  let (geoL, b) := vsopToFk5 jd geoL b
  let geoL := geoL + deltaPsi
  .ok (eclToEqu geoL b epsilon)

end
end Verif
