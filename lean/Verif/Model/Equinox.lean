import Verif.Model.Sun
import Verif.Model.Nutation
import Verif.Model.Float
import Verif.Data.Equinox

/-!
# Model of `equinox.py`

Real arithmetic.
-/

namespace Verif
noncomputable section
open Real

/-- `globals.py` 95. -/
def seasonNames : List String := ["spring", "summer", "autumn", "winter"]

/-- `equinox.py` 118-123: the polynomial of the table chosen by the (integer) year.  The table `tbl` is
a dictionary; a missing key raises `KeyError`. -/
def equinoxPoly (yr : ℤ) (season : String) : Except PyErr ℝ :=
  let (Y, tbl) := if -1000 ≤ yr ∧ yr ≤ 1000 then ((yr : ℝ) / 1000, Data.approx1000)
    else (((yr : ℝ) - 2000) / 1000, Data.approx3000)
  match tbl.lookup season with
  | none => .error (.KeyError season)
  | some c => .ok (polyR (c.map fun (x : ℤ) => (x : ℝ) / 100000) Y)

/-- `equinox.py` 126-129: the periodic correction of `jd`. -/
def equinoxCorrection (jd : ℝ) : ℝ :=
  let T := jcent jd
  let W := dToR (35999.373 * T - 2.47)
  let deltaLambda := 1 + 0.0334 * cos W + 0.0007 * cos (2 * W)
  0.00001 * (Data.equinoxTerms.map fun r =>
    (r.1 : ℝ) * cos (dToR (r.2.1 / 1000) + dToR (r.2.2 / 1000) * T)).sum / deltaLambda

/-- `equinox.py` 92-131 `equinox_approx`.  `names` is `globals.season_names`. -/
def equinoxApprox (names : List String) (yr : ℚ) (season : String) : Except PyErr ℝ :=
  if ¬ (-1000 ≤ yr ∧ yr ≤ 3000) then .error (.Error "equinox" "year is out of range")
  else if season ∉ names then .error (.Error "equinox" ("unknown season =" ++ season))
  else do
    let jd ← equinoxPoly (trunc yr) season
    .ok (jd + equinoxCorrection jd)

/-- `equinox.py` 134 `_circle`. -/
def circle : List (String × ℝ) :=
  [("spring", 0), ("summer", π * 0.5), ("autumn", π), ("winter", π * 1.5)]

/-- `equinox.py` 136 `_k_sun_motion`. -/
def kSunMotion : ℝ := 365.25 / pi2

/-- `equinox.py` 166-168: the apparent longitude of the Sun at a single time. -/
def apparentSun (planets : List ((String × String) × List (List Term))) (jd : ℝ) :
    Except PyErr ℝ := do
  match ← sunDimension3 planets [jd] with
  | (.scalar L, .scalar B, .scalar R) =>
    let L := L + (nutationInLongitude jd + aberrationLow R)
    .ok (vsopToFk5 jd L B).1
  -- arrays are not possible for a single time
  | _ => .error (.TypeError "array")

/-- `equinox.py` 164-174: the loop, with `n` passes left. -/
def equinoxLoop (planets : List ((String × String) × List (List Term))) (circ delta : ℝ) :
    ℕ → ℝ → Except PyErr ℝ
  | 0, _ => .error (.Error "equinox" "bailout")
  | n + 1, jd => do
    let jd0 := jd
    let L ← apparentSun planets jd
    let jd := jd + diffAngle L circ * kSunMotion
    if |jd - jd0| < delta then .ok jd else equinoxLoop planets circ delta n jd

/-- `equinox.py` 139-174 `equinox`.  `Sun()` loads the dictionary of the planets. -/
def equinox (jd : ℝ) (season : String) (delta : ℝ) : Except PyErr ℝ :=
  match circle.lookup season with
  | none => .error (.KeyError season)
  | some circ => equinoxLoop vsopDict circ delta 20 jd

end
end Verif
