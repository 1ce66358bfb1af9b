import Verif.Model.Planets

/-!
# Model of `sun.py`

Real arithmetic.
-/

namespace Verif
noncomputable section
open Real

/-- `sun.py` 120-143 `Sun.dimension`.  The `Sun` object holds a `VSOP87d` object, so the dictionary
`planets` has been loaded. -/
def sunDimension (planets : List ((String × String) × List (List Term))) (jd : List ℝ)
    (dim : String) : Except PyErr (Out ℝ) := do
  let X ← vsopDimension planets jd "Earth" dim
  let X := if dim = "L" then X.toList.map fun x => modpi2 (x + π)
    else if dim = "B" then X.toList.map fun x => -x
    else X.toList
  .ok (scalarIfOne X)

/-- `sun.py` 145-166 `Sun.dimension3`. -/
def sunDimension3 (planets : List ((String × String) × List (List Term))) (jd : List ℝ) :
    Except PyErr (Out ℝ × Out ℝ × Out ℝ) := do
  let L ← sunDimension planets jd "L"
  let B ← sunDimension planets jd "B"
  let R ← sunDimension planets jd "R"
  .ok (L, B, R)

/-- `sun.py` 57-95 `Sun.mean_longitude`, for a single time. -/
def sunMeanLongitude (jd : ℝ) : ℝ :=
  let T := jcent jd
  let X := polyR [dToR 100.4664567, dToR 360007.6982779, dToR 0.03032028, dToR (1 / 49931),
    dToR (-1 / 15300), dToR (-1 / 2000000)] (T / 10)
  modpi2 (X + π)

/-- `sun.py` 97-118 `Sun.mean_longitude_perigee`, for a single time. -/
def sunMeanLongitudePerigee (jd : ℝ) : ℝ :=
  let T := jcent jd
  let X := polyR [1012395, 6189.03, 1.63, 0.012] (T + 1) / 3600
  modpi2 (dToR X)

/-- `sun.py` 169-212 `longitude_radius_low`, for a single time (`jd_to_jcent` returns a
scalar for one element, so that the results are scalars). -/
def longitudeRadiusLow (jd : ℝ) : ℝ × ℝ :=
  let kL0 := [dToR 280.46646, dToR 36000.76983, dToR 0.0003032]
  let kM := [dToR 357.5291092, dToR 35999.0502909, dToR (-0.0001536), dToR (1 / 24490000)]
  let kC := [dToR 1.914602, dToR (-0.004817), dToR (-0.000014)]
  let ck3 := dToR 0.019993
  let ck4 := dToR (-0.000101)
  let ck5 := dToR 0.000289
  let T := jcent jd
  let L0 := polyR kL0 T
  let M := polyR kM T
  let er := polyR [0.016708634, -0.000042037, -0.0000001267] T
  let C := polyR kC T * sin M + (ck3 - ck4 * T) * sin (2 * M) + ck5 * sin (3 * M)
  let L := modpi2 (L0 + C)
  let v := M + C
  let R := 1.000001018 * (1 - er * er) / (1 + er * cos v)
  (L, R)

/-- `sun.py` 215-240 `apparent_longitude_low`, for a single time. -/
def apparentLongitudeLow (jd L : ℝ) : ℝ :=
  let lk0 := dToR 125.04
  let lk1 := dToR 1934.136
  let lk2 := dToR 0.00569
  let lk3 := dToR 0.00478
  let T := jcent jd
  let omega := lk0 - lk1 * T
  modpi2 (L - lk2 - lk3 * sin omega)

/-- `sun.py` 243-259 `aberration_low`. -/
def aberrationLow (R : ℝ) : ℝ := -dToR (dmsR 0 0 20.4898) / R

end
end Verif
