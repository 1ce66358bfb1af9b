import Verif.Model.Nutation
import Verif.Data.Lunar

/-!
# Model of `lunar.py`

Real arithmetic, for a single time.
-/

namespace Verif
noncomputable section
open Real

/-- `lunar.py` 175. -/
def kA1 : List ℝ := [dToR 119.75, dToR 131.849]
/-- `lunar.py` 176. -/
def kA2 : List ℝ := [dToR 53.09, dToR 479264.290]
/-- `lunar.py` 177. -/
def kA3 : List ℝ := [dToR 313.45, dToR 481266.484]

/-- The values computed by `_constants`.  Used for lines 180-194 of lunar.py. -/
structure LunarConstants where
  L1 : ℝ
  D : ℝ
  M : ℝ
  M1 : ℝ
  F : ℝ
  A1 : ℝ
  A2 : ℝ
  A3 : ℝ
  E : ℝ
  E2 : ℝ

/-- `lunar.py` 180-195 `_constants`. -/
def lunarConstants (T : ℝ) : LunarConstants :=
  let E := polyR [1, -0.002516, -0.0000074] T
  { L1 := modpi2 (polyR kL1 T), D := modpi2 (polyR kD T), M := modpi2 (polyR kM T),
    M1 := modpi2 (polyR kM1 T), F := modpi2 (polyR kF T), A1 := modpi2 (polyR kA1 T),
    A2 := modpi2 (polyR kA2 T), A3 := modpi2 (polyR kA3 T), E := E, E2 := E * E }

/-- `lunar.py` 396-399, 416-419, 441-444: the factor of a coefficient. -/
def lunarFactor (c : LunarConstants) (tM : ℤ) : ℝ :=
  if |tM| = 1 then c.E else if |tM| = 2 then c.E2 else 1

/-- `lunar.py` 387-405 `Lunar._longitude`. -/
def lunarLongitude (jd : ℝ) : ℝ :=
  let T := jcent jd
  let c := lunarConstants T
  let lsum := Data.lunarLR.foldl (fun lsum r =>
    let (tD, tM, tM1, tF, tl, _) := r
    let arg := tD * c.D + tM * c.M + tM1 * c.M1 + tF * c.F
    lsum + tl * lunarFactor c tM * sin arg) 0
  let lsum := lsum + (3958 * sin c.A1 + 1962 * sin (c.L1 - c.F) + 318 * sin c.A2)
  c.L1 + dToR (lsum / 1000000) + nutationInLongitude jd

/-- `lunar.py` 407-430 `Lunar._latitude`. -/
def lunarLatitude (jd : ℝ) : ℝ :=
  let T := jcent jd
  let c := lunarConstants T
  let bsum := Data.lunarB.foldl (fun bsum r =>
    let (tD, tM, tM1, tF, tb) := r
    let arg := tD * c.D + tM * c.M + tM1 * c.M1 + tF * c.F
    bsum + tb * lunarFactor c tM * sin arg) 0
  let bsum := bsum + (-2235 * sin c.L1 + 382 * sin c.A3 + 175 * sin (c.A1 - c.F) +
    175 * sin (c.A1 + c.F) + 127 * sin (c.L1 - c.M1) - 115 * sin (c.L1 + c.M1))
  dToR (bsum / 1000000)

/-- `lunar.py` 432-446 `Lunar._radius`. -/
def lunarRadius (jd : ℝ) : ℝ :=
  let T := jcent jd
  let c := lunarConstants T
  let rsum := Data.lunarLR.foldl (fun rsum r =>
    let (tD, tM, tM1, tF, _, tr) := r
    let arg := tD * c.D + tM * c.M + tM1 * c.M1 + tF * c.F
    rsum + tr * lunarFactor c tM * cos arg) 0
  385000.56 + rsum / 1000

/-- `lunar.py` 339-360 `Lunar.dimension3`. -/
def lunarDimension3 (jd : ℝ) : ℝ × ℝ × ℝ := (lunarLongitude jd, lunarLatitude jd, lunarRadius jd)

/-- `lunar.py` 362-385 `Lunar.dimension`. -/
def lunarDimension (jd : ℝ) (dim : String) : Except PyErr ℝ :=
  if dim = "L" then .ok (lunarLongitude jd)
  else if dim = "B" then .ok (lunarLatitude jd)
  else if dim = "R" then .ok (lunarRadius jd)
  else .error (.Error "lunar" ("unknown dimension = " ++ dim))

/-- `lunar.py` 201-242 `Lunar.mean_longitude_ascending_node`. -/
def lunarNode (jd : ℝ) : ℝ := modpi2 (polyR ko (jcent jd))

/-- `lunar.py` 244-269 `Lunar.mean_longitude_perigee`. -/
def lunarPerigee (jd : ℝ) : ℝ :=
  modpi2 (polyR [dToR 83.3532465, dToR 4069.0137287, dToR (-0.0103200), dToR (-1 / 80053),
    dToR (1 / 18999000)] (jcent jd))

/-- `lunar.py` 271-286 `Lunar.mean_longitude`. -/
def lunarMeanLongitude (jd : ℝ) : ℝ := modpi2 (polyR kL1 (jcent jd))

/-- `lunar.py` 288-303 `Lunar.mean_elongation`. -/
def lunarMeanElongation (jd : ℝ) : ℝ := modpi2 (polyR kD (jcent jd))

/-- `lunar.py` 305-320 `Lunar.mean_anomaly`. -/
def lunarMeanAnomaly (jd : ℝ) : ℝ := modpi2 (polyR kM1 (jcent jd))

/-- `lunar.py` 322-337 `Lunar.argument_of_latitude`. -/
def lunarArgumentOfLatitude (jd : ℝ) : ℝ := modpi2 (polyR kF (jcent jd))

end
end Verif
