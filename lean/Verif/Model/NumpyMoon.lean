import Verif.Model.Numpy
import Verif.Model.Lunar
import Verif.Model.Equinox
import Verif.Model.Dynamical

/-!
# Array arguments of the Moon, the nutation, sidereal time, Delta T and the equinoxes

As in `Model/Numpy.lean`: operation by operation on NumPy values, in real arithmetic.
-/

namespace Verif
noncomputable section
open Real

/-- `total = 0.0` followed by `for row in table: total += term(row)`.
Used for lines 393-446 of lunar.py and lines 162-192 of nutation.py. -/
def npFold {ρ : Type} (term : ρ → Except PyErr (Out ℝ)) (rows : List ρ) : Except PyErr (Out ℝ) :=
  rows.foldlM (fun acc r => do
    let v ← term r
    np2 (· + ·) acc v) (.scalar 0)

/-- `modpi2(polynomial(terms, T))`.  Used for lines 182-190 of lunar.py and lines 136-140 of nutation.py. -/
def npAngle (terms : List ℝ) (T : Out ℝ) : Except PyErr (Out ℝ) := do
  let p ← npPoly T terms
  .ok (np1 modpi2 p)

/-- `nutation.py` 156-162 (and 183-189): one term of the sum; `trig` is the sine or the cosine. -/
def npNutTerm (trig : ℝ → ℝ) (T D M M1 F omega : Out ℝ) (tD tM tM1 tF tomega k kT : ℝ) :
    Except PyErr (Out ℝ) := do
  let arg ← np2 (· + ·) (np1 (· * tD) D) (np1 (· * tM) M)
  let arg ← np2 (· + ·) arg (np1 (· * tM1) M1)
  let arg ← np2 (· + ·) arg (np1 (· * tF) F)
  let arg ← np2 (· + ·) arg (np1 (· * tomega) omega)
  np2 (· * ·) (np1 (fun T => k / 10000 + kT / 100000 * T) T) (np1 trig arg)

/-- `nutation.py` 144-168 `nutation_in_longitude`. -/
def npNutationInLongitude (jd : List ℝ) : Except PyErr (Out ℝ) := do
  let T := npJcent jd
  let D ← npAngle kD T
  let M ← npAngle kM T
  let M1 ← npAngle kM1 T
  let F ← npAngle kF T
  let omega ← npAngle ko T
  let deltaPsi ← npFold (fun r =>
    let (tD, tM, tM1, tF, tomega, tpsiK, tpsiT, _, _) := r
    npNutTerm sin T D M M1 F omega tD tM tM1 tF tomega tpsiK tpsiT) Data.nutationTable
  let deltaPsi := np1 (fun d => d / 3600) deltaPsi
  .ok (np1 dToR deltaPsi)

/-- `nutation.py` 171-195 `nutation_in_obliquity`. -/
def npNutationInObliquity (jd : List ℝ) : Except PyErr (Out ℝ) := do
  let T := npJcent jd
  let D ← npAngle kD T
  let M ← npAngle kM T
  let M1 ← npAngle kM1 T
  let F ← npAngle kF T
  let omega ← npAngle ko T
  let deltaEps ← npFold (fun r =>
    let (tD, tM, tM1, tF, tomega, _, _, tepsK, tepsT) := r
    npNutTerm cos T D M M1 F omega tD tM tM1 tF tomega tepsK tepsT) Data.nutationTable
  let deltaEps := np1 (fun d => d / 3600) deltaEps
  .ok (np1 dToR deltaEps)

/-- `nutation.py` 209-227 `obliquity`. -/
def npObliquity (jd : List ℝ) : Except PyErr (Out ℝ) := npPoly (npJcent jd) el0

/-- `nutation.py` 248-268 `obliquity_hi`. -/
def npObliquityHi (jd : List ℝ) : Except PyErr (Out ℝ) := npPoly (np1 (fun T => T / 100) (npJcent jd)) el1

/-- `lunar.py` 392-400 (and 413-420, 438-445): one term of the sum; `k` is the coefficient of the table and
`trig` the sine or the cosine. -/
def npLunarTerm (trig : ℝ → ℝ) (D M M1 F E E2 : Out ℝ) (tD tM tM1 tF k : ℤ) : Except PyErr (Out ℝ) := do
  let arg ← np2 (· + ·) (np1 (fun x : ℝ => tD * x) D) (np1 (fun x : ℝ => tM * x) M)
  let arg ← np2 (· + ·) arg (np1 (fun x : ℝ => tM1 * x) M1)
  let arg ← np2 (· + ·) arg (np1 (fun x : ℝ => tF * x) F)
  let k : Out ℝ := if |tM| = 1 then np1 (fun x : ℝ => k * x) E else if |tM| = 2 then np1 (fun x : ℝ => k * x) E2 else .scalar k
  np2 (· * ·) k (np1 trig arg)

/-- `lunar.py` 387-405 `Lunar._longitude`, with `_constants` (180-195). -/
def npLunarLongitude (jd : List ℝ) : Except PyErr (Out ℝ) := do
  let T := npJcent jd
  let L1 ← npAngle kL1 T
  let D ← npAngle kD T
  let M ← npAngle kM T
  let M1 ← npAngle kM1 T
  let F ← npAngle kF T
  let A1 ← npAngle kA1 T
  let A2 ← npAngle kA2 T
  let E ← npPoly T [1, -0.002516, -0.0000074]
  let E2 ← np2 (· * ·) E E
  let lsum ← npFold (fun r =>
    let (tD, tM, tM1, tF, tl, _) := r
    npLunarTerm sin D M M1 F E E2 tD tM tM1 tF tl) Data.lunarLR
  let LF ← np2 (· - ·) L1 F
  let a ← np2 (· + ·) (np1 (fun x => 3958 * sin x) A1) (np1 (fun x => 1962 * sin x) LF)
  let a ← np2 (· + ·) a (np1 (fun x => 318 * sin x) A2)
  let lsum ← np2 (· + ·) lsum a
  let nutinlong ← npNutationInLongitude jd
  let l ← np2 (· + ·) L1 (np1 (fun s => dToR (s / 1000000)) lsum)
  np2 (· + ·) l nutinlong

/-- `lunar.py` 407-430 `Lunar._latitude`. -/
def npLunarLatitude (jd : List ℝ) : Except PyErr (Out ℝ) := do
  let T := npJcent jd
  let L1 ← npAngle kL1 T
  let D ← npAngle kD T
  let M ← npAngle kM T
  let M1 ← npAngle kM1 T
  let F ← npAngle kF T
  let A1 ← npAngle kA1 T
  let A3 ← npAngle kA3 T
  let E ← npPoly T [1, -0.002516, -0.0000074]
  let E2 ← np2 (· * ·) E E
  let bsum ← npFold (fun r =>
    let (tD, tM, tM1, tF, tb) := r
    npLunarTerm sin D M M1 F E E2 tD tM tM1 tF tb) Data.lunarB
  let A1mF ← np2 (· - ·) A1 F
  let A1pF ← np2 (· + ·) A1 F
  let LmM ← np2 (· - ·) L1 M1
  let LpM ← np2 (· + ·) L1 M1
  let a ← np2 (· + ·) (np1 (fun x => -2235 * sin x) L1) (np1 (fun x => 382 * sin x) A3)
  let a ← np2 (· + ·) a (np1 (fun x => 175 * sin x) A1mF)
  let a ← np2 (· + ·) a (np1 (fun x => 175 * sin x) A1pF)
  let a ← np2 (· + ·) a (np1 (fun x => 127 * sin x) LmM)
  let a ← np2 (· - ·) a (np1 (fun x => 115 * sin x) LpM)
  let bsum ← np2 (· + ·) bsum a
  .ok (np1 (fun s => dToR (s / 1000000)) bsum)

/-- `lunar.py` 432-446 `Lunar._radius`. -/
def npLunarRadius (jd : List ℝ) : Except PyErr (Out ℝ) := do
  let T := npJcent jd
  let D ← npAngle kD T
  let M ← npAngle kM T
  let M1 ← npAngle kM1 T
  let F ← npAngle kF T
  let E ← npPoly T [1, -0.002516, -0.0000074]
  let E2 ← np2 (· * ·) E E
  let rsum ← npFold (fun r =>
    let (tD, tM, tM1, tF, _, tr) := r
    npLunarTerm cos D M M1 F E E2 tD tM tM1 tF tr) Data.lunarLR
  .ok (np1 (fun s => 385000.56 + s / 1000) rsum)

/-- `lunar.py` 339-360 `Lunar.dimension3`. -/
def npLunarDimension3 (jd : List ℝ) : Except PyErr (Out ℝ × Out ℝ × Out ℝ) := do
  let L ← npLunarLongitude jd
  let B ← npLunarLatitude jd
  let R ← npLunarRadius jd
  .ok (L, B, R)

/-- `lunar.py` 362-385 `Lunar.dimension`. -/
def npLunarDimension (jd : List ℝ) (dim : String) : Except PyErr (Out ℝ) :=
  if dim = "L" then npLunarLongitude jd
  else if dim = "B" then npLunarLatitude jd
  else if dim = "R" then npLunarRadius jd
  else .error (.Error "lunar" ("unknown dimension = " ++ dim))

/-- `lunar.py` 201-242 `Lunar.mean_longitude_ascending_node`. -/
def npLunarNode (jd : List ℝ) : Except PyErr (Out ℝ) := npAngle ko (npJcent jd)

/-- `lunar.py` 244-269 `Lunar.mean_longitude_perigee`. -/
def npLunarPerigee (jd : List ℝ) : Except PyErr (Out ℝ) :=
  npAngle [dToR 83.3532465, dToR 4069.0137287, dToR (-0.0103200), dToR (-1 / 80053),
    dToR (1 / 18999000)] (npJcent jd)

/-- `lunar.py` 271-286 `Lunar.mean_longitude`. -/
def npLunarMeanLongitude (jd : List ℝ) : Except PyErr (Out ℝ) := npAngle kL1 (npJcent jd)

/-- `lunar.py` 288-303 `Lunar.mean_elongation`. -/
def npLunarMeanElongation (jd : List ℝ) : Except PyErr (Out ℝ) := npAngle kD (npJcent jd)

/-- `lunar.py` 305-320 `Lunar.mean_anomaly`. -/
def npLunarMeanAnomaly (jd : List ℝ) : Except PyErr (Out ℝ) := npAngle kM1 (npJcent jd)

/-- `lunar.py` 322-337 `Lunar.argument_of_latitude`. -/
def npLunarArgumentOfLatitude (jd : List ℝ) : Except PyErr (Out ℝ) := npAngle kF (npJcent jd)

/-- `calendar.py` 599-623 `sidereal_time_greenwich` of an array.  The array itself is used in line 618, beside
the centuries, which are a scalar if the array has one element. -/
def npSiderealTimeGreenwich (jd : List ℝ) : Except PyErr (Out ℝ) := do
  let T := npJcent jd
  let T2 ← np2 (· * ·) T T
  let T3 ← np2 (· * ·) T2 T
  let a := np1 (fun j => 280.46061837 + 360.98564736629 * (j - 2451545)) (.arr jd)
  let b ← np2 (· + ·) a (np1 (fun t => 0.000387933 * t) T2)
  let theta0 ← np2 (· - ·) b (np1 (fun t => t / 38710000) T3)
  .ok (np1 modpi2 (np1 dToR theta0))

/-- `equinox.py` 164-174: the loop for an array of times, with `n` passes left.  `jd += …` changes the array in
place, and `jd0` is the same object: both sides of line 172 read the changed array. -/
def npEquinoxLoop (planets : List ((String × String) × List (List Term))) (circ delta : ℝ) :
    ℕ → List ℝ → Except PyErr (List ℝ)
  | 0, _ => .error (.Error "equinox" "bailout")
  | n + 1, jd => do
    let (L, B, R) ← sunDimension3 planets jd
    let nut ← npNutationInLongitude jd
    let c ← np2 (· + ·) nut (np1 aberrationLow R)
    let L ← np2 (· + ·) L c
    let (L, _) ← npVsopToFk5 jd L B
    let d ← npDiffAngle L (.scalar circ)
    let jd' ← np2 (· + ·) (.arr jd) (np1 (fun d => d * kSunMotion) d)
    let jd := jd'.toList
    let jd0 := jd
    let s ← np2 (fun a b => decide (|a - b| < delta)) (.arr jd) (.arr jd0)
    let c ← npTruth s
    if c then .ok jd else npEquinoxLoop planets circ delta n jd

/-- `equinox.py` 139-174 `equinox` of an array of floats; the array which is returned is the argument itself,
changed in place. -/
def npEquinox (jd : List ℝ) (season : String) (delta : ℝ) : Except PyErr (List ℝ) :=
  match circle.lookup season with
  | none => .error (.KeyError season)
  | some circ => npEquinoxLoop vsopDict circ delta 20 jd

/-- `dynamical.py` 1203-1318 `deltaT_seconds` of an array.  (Simplified: for a single element the rest is the
scalar function; its value is a list here, where NumPy gives an array inside the table and a scalar outside.) -/
def npDeltaTSeconds (fl : ℚ → ℚ) (jd : List ℚ) : Except PyErr (List ℚ) := do
  let (yr, _, _) := jdToCal fl jd true
  let _ ← npTruth (np1 (fun yr => decide ((1620 : ℤ) < yr)) yr)
  .ok (jd.map (deltaTSeconds fl))

/-- `dynamical.py` 1321-1335 `dt_to_ut` of an array. -/
def npDtToUt (fl : ℚ → ℚ) (jd : List ℚ) : Except PyErr (List ℚ) := do
  let d ← npDeltaTSeconds fl jd
  .ok ((jd.zip d).map fun r => fl (r.1 - fl (r.2 / 86400)))

end
end Verif
