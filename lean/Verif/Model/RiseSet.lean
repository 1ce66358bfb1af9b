import Verif.Model.Coordinates
import Verif.Model.Dynamical

/-!
# Model of `riseset.py`

Real arithmetic; `ΔT` is the exact-arithmetic value of `deltaT_seconds`, so the Julian Day of the day in
question is a rational number.  Sequences of three values are triples (a longer sequence gives the same
results, a shorter one an `IndexError`).  Divisions by zero follow NumPy, whose results `inf` and `nan`
are traced to the outcome of the function at the place of the division.
-/

namespace Verif
noncomputable section
open Real

/-- `riseset.py` 48 `_k1`. -/
def rsK1 : ℝ := dToR 360.985647

/-- `riseset.py` 64, 181 `deltaT_days`; `constants.py` 60 `seconds_per_day`. -/
def deltaTDays (jd : ℚ) : ℝ := (deltaTSeconds (fun x => x) jd : ℚ) / 86400

/-- `riseset.py` 84-89, 184-189: bring the first estimate into `[0, 1]`.  (The number in the message is
not modelled.) -/
def rsReduce (m : ℝ) : Except PyErr ℝ :=
  let m := if m < 0 then m + 1 else if m > 1 then m - 1 else m
  if ¬ (0 ≤ m ∧ m ≤ 1) then .error (.Error "riseset" "m is out of range") else .ok m

/-- `riseset.py` 51-60: the parameter `mode`. -/
inductive RsMode where
  | rise
  | set
  deriving DecidableEq

/-- `riseset.py` 80-83: the first estimate.  (No other mode is used in the package; it would leave `m`
unbound.) -/
def rsEstimate (mode : RsMode) (m0 H0 : ℝ) : ℝ :=
  match mode with
  | .rise => m0 - H0 / pi2
  | .set => m0 + H0 / pi2

/-- `riseset.py` 90-106: the loop of `_riseset` with the given number of passes left, as a function of
`m`.  `gLatitude` is the current value of `globals.latitude`, used by `equ_to_horiz`.  If the
denominator of `dm` vanishes, `dm` is `inf`, `-inf` or `nan`, the test of the difference fails, and in
the next pass, if there is one, `n` is not in `(-1, 1)`. -/
def risesetLoop (jd : ℚ) (THETA0 dT : ℝ) (ra dec : ℝ × ℝ × ℝ) (h0 delta longitude latitude
    gLatitude : ℝ) : ℕ → ℝ → Except PyErr (Option ℝ)
  | 0, _ => .error (.Error "riseset" "bailout")
  | k + 1, m => do
    let m0 := m
    let theta0 := modpi2 (THETA0 + rsK1 * m)
    let n := m + dT
    if ¬ (-1 < n ∧ n < 1) then .ok none
    else
      let ra' ← interpolateAngle3 n ra.1 ra.2.1 ra.2.2
      let dec' ← interpolate3 (fun x => x) n dec.1 dec.2.1 dec.2.2
      let H := diffAngle 0 (theta0 - longitude - ra')
      let h := (equToHoriz gLatitude H dec').2
      let den := pi2 * cos dec' * cos latitude * sin H
      if den = 0 then
        if k = 0 then .error (.Error "riseset" "bailout") else .ok none
      else
        let m := m + (h - h0) / den
        if |m - m0| < delta then .ok (some (jd + m))
        else risesetLoop jd THETA0 dT ra dec h0 delta longitude latitude gLatitude k m

/-- `riseset.py` 51-106 `_riseset`.  If the denominator of `cosH0` vanishes, the quotient is `inf` or
`-inf` (then the function returns) or, for `0/0`, `nan` (then the range check on `m` raises). -/
def riseset (jd : ℚ) (ra dec : ℝ × ℝ × ℝ) (h0 delta : ℝ) (mode : RsMode)
    (longitude latitude gLatitude : ℝ) : Except PyErr (Option ℝ) :=
  let THETA0 := siderealTimeGreenwich jd
  let num := sin h0 - sin latitude * sin dec.2.1
  let den := cos latitude * cos dec.2.1
  if den = 0 then
    if num = 0 then .error (.Error "riseset" "m is out of range") else .ok none
  else
    let cosH0 := num / den
    if cosH0 < -1 then .ok none
    else if cosH0 > 1 then .ok none
    else
      let H0 := arccos cosH0
      let m0 := (ra.2.1 + longitude - THETA0) / pi2
      match rsReduce (rsEstimate mode m0 H0) with
      | .error e => .error e
      | .ok m => risesetLoop jd THETA0 (deltaTDays jd) ra dec h0 delta longitude latitude gLatitude 20 m

/-- `riseset.py` 109-132 `rise`: the result of `_riseset` is not returned.  `defLongitude` and
`defLatitude` are the default arguments of `_riseset`, the values of `globals.longitude` and
`globals.latitude` when the module was imported. -/
def rise (jd : ℚ) (ra dec : ℝ × ℝ × ℝ) (h0 delta defLongitude defLatitude gLatitude : ℝ) :
    Except PyErr (Option ℝ) := do
  let _ ← riseset jd ra dec h0 delta .rise defLongitude defLatitude gLatitude
  return none

/-- `riseset.py` 135-158 `settime`; see `rise`. -/
def settime (jd : ℚ) (ra dec : ℝ × ℝ × ℝ) (h0 delta defLongitude defLatitude gLatitude : ℝ) :
    Except PyErr (Option ℝ) := do
  let _ ← riseset jd ra dec h0 delta .set defLongitude defLatitude gLatitude
  return none

/-- `riseset.py` 190-204: the loop of `transit` with the given number of passes left. -/
def transitLoop (jd : ℚ) (THETA0 dT : ℝ) (ra : ℝ × ℝ × ℝ) (delta longitude : ℝ) :
    ℕ → ℝ → Except PyErr (Option ℝ)
  | 0, _ => .error (.Error "riseset" "bailout")
  | k + 1, m => do
    let m0 := m
    let theta0 := modpi2 (THETA0 + rsK1 * m)
    let n := m + dT
    if ¬ (-1 < n ∧ n < 1) then .ok none
    else
      let ra' ← interpolateAngle3 n ra.1 ra.2.1 ra.2.2
      let H := diffAngle 0 (theta0 - longitude - ra')
      let dm := -H / pi2
      let m := m + dm
      if |m - m0| < delta then .ok (some (jd + m))
      else transitLoop jd THETA0 dT ra delta longitude k m

/-- `riseset.py` 161-204 `transit`; `gLongitude` is the current value of `globals.longitude`. -/
def transit (jd : ℚ) (ra : ℝ × ℝ × ℝ) (delta gLongitude : ℝ) : Except PyErr (Option ℝ) :=
  let THETA0 := siderealTimeGreenwich jd
  match rsReduce ((ra.2.1 + gLongitude - THETA0) / pi2) with
  | .error e => .error e
  | .ok m => transitLoop jd THETA0 (deltaTDays jd) ra delta gLongitude 20 m

/-- `constants.py` 77 `standard_rst_altitude`. -/
def standardRstAltitude : ℝ := -0.00989078087105

/-- `riseset.py` 207-224 `moon_rst_altitude`.  (For a distance below the radius of the Earth NumPy
answers `nan`, the real `arcsin` does not.) -/
def moonRstAltitude (r : ℝ) : ℝ := 0.7275 * arcsin (earthEquRadius / r) + standardRstAltitude

end
end Verif
