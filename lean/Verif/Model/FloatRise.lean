import Verif.Model.FloatCoord
import Verif.Model.RiseSet

/-!
# Sidereal time, interpolation and `riseset.py` in binary64

The same code as in `Model/Util.lean` and `Model/RiseSet.lean` with every operation rounded.
-/

namespace Verif

/-- The functions of NumPy used by `riseset.py`.  `np.arccos` of a number outside `[-1, 1]` is nan, here
`none`. -/
structure RiseLib extends TrigLib where
  acosF : ℚ → Option ℚ

/-- What is assumed of `np.arccos`: an error of at most `2^-50`.  Used for line 78 of riseset.py. -/
structure RiseLib.Good (fl : ℚ → ℚ) (D : ℕ) (lib : RiseLib) : Prop where
  trig : lib.toTrigLib.Good fl D
  acos : ∀ x : ℚ, |x| ≤ 1 → ∃ y, lib.acosF x = some y ∧ |(y : ℝ) - Real.arccos x| ≤ 1 / 2 ^ 50

variable (fl : ℚ → ℚ)

/-- `calendar.py` 599-623 `sidereal_time_greenwich`. -/
def siderealF (jd : ℚ) : ℚ :=
  let T := jcentF fl jd
  let T2 := fl (T * T)
  let T3 := fl (T2 * T)
  let theta0 := fl (fl (fl (fl 280.46061837 + fl (fl 360.98564736629 * fl (jd - 2451545))) +
    fl (fl 0.000387933 * T2)) - fl (T3 / 38710000))
  modpi2F fl pi2F (dToRF fl theta0)

/-- `util.py` 192-216 `interpolate_angle3`. -/
def interpolateAngle3F (n y0 y1 y2 : ℚ) : Except PyErr ℚ :=
  if ¬ (-1 < n ∧ n < 1) then .error (.Error "util" "interpolating factor out of range")
  else
    let a := diffAngleF fl y0 y1
    let b := diffAngleF fl y1 y2
    let c := diffAngleF fl a b
    .ok (fl (y1 + fl (fl (n / 2) * fl (fl (a + b) + fl (n * c)))))

/-- `riseset.py` 48 `_k1`. -/
def rsK1F : ℚ := dToRF fl (fl 360.985647)

/-- `riseset.py` 64, 181 `deltaT_days`. -/
def deltaTDaysF (jd : ℚ) : ℚ := fl (deltaTSeconds fl jd / 86400)

/-- `riseset.py` 84-89, 184-189: bring the first estimate into `[0, 1]`. -/
def rsReduceF (m : ℚ) : Except PyErr ℚ :=
  let m := if m < 0 then fl (m + 1) else if m > 1 then fl (m - 1) else m
  if ¬ (0 ≤ m ∧ m ≤ 1) then .error (.Error "riseset" "m is out of range") else .ok m

/-- `riseset.py` 190-204: the loop of `transit` with the given number of passes left. -/
def transitLoopF (jd THETA0 dT : ℚ) (ra : ℚ × ℚ × ℚ) (delta longitude : ℚ) : ℕ → ℚ → Except PyErr (Option ℚ)
  | 0, _ => .error (.Error "riseset" "bailout")
  | k + 1, m => do
    let m0 := m
    let theta0 := modpi2F fl pi2F (fl (THETA0 + fl (rsK1F fl * m)))
    let n := fl (m + dT)
    if ¬ (-1 < n ∧ n < 1) then .ok none
    else
      let ra' ← interpolateAngle3F fl n ra.1 ra.2.1 ra.2.2
      let H := diffAngleF fl 0 (fl (fl (theta0 - longitude) - ra'))
      let dm := fl (-H / pi2F)
      let m := fl (m + dm)
      if |fl (m - m0)| < delta then .ok (some (fl (jd + m)))
      else transitLoopF jd THETA0 dT ra delta longitude k m

/-- `riseset.py` 161-204 `transit`; `gLongitude` is the current value of `globals.longitude`. -/
def transitF (jd : ℚ) (ra : ℚ × ℚ × ℚ) (delta gLongitude : ℚ) : Except PyErr (Option ℚ) :=
  let THETA0 := siderealF fl jd
  match rsReduceF fl (fl (fl (fl (ra.2.1 + gLongitude) - THETA0) / pi2F)) with
  | .error e => .error e
  | .ok m => transitLoopF fl jd THETA0 (deltaTDaysF fl jd) ra delta gLongitude 20 m

/-- `riseset.py` 80-83: the first estimate. -/
def rsEstimateF (mode : RsMode) (m0 H0 : ℚ) : ℚ :=
  match mode with
  | .rise => fl (m0 - fl (H0 / pi2F))
  | .set => fl (m0 + fl (H0 / pi2F))

/-- `riseset.py` 90-106: the loop of `_riseset` with the given number of passes left.  If the altitude is
nan, or the denominator of `dm` vanishes, `m` is not a finite number, the test of the difference fails,
and in the next pass, if there is one, `n` is not in `(-1, 1)`. -/
def risesetLoopF (lib : RiseLib) (jd THETA0 dT : ℚ) (ra dec : ℚ × ℚ × ℚ) (h0 delta longitude latitude
    gLatitude : ℚ) : ℕ → ℚ → Except PyErr (Option ℚ)
  | 0, _ => .error (.Error "riseset" "bailout")
  | k + 1, m => do
    let m0 := m
    let theta0 := modpi2F fl pi2F (fl (THETA0 + fl (rsK1F fl * m)))
    let n := fl (m + dT)
    if ¬ (-1 < n ∧ n < 1) then .ok none
    else
      let ra' ← interpolateAngle3F fl n ra.1 ra.2.1 ra.2.2
      let dec' ← interpolate3 fl n dec.1 dec.2.1 dec.2.2
      let H := diffAngleF fl 0 (fl (fl (theta0 - longitude) - ra'))
      let den := fl (fl (fl (pi2F * lib.cosF dec') * lib.cosF latitude) * lib.sinF H)
      match (equToHorizF fl lib.toTrigLib gLatitude H dec').2 with
      | none => if k = 0 then .error (.Error "riseset" "bailout") else .ok none
      | some h =>
        if den = 0 then
          if k = 0 then .error (.Error "riseset" "bailout") else .ok none
        else
          let m := fl (m + fl (fl (h - h0) / den))
          if |fl (m - m0)| < delta then .ok (some (fl (jd + m)))
          else risesetLoopF lib jd THETA0 dT ra dec h0 delta longitude latitude gLatitude k m

/-- `riseset.py` 51-106 `_riseset`; see `riseset` for vanishing denominators. -/
def risesetF (lib : RiseLib) (jd : ℚ) (ra dec : ℚ × ℚ × ℚ) (h0 delta : ℚ) (mode : RsMode)
    (longitude latitude gLatitude : ℚ) : Except PyErr (Option ℚ) :=
  let THETA0 := siderealF fl jd
  let num := fl (lib.sinF h0 - fl (lib.sinF latitude * lib.sinF dec.2.1))
  let den := fl (lib.cosF latitude * lib.cosF dec.2.1)
  if den = 0 then
    if num = 0 then .error (.Error "riseset" "m is out of range") else .ok none
  else
    let cosH0 := fl (num / den)
    if cosH0 < -1 then .ok none
    else if cosH0 > 1 then .ok none
    else
      match lib.acosF cosH0 with
      | none => .error (.Error "riseset" "m is out of range")
      | some H0 =>
        let m0 := fl (fl (fl (ra.2.1 + longitude) - THETA0) / pi2F)
        match rsReduceF fl (rsEstimateF fl mode m0 H0) with
        | .error e => .error e
        | .ok m => risesetLoopF fl lib jd THETA0 (deltaTDaysF fl jd) ra dec h0 delta longitude latitude gLatitude 20 m

end Verif
