import Verif.Model.FloatSun

/-!
# `equinox_approx` in binary64

The same code as in `Model/Equinox.lean` with every operation rounded.  `cosF` is `math.cos`, `sumF` is
the builtin `sum`; what is assumed of them is stated in `CosLike` and `PySumLike`.
-/

namespace Verif

/-- What is assumed of the builtin `sum` for up to 100 floats: the error bound of adding them up one
after the other.  Before Python 3.12 `sum` does just this, later it compensates the errors.
Used for line 129 of equinox.py. -/
def PySumLike (sumF : List ℚ → ℚ) : Prop := ∀ l : List ℚ, l.length ≤ 100 →
  |sumF l - l.sum| ≤ l.length / 2 ^ 52 * (l.map fun x => |x| + 1 / 10 ^ 30).sum

variable (fl : ℚ → ℚ)

/-- `equinox.py` 118-123: the polynomial of the table chosen by the (integer) year. -/
def equinoxPolyF (yr : ℤ) (season : String) : Except PyErr ℚ :=
  let (Y, tbl) := if -1000 ≤ yr ∧ yr ≤ 1000 then (fl (yr / 1000), Data.approx1000)
    else (fl (((yr - 2000 : ℤ) : ℚ) / 1000), Data.approx3000)
  match tbl.lookup season with
  | none => .error (.KeyError season)
  | some c => .ok (horner fl Y (c.map fun (x : ℤ) => fl ((x : ℚ) / 100000)))

/-- `equinox.py` 129: a term of the sum; the table is at 64-89. -/
def equinoxTermF (cosF : ℚ → ℚ) (T : ℚ) (r : ℤ × ℤ × ℤ) : ℚ :=
  fl (r.1 * cosF (fl (dToRF fl (fl (r.2.1 / 1000)) + fl (dToRF fl (fl (r.2.2 / 1000)) * T))))

/-- `equinox.py` 126-129: the value added to `jd`. -/
def equinoxCorrectionF (cosF : ℚ → ℚ) (sumF : List ℚ → ℚ) (jd : ℚ) : ℚ :=
  let T := jcentF fl jd
  let W := dToRF fl (fl (fl (fl 35999.373 * T) - fl 2.47))
  let deltaLambda := fl (fl (1 + fl (fl 0.0334 * cosF W)) + fl (fl 0.0007 * cosF (fl (2 * W))))
  fl (fl (fl 0.00001 * sumF (Data.equinoxTerms.map fun r => equinoxTermF fl cosF T r)) / deltaLambda)

/-- `equinox.py` 92-131 `equinox_approx`. -/
def equinoxApproxF (cosF : ℚ → ℚ) (sumF : List ℚ → ℚ) (names : List String) (yr : ℚ) (season : String) :
    Except PyErr ℚ :=
  if ¬ (-1000 ≤ yr ∧ yr ≤ 3000) then .error (.Error "equinox" "year is out of range")
  else if season ∉ names then .error (.Error "equinox" ("unknown season =" ++ season))
  else do
    let jd ← equinoxPolyF fl (trunc yr) season
    .ok (fl (jd + equinoxCorrectionF fl cosF sumF jd))

end Verif
