import Verif.Model.Planets
import Verif.Data.Nutation

/-!
# Model of `commonterms.py` and `nutation.py`

Real arithmetic, for a single time.
-/

namespace Verif
noncomputable section
open Real

/-- `commonterms.py` 32-38 `kL1`. -/
def kL1 : List ℝ := [dToR 218.3164477, dToR 481267.88123421, dToR (-0.0015786), dToR (1 / 538841),
  dToR (-1 / 65194000)]
/-- `commonterms.py` 39-45 `kD`. -/
def kD : List ℝ := [dToR 297.8501921, dToR 445267.1114034, dToR (-0.0018819), dToR (1 / 545868),
  dToR (-1 / 113065000)]
/-- `commonterms.py` 46-51 `kM`. -/
def kM : List ℝ := [dToR 357.5291092, dToR 35999.0502909, dToR (-0.0001536), dToR (1 / 24490000)]
/-- `commonterms.py` 52-58 `kM1`. -/
def kM1 : List ℝ := [dToR 134.9633964, dToR 477198.8675055, dToR 0.0087414, dToR (1 / 69699),
  dToR (-1 / 14712000)]
/-- `commonterms.py` 59-65 `kF`. -/
def kF : List ℝ := [dToR 93.2720950, dToR 483202.0175233, dToR (-0.0036539), dToR (-1 / 3526000),
  dToR (1 / 863310000)]
/-- `commonterms.py` 66-72 `ko`. -/
def ko : List ℝ := [dToR 125.0445479, dToR (-1934.1362891), dToR 0.0020754, dToR (1 / 467441),
  dToR (1 / 60616000)]

/-- `nutation.py` 114-141 `_constants`: `D, M, M1, F, omega`. -/
def nutConstants (T : ℝ) : ℝ × ℝ × ℝ × ℝ × ℝ :=
  let D := modpi2 (polyR kD T)
  let M := modpi2 (polyR kM T)
  let M1 := modpi2 (polyR kM1 T)
  let F := modpi2 (polyR kF T)
  let omega := modpi2 (polyR ko T)
  (D, M, M1, F, omega)

/-- `nutation.py` 144-168 `nutation_in_longitude`. -/
def nutationInLongitude (jd : ℝ) : ℝ :=
  let T := jcent jd
  let (D, M, M1, F, omega) := nutConstants T
  let deltaPsi := Data.nutationTable.foldl (fun deltaPsi r =>
    let (tD, tM, tM1, tF, tomega, tpsiK, tpsiT, _, _) := r
    let arg := D * tD + M * tM + M1 * tM1 + F * tF + omega * tomega
    deltaPsi + (tpsiK / 10000 + tpsiT / 100000 * T) * sin arg) 0
  dToR (deltaPsi / 3600)

/-- `nutation.py` 171-195 `nutation_in_obliquity`. -/
def nutationInObliquity (jd : ℝ) : ℝ :=
  let T := jcent jd
  let (D, M, M1, F, omega) := nutConstants T
  let deltaEps := Data.nutationTable.foldl (fun deltaEps r =>
    let (tD, tM, tM1, tF, tomega, _, _, tepsK, tepsT) := r
    let arg := D * tD + M * tM + M1 * tM1 + F * tF + omega * tomega
    deltaEps + (tepsK / 10000 + tepsT / 100000 * T) * cos arg) 0
  dToR (deltaEps / 3600)

/-- `nutation.py` 201-206 `_el0`. -/
def el0 : List ℝ := [dToR (dmsR 23 26 21.448), dToR (dmsR 0 0 (-46.8150)),
  dToR (dmsR 0 0 (-0.00059)), dToR (dmsR 0 0 0.001813)]

/-- `nutation.py` 209-227 `obliquity`. -/
def obliquity (jd : ℝ) : ℝ := polyR el0 (jcent jd)

/-- `nutation.py` 233-245 `_el1`. -/
def el1 : List ℝ := [dToR (dmsR 23 26 21.448), dToR (dmsR 0 0 (-4680.93)), dToR (dmsR 0 0 (-1.55)),
  dToR (dmsR 0 0 1999.25), dToR (dmsR 0 0 (-51.38)), dToR (dmsR 0 0 (-249.67)),
  dToR (dmsR 0 0 (-39.05)), dToR (dmsR 0 0 7.12), dToR (dmsR 0 0 27.87), dToR (dmsR 0 0 5.79),
  dToR (dmsR 0 0 2.45)]

/-- `nutation.py` 248-268 `obliquity_hi`. -/
def obliquityHi (jd : ℝ) : ℝ := polyR el1 (jcent jd / 100)

end
end Verif
