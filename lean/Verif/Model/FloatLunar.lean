import Verif.Model.FloatSun
import Verif.Model.Lunar

/-!
# `lunar.py` in binary64

The same code as in `Model/Lunar.lean` with every operation rounded, for a single time.
-/

namespace Verif

variable (fl : ℚ → ℚ)

/-- `commonterms.py` 32-38 `kL1`: degrees, before conversion. -/
def degL1 : List ℚ := [218.3164477, 481267.88123421, -0.0015786, 1 / 538841, -1 / 65194000]
/-- `lunar.py` 175. -/
def degA1 : List ℚ := [119.75, 131.849]
/-- `lunar.py` 176. -/
def degA2 : List ℚ := [53.09, 479264.290]
/-- `lunar.py` 177. -/
def degA3 : List ℚ := [313.45, 481266.484]

/-- `lunar.py` 260-266, the literals of `mean_longitude_perigee`. -/
def degPerigee : List ℚ := [83.3532465, 4069.0137287, -0.0103200, -1 / 80053, 1 / 18999000]

/-- The values computed by `_constants`.  Used for lines 180-194 of lunar.py. -/
structure LunarConstantsF where
  L1 : ℚ
  D : ℚ
  M : ℚ
  M1 : ℚ
  F : ℚ
  A1 : ℚ
  A2 : ℚ
  A3 : ℚ
  E : ℚ
  E2 : ℚ

/-- `lunar.py` 180-195 `_constants`. -/
def lunarConstantsF (T : ℚ) : LunarConstantsF :=
  let angle (l : List ℚ) := modpi2F fl pi2F (horner fl T (radF fl l))
  let E := horner fl T ([1, -0.002516, -0.0000074].map fl)
  { L1 := angle degL1, D := angle degD, M := angle degM, M1 := angle degM1, F := angle degF, A1 := angle degA1,
    A2 := angle degA2, A3 := angle degA3, E := E, E2 := fl (E * E) }

/-- `lunar.py` 395, 415, 440: `tD * D + tM * M + tM1 * M1 + tF * F`. -/
def lunarArgF (c : LunarConstantsF) (tD tM tM1 tF : ℤ) : ℚ :=
  fl (fl (fl (fl (tD * c.D) + fl (tM * c.M)) + fl (tM1 * c.M1)) + fl (tF * c.F))

/-- `lunar.py` 396-399, 416-419, 441-444: the coefficient with its factor. -/
def lunarCoeffF (c : LunarConstantsF) (tM k : ℤ) : ℚ :=
  if |tM| = 1 then fl (k * c.E) else if |tM| = 2 then fl (k * c.E2) else k

/-- `lunar.py` 387-405 `Lunar._longitude`. -/
def lunarLongitudeF (lib : NumLib) (jd : ℚ) : ℚ :=
  let T := jcentF fl jd
  let c := lunarConstantsF fl T
  let lsum := Data.lunarLR.foldl (fun lsum r =>
    let (tD, tM, tM1, tF, tl, _) := r
    fl (lsum + fl (lunarCoeffF fl c tM tl * lib.sinF (lunarArgF fl c tD tM tM1 tF)))) 0
  let lsum := fl (lsum + fl (fl (fl (3958 * lib.sinF c.A1) + fl (1962 * lib.sinF (fl (c.L1 - c.F)))) +
    fl (318 * lib.sinF c.A2)))
  fl (fl (c.L1 + dToRF fl (fl (lsum / 1000000))) + nutationInLongitudeF fl lib jd)

/-- `lunar.py` 407-430 `Lunar._latitude`. -/
def lunarLatitudeF (lib : NumLib) (jd : ℚ) : ℚ :=
  let T := jcentF fl jd
  let c := lunarConstantsF fl T
  let bsum := Data.lunarB.foldl (fun bsum r =>
    let (tD, tM, tM1, tF, tb) := r
    fl (bsum + fl (lunarCoeffF fl c tM tb * lib.sinF (lunarArgF fl c tD tM tM1 tF)))) 0
  let bsum := fl (bsum + fl (fl (fl (fl (fl (fl (-2235 * lib.sinF c.L1) + fl (382 * lib.sinF c.A3)) +
    fl (175 * lib.sinF (fl (c.A1 - c.F)))) + fl (175 * lib.sinF (fl (c.A1 + c.F)))) +
    fl (127 * lib.sinF (fl (c.L1 - c.M1)))) - fl (115 * lib.sinF (fl (c.L1 + c.M1)))))
  dToRF fl (fl (bsum / 1000000))

/-- `lunar.py` 432-446 `Lunar._radius`. -/
def lunarRadiusF (lib : NumLib) (jd : ℚ) : ℚ :=
  let T := jcentF fl jd
  let c := lunarConstantsF fl T
  let rsum := Data.lunarLR.foldl (fun rsum r =>
    let (tD, tM, tM1, tF, _, tr) := r
    fl (rsum + fl (lunarCoeffF fl c tM tr * lib.cosF (lunarArgF fl c tD tM tM1 tF)))) 0
  fl (fl 385000.56 + fl (rsum / 1000))

/-- `lunar.py` 362-385 `Lunar.dimension`. -/
def lunarDimensionF (lib : NumLib) (jd : ℚ) (dim : String) : Except PyErr ℚ :=
  if dim = "L" then .ok (lunarLongitudeF fl lib jd)
  else if dim = "B" then .ok (lunarLatitudeF fl lib jd)
  else if dim = "R" then .ok (lunarRadiusF fl lib jd)
  else .error (.Error "lunar" ("unknown dimension = " ++ dim))

/-- `lunar.py` 339-360 `Lunar.dimension3`. -/
def lunarDimension3F (lib : NumLib) (jd : ℚ) : ℚ × ℚ × ℚ :=
  (lunarLongitudeF fl lib jd, lunarLatitudeF fl lib jd, lunarRadiusF fl lib jd)

/-- The mean angles, all of the form `modpi2(polynomial(k, jd_to_jcent(jd)))`.
Used for lines 182-190, 286, 303, 320 and 337 of lunar.py. -/
def meanAngleF (l : List ℚ) (jd : ℚ) : ℚ := modpi2F fl pi2F (horner fl (jcentF fl jd) (radF fl l))

/-- `lunar.py` 201-242 `Lunar.mean_longitude_ascending_node`. -/
def lunarNodeF (jd : ℚ) : ℚ := meanAngleF fl dego jd
/-- `lunar.py` 244-269 `Lunar.mean_longitude_perigee`. -/
def lunarPerigeeF (jd : ℚ) : ℚ := meanAngleF fl degPerigee jd
/-- `lunar.py` 271-286 `Lunar.mean_longitude`. -/
def lunarMeanLongitudeF (jd : ℚ) : ℚ := meanAngleF fl degL1 jd
/-- `lunar.py` 288-303 `Lunar.mean_elongation`. -/
def lunarMeanElongationF (jd : ℚ) : ℚ := meanAngleF fl degD jd
/-- `lunar.py` 305-320 `Lunar.mean_anomaly`. -/
def lunarMeanAnomalyF (jd : ℚ) : ℚ := meanAngleF fl degM1 jd
/-- `lunar.py` 322-337 `Lunar.argument_of_latitude`. -/
def lunarArgumentOfLatitudeF (jd : ℚ) : ℚ := meanAngleF fl degF jd

end Verif
