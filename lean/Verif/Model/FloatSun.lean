import Verif.Model.FloatTrig
import Verif.Model.Nutation
import Verif.Model.Equinox

/-!
# `nutation.py`, `sun.py` and `equinox.py` in binary64

The same code as in `Model/Nutation.lean`, `Model/Sun.lean` and `Model/Equinox.lean`, for a single
time, with every operation rounded.  The functions of NumPy are collected in `NumLib`; what is
assumed of them is stated in `NumLib.Good`.
-/

namespace Verif

/-- The functions of NumPy used by the trigonometric code.
Used for line 118 and lines 188-190 of planets.py and line 192 of nutation.py. -/
structure NumLib where
  cosF : ℚ → ℚ
  sinF : ℚ → ℚ
  tanF : ℚ → ℚ
  sumF : List ℚ → ℚ

/-- What is assumed of NumPy: cosine, sine and (for angles up to one radian) tangent with an absolute
error of at most `2^-50`, and summation of at most 1400 numbers with additions at most `D` deep.
Used for line 118 and lines 188-190 of planets.py and line 192 of nutation.py. -/
structure NumLib.Good (fl : ℚ → ℚ) (D : ℕ) (lib : NumLib) : Prop where
  cos : CosLike lib.cosF
  sin : ∀ x : ℚ, |(lib.sinF x : ℝ) - Real.sin x| ≤ 1 / 2 ^ 50
  tan : ∀ x : ℚ, |x| ≤ 1 → |(lib.tanF x : ℝ) - Real.tan x| ≤ 1 / 2 ^ 50
  sum : SumLike fl 1400 D lib.sumF

variable (fl : ℚ → ℚ)

/-- `math.pi` and `np.pi`: the binary64 number nearest to `π`.
Used for line 377 of util.py (through `pi2` of constants.py). -/
def piF : ℚ := 884279719003555 / 281474976710656

/-- `calendar.py` 542-557 `jd_to_jcent`. -/
def jcentF (jd : ℚ) : ℚ := fl (fl (jd - 2451545) / 36525)

/-- `util.py` 81-95 `d_to_r`. -/
def dToRF (d : ℚ) : ℚ := fl (fl (d * piF) / 180)

/-- `commonterms.py` 39-45 `kD`: degrees, before conversion. -/
def degD : List ℚ := [297.8501921, 445267.1114034, -0.0018819, 1 / 545868, -1 / 113065000]
/-- `commonterms.py` 46-51 `kM`. -/
def degM : List ℚ := [357.5291092, 35999.0502909, -0.0001536, 1 / 24490000]
/-- `commonterms.py` 52-58 `kM1`. -/
def degM1 : List ℚ := [134.9633964, 477198.8675055, 0.0087414, 1 / 69699, -1 / 14712000]
/-- `commonterms.py` 59-65 `kF`. -/
def degF : List ℚ := [93.2720950, 483202.0175233, -0.0036539, -1 / 3526000, 1 / 863310000]
/-- `commonterms.py` 66-72 `ko`. -/
def dego : List ℚ := [125.0445479, -1934.1362891, 0.0020754, 1 / 467441, 1 / 60616000]

/-- `commonterms.py` 39-72: the literals (and quotients of literals) are rounded, then converted to
radians. -/
def radF (l : List ℚ) : List ℚ := l.map fun q => dToRF fl (fl q)

/-- `nutation.py` 114-141 `_constants`: `D, M, M1, F, omega`. -/
def nutConstantsF (T : ℚ) : ℚ × ℚ × ℚ × ℚ × ℚ :=
  let D := modpi2F fl pi2F (horner fl T (radF fl degD))
  let M := modpi2F fl pi2F (horner fl T (radF fl degM))
  let M1 := modpi2F fl pi2F (horner fl T (radF fl degM1))
  let F := modpi2F fl pi2F (horner fl T (radF fl degF))
  let omega := modpi2F fl pi2F (horner fl T (radF fl dego))
  (D, M, M1, F, omega)

/-- `nutation.py` 163, 190: `D * tD + M * tM + M1 * tM1 + F * tF + omega * tomega`. -/
def nutArgF (c : ℚ × ℚ × ℚ × ℚ × ℚ) (tD tM tM1 tF tomega : ℤ) : ℚ :=
  fl (fl (fl (fl (fl (c.1 * tD) + fl (c.2.1 * tM)) + fl (c.2.2.1 * tM1)) + fl (c.2.2.2.1 * tF)) +
    fl (c.2.2.2.2 * tomega))

/-- `nutation.py` 164, 191: `tpsiK / 10000.0 + tpsiT / 100000.0 * T`. -/
def nutCoeffF (K t : ℤ) (T : ℚ) : ℚ := fl (fl (K / 10000) + fl (fl (t / 100000) * T))

/-- `nutation.py` 144-168 `nutation_in_longitude`. -/
def nutationInLongitudeF (lib : NumLib) (jd : ℚ) : ℚ :=
  let T := jcentF fl jd
  let c := nutConstantsF fl T
  let deltaPsi := Data.nutationTable.foldl (fun deltaPsi r =>
    let (tD, tM, tM1, tF, tomega, tpsiK, tpsiT, _, _) := r
    fl (deltaPsi + fl (nutCoeffF fl tpsiK tpsiT T * lib.sinF (nutArgF fl c tD tM tM1 tF tomega)))) 0
  dToRF fl (fl (deltaPsi / 3600))

/-- `nutation.py` 171-195 `nutation_in_obliquity`. -/
def nutationInObliquityF (lib : NumLib) (jd : ℚ) : ℚ :=
  let T := jcentF fl jd
  let c := nutConstantsF fl T
  let deltaEps := Data.nutationTable.foldl (fun deltaEps r =>
    let (tD, tM, tM1, tF, tomega, _, _, tepsK, tepsT) := r
    fl (deltaEps + fl (nutCoeffF fl tepsK tepsT T * lib.cosF (nutArgF fl c tD tM tM1 tF tomega)))) 0
  dToRF fl (fl (deltaEps / 3600))

/-- `nutation.py` 201-206 `_el0`. -/
def el0F : List ℚ := [dToRF fl (dmsToD1 fl 23 26 (fl 21.448)), dToRF fl (dmsToD1 fl 0 0 (fl (-46.8150))),
  dToRF fl (dmsToD1 fl 0 0 (fl (-0.00059))), dToRF fl (dmsToD1 fl 0 0 (fl 0.001813))]

/-- `nutation.py` 209-227 `obliquity`. -/
def obliquityF (jd : ℚ) : ℚ := horner fl (jcentF fl jd) (el0F fl)

/-- `sun.py` 120-166 `Sun.dimension3`, for a single time. -/
def sunDimension3F (lib : NumLib) (jd : ℚ) : Except PyErr (ℚ × ℚ × ℚ) := do
  let L ← vsopDimensionF fl lib.cosF lib.sumF jd "Earth" "L"
  let B ← vsopDimensionF fl lib.cosF lib.sumF jd "Earth" "B"
  let R ← vsopDimensionF fl lib.cosF lib.sumF jd "Earth" "R"
  .ok (modpi2F fl pi2F (fl (L + piF)), -B, R)

/-- `sun.py` 243-259 `aberration_low`. -/
def aberrationLowF (R : ℚ) : ℚ := fl (-dToRF fl (dmsToD1 fl 0 0 (fl 20.4898)) / R)

/-- `planets.py` 156. -/
def fk0F : ℚ := dToRF fl (fl (-1.397))
/-- `planets.py` 157. -/
def fk1F : ℚ := dToRF fl (fl (-0.00031))
/-- `planets.py` 158. -/
def fk2F : ℚ := dToRF fl (dmsToD1 fl 0 0 (fl (-0.09033)))
/-- `planets.py` 159. -/
def fk3F : ℚ := dToRF fl (dmsToD1 fl 0 0 (fl 0.03916))

/-- `planets.py` 162-192 `vsop_to_fk5`, for a single time. -/
def vsopToFk5F (lib : NumLib) (jd L B : ℚ) : ℚ × ℚ :=
  let T := jcentF fl jd
  let L1 := horner fl T [L, fk0F fl, fk1F fl]
  let cosL1 := lib.cosF L1
  let sinL1 := lib.sinF L1
  let deltaL := fl (fk2F fl + fl (fl (fk3F fl * fl (cosL1 + sinL1)) * lib.tanF B))
  let deltaB := fl (fk3F fl * fl (cosL1 - sinL1))
  (modpi2F fl pi2F (fl (L + deltaL)), fl (B + deltaB))

/-- `util.py` 115-134 `diff_angle`. -/
def diffAngleF (a b : ℚ) : ℚ :=
  let result := if b < a then fl (fl (b + pi2F) - a) else fl (b - a)
  if result > piF then fl (result - pi2F) else result

/-- `equinox.py` 134 `_circle`. -/
def circleF : List (String × ℚ) :=
  [("spring", 0), ("summer", fl (piF * 0.5)), ("autumn", piF), ("winter", fl (piF * 1.5))]

/-- `equinox.py` 136 `_k_sun_motion`. -/
def kSunMotionF : ℚ := fl (365.25 / pi2F)

/-- `equinox.py` 166-168: the apparent longitude of the Sun. -/
def apparentSunF (lib : NumLib) (jd : ℚ) : Except PyErr ℚ := do
  let (L, B, R) ← sunDimension3F fl lib jd
  let L := fl (L + fl (nutationInLongitudeF fl lib jd + aberrationLowF fl R))
  .ok (vsopToFk5F fl lib jd L B).1

/-- `equinox.py` 164-174: the loop, with `n` passes left. -/
def equinoxLoopF (lib : NumLib) (circ delta : ℚ) : ℕ → ℚ → Except PyErr ℚ
  | 0, _ => .error (.Error "equinox" "bailout")
  | n + 1, jd => do
    let jd0 := jd
    let L ← apparentSunF fl lib jd
    let jd := fl (jd + fl (diffAngleF fl L circ * kSunMotionF fl))
    if |fl (jd - jd0)| < delta then .ok jd else equinoxLoopF lib circ delta n jd

/-- `equinox.py` 139-174 `equinox`. -/
def equinoxF (lib : NumLib) (jd : ℚ) (season : String) (delta : ℚ) : Except PyErr ℚ :=
  match (circleF fl).lookup season with
  | none => .error (.KeyError season)
  | some circ => equinoxLoopF fl lib circ delta 20 jd

end Verif
