import Verif.Model.FloatGeo
import Verif.Model.RiseSet
import Verif.Model.Sun

/-!
# The remaining functions of `nutation.py`, `sun.py`, `coordinates.py` and `riseset.py` in binary64

The code of `Model/Nutation.lean`, `Model/Sun.lean`, `Model/Coordinates.lean` and `Model/RiseSet.lean`
with every operation rounded, for a single time.
-/

namespace Verif

variable (fl : ℚ → ℚ)

/-- `nutation.py` 233-245 `_el1`. -/
def el1F : List ℚ :=
  dToRF fl (dmsToD1 fl 23 26 (fl 21.448)) ::
    [-4680.93, -1.55, 1999.25, -51.38, -249.67, -39.05, 7.12, 27.87, 5.79, 2.45].map fun s =>
      dToRF fl (dmsToD1 fl 0 0 (fl s))

/-- `nutation.py` 248-268 `obliquity_hi`. -/
def obliquityHiF (jd : ℚ) : ℚ := horner fl (fl (jcentF fl jd / 100)) (el1F fl)

/-- `sun.py` 83-88: degrees, before conversion. -/
def degSun : List ℚ := [100.4664567, 360007.6982779, 0.03032028, 1 / 49931, -1 / 15300, -1 / 2000000]

/-- `sun.py` 57-95 `Sun.mean_longitude`. -/
def sunMeanLongitudeF (jd : ℚ) : ℚ :=
  let T := jcentF fl jd
  let X := horner fl (fl (T / 10)) (radF fl degSun)
  modpi2F fl pi2F (fl (X + piF))

/-- `sun.py` 97-118 `Sun.mean_longitude_perigee`. -/
def sunMeanLongitudePerigeeF (jd : ℚ) : ℚ :=
  let T := jcentF fl jd
  let X := fl (horner fl (fl (T + 1)) [1012395, fl 6189.03, fl 1.63, fl 0.012] / 3600)
  modpi2F fl pi2F (dToRF fl X)

/-- `sun.py` 188 `_kL0`: degrees, before conversion. -/
def degL0 : List ℚ := [280.46646, 36000.76983, 0.0003032]
/-- `sun.py` 195 `_kC`. -/
def degC : List ℚ := [1.914602, -0.004817, -0.000014]

/-- `sun.py` 203-207: the equation of the centre, with `M` the mean anomaly. -/
def lowCenterF (lib : NumLib) (T M : ℚ) : ℚ :=
  let ck3 := dToRF fl (fl 0.019993)
  let ck4 := dToRF fl (fl (-0.000101))
  let ck5 := dToRF fl (fl 0.000289)
  fl (fl (fl (horner fl T (radF fl degC) * lib.sinF M) +
    fl (fl (ck3 - fl (ck4 * T)) * lib.sinF (fl (2 * M)))) +
    fl (ck5 * lib.sinF (fl (3 * M))))

/-- `sun.py` 169-212 `longitude_radius_low`. -/
def longitudeRadiusLowF (lib : NumLib) (jd : ℚ) : ℚ × ℚ :=
  let T := jcentF fl jd
  let L0 := horner fl T (radF fl degL0)
  let M := horner fl T (radF fl degM)
  let er := horner fl T [fl 0.016708634, fl (-0.000042037), fl (-0.0000001267)]
  let C := lowCenterF fl lib T M
  let L := modpi2F fl pi2F (fl (L0 + C))
  let v := fl (M + C)
  let R := fl (fl (fl 1.000001018 * fl (1 - fl (er * er))) / fl (1 + fl (er * lib.cosF v)))
  (L, R)

/-- `sun.py` 215-240 `apparent_longitude_low`. -/
def apparentLongitudeLowF (lib : NumLib) (jd L : ℚ) : ℚ :=
  let lk0 := dToRF fl (fl 125.04)
  let lk1 := dToRF fl (fl 1934.136)
  let lk2 := dToRF fl (fl 0.00569)
  let lk3 := dToRF fl (fl 0.00478)
  let T := jcentF fl jd
  let omega := fl (lk0 - fl (lk1 * T))
  modpi2F fl pi2F (fl (fl (L - lk2) - fl (lk3 * lib.sinF omega)))

/-- `coordinates.py` 105-148 `ell_to_geo`. -/
def ellToGeoF (lib : GeoLib) (latitude longitude height : ℚ) : ℚ × ℚ × ℚ :=
  let f := fl (1 / fl 298.2564219846)
  let ea := fl (fl 6378.1363 / 1000)
  let ee := fl (fl (2 * f) - fl (f * f))
  let sinLat := lib.sinF latitude
  let cosLat := lib.cosF latitude
  let N := fl (ea / lib.sqrtF (fl (1 - fl (fl (ee * sinLat) * sinLat))))
  let Hx := fl (fl (N + height) * cosLat)
  let Hy := fl (fl (fl (N * fl (1 - ee)) + height) * sinLat)
  let r := lib.sqrtF (fl (fl (Hx * Hx) + fl (Hy * Hy)))
  let theta := lib.atan2F Hx Hy
  let phi := longitude
  (r, theta, phi)

/-- `riseset.py` 207-224 `moon_rst_altitude`; `none` is nan. -/
def moonRstAltitudeF (lib : TrigLib) (r : ℚ) : Option ℚ :=
  (lib.asinF (fl (fl 6378.1363 / r))).map fun parallax =>
    fl (fl (fl 0.7275 * parallax) + fl (-0.00989078087105))

end Verif
