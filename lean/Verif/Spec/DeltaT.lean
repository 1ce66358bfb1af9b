import Mathlib.Algebra.Order.Field.Basic
import Mathlib.Data.Rat.Cast.Defs

/-!
# ΔT independently of the code

The polynomial expressions of Espenak and Meeus, "Five Millennium Canon of Solar Eclipses", as
published on the NASA Eclipse Web Site, in their original variables, and linear interpolation.
-/

namespace Verif.Spec

/-- ΔT in seconds at the decimal year `y`; `yr` is the calendar year that selects the expression. -/
def espenakMeeus (yr : ℤ) (y : ℚ) : ℚ :=
  if yr < -500 then -20 + 32 * ((y - 1820) / 100) ^ 2
  else if yr < 500 then
    let u := y / 100
    10583.6 - 1014.41 * u + 33.78311 * u ^ 2 - 5.952053 * u ^ 3 - 0.1798452 * u ^ 4
      + 0.022174192 * u ^ 5 + 0.0090316521 * u ^ 6
  else if yr < 1600 then
    let u := (y - 1000) / 100
    1574.2 - 556.01 * u + 71.23472 * u ^ 2 + 0.319781 * u ^ 3 - 0.8503463 * u ^ 4
      - 0.005050998 * u ^ 5 + 0.0083572073 * u ^ 6
  else if yr < 1700 then
    let t := y - 1600
    120 - 0.9808 * t - 0.01532 * t ^ 2 + t ^ 3 / 7129
  else if yr < 1800 then
    let t := y - 1700
    8.83 + 0.1603 * t - 0.0059285 * t ^ 2 + 0.00013336 * t ^ 3 - t ^ 4 / 1174000
  else if yr < 1860 then
    let t := y - 1800
    13.72 - 0.332447 * t + 0.0068612 * t ^ 2 + 0.0041116 * t ^ 3 - 0.00037436 * t ^ 4
      + 0.0000121272 * t ^ 5 - 0.0000001699 * t ^ 6 + 0.000000000875 * t ^ 7
  else if yr < 1900 then
    let t := y - 1860
    7.62 + 0.5737 * t - 0.251754 * t ^ 2 + 0.01680668 * t ^ 3 - 0.0004473624 * t ^ 4
      + t ^ 5 / 233174
  else if yr < 1920 then
    let t := y - 1900
    (-2.79) + 1.494119 * t - 0.0598939 * t ^ 2 + 0.0061966 * t ^ 3 - 0.000197 * t ^ 4
  else if yr < 1941 then
    let t := y - 1920
    21.20 + 0.84493 * t - 0.076100 * t ^ 2 + 0.0020936 * t ^ 3
  else if yr < 1961 then
    let t := y - 1950
    29.07 + 0.407 * t - t ^ 2 / 233 + t ^ 3 / 2547
  else if yr < 1986 then
    let t := y - 1975
    45.45 + 1.067 * t - t ^ 2 / 260 - t ^ 3 / 718
  else if yr < 2005 then
    let t := y - 2000
    63.86 + 0.3345 * t - 0.060374 * t ^ 2 + 0.0017275 * t ^ 3 + 0.000651814 * t ^ 4
      + 0.00002373599 * t ^ 5
  else if yr < 2050 then
    let t := y - 2000
    62.92 + 0.32217 * t + 0.005589 * t ^ 2
  else if yr < 2150 then
    -20 + 32 * ((y - 1820) / 100) ^ 2 - 0.5628 * (2150 - y)
  else -20 + 32 * ((y - 1820) / 100) ^ 2

/-- With the correction for the secular acceleration of the Moon. -/
def deltaTPolynomial (yr mo : ℤ) : ℚ :=
  let y : ℚ := yr + ((mo : ℚ) - 0.5) / 12
  espenakMeeus yr y - 0.000012932 * (y - 1955) ^ 2

/-- The straight line through two points. -/
def line (p q : ℚ × ℚ) (x : ℚ) : ℚ := p.2 + (x - p.1) / (q.1 - p.1) * (q.2 - p.2)

end Verif.Spec
