import Verif.Lemmas.FloatMisc3
import Verif.Props.FloatLunar
import Verif.Props.Coordinates
import Verif.Props.RiseSet

/-!
# C87: obliquity, mean Sun, low precision Sun, `ell_to_geo` and `moon_rst_altitude` in binary64

The formulas on the right are those of C44, C46 and C62; `ellToGeo` and `moonRstAltitude` are
the functions in real arithmetic.
-/

namespace Verif
open Real

/-- Replace the exact angle by one that differs by whole turns. -/
theorem NearA.congr {X : ℚ} {x y e : ℝ} (h : NearA X x e) (hc : Congr (2 * π) x y) : TurnNear X y e := by
  obtain ⟨k, hk⟩ := h
  obtain ⟨j, hj⟩ := hc
  refine ⟨k + j, ?_⟩
  have : y + ((k + j : ℤ) : ℝ) * (2 * π) = x + k * (2 * π) := by rw [hj]; push_cast; ring
  rw [this]
  exact hk

/-- C87: the mean obliquity, both formulas: an error of at most `1e-15` radian (`2.1e-10` second of arc)
within 6000 years of J2000, the high precision formula within 10000 years. -/
theorem obliquity_float {fl : ℚ → ℚ} (hf : FloatLike fl) (jd : ℚ) :
    (|centuries jd| ≤ 60 → |(obliquityF fl jd : ℝ) - arcsec (obl (centuries jd))| ≤ 1e-15) ∧
    (|centuries jd| ≤ 100 → |(obliquityHiF fl jd : ℝ) - arcsec (oblHi (centuries jd / 100))| ≤ 1e-15) := by
  rw [← obliquity_eq, ← obliquityHi_eq]
  exact ⟨fun h => obliquityF_near hf h, fun h => obliquityHiF_near hf h⟩

/-- C87: the two computed obliquities differ by less than 1.00001 seconds of arc within 1000 years and by
less than 2.00001 within 2000 years of J2000, like the formulas (C44). -/
theorem obliquity_float_agree {fl : ℚ → ℚ} (hf : FloatLike fl) (jd : ℚ) :
    (|centuries jd| ≤ 10 → |(obliquityHiF fl jd : ℝ) - obliquityF fl jd| < arcsec 1.00001) ∧
    (|centuries jd| ≤ 20 → |(obliquityHiF fl jd : ℝ) - obliquityF fl jd| < arcsec 2.00001) := by
  have key : ∀ x : ℝ, |centuries jd| ≤ 20 → |obliquityHi jd - obliquity jd| < arcsec x →
      |(obliquityHiF fl jd : ℝ) - obliquityF fl jd| < arcsec (x + 0.00001) := by
    intro x h hx
    have a := obliquityF_near hf (jd := jd) (h.trans (by norm_num))
    have b := obliquityHiF_near hf (jd := jd) (h.trans (by norm_num))
    unfold Near at a b
    rw [abs_sub_comm] at a
    have e : (obliquityHiF fl jd : ℝ) - obliquityF fl jd =
      (obliquityHiF fl jd - obliquityHi jd) + (obliquityHi jd - obliquity jd) + (obliquity jd - obliquityF fl jd) := by ring
    have := abs_add_three ((obliquityHiF fl jd : ℝ) - obliquityHi jd) (obliquityHi jd - obliquity jd) (obliquity jd - obliquityF fl jd)
    rw [← e] at this
    have p : (2e-15 : ℝ) < arcsec 0.00001 := by
      unfold arcsec; have := Real.pi_gt_three; norm_num at this ⊢; linarith
    have q : arcsec (x + 0.00001) = arcsec x + arcsec 0.00001 := by unfold arcsec; ring
    rw [q]
    norm_num at a b p ⊢
    linarith
  obtain ⟨a, b⟩ := obliquity_agree jd
  constructor
  · intro h
    have := key 1 (h.trans (by norm_num)) (a h)
    norm_num at this ⊢; exact this
  · intro h
    have := key 2 h (b h)
    norm_num at this ⊢; exact this

/-- C87: `Sun.mean_longitude` within 6000 years of J2000: an error of at most `6e-11` radian. -/
theorem sun_mean_longitude_float {fl : ℚ → ℚ} (hf : FloatLike fl) (jd : ℚ) (h : |centuries jd| ≤ 60) :
    (0 ≤ sunMeanLongitudeF fl jd ∧ sunMeanLongitudeF fl jd ≤ pi2F) ∧
    TurnNear (sunMeanLongitudeF fl jd) (deg (280.4664567 + 36000.76982779 * centuries jd +
      0.0003032028 * centuries jd ^ 2 + centuries jd ^ 3 / 49931000 - centuries jd ^ 4 / 153000000 -
      centuries jd ^ 5 / 200000000000)) 6e-11 := by
  refine ⟨modpi2F_range hf _, (sunMeanLongitudeF_near hf h).congr ?_⟩
  refine congr_trans (modpi2_spec _).2.2 ⟨0, ?_⟩
  have e : jcent jd = centuries jd := rfl
  simp only [e, polyR, horner, dToR, deg]
  push_cast; ring

/-- C87: `Sun.mean_longitude_perigee` within 6000 years of J2000: an error of at most `1e-14` radian. -/
theorem sun_mean_longitude_perigee_float {fl : ℚ → ℚ} (hf : FloatLike fl) (jd : ℚ) (h : |centuries jd| ≤ 60) :
    (0 ≤ sunMeanLongitudePerigeeF fl jd ∧ sunMeanLongitudePerigeeF fl jd ≤ pi2F) ∧
    TurnNear (sunMeanLongitudePerigeeF fl jd) (deg ((1012395 + 6189.03 * (centuries jd + 1) +
      1.63 * (centuries jd + 1) ^ 2 + 0.012 * (centuries jd + 1) ^ 3) / 3600)) 1e-14 := by
  refine ⟨modpi2F_range hf _, (sunMeanLongitudePerigeeF_near hf h).congr ?_⟩
  refine congr_trans (modpi2_spec _).2.2 ⟨0, ?_⟩
  have e : jcent jd = centuries jd := rfl
  simp only [e, polyR, horner, dToR, deg]
  push_cast; ring

/-- C87: `longitude_radius_low` within 6000 years of J2000: errors of at most `5e-11` radian and
`1e-12` au, far below the `0.01` degree of the theory itself. -/
theorem longitude_radius_low_float {fl : ℚ → ℚ} (hf : FloatLike fl) {lib : NumLib} {D : ℕ} (hl : lib.Good fl D)
    (jd : ℚ) (h : |centuries jd| ≤ 60) :
    (0 ≤ (longitudeRadiusLowF fl lib jd).1 ∧ (longitudeRadiusLowF fl lib jd).1 ≤ pi2F) ∧
    TurnNear (longitudeRadiusLowF fl lib jd).1 (deg (lowLongitude (centuries jd) + lowCenter (centuries jd))) 5e-11 ∧
    |((longitudeRadiusLowF fl lib jd).2 : ℝ) - 1.000001018 * (1 - ecc (centuries jd) ^ 2) /
      (1 + ecc (centuries jd) * cos (deg (Mean.sunAnomaly (centuries jd) + lowCenter (centuries jd))))| ≤ 1e-12 := by
  obtain ⟨-, c, r⟩ := longitude_radius_low_value jd
  obtain ⟨n1, n2⟩ := longitudeRadiusLowF_near hf hl (jd := jd) h
  refine ⟨modpi2F_range hf _, n1.congr c, ?_⟩
  rw [← r]
  exact n2

/-- C87: `apparent_longitude_low` within 6000 years of J2000: an error of at most `7e-15` radian beside
that of the longitude it is given. -/
theorem apparent_longitude_low_float {fl : ℚ → ℚ} (hf : FloatLike fl) {lib : NumLib} {D : ℕ} (hl : lib.Good fl D)
    (jd L : ℚ) (h : |centuries jd| ≤ 60) (hL : |L| ≤ 10) :
    (0 ≤ apparentLongitudeLowF fl lib jd L ∧ apparentLongitudeLowF fl lib jd L ≤ pi2F) ∧
    TurnNear (apparentLongitudeLowF fl lib jd L) (L - deg (0.00569 +
      0.00478 * sin (deg (125.04 - 1934.136 * centuries jd)))) 7e-15 := by
  have hL' : |(L : ℝ)| ≤ 10 := by exact_mod_cast hL
  exact ⟨modpi2F_range hf _, (apparentLongitudeLowF_near hf hl h hL').congr (apparent_longitude_low_value jd L).2.1⟩

/-- C87: the low precision apparent longitude, both steps. -/
theorem apparent_low_float {fl : ℚ → ℚ} (hf : FloatLike fl) {lib : NumLib} {D : ℕ} (hl : lib.Good fl D)
    (jd : ℚ) (h : |centuries jd| ≤ 60) :
    TurnNear (apparentLongitudeLowF fl lib jd (longitudeRadiusLowF fl lib jd).1)
      (deg (lowLongitude (centuries jd) + lowCenter (centuries jd) - (0.00569 +
        0.00478 * sin (deg (125.04 - 1934.136 * centuries jd))))) 5.1e-11 := by
  obtain ⟨r, ⟨k, hk⟩, -⟩ := longitude_radius_low_float hf hl jd h
  obtain ⟨-, ⟨j, hj⟩⟩ := apparent_longitude_low_float hf hl jd (longitudeRadiusLowF fl lib jd).1 h (by
    rw [abs_of_nonneg r.1]; exact r.2.trans (by norm_num [pi2F]))
  refine ⟨j + k, ?_⟩
  generalize (longitudeRadiusLowF fl lib jd).1 = X at *
  generalize (apparentLongitudeLowF fl lib jd X : ℝ) = Y at *
  generalize 0.00569 + 0.00478 * sin (deg (125.04 - 1934.136 * centuries jd)) = d at *
  generalize lowLongitude (centuries jd) + lowCenter (centuries jd) = l at *
  have e : Y - (deg (l - d) + ((j + k : ℤ) : ℝ) * (2 * π)) =
      (Y - (X - deg d + j * (2 * π))) + (X - (deg l + k * (2 * π))) := by
    unfold deg; push_cast; ring
  rw [e]
  refine (abs_add_le _ _).trans ?_
  norm_num at *; linarith

/-- C87: `ell_to_geo` for heights between -1 and 100 of its length units (thousands of kilometres, see
`ell_to_geo_wrong_unit`): errors of at most `6e-13` units and `1e-13` radian. -/
theorem ell_to_geo_float {fl : ℚ → ℚ} (hf : FloatLike fl) {lib : GeoLib} {D : ℕ} (hl : lib.Good fl D)
    (lat lon ht : ℚ) (h1 : -1 ≤ ht) (h2 : ht ≤ 100) :
    |((ellToGeoF fl lib lat lon ht).1 : ℝ) - (ellToGeo lat lon ht).1| ≤ 6e-13 ∧
    TurnNear (ellToGeoF fl lib lat lon ht).2.1 (ellToGeo lat lon ht).2.1 1e-13 ∧
    (ellToGeoF fl lib lat lon ht).2.2 = lon :=
  ellToGeoF_near hf hl lat lon ht h1 h2

/-- C87: `moon_rst_altitude` has an error of at most `1.5e-15` radian from 10000 km on, and is nan inside
the Earth. -/
theorem moon_rst_altitude_float {fl : ℚ → ℚ} (hf : FloatLike fl) {lib : TrigLib} {D : ℕ} (hl : lib.Good fl D) (r : ℚ) :
    (10000 ≤ r → ∃ a, moonRstAltitudeF fl lib r = some a ∧ |(a : ℝ) - moonRstAltitude r| ≤ 1.5e-15) ∧
    (0 < r → r ≤ 6378 → moonRstAltitudeF fl lib r = none) :=
  ⟨fun h => moonRstAltitudeF_near hf hl h, fun h0 h => moonRstAltitudeF_nan hf hl h0 h⟩

/-- C87: with the distances of the Moon, the altitude computed with floats is between 0.059 and 0.211
degree (C65). -/
theorem moon_rst_altitude_float_range {fl : ℚ → ℚ} (hf : FloatLike fl) {lib : TrigLib} {D : ℕ} (hl : lib.Good fl D)
    (r : ℚ) (h1 : 356000 ≤ r) (h2 : r ≤ 407000) :
    ∃ a, moonRstAltitudeF fl lib r = some a ∧ 0.059 ≤ (a : ℝ) * (180 / π) ∧ (a : ℝ) * (180 / π) ≤ 0.211 := by
  obtain ⟨a, ha, hn⟩ := (moon_rst_altitude_float hf hl r).1 (by linarith)
  obtain ⟨b1, b2⟩ := moon_altitude_range (r := r) (by exact_mod_cast h1) (by exact_mod_cast h2)
  refine ⟨a, ha, ?_⟩
  have d : |(a : ℝ) * (180 / π) - moonRstAltitude r * (180 / π)| ≤ 1e-3 := by
    rw [← sub_mul, abs_mul, abs_of_pos (by positivity : (0 : ℝ) < 180 / π)]
    have p : 180 / π ≤ 60 := by
      rw [div_le_iff₀ Real.pi_pos]; have := Real.pi_gt_three; linarith
    exact (mul_le_mul hn p (by positivity) (by norm_num)).trans (by norm_num)
  rw [abs_le] at d
  norm_num at *
  constructor <;> linarith [d.1, d.2]

/-- The year 1992. -/
example : |centuries ((2448908.5 : ℚ) : ℝ)| ≤ 20 ∧ |(3.4 : ℚ)| ≤ 10 := by
  constructor
  · unfold centuries; push_cast; rw [abs_le]; norm_num
  · norm_num [abs_of_pos]

end Verif
