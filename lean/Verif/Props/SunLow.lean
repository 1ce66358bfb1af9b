import Verif.Model.Sun
import Verif.Spec.MeanArguments
import Verif.Props.Lunar

/-!
# C46: low precision position of the Sun

Real arithmetic.
-/

namespace Verif
open Real

/-- The eccentricity of the orbit of the Earth. -/
noncomputable def ecc (T : ℝ) : ℝ := 0.016708634 - 0.000042037 * T - 0.0000001267 * T ^ 2

/-- Mean longitude of the Sun of the low precision theory, degrees. -/
noncomputable def lowLongitude (T : ℝ) : ℝ := 280.46646 + 36000.76983 * T + 0.0003032 * T ^ 2

/-- Equation of the centre of the low precision theory, degrees.  The code subtracts a negative
coefficient, so the factor of `sin 2M` grows by `0.000101 T`; see `equation_of_center_sign`. -/
noncomputable def lowCenter (T : ℝ) : ℝ :=
  (1.914602 - 0.004817 * T - 0.000014 * T ^ 2) * sin (deg (Mean.sunAnomaly T)) +
  (0.019993 + 0.000101 * T) * sin (2 * deg (Mean.sunAnomaly T)) +
  0.000289 * sin (3 * deg (Mean.sunAnomaly T))

/-- The equation of the centre as published (Meeus, equation 25.4), degrees. -/
noncomputable def publishedCenter (T : ℝ) : ℝ :=
  (1.914602 - 0.004817 * T - 0.000014 * T ^ 2) * sin (deg (Mean.sunAnomaly T)) +
  (0.019993 - 0.000101 * T) * sin (2 * deg (Mean.sunAnomaly T)) +
  0.000289 * sin (3 * deg (Mean.sunAnomaly T))

/-- C46, negated for the published formula: the code's double sign changes the equation of the
centre by `0.000202 T sin 2M`; that is more than 0.004 degree at `T = 20.001848`.  The resulting
error stays below 0.00021 degree per century. -/
theorem equation_of_center_sign :
    (∀ T, lowCenter T - publishedCenter T = 0.000202 * T * sin (2 * deg (Mean.sunAnomaly T))) ∧
    (∀ T, |lowCenter T - publishedCenter T| ≤ 0.000202 * |T|) ∧
    0.004 < lowCenter 20.001848 - publishedCenter 20.001848 := by
  have h : ∀ T, lowCenter T - publishedCenter T =
      0.000202 * T * sin (2 * deg (Mean.sunAnomaly T)) := by
    intro T; unfold lowCenter publishedCenter; ring
  refine ⟨h, ?_, ?_⟩
  · intro T
    rw [h, abs_mul]
    refine (mul_le_of_le_one_right (abs_nonneg _) (abs_sin_le_one _)).trans (le_of_eq ?_)
    rw [abs_mul, abs_of_pos (by norm_num : (0 : ℝ) < 0.000202)]
  · rw [h]
    have e : 2 * deg (Mean.sunAnomaly 20.001848) =
        deg (2 * Mean.sunAnomaly 20.001848 - 90 - 4002 * 360) + π / 2 + (4002 : ℕ) * (2 * π) := by
      unfold deg; push_cast; ring
    rw [e, sin_add_nat_mul_two_pi, sin_add_pi_div_two]
    have b := one_sub_sq_div_two_le_cos (x := deg (2 * Mean.sunAnomaly 20.001848 - 90 - 4002 * 360))
    have b1 : |deg (2 * Mean.sunAnomaly 20.001848 - 90 - 4002 * 360)| ≤ 0.1 := by
      rw [abs_deg]
      unfold deg
      have q : |2 * Mean.sunAnomaly 20.001848 - 90 - 4002 * 360| ≤ 1 := by
        unfold Mean.sunAnomaly; rw [abs_le]; norm_num
      have p := Real.pi_lt_d2
      norm_num at p q ⊢
      nlinarith [abs_nonneg (2 * Mean.sunAnomaly 20.001848 - 90 - 4002 * 360), Real.pi_pos]
    have b2 : deg (2 * Mean.sunAnomaly 20.001848 - 90 - 4002 * 360) ^ 2 ≤ 0.1 ^ 2 :=
      sq_le_sq' (abs_le.mp b1).1 (abs_le.mp b1).2
    generalize deg (2 * Mean.sunAnomaly 20.001848 - 90 - 4002 * 360) = x at *
    norm_num at b b2 ⊢
    linarith

/-- C46: value of the low precision longitude and radius. -/
theorem longitude_radius_low_value (jd : ℝ) :
    (0 ≤ (longitudeRadiusLow jd).1 ∧ (longitudeRadiusLow jd).1 < 2 * π) ∧
    Congr (2 * π) (longitudeRadiusLow jd).1
      (deg (lowLongitude (centuries jd) + lowCenter (centuries jd))) ∧
    (longitudeRadiusLow jd).2 = 1.000001018 * (1 - ecc (centuries jd) ^ 2) /
      (1 + ecc (centuries jd) * cos (deg (Mean.sunAnomaly (centuries jd) + lowCenter (centuries jd)))) := by
  have e : jcent jd = centuries jd := rfl
  have hM : polyR [dToR 357.5291092, dToR 35999.0502909, dToR (-0.0001536), dToR (1 / 24490000)]
      (centuries jd) = deg (Mean.sunAnomaly (centuries jd)) := polyR_kM _
  refine ⟨⟨(modpi2_spec _).1, (modpi2_spec _).2.1⟩, ?_, ?_⟩
  · refine congr_trans (modpi2_spec _).2.2 ⟨0, ?_⟩
    simp only [e, hM]
    unfold lowLongitude lowCenter
    simp only [polyR, horner, dToR]
    generalize deg (Mean.sunAnomaly (centuries jd)) = M
    simp only [deg]
    push_cast; ring
  · simp only [longitudeRadiusLow, e, hM]
    have h1 : polyR [0.016708634, -0.000042037, -0.0000001267] (centuries jd) = ecc (centuries jd) := by
      simp only [polyR, horner, ecc]; ring
    rw [h1]
    have h2 : deg (Mean.sunAnomaly (centuries jd)) +
        (polyR [dToR 1.914602, dToR (-0.004817), dToR (-0.000014)] (centuries jd) *
          sin (deg (Mean.sunAnomaly (centuries jd))) +
        (dToR 0.019993 - dToR (-0.000101) * centuries jd) *
          sin (2 * deg (Mean.sunAnomaly (centuries jd))) +
        dToR 0.000289 * sin (3 * deg (Mean.sunAnomaly (centuries jd)))) =
        deg (Mean.sunAnomaly (centuries jd) + lowCenter (centuries jd)) := by
      rw [deg_add]
      unfold lowCenter
      simp only [polyR, horner, dToR]
      generalize deg (Mean.sunAnomaly (centuries jd)) = M
      simp only [deg]
      ring
    rw [h2, sq]

theorem ecc_bound {T : ℝ} (h : |T| ≤ 50) : 0.014 ≤ ecc T ∧ ecc T ≤ 0.0189 := by
  obtain ⟨h1, h2⟩ := abs_le.mp h
  have q : T ^ 2 ≤ 2500 := by nlinarith
  have q0 : 0 ≤ T ^ 2 := sq_nonneg T
  unfold ecc
  constructor <;> norm_num <;> linarith

/-- C46: within 5000 years of J2000 the low precision radius is between 0.98 and 1.02 au, more
precisely between perihelion and aphelion distance of the ellipse. -/
theorem longitude_radius_low_radius (jd : ℝ) (h : |centuries jd| ≤ 50) :
    1.000001018 * (1 - ecc (centuries jd)) ≤ (longitudeRadiusLow jd).2 ∧
    (longitudeRadiusLow jd).2 ≤ 1.000001018 * (1 + ecc (centuries jd)) ∧
    0.98 < (longitudeRadiusLow jd).2 ∧ (longitudeRadiusLow jd).2 < 1.02 := by
  obtain ⟨-, -, hR⟩ := longitude_radius_low_value jd
  obtain ⟨e1, e2⟩ := ecc_bound h
  rw [hR]
  generalize ecc (centuries jd) = x at *
  obtain ⟨c1, c2⟩ := abs_le.mp (abs_cos_le_one (deg (Mean.sunAnomaly (centuries jd) +
    lowCenter (centuries jd))))
  generalize cos (deg (Mean.sunAnomaly (centuries jd) + lowCenter (centuries jd))) = c at *
  have x0 : 0 < x := by norm_num at e1; linarith
  have x1 : x < 0.02 := by norm_num at e2 ⊢; linarith
  norm_num at x1
  have d : 0 < 1 + x * c := by nlinarith
  have A : 1.000001018 * (1 - x) ≤ 1.000001018 * (1 - x ^ 2) / (1 + x * c) := by
    rw [le_div_iff₀ d, mul_assoc]
    refine mul_le_mul_of_nonneg_left ?_ (by norm_num)
    nlinarith [mul_nonneg x0.le (mul_nonneg (by linarith : 0 ≤ 1 - x) (by linarith : 0 ≤ 1 - c))]
  have B : 1.000001018 * (1 - x ^ 2) / (1 + x * c) ≤ 1.000001018 * (1 + x) := by
    rw [div_le_iff₀ d, mul_assoc]
    refine mul_le_mul_of_nonneg_left ?_ (by norm_num)
    nlinarith [mul_nonneg x0.le (mul_nonneg (by linarith : 0 ≤ 1 + x) (by linarith : 0 ≤ 1 + c))]
  refine ⟨A, B, ?_, ?_⟩
  · refine lt_of_lt_of_le ?_ A
    norm_num at e2 ⊢; linarith
  · refine lt_of_le_of_lt B ?_
    norm_num at e2 ⊢; linarith

example : |centuries 2448908.5| ≤ 50 := by unfold centuries; rw [abs_le]; norm_num

/-- C46: the apparent longitude is the longitude, less aberration and nutation of between 0.0009 and
0.0105 degree, reduced to one turn. -/
theorem apparent_longitude_low_value (jd L : ℝ) :
    (0 ≤ apparentLongitudeLow jd L ∧ apparentLongitudeLow jd L < 2 * π) ∧
    Congr (2 * π) (apparentLongitudeLow jd L) (L - deg (0.00569 +
      0.00478 * sin (deg (125.04 - 1934.136 * centuries jd)))) ∧
    0.0009 ≤ 0.00569 + 0.00478 * sin (deg (125.04 - 1934.136 * centuries jd)) ∧
    0.00569 + 0.00478 * sin (deg (125.04 - 1934.136 * centuries jd)) ≤ 0.0105 := by
  refine ⟨⟨(modpi2_spec _).1, (modpi2_spec _).2.1⟩, ?_, ?_, ?_⟩
  · refine congr_trans (modpi2_spec _).2.2 ⟨0, ?_⟩
    have e : jcent jd = centuries jd := rfl
    have h : dToR 125.04 - dToR 1934.136 * centuries jd = deg (125.04 - 1934.136 * centuries jd) := by
      unfold dToR deg; ring
    simp only [e, h]
    generalize sin (deg (125.04 - 1934.136 * centuries jd)) = s
    simp only [dToR, deg]
    push_cast; ring
  · have := neg_one_le_sin (deg (125.04 - 1934.136 * centuries jd))
    norm_num at this ⊢; linarith
  · have := sin_le_one (deg (125.04 - 1934.136 * centuries jd))
    norm_num at this ⊢; linarith

/-- C46: aberration is inversely proportional to the distance, and negative. -/
theorem aberration_low_value (R : ℝ) (h : 0 < R) :
    aberrationLow R = -arcsec (20.4898 / R) ∧ aberrationLow R < 0 := by
  have e : aberrationLow R = -arcsec (20.4898 / R) := by
    unfold aberrationLow
    rw [dmsR_sec, dToR_sec]
    unfold arcsec; ring
  refine ⟨e, ?_⟩
  rw [e, neg_lt_zero]
  unfold arcsec
  positivity

end Verif
