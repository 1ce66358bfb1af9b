import Verif.Lemmas.Equinox

/-!
# C50: the reduction to the FK5 system
-/

namespace Verif
open Real

/-- Sum and difference of cosine and sine of the same angle. -/
theorem abs_cos_add_sin (u : ℝ) : |cos u + sin u| ≤ √2 := by
  rw [← Real.sqrt_sq_eq_abs]
  refine Real.sqrt_le_sqrt ?_
  nlinarith [sin_sq_add_cos_sq u, sq_nonneg (cos u - sin u)]

theorem abs_cos_sub_sin (u : ℝ) : |cos u - sin u| ≤ √2 := by
  rw [← Real.sqrt_sq_eq_abs]
  refine Real.sqrt_le_sqrt ?_
  nlinarith [sin_sq_add_cos_sq u, sq_nonneg (cos u + sin u)]

theorem sqrt_two_bound : √2 ≤ 1.41422 := by
  rw [Real.sqrt_le_left (by norm_num)]; norm_num

/-- C50: for every time, longitude and latitude, the new longitude is in `[0, 2π)`; up to whole turns
the longitude changes by at most 0.09033 arc seconds plus 0.0554 arc seconds times the tangent of the
latitude, and the latitude changes by at most 0.0554 arc seconds. -/
theorem vsop_to_fk5_small (jd L B : ℝ) :
    0 ≤ (vsopToFk5 jd L B).1 ∧ (vsopToFk5 jd L B).1 < 2 * π ∧
    (∃ d, Congr (2 * π) (vsopToFk5 jd L B).1 (L + d) ∧ |d| ≤ arcsec (0.09033 + 0.0554 * |tan B|)) ∧
    |(vsopToFk5 jd L B).2 - B| ≤ arcsec 0.0554 := by
  refine ⟨(modpi2_spec _).1, (modpi2_spec _).2.1,
    ⟨_, (modpi2_spec _).2.2, ?_⟩, ?_⟩
  · generalize polyR [L, fk0, fk1] (jcent jd) = u
    rw [fk2_eq, fk3_eq]
    refine (abs_add_le _ _).trans ?_
    rw [abs_mul, abs_mul, abs_arcsec, abs_arcsec]
    have a0 : 0 ≤ arcsec |0.03916| := by unfold arcsec; positivity
    have q := mul_le_mul_of_nonneg_right (mul_le_mul_of_nonneg_left
      ((abs_cos_add_sin u).trans sqrt_two_bound) a0) (abs_nonneg (tan B))
    refine (add_le_add le_rfl q).trans ?_
    rw [show arcsec |(-0.09033 : ℝ)| + arcsec |(0.03916 : ℝ)| * 1.41422 * |tan B| =
      arcsec (|(-0.09033 : ℝ)| + |(0.03916 : ℝ)| * 1.41422 * |tan B|) by unfold arcsec; ring, arcsec_le,
      abs_neg, abs_of_pos (by norm_num : (0 : ℝ) < 0.09033),
      abs_of_pos (by norm_num : (0 : ℝ) < 0.03916)]
    have := abs_nonneg (tan B)
    norm_num; linarith
  · unfold vsopToFk5
    simp only [add_sub_cancel_left]
    generalize polyR [L, fk0, fk1] (jcent jd) = u
    rw [fk3_eq, abs_mul, abs_arcsec]
    have a0 : 0 ≤ arcsec |0.03916| := by unfold arcsec; positivity
    refine (mul_le_mul_of_nonneg_left ((abs_cos_sub_sin u).trans sqrt_two_bound) a0).trans ?_
    rw [show arcsec |(0.03916 : ℝ)| * 1.41422 = arcsec (|(0.03916 : ℝ)| * 1.41422) by
      unfold arcsec; ring, arcsec_le, abs_of_pos (by norm_num : (0 : ℝ) < 0.03916)]
    norm_num

/-- C50: for the latitudes of the planets (up to 0.2) this is at most 0.103 arc seconds in
longitude. -/
theorem vsop_to_fk5_planets (jd L B : ℝ) (hB : |B| ≤ 0.2) :
    ∃ d, Congr (2 * π) (vsopToFk5 jd L B).1 (L + d) ∧ |d| ≤ arcsec 0.103 := by
  obtain ⟨-, -, ⟨d, h1, h2⟩, -⟩ := vsop_to_fk5_small jd L B
  refine ⟨d, h1, h2.trans ?_⟩
  rw [arcsec_le]
  have t := tan_lip hB (show |(0 : ℝ)| ≤ 0.2 by norm_num)
  rw [tan_zero, sub_zero, sub_zero] at t
  norm_num at t hB ⊢; linarith

/-- C50: the correction is not zero: at longitude 0 of the FK5 argument and latitude 0 the longitude
decreases by 0.09033 arc seconds and the latitude grows by 0.03916 arc seconds. -/
theorem vsop_to_fk5_j2000 :
    Congr (2 * π) (vsopToFk5 2451545 0 0).1 (arcsec (-0.09033)) ∧
    (vsopToFk5 2451545 0 0).2 = arcsec 0.03916 := by
  have e : polyR [0, fk0, fk1] (jcent 2451545) = 0 := by
    rw [polyR_fk]; unfold fkArg jcent; norm_num
  constructor
  · refine congr_trans (modpi2_spec _).2.2 ?_
    rw [e, tan_zero, fk2_eq]
    exact ⟨0, by push_cast; ring⟩
  · unfold vsopToFk5
    simp only [e, cos_zero, sin_zero, fk3_eq]; ring

example : |(0.1 : ℝ)| ≤ 0.2 := by norm_num

end Verif
