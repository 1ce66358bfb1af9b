import Verif.Lemmas.VenusPlace

/-!
# C97: published coordinates of Pollux and published sidereal times

Meeus, Astronomical Algorithms, second edition, example 13.a (`tests/test_coordinates.py`) and examples 12.a and 12.b; the two
values of `tests/test_calendar.py` (`test_sidereal`).
-/

namespace Verif
open Real

set_option exponentiation.threshold 500
set_option maxRecDepth 100000

theorem pollux_turned : ((turnX (angE 23439291100000) (direction (angE 113215630000000) (angE 6684170000000))).sub
    (direction (angE 116328942000000) (angE 28026183000000))).norm ≤ 1.8 * (((660000000000 : ℕ) + 3000 : ℝ) / 10 ^ 20) :=
  turned_near (by decide +kernel) (by decide +kernel) (by decide +kernel)

theorem angE_deg (n : ℤ) {x : ℝ} (h : x = n / 10 ^ 12) : angE n = deg x := by
  subst h
  unfold angE dToR deg
  ring

theorem pollux_near : ((turnX (deg 23.4392911) (direction (deg 113.215630) (deg 6.684170))).sub
    (direction (deg 116.328942) (deg 28.026183))).norm ≤ arcsec 0.0025 := by
  have h := pollux_turned
  rw [angE_deg 23439291100000 (x := 23.4392911) (by norm_num), angE_deg 113215630000000 (x := 113.215630) (by norm_num),
    angE_deg 6684170000000 (x := 6.684170) (by norm_num), angE_deg 116328942000000 (x := 116.328942) (by norm_num),
    angE_deg 28026183000000 (x := 28.026183) (by norm_num)] at h
  refine h.trans ?_
  have p1 := pi_gt_d20
  unfold arcsec
  norm_num at p1 ⊢
  linarith

theorem cos_deg_pos {x : ℝ} (h0 : 0 ≤ x) (h1 : x < 90) : 0 < cos (deg x) := by
  have p := pi_pos
  refine cos_pos_of_mem_Ioo ⟨?_, ?_⟩ <;> unfold deg <;> nlinarith

/-- C97: example 13.a, both ways: the equatorial place of Pollux is turned to the published ecliptical one, and back, to a
four hundredth of a second of arc (the digits published are those of `0.0036"`). -/
theorem pollux :
    ((direction (equToEcl (deg 116.328942) (deg 28.026183) (deg 23.4392911)).1
      (equToEcl (deg 116.328942) (deg 28.026183) (deg 23.4392911)).2).sub (direction (deg 113.215630) (deg 6.684170))).norm ≤
        arcsec 0.0025 ∧
    ((direction (eclToEqu (deg 113.215630) (deg 6.684170) (deg 23.4392911)).1
      (eclToEqu (deg 113.215630) (deg 6.684170) (deg 23.4392911)).2).sub (direction (deg 116.328942) (deg 28.026183))).norm ≤
        arcsec 0.0025 := by
  constructor
  · rw [equ_to_ecl_rotates _ _ _ (cos_deg_pos (by norm_num) (by norm_num)), ← turnX_isometry (deg 23.4392911)]
    rw [show turnX (deg 23.4392911) (turnX (-deg 23.4392911) (direction (deg 116.328942) (deg 28.026183))) =
      direction (deg 116.328942) (deg 28.026183) by
        have := turnX_neg (-deg 23.4392911) (direction (deg 116.328942) (deg 28.026183))
        rwa [neg_neg] at this]
    rw [norm_sub_comm]
    exact pollux_near
  · rw [ecl_to_equ_rotates _ _ _ (cos_deg_pos (by norm_num) (by norm_num))]
    exact pollux_near

/-! ### Sidereal time -/

/-- An hour angle given as seconds of time. -/
noncomputable def timeSec (s : ℝ) : ℝ := s / 86400 * (2 * π)

theorem sidereal_near {jd s e : ℝ} (n : ℤ)
    (h : |280.46061837 + 360.98564736629 * (jd - 2451545) + 0.000387933 * ((jd - 2451545) / 36525) ^ 2 -
      ((jd - 2451545) / 36525) ^ 3 / 38710000 - (s / 240 + 360 * n)| ≤ e / 240) (h0 : e ≤ s) (h1 : s + e < 86400) :
    |siderealTimeGreenwich jd - timeSec s| ≤ timeSec e := by
  have p := pi_pos
  unfold siderealTimeGreenwich
  simp only
  refine modpi2_near (n := n) ?_ ?_ ?_
  · have k : dToR (280.46061837 + 360.98564736629 * (jd - 2451545) + 0.000387933 * (jcent jd * jcent jd) -
        jcent jd * jcent jd * jcent jd / 38710000) - (timeSec s + n * (2 * π)) =
        (280.46061837 + 360.98564736629 * (jd - 2451545) + 0.000387933 * ((jd - 2451545) / 36525) ^ 2 -
        ((jd - 2451545) / 36525) ^ 3 / 38710000 - (s / 240 + 360 * n)) * (π / 180) := by
      unfold dToR timeSec jcent
      ring
    rw [k, abs_mul, abs_of_pos (by positivity : 0 < π / 180)]
    refine (mul_le_mul_of_nonneg_right h (by positivity)).trans (le_of_eq ?_)
    unfold timeSec
    ring
  · unfold timeSec
    nlinarith
  · unfold timeSec
    nlinarith

/-- C97: examples 12.a and 12.b, 1987 April 10 at 0h and at 19h 21m: 13h 10m 46.3668s and 8h 34m 57.0896s, met to the last
printed digit. -/
theorem sidereal_1987 :
    |siderealTimeGreenwich 2446895.5 - timeSec (13 * 3600 + 10 * 60 + 46.3668)| ≤ timeSec 0.00005 ∧
    |siderealTimeGreenwich 2446896.30625 - timeSec (8 * 3600 + 34 * 60 + 57.0896)| ≤ timeSec 0.00005 :=
  ⟨sidereal_near (-4662) (by norm_num [abs_le]) (by norm_num) (by norm_num),
    sidereal_near (-4661) (by norm_num [abs_le]) (by norm_num) (by norm_num)⟩

/-- C97: the values of `test_sidereal`, 2004 January 1 and 2. They are not met to their digits: they are 1.06 seconds of time
less than the result, which the tolerance of the test (1.5e-4 radian, 2 seconds) admits. -/
theorem sidereal_2004 :
    |siderealTimeGreenwich 2453005.5 - timeSec (6 * 3600 + 39 * 60 + 58.60298794778828 + 1.0604)| ≤ timeSec 0.00003 ∧
    |siderealTimeGreenwich 2453006.5 - timeSec (6 * 3600 + 43 * 60 + 55.15832794114431 + 1.0604)| ≤ timeSec 0.00003 :=
  ⟨sidereal_near 1465 (by norm_num [abs_le]) (by norm_num) (by norm_num),
    sidereal_near 1466 (by norm_num [abs_le]) (by norm_num) (by norm_num)⟩

end Verif
