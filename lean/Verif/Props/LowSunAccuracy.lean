import Verif.Lemmas.LowSun
import Verif.Props.SunPublished
import Verif.Props.SunAberration

/-!
# C101: accuracy of the low precision longitude of the Sun

Real arithmetic.  The reference is the complete theory of the code, `sunDimension3`.
-/

namespace Verif
open Real

set_option exponentiation.threshold 500
set_option maxRecDepth 100000

/-- The published low precision longitude and the series of the Earth; `t` in millennia from J2000. -/
theorem published_low_series {T : ℕ} {t a h m r : ℝ} (ht : |t| ≤ T)
    (ha : |(0.03341656456 * cos (4.66925680417 + 6283.0758499914 * t) + t * (0.00206058863 * cos (2.67823455584 + 6283.0758499914 * t) +
      t * (0.00008719837 * cos (1.07209665242 + 6283.0758499914 * t) + t * (0.00000289226 * cos (5.84384198723 + 6283.0758499914 * t))))) -
      deg (1.914602 - 0.04817 * t - 0.0014 * t ^ 2) * sin (deg (357.5291092 + 359990.502909 * t - 0.01536 * t ^ 2 + t ^ 3 / 24490))| ≤ a)
    (hh : |(0.00034894275 * cos (4.62610241759 + 12566.1516999828 * t) + t * (0.00004303430 * cos (2.63512650414 + 12566.1516999828 * t) +
      t * (0.00000309125 * cos (0.86728818832 + 12566.1516999828 * t) + t * (0.00000016819 * cos (5.48766912348 + 12566.1516999828 * t))))) -
      deg (0.019993 - 0.00101 * t) * sin (2 * deg (357.5291092 + 359990.502909 * t - 0.01536 * t ^ 2 + t ^ 3 / 24490))| ≤ h)
    (hr : |pval (part (fun r => !isLow r) Data.earthL) t| ≤ r)
    (hm : 5.9e-8 + (T : ℝ) * (3.87e-7 + T * (4.9e-9 + T * (3.4955e-7 + T * ((122566 + T * 1078) / 10 ^ 11)))) ≤ m) :
    |deg (lowLongitude (10 * t) + publishedCenter (10 * t)) - (pval Data.earthL t + π)| ≤ a + h + m + r + deg 0.000289 := by
  have p1 := pi_gt_d20
  have p2 := pi_lt_d20
  have eM : Mean.sunAnomaly (10 * t) = 357.5291092 + 359990.502909 * t - 0.01536 * t ^ 2 + t ^ 3 / 24490 := by
    unfold Mean.sunAnomaly; ring
  rw [pval_split isLow, low_parts.1, low_head]
  generalize pval (part (fun r => !isLow r) Data.earthL) t = z at *
  have ht4 := low_tail ht
  generalize pval (lowMain.drop 4) t = y at *
  have hp : |(deg (lowLongitude (10 * t)) - π) - (1.75347045673 + 6283.31966747491 * t + 0.00052918870 * t ^ 2 +
      0.00000034955 * t ^ 3 + t ^ 4 * y)| ≤ m := by
    rw [show (deg (lowLongitude (10 * t)) - π) - (1.75347045673 + 6283.31966747491 * t + 0.00052918870 * t ^ 2 +
      0.00000034955 * t ^ 3 + t ^ 4 * y) = (280.46646 * (π / 180) - π - 1.75347045673) +
      t * ((360007.6983 * (π / 180) - 6283.31966747491) + t * ((0.03032 * (π / 180) - 0.00052918870) +
      t * (-0.00000034955 + t * (-y)))) by unfold deg lowLongitude; ring]
    refine (step_le ht (a := 5.9e-8) ?_ (step_le ht (a := 3.87e-7) ?_ (step_le ht (a := 4.9e-9) ?_
      (step_le ht (a := 3.4955e-7) ?_ ((abs_neg y).le.trans ht4))))).trans hm
    all_goals
      rw [abs_le]
      norm_num at p1 p2 ⊢
      try (constructor <;> linarith)
  have h3 : |deg 0.000289 * sin (3 * deg (Mean.sunAnomaly (10 * t)))| ≤ deg 0.000289 := by
    rw [abs_mul, abs_of_nonneg (by unfold deg; positivity)]
    exact mul_le_of_le_one_right (by unfold deg; positivity) (abs_sin_le_one _)
  rw [eM] at h3
  have eC : deg (publishedCenter (10 * t)) = deg (1.914602 - 0.04817 * t - 0.0014 * t ^ 2) * sin (deg (Mean.sunAnomaly (10 * t))) +
      deg (0.019993 - 0.00101 * t) * sin (2 * deg (Mean.sunAnomaly (10 * t))) +
      deg 0.000289 * sin (3 * deg (Mean.sunAnomaly (10 * t))) := by
    unfold publishedCenter
    generalize deg (Mean.sunAnomaly (10 * t)) = M
    unfold deg; ring
  rw [deg_add, eC, eM]
  generalize deg (lowLongitude (10 * t)) = l at *
  generalize deg (1.914602 - 0.04817 * t - 0.0014 * t ^ 2) * sin (deg (357.5291092 + 359990.502909 * t - 0.01536 * t ^ 2 + t ^ 3 / 24490)) = w1 at *
  generalize deg (0.019993 - 0.00101 * t) * sin (2 * deg (357.5291092 + 359990.502909 * t - 0.01536 * t ^ 2 + t ^ 3 / 24490)) = w2 at *
  generalize deg 0.000289 * sin (3 * deg (357.5291092 + 359990.502909 * t - 0.01536 * t ^ 2 + t ^ 3 / 24490)) = w3 at *
  generalize 0.03341656456 * cos (4.66925680417 + 6283.0758499914 * t) + t * (0.00206058863 * cos (2.67823455584 + 6283.0758499914 * t) +
      t * (0.00008719837 * cos (1.07209665242 + 6283.0758499914 * t) + t * (0.00000289226 * cos (5.84384198723 + 6283.0758499914 * t)))) = v1 at *
  generalize 0.00034894275 * cos (4.62610241759 + 12566.1516999828 * t) + t * (0.00004303430 * cos (2.63512650414 + 12566.1516999828 * t) +
      t * (0.00000309125 * cos (0.86728818832 + 12566.1516999828 * t) + t * (0.00000016819 * cos (5.48766912348 + 12566.1516999828 * t)))) = v2 at *
  generalize 1.75347045673 + 6283.31966747491 * t + 0.00052918870 * t ^ 2 + 0.00000034955 * t ^ 3 = P at *
  generalize t ^ 4 * y = Y at *
  generalize deg 0.000289 = d at *
  obtain ⟨a1, a2⟩ := abs_le.1 ha
  obtain ⟨b1, b2⟩ := abs_le.1 hh
  obtain ⟨c1, c2⟩ := abs_le.1 hr
  obtain ⟨d1, d2⟩ := abs_le.1 hp
  obtain ⟨e1, e2⟩ := abs_le.1 h3
  rw [abs_le]
  constructor <;> linarith

/-- The published formula is within 0.01878 degree of the series within 1000 years of J2000 and within 0.0218 degree within
2000 years. -/
theorem published_low_near {t : ℝ} :
    (|t| ≤ 1 → |deg (lowLongitude (10 * t) + publishedCenter (10 * t)) - (pval Data.earthL t + π)| ≤ deg 0.01878) ∧
    (|t| ≤ 2 → |deg (lowLongitude (10 * t) + publishedCenter (10 * t)) - (pval Data.earthL t + π)| ≤ deg 0.0218) := by
  have p1 := pi_gt_d20
  have p2 := pi_lt_d20
  constructor <;> intro h
  · have r0 := pval_abs (T := 1) (part (fun r => !isLow r) Data.earthL) (t := t) (by simpa using h)
    have r1 : ((pAmpl 1 (part (fun r => !isLow r) Data.earthL) : ℕ) : ℝ) ≤ 31650161 := by exact_mod_cast low_parts.2.1
    refine (published_low_series (T := 1) (m := 2.1e-6) (r := 31650161 / 10 ^ 11) (by simpa using h) (annual_match1 h)
      (half_match1 h) (r0.trans (by linarith)) (by norm_num)).trans ?_
    unfold deg; norm_num at p1 ⊢; linarith
  · have r0 := pval_abs (T := 2) (part (fun r => !isLow r) Data.earthL) (t := t) (by simpa using h)
    have r1 : ((pAmpl 2 (part (fun r => !isLow r) Data.earthL) : ℕ) : ℝ) ≤ 33758115 := by exact_mod_cast low_parts.2.2
    refine (published_low_series (T := 2) (m := 2.4e-5) (r := 33758115 / 10 ^ 11) (by simpa using h) (annual_match2 h)
      (half_match2 h) (r0.trans (by linarith)) (by norm_num)).trans ?_
    unfold deg; norm_num at p1 ⊢; linarith

/-- C101: within 1000 years of J2000 the longitude of the Sun of `longitude_radius_low` is within 0.0208 degree of the longitude
of the complete theory, and within 2000 years it is within 0.0259 degree; the turns are counted by `k`. -/
theorem low_longitude_accuracy (jd : ℝ) : ∃ L B R, sunDimension3 vsopDict [jd] = .ok (.scalar L, .scalar B, .scalar R) ∧
    ∃ k : ℤ, (|centuries jd| ≤ 10 → |(longitudeRadiusLow jd).1 - L + k * (2 * π)| ≤ deg 0.0208) ∧
      (|centuries jd| ≤ 20 → |(longitudeRadiusLow jd).1 - L + k * (2 * π)| ≤ deg 0.0259) := by
  refine ⟨_, _, _, sun_dimension3_value _, ?_⟩
  rw [poisson_eq_pval]
  have eT : centuries jd = 10 * millennia jd := by unfold centuries millennia; ring
  obtain ⟨-, ⟨n, hn⟩, -⟩ := longitude_radius_low_value jd
  obtain ⟨m, hm⟩ := (modpi2_spec (pval Data.earthL (millennia jd) + π)).2.2
  have hs := equation_of_center_sign.2.1 (centuries jd)
  have hp := published_low_near (t := millennia jd)
  rw [← eT] at hp
  refine ⟨m - n, ?_⟩
  rw [hn, hm]
  have e : deg (lowLongitude (centuries jd) + lowCenter (centuries jd)) + n * (2 * π) - (pval Data.earthL (millennia jd) + π + m * (2 * π)) +
      ((m - n : ℤ) : ℝ) * (2 * π) = deg (lowCenter (centuries jd) - publishedCenter (centuries jd)) +
      (deg (lowLongitude (centuries jd) + publishedCenter (centuries jd)) - (pval Data.earthL (millennia jd) + π)) := by
    unfold deg; push_cast; ring
  rw [e]
  constructor
  · intro h
    have h1 : |millennia jd| ≤ 1 := by
      rw [eT, abs_mul, abs_of_pos (by norm_num : (0 : ℝ) < 10)] at h; linarith
    refine (abs_add_le _ _).trans ((add_le_add (le_of_eq (abs_deg _)) (hp.1 h1)).trans ?_)
    rw [← deg_add]
    refine deg_le.2 ?_
    norm_num at hs ⊢; linarith
  · intro h
    have h1 : |millennia jd| ≤ 2 := by
      rw [eT, abs_mul, abs_of_pos (by norm_num : (0 : ℝ) < 10)] at h; linarith
    refine (abs_add_le _ _).trans ((add_le_add (le_of_eq (abs_deg _)) (hp.2 h1)).trans ?_)
    rw [← deg_add]
    refine deg_le.2 ?_
    norm_num at hs ⊢; linarith

theorem lowX_sinM : nearN 795522488825 10000 [sinRow (1000000000000, 22447295366084720)] = true := by decide +kernel
theorem lowX_sin2M : nearN (-964052436816) 10000 [sinRow (1000000000000, 44894590732169440)] = true := by decide +kernel
theorem lowX_sin3M : nearN 372762649541 10000 [sinRow (1000000000000, 67341886098254159)] = true := by decide +kernel
theorem lowX_L : ptNearN 50 61362080767 (tail1 (tail0 Data.earthL)) 2602965643 100 = true := by decide +kernel

theorem lowX_place :
    |poisson Data.earthL (millennia 2473957.5) + π - (deg 52.77930445 + ((62 : ℤ) : ℝ) * (2 * π))| ≤ 1.4e-8 := by
  have eT : millennia 2473957.5 = 224125 / 3652500 := by unfold millennia; norm_num
  obtain ⟨e1, -, -, -⟩ := earth6 (224125 / 3652500) (((61362080767 : ℤ) : ℝ) * 1e-12) (by norm_num [abs_le]) (by norm_num [abs_le])
  have kL : leftTot 50 1 (tail1 (tail0 Data.earthL)) ≤ 719 := by decide +kernel
  have mL : ptA 1 (tail1 (tail0 Data.earthL)) ≤ 10 ^ 10 := by decide +kernel
  have hL := ptNearN_spec lowX_L rows_earthL kL mL
  have hd := head_earth (((61362080767 : ℤ) : ℝ) * 1e-12)
  rw [eT]
  simp only [poisson_eq_pval] at e1 ⊢
  have d : |(224125 / 3652500 : ℝ) - ((61362080767 : ℤ) : ℝ) * 1e-12| ≤ 5e-13 := by norm_num [abs_le]
  have e1 := e1.trans (mul_le_mul_of_nonneg_left d (by norm_num))
  generalize pval Data.earthL (224125 / 3652500) = l at *
  generalize pval Data.earthL (((61362080767 : ℤ) : ℝ) * 1e-12) = l' at *
  generalize pval (tail1 (tail0 Data.earthL)) (((61362080767 : ℤ) : ℝ) * 1e-12) = q at *
  have p1 := pi_gt_d20
  have p2 := pi_lt_d20
  unfold deg
  simp only [abs_le] at *
  push_cast at *
  norm_num at *
  constructor <;> linarith [e1.1, e1.2, hL.1, hL.2]

/-- C101, negated for the documented accuracy: "the longitude is accurate to 0.01 degree" (`sun.py` 170).  On 2061 May 13, 0h,
the longitude of `longitude_radius_low` is 0.01025 degree too large, and the published formula is 0.01037 degree too large. -/
theorem low_longitude_documented_accuracy_false :
    ∃ L B R, sunDimension3 vsopDict [2473957.5] = .ok (.scalar L, .scalar B, .scalar R) ∧
    |L - deg 52.779304| ≤ deg 0.000002 ∧
    deg 0.01025 < (longitudeRadiusLow 2473957.5).1 - L ∧ (longitudeRadiusLow 2473957.5).1 - L < deg 0.01026 ∧
    deg 0.01037 < modpi2 (deg (lowLongitude (centuries 2473957.5) + publishedCenter (centuries 2473957.5))) - L := by
  refine ⟨_, _, _, sun_dimension3_value _, ?_⟩
  have eT : centuries 2473957.5 = 224125 / 365250 := by unfold centuries; norm_num
  obtain ⟨⟨l0, l1⟩, ⟨n, hL⟩, -⟩ := longitude_radius_low_value 2473957.5
  rw [eT] at hL ⊢
  have s1 := sinDeg_near (x := Mean.sunAnomaly (224125 / 365250)) (t := 1) (by unfold Mean.sunAnomaly; norm_num [abs_le]) lowX_sinM
  have s2 := sinDeg_near (x := 2 * Mean.sunAnomaly (224125 / 365250)) (t := 1) (by unfold Mean.sunAnomaly; norm_num [abs_le]) lowX_sin2M
  have s3 := sinDeg_near (x := 3 * Mean.sunAnomaly (224125 / 365250)) (t := 1) (by unfold Mean.sunAnomaly; norm_num [abs_le]) lowX_sin3M
  have hC : |lowCenter (224125 / 365250) - 1.5015270| ≤ 1e-7 ∧ |publishedCenter (224125 / 365250) - 1.5016465| ≤ 1e-7 := by
    unfold lowCenter publishedCenter
    rw [show 2 * deg (Mean.sunAnomaly (224125 / 365250)) = deg (2 * Mean.sunAnomaly (224125 / 365250)) by unfold deg; ring,
      show 3 * deg (Mean.sunAnomaly (224125 / 365250)) = deg (3 * Mean.sunAnomaly (224125 / 365250)) by unfold deg; ring]
    generalize sin (deg (Mean.sunAnomaly (224125 / 365250))) = y1 at *
    generalize sin (deg (2 * Mean.sunAnomaly (224125 / 365250))) = y2 at *
    generalize sin (deg (3 * Mean.sunAnomaly (224125 / 365250))) = y3 at *
    simp only [abs_le] at *
    norm_num at *
    refine ⟨⟨?_, ?_⟩, ⟨?_, ?_⟩⟩ <;> linarith [s1.1, s1.2, s2.1, s2.2, s3.1, s3.2]
  obtain ⟨hC, hP⟩ := hC
  have p1 := pi_gt_d20
  have p2 := pi_lt_d20
  have hS := modpi2_near lowX_place (by unfold deg; norm_num at p1 ⊢; linarith) (by unfold deg; norm_num at p1 p2 ⊢; linarith)
  have key : |(longitudeRadiusLow 2473957.5).1 - deg 52.7895608| ≤ deg 2e-7 := by
    have := modpi2_near (x := (longitudeRadiusLow 2473957.5).1) (y := deg 52.7895608) (e := deg 2e-7) (n := n + 62) (by
      rw [hL, show deg (lowLongitude (224125 / 365250) + lowCenter (224125 / 365250)) + n * (2 * π) -
        (deg 52.7895608 + ((n + 62 : ℤ) : ℝ) * (2 * π)) =
        deg (lowLongitude (224125 / 365250) + lowCenter (224125 / 365250) - 62 * 360 - 52.7895608) by unfold deg; push_cast; ring,
        abs_deg]
      refine deg_le.2 ?_
      unfold lowLongitude
      rw [abs_le] at *
      norm_num at *
      constructor <;> linarith [hC.1, hC.2]) (deg_le.2 (by norm_num)) (by unfold deg; norm_num at p1 p2 ⊢; linarith)
    rwa [modpi2_of_mem l0 l1] at this
  have key2 : |modpi2 (deg (lowLongitude (224125 / 365250) + publishedCenter (224125 / 365250))) - deg 52.7896803| ≤ deg 2e-7 := by
    refine modpi2_near (n := 62) ?_ (deg_le.2 (by norm_num)) (by unfold deg; norm_num at p1 p2 ⊢; linarith)
    rw [show deg (lowLongitude (224125 / 365250) + publishedCenter (224125 / 365250)) -
        (deg 52.7896803 + ((62 : ℤ) : ℝ) * (2 * π)) =
        deg (lowLongitude (224125 / 365250) + publishedCenter (224125 / 365250) - 62 * 360 - 52.7896803) by unfold deg; push_cast; ring,
        abs_deg]
    refine deg_le.2 ?_
    unfold lowLongitude
    rw [abs_le] at *
    norm_num at *
    constructor <;> linarith [hP.1, hP.2]
  generalize (longitudeRadiusLow 2473957.5).1 = x at *
  generalize modpi2 (poisson Data.earthL (millennia 2473957.5) + π) = y at *
  generalize modpi2 (deg (lowLongitude (224125 / 365250) + publishedCenter (224125 / 365250))) = z at *
  unfold deg at *
  simp only [abs_le] at *
  norm_num at p1 p2 key key2 hS ⊢
  refine ⟨⟨?_, ?_⟩, ?_, ?_, ?_⟩ <;> linarith [key.1, key.2, key2.1, key2.2, hS.1, hS.2]

/-! ### The apparent longitude -/

theorem nutation_main (T : ℝ) :
    |nutPsi T - (-17.1996 - 0.01742 * T) * sin (deg (Mean.node T + T ^ 4 / 30308000))| ≤ 2.232 + 0.00081 * |T| := by
  have e : Data.nutationTable = (0, 0, 0, 0, 1, -171996, -1742, 92025, 89) :: Data.nutationTable.tail := rfl
  have h := sum_coeff_abs Data.nutationTable.tail (fun r : NutRow => r.2.2.2.2.2.1)
    (fun r => r.2.2.2.2.2.2.1) (fun r => sin (nutArg T r)) T (fun r => Real.abs_sin_le_one _)
  have n1 : (Data.nutationTable.tail.map fun r : NutRow => r.2.2.2.2.2.1.natAbs).sum = 22320 := by decide +kernel
  have n2 : (Data.nutationTable.tail.map fun r : NutRow => r.2.2.2.2.2.2.1.natAbs).sum = 81 := by decide +kernel
  rw [n1, n2] at h
  have a : nutArg T (0, 0, 0, 0, 1, -171996, -1742, 92025, 89) = deg (Mean.node T + T ^ 4 / 30308000) := by
    simp only [nutArg, polyR_ko]
    push_cast; ring
  unfold nutPsi
  rw [e, List.map_cons, List.sum_cons]
  simp only [a]
  generalize (List.map (fun r : NutRow => ((r.2.2.2.2.2.1 : ℝ) / 10000 + (r.2.2.2.2.2.2.1 : ℝ) / 100000 * T) * sin (nutArg T r)) Data.nutationTable.tail).sum = z at *
  rw [show ((-171996 : ℤ) : ℝ) / 10000 + ((-1742 : ℤ) : ℝ) / 100000 * T = -17.1996 - 0.01742 * T by push_cast; ring,
    add_sub_cancel_left]
  refine h.trans (le_of_eq ?_)
  norm_num

/-- C101: the short correction of `apparent_longitude_low` is the nutation in longitude and the aberration of the complete theory up to
2.92 seconds of arc, within 1000 years of J2000. -/
theorem apparent_correction_low (jd : ℝ) (h : |centuries jd| ≤ 10) :
    |-deg (0.00569 + 0.00478 * sin (deg (125.04 - 1934.136 * centuries jd))) -
      (nutationInLongitude jd + aberrationLow (poisson Data.earthR (millennia jd)))| ≤ arcsec 2.92 := by
  have hm : |millennia jd| ≤ 1.9 := by
    have e : centuries jd = 10 * millennia jd := by unfold centuries millennia; ring
    rw [e, abs_mul, abs_of_pos (by norm_num : (0 : ℝ) < 10)] at h
    norm_num; linarith
  obtain ⟨-, -, -, -, r1, r2, -⟩ := sun_times hm
  have r0 : 0 < poisson Data.earthR (millennia jd) := by norm_num at r1; linarith
  have hn := nutation_main (centuries jd)
  rw [nutationInLongitude_eq, dToR_sec, show jcent jd = centuries jd from rfl, (aberration_low_value _ r0).1]
  generalize poisson Data.earthR (millennia jd) = R at *
  generalize centuries jd = T at *
  have ab : |20.484 - 20.4898 / R| ≤ 0.4091 := by
    rw [abs_le, le_sub_iff_add_le, sub_le_iff_le_add]
    constructor
    · rw [← le_sub_iff_add_le', div_le_iff₀ r0]; norm_num at r1 ⊢; linarith
    · rw [← sub_le_iff_le_add', le_div_iff₀ r0]; norm_num at r2 ⊢; linarith
  have hs : |sin (deg (125.04 - 1934.136 * T)) - sin (deg (Mean.node T + T ^ 4 / 30308000))| ≤ 0.0039 := by
    refine (abs_sin_sub_sin_le _ _).trans ?_
    rw [show deg (125.04 - 1934.136 * T) - deg (Mean.node T + T ^ 4 / 30308000) =
      -deg (0.0045479 + T * (-0.0002891 + T * (0.0020754 + T * (1 / 467441 + T * (1 / 60616000))))) by
        unfold deg Mean.node; ring, abs_neg, abs_deg]
    have q : |0.0045479 + T * (-0.0002891 + T * (0.0020754 + T * (1 / 467441 + T * (1 / 60616000))))| ≤ 0.2176 := by
      refine (step_le h le_rfl (step_le h le_rfl (step_le h le_rfl (step_le h le_rfl le_rfl)))).trans ?_
      norm_num
    refine (deg_le.2 q).trans ?_
    have p2 := pi_lt_d2
    unfold deg; norm_num at p2 ⊢; linarith
  rw [show -deg (0.00569 + 0.00478 * sin (deg (125.04 - 1934.136 * T))) - (arcsec (nutPsi T) + -arcsec (20.4898 / R)) =
    arcsec (-(20.484 - 20.4898 / R) - 17.208 * (sin (deg (125.04 - 1934.136 * T)) - sin (deg (Mean.node T + T ^ 4 / 30308000))) -
      (0.0084 - 0.01742 * T) * sin (deg (Mean.node T + T ^ 4 / 30308000)) -
      (nutPsi T - (-17.1996 - 0.01742 * T) * sin (deg (Mean.node T + T ^ 4 / 30308000)))) by unfold deg arcsec; ring,
    abs_arcsec]
  refine arcsec_le.2 ?_
  have hc : |(0.0084 - 0.01742 * T) * sin (deg (Mean.node T + T ^ 4 / 30308000))| ≤ 0.1826 := by
    rw [abs_mul]
    refine (mul_le_of_le_one_right (abs_nonneg _) (abs_sin_le_one _)).trans ?_
    rw [abs_le] at h ⊢
    norm_num
    constructor <;> linarith [h.1, h.2]
  generalize sin (deg (125.04 - 1934.136 * T)) = y at *
  generalize (0.0084 - 0.01742 * T) * sin (deg (Mean.node T + T ^ 4 / 30308000)) = x at *
  generalize nutPsi T - (-17.1996 - 0.01742 * T) * sin (deg (Mean.node T + T ^ 4 / 30308000)) = w at *
  generalize sin (deg (Mean.node T + T ^ 4 / 30308000)) = v at *
  have hn' : |w| ≤ 2.2401 := by norm_num at hn ⊢; linarith
  simp only [abs_le] at ab hs hc hn' ⊢
  norm_num at ab hs hc hn' ⊢
  constructor <;> linarith [ab.1, ab.2, hs.1, hs.2, hc.1, hc.2, hn'.1, hn'.2]

/-- C101: within 1000 years of J2000 the apparent longitude of the low precision Sun is within 0.0217 degree of the longitude of the
complete theory with FK5 correction, nutation and aberration. -/
theorem apparent_low_accuracy (jd : ℝ) (h : |centuries jd| ≤ 10) :
    ∃ L B R, sunDimension3 vsopDict [jd] = .ok (.scalar L, .scalar B, .scalar R) ∧
    ∃ k : ℤ, |apparentLongitudeLow jd (longitudeRadiusLow jd).1 -
      ((vsopToFk5 jd L B).1 + nutationInLongitude jd + aberrationLow R) + k * (2 * π)| ≤ deg 0.0217 := by
  obtain ⟨L, B, R, hv, k, hk, -⟩ := low_longitude_accuracy jd
  refine ⟨L, B, R, hv, ?_⟩
  rw [sun_dimension3_value] at hv
  injection hv with hv
  injection hv with hL hv
  injection hv with hB hR
  injection hR with hR
  injection hB with hB
  have hk := hk h
  have h6 : |millennia jd| ≤ 6 := by
    have e : centuries jd = 10 * millennia jd := by unfold centuries millennia; ring
    rw [e, abs_mul, abs_of_pos (by norm_num : (0 : ℝ) < 10)] at h
    linarith
  obtain ⟨-, -, -, -, -, b1⟩ := earth6 _ _ h6 h6
  have hB0 : |B| ≤ 0.00002 := by rw [← hB, abs_neg]; exact b1
  have hc := apparent_correction_low jd h
  rw [hR] at hc
  obtain ⟨-, ⟨n, hn⟩, -⟩ := apparent_longitude_low_value jd (longitudeRadiusLow jd).1
  obtain ⟨-, -, ⟨d, ⟨m, hm⟩, hd⟩, -⟩ := vsop_to_fk5_small jd L B
  have ht : |tan B| ≤ 0.001 := by
    have c := one_sub_sq_div_two_le_cos (x := B)
    have s := abs_sin_le_abs (x := B)
    have q : B ^ 2 ≤ 0.00002 ^ 2 := sq_le_sq' (abs_le.1 hB0).1 (abs_le.1 hB0).2
    have c1 : 0.9 ≤ cos B := by norm_num at q c ⊢; linarith
    have c0 : 0 < cos B := by norm_num at c1; linarith
    rw [tan_eq_sin_div_cos, abs_div, abs_of_pos c0, div_le_iff₀ c0]
    refine s.trans (hB0.trans ?_)
    norm_num at c1 ⊢; linarith
  have hd' : |d| ≤ arcsec 0.0904 := hd.trans (arcsec_le.2 (by norm_num at ht ⊢; linarith))
  refine ⟨k - n + m, ?_⟩
  rw [hn, hm]
  generalize (longitudeRadiusLow jd).1 = x at *
  generalize nutationInLongitude jd = y at *
  generalize aberrationLow R = z at *
  generalize deg (0.00569 + 0.00478 * sin (deg (125.04 - 1934.136 * centuries jd))) = w at *
  rw [show x - w + n * (2 * π) - (L + d + m * (2 * π) + y + z) + ((k - n + m : ℤ) : ℝ) * (2 * π) =
    (x - L + k * (2 * π)) + (-w - (y + z)) - d by push_cast; ring]
  refine (abs_sub _ _).trans ((add_le_add ((abs_add_le _ _).trans (add_le_add hk hc)) hd').trans ?_)
  rw [show deg 0.0208 + arcsec 2.92 + arcsec 0.0904 = deg (0.0208 + (2.92 + 0.0904) / 3600) by unfold deg arcsec; ring]
  exact deg_le.2 (by norm_num)

example : |centuries 2473957.5| ≤ 10 := by unfold centuries; norm_num [abs_le]

end Verif
