import Verif.Lemmas.LowRadius
import Verif.Props.LowSunAccuracy

/-!
# C101: accuracy of the low precision distance of the Sun

Real arithmetic.  The reference is the complete theory of the code, `sunDimension3`.
-/

namespace Verif
open Real

set_option exponentiation.threshold 500
set_option maxRecDepth 100000

/-- The equation of the centre of the low precision theory is twice the eccentricity times the sine of the mean anomaly, up to
0.000395 radian, within 2000 years of J2000. -/
theorem low_center_first_order {t : ℝ} (ht : |t| ≤ 2) :
    |deg (lowCenter (10 * t)) - 2 * ecc (10 * t) * sin (deg (Mean.sunAnomaly (10 * t)))| ≤ 0.000395 := by
  have p1 := pi_gt_d20
  have p2 := pi_lt_d20
  unfold lowCenter
  generalize deg (Mean.sunAnomaly (10 * t)) = M
  have s1 := abs_sin_le_one M
  have s2 := abs_sin_le_one (2 * M)
  have s3 := abs_sin_le_one (3 * M)
  have e : deg ((1.914602 - 0.004817 * (10 * t) - 0.000014 * (10 * t) ^ 2) * sin M +
      (0.019993 + 0.000101 * (10 * t)) * sin (2 * M) + 0.000289 * sin (3 * M)) - 2 * ecc (10 * t) * sin M =
      ((1.914602 * (π / 180) - 0.033417268) + t * (((-0.04817) * (π / 180) + 0.00084074) + t * ((-0.0014) * (π / 180) + 0.00002534))) * sin M +
      (0.019993 * (π / 180) + t * (0.00101 * (π / 180))) * sin (2 * M) + 0.000289 * (π / 180) * sin (3 * M) := by
    unfold deg ecc; ring
  rw [e]
  have a1 : |(1.914602 * (π / 180) - 0.033417268) + t * (((-0.04817) * (π / 180) + 0.00084074) + t * ((-0.0014) * (π / 180) + 0.00002534))| ≤ 0.0000050 := by
    refine (step_le ht (a := 1.17e-6) ?_ (step_le ht (a := 1.5e-8) ?_ (b := 9.1e-7) ?_)).trans (by norm_num)
    all_goals
      rw [abs_le]
      norm_num at p1 p2 ⊢
      try (constructor <;> linarith)
  have a2 : |0.019993 * (π / 180) + t * (0.00101 * (π / 180))| ≤ 0.0003843 := by
    refine (step_le ht (a := 0.00034895) ?_ (b := 0.00001763) ?_).trans (by norm_num)
    all_goals
      rw [abs_le]
      norm_num at p1 p2 ⊢
      try (constructor <;> linarith)
  have a3 : |0.000289 * (π / 180)| ≤ 0.0000051 := by
    rw [abs_le]
    norm_num at p1 p2 ⊢
    try (constructor <;> linarith)
  have k : ∀ {x y b : ℝ}, |x| ≤ b → |y| ≤ 1 → |x * y| ≤ b := fun hx hy => by
    rw [abs_mul]; exact (mul_le_of_le_one_right (abs_nonneg _) hy).trans hx
  refine (abs_add_le _ _).trans ((add_le_add ((abs_add_le _ _).trans (add_le_add (k a1 s1) (k a2 s2))) (k a3 s3)).trans ?_)
  norm_num

/-- The low precision distance and the series of the Earth; `t` in millennia from J2000. -/
theorem low_radius_series {T : ℕ} {t a h m r : ℝ} (ht : |t| ≤ T) (hT : T ≤ 2)
    (ha : |0.01670699626 * cos (3.09846350771 + 6283.0758499914 * t) + t * (0.00103018608 * cos (1.10748969588 + 6283.0758499914 * t) +
      t * (0.00004359385 * cos (5.78455133738 + 6283.0758499914 * t) + t * (0.00000144595 * cos (4.27319435148 + 6283.0758499914 * t)))) +
      (0.016708634 - 0.00042037 * t - 0.00001267 * t ^ 2) * cos (deg (357.5291092 + 359990.502909 * t - 0.01536 * t ^ 2 + t ^ 3 / 24490))| ≤ a)
    (hh : |0.00013956023 * cos (3.0552460962 + 12566.1516999828 * t) + t * (0.00001721238 * cos (1.06442301418 + 12566.1516999828 * t) +
      t * (0.00000123633 * cos (5.57934722157 + 12566.1516999828 * t) + t * (0.00000006729 * cos (3.91697608662 + 12566.1516999828 * t)))) +
      ((0.016708634 - 0.00042037 * t - 0.00001267 * t ^ 2) ^ 2 / 2) * cos (2 * deg (357.5291092 + 359990.502909 * t - 0.01536 * t ^ 2 + t ^ 3 / 24490))| ≤ h)
    (hr : |pval (part (fun r => !isLow r) Data.earthR) t| ≤ r)
    (hm : 2.988e-7 + (T : ℝ) * (1.67e-9 + T * (1e-10 + T * (2.5e-9 + T * (8.1e-11 + (4164 + T * 98) / 10 ^ 11)))) ≤ m) :
    |1.000001018 * (1 - ecc (10 * t) ^ 2) / (1 + ecc (10 * t) * cos (deg (Mean.sunAnomaly (10 * t) + lowCenter (10 * t)))) -
      pval Data.earthR t| ≤ a + h + m + r + 3.78e-5 := by
  have ht2 : |t| ≤ 2 := ht.trans (by exact_mod_cast hT)
  have eM : Mean.sunAnomaly (10 * t) = 357.5291092 + 359990.502909 * t - 0.01536 * t ^ 2 + t ^ 3 / 24490 := by
    unfold Mean.sunAnomaly; ring
  have eE : ecc (10 * t) = 0.016708634 - 0.00042037 * t - 0.00001267 * t ^ 2 := by unfold ecc; ring
  have b1 : 0 ≤ ecc (10 * t) ∧ ecc (10 * t) ≤ 0.0176 := by
    obtain ⟨h1, h2⟩ := abs_le.1 ht2
    have q : t ^ 2 ≤ 4 := by nlinarith
    have q0 := sq_nonneg t
    rw [eE]
    constructor <;> norm_num <;> linarith
  have hC := low_center_first_order ht2
  have hE := ellipse_radius b1.1 b1.2 hC (by norm_num)
  rw [pval_split isLow, low_parts_radius.1, low_head_radius]
  generalize pval (part (fun r => !isLow r) Data.earthR) t = z at *
  have ht4 := low_tail_radius ht
  generalize pval (lowMainR.drop 4) t = y at *
  have hpi := cos_almost_pi
  have hp : |1 + ecc (10 * t) ^ 2 / 2 - (1.00013988799 + 0.00000702215 * cos 3.14159265359 * t + 0.00000012341 * cos 3.14159265359 * t ^ 2 +
      0.00000000774 * t ^ 3 + t ^ 4 * y)| ≤ m := by
    rw [eE]
    generalize cos 3.14159265359 = w at *
    rw [show 1 + (0.016708634 - 0.00042037 * t - 0.00001267 * t ^ 2) ^ 2 / 2 - (1.00013988799 + 0.00000702215 * w * t + 0.00000012341 * w * t ^ 2 +
      0.00000000774 * t ^ 3 + t ^ 4 * y) = (0.016708634 ^ 2 / 2 - 0.00013988799) + t * ((-0.016708634 * 0.00042037 - 0.00000702215 * w) +
      t * ((0.00042037 ^ 2 / 2 - 0.016708634 * 0.00001267 - 0.00000012341 * w) + t * ((0.00042037 * 0.00001267 - 0.00000000774) +
      t * (0.00001267 ^ 2 / 2 - y)))) by ring]
    refine (step_le ht (a := 2.988e-7) ?_ (step_le ht (a := 1.67e-9) ?_ (step_le ht (a := 1e-10) ?_
      (step_le ht (a := 2.5e-9) ?_ ((abs_sub _ _).trans (add_le_add (b := 8.1e-11) ?_ ht4)))))).trans hm
    · rw [abs_le]; norm_num
    · rw [abs_le] at hpi ⊢; norm_num at hpi ⊢; constructor <;> linarith
    · rw [abs_le] at hpi ⊢; norm_num at hpi ⊢; constructor <;> linarith
    · rw [abs_le]; norm_num
    · rw [abs_le]; norm_num
  rw [deg_add]
  have hb : |(1 - ecc (10 * t) ^ 2) / (1 + ecc (10 * t) * cos (deg (Mean.sunAnomaly (10 * t)) + deg (lowCenter (10 * t))))| ≤ 1.02 := by
    obtain ⟨x0, x1⟩ := b1
    have c := abs_le.1 (abs_cos_le_one (deg (Mean.sunAnomaly (10 * t)) + deg (lowCenter (10 * t))))
    generalize cos (deg (Mean.sunAnomaly (10 * t)) + deg (lowCenter (10 * t))) = w at *
    generalize ecc (10 * t) = x at *
    norm_num at x1
    have d : 0.982 ≤ 1 + x * w := by norm_num; nlinarith [c.1]
    have d0 : 0 < 1 + x * w := by norm_num at d; linarith
    rw [abs_of_nonneg (div_nonneg (by nlinarith) d0.le), div_le_iff₀ d0]
    norm_num at d ⊢; nlinarith
  rw [mul_div_assoc]
  rw [← eM, ← eE] at ha hh
  generalize (1 - ecc (10 * t) ^ 2) / (1 + ecc (10 * t) * cos (deg (Mean.sunAnomaly (10 * t)) + deg (lowCenter (10 * t)))) = f at *
  have eh : ecc (10 * t) ^ 2 / 2 * cos (2 * deg (Mean.sunAnomaly (10 * t))) = ecc (10 * t) ^ 2 / 2 * cos (2 * deg (Mean.sunAnomaly (10 * t))) := rfl
  generalize ecc (10 * t) ^ 2 / 2 * cos (2 * deg (Mean.sunAnomaly (10 * t))) = w2 at *
  generalize ecc (10 * t) * cos (deg (Mean.sunAnomaly (10 * t))) = w1 at *
  generalize ecc (10 * t) ^ 2 / 2 = x at *
  generalize 0.01670699626 * cos (3.09846350771 + 6283.0758499914 * t) + t * (0.00103018608 * cos (1.10748969588 + 6283.0758499914 * t) +
      t * (0.00004359385 * cos (5.78455133738 + 6283.0758499914 * t) + t * (0.00000144595 * cos (4.27319435148 + 6283.0758499914 * t)))) = v1 at *
  generalize 0.00013956023 * cos (3.0552460962 + 12566.1516999828 * t) + t * (0.00001721238 * cos (1.06442301418 + 12566.1516999828 * t) +
      t * (0.00000123633 * cos (5.57934722157 + 12566.1516999828 * t) + t * (0.00000006729 * cos (3.91697608662 + 12566.1516999828 * t)))) = v2 at *
  generalize 1.00013988799 + 0.00000702215 * cos 3.14159265359 * t + 0.00000012341 * cos 3.14159265359 * t ^ 2 + 0.00000000774 * t ^ 3 = P at *
  generalize t ^ 4 * y = Y at *
  obtain ⟨a1, a2⟩ := abs_le.1 ha
  obtain ⟨b1, b2⟩ := abs_le.1 hh
  obtain ⟨c1, c2⟩ := abs_le.1 hr
  obtain ⟨d1, d2⟩ := abs_le.1 hp
  obtain ⟨e1, e2⟩ := abs_le.1 hE
  obtain ⟨f1, f2⟩ := abs_le.1 hb
  rw [abs_le]
  norm_num at e1 e2 f1 f2 ⊢
  constructor <;> linarith

/-- C101: within 1000 years of J2000 the distance of the Sun of `longitude_radius_low` is within 0.000164 astronomical units of the
distance of the complete theory, and within 2000 years it is within 0.000172 astronomical units. -/
theorem low_radius_accuracy (jd : ℝ) : ∃ L B R, sunDimension3 vsopDict [jd] = .ok (.scalar L, .scalar B, .scalar R) ∧
    (|centuries jd| ≤ 10 → |(longitudeRadiusLow jd).2 - R| ≤ 0.000164) ∧
    (|centuries jd| ≤ 20 → |(longitudeRadiusLow jd).2 - R| ≤ 0.000172) := by
  refine ⟨_, _, _, sun_dimension3_value _, ?_⟩
  rw [poisson_eq_pval, (longitude_radius_low_value jd).2.2]
  have eT : centuries jd = 10 * millennia jd := by unfold centuries millennia; ring
  rw [eT]
  generalize millennia jd = t
  constructor <;> intro hc <;> rw [abs_mul, abs_of_pos (by norm_num : (0 : ℝ) < 10)] at hc
  · have h : |t| ≤ 1 := by linarith
    have r0 := pval_abs (T := 1) (part (fun r => !isLow r) Data.earthR) (t := t) (by simpa using h)
    have r1 : ((pAmpl 1 (part (fun r => !isLow r) Data.earthR) : ℕ) : ℝ) ≤ 12252338 := by exact_mod_cast low_parts_radius.2.1
    refine (low_radius_series (T := 1) (m := 3.5e-7) (r := 12252338 / 10 ^ 11) (by simpa using h) (by norm_num) (radius_annual1 h)
      (radius_half1 h) (r0.trans (by linarith)) (by norm_num)).trans ?_
    norm_num
  · have h : |t| ≤ 2 := by linarith
    have r0 := pval_abs (T := 2) (part (fun r => !isLow r) Data.earthR) (t := t) (by simpa using h)
    have r1 : ((pAmpl 2 (part (fun r => !isLow r) Data.earthR) : ℕ) : ℝ) ≤ 12629758 := by exact_mod_cast low_parts_radius.2.2
    refine (low_radius_series (T := 2) (m := 1.1e-6) (r := 12629758 / 10 ^ 11) (by simpa using h) (by norm_num) (radius_annual2 h)
      (radius_half2 h) (r0.trans (by linarith)) (by norm_num)).trans ?_
    norm_num

/-- The hypotheses are met: 1992 October 13. -/
example : |centuries 2448908.5| ≤ 10 := by unfold centuries; norm_num [abs_le]

end Verif
