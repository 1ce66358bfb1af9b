import Verif.Lemmas.SunDay
import Verif.Lemmas.EquJet

/-!
# Lemmas: the place of the Sun in the table of `cronus` from the day before to the day after
-/

namespace Verif
open Real

theorem turnX_lip (e e' l b : ℝ) :
    ((turnX e (direction l b)).sub (turnX e' (direction l b))).norm ≤ |e - e'| := by
  unfold V3.norm
  rw [Real.sqrt_le_left (abs_nonneg _), sq_abs]
  have x : ((turnX e (direction l b)).sub (turnX e' (direction l b))).x ^ 2 +
      ((turnX e (direction l b)).sub (turnX e' (direction l b))).y ^ 2 +
      ((turnX e (direction l b)).sub (turnX e' (direction l b))).z ^ 2 =
      ((cos b * sin l) ^ 2 + sin b ^ 2) * (2 * (1 - cos (e - e'))) := by
    simp only [direction, turnX, V3.sub, cos_sub]
    linear_combination ((cos b * sin l) ^ 2 + sin b ^ 2) * (sin_sq_add_cos_sq e + sin_sq_add_cos_sq e')
  rw [x]
  have h1 := one_sub_sq_div_two_le_cos (x := e - e')
  have h2 := cos_le_one (e - e')
  have u : (cos b * sin l) ^ 2 + sin b ^ 2 ≤ 1 := by
    have := sin_sq_add_cos_sq b
    have := sin_sq_add_cos_sq l
    nlinarith [sq_nonneg (cos b * cos l)]
  nlinarith [sq_nonneg (cos b * sin l), sq_nonneg (sin b)]

theorem cos_obliquity {e : ℝ} (h0 : 0.39 ≤ e) (h1 : e ≤ 0.4252) : 0.9107 ≤ cos e ∧ |sin e| ≤ 0.4131 := by
  norm_num at h0 h1
  have c : 0.9107 ≤ cos e := by
    have mono : cos 0.4252 ≤ cos e := by
      refine cos_le_cos_of_nonneg_of_le_pi (by linarith) ?_ (by norm_num; linarith)
      have := Real.pi_gt_three; norm_num; linarith
    have s := (abs_le.mp (sin_bound (x := 0.2126) (by norm_num [abs_of_pos]))).2
    have s0 : 0 ≤ sin 0.2126 := by
      refine sin_nonneg_of_nonneg_of_le_pi (by norm_num) ?_
      have := Real.pi_gt_three; norm_num; linarith
    have s1 : sin 0.2126 ≤ 0.2112 := by
      rw [abs_of_pos (by norm_num : (0 : ℝ) < 0.2126)] at s
      generalize sin 0.2126 = w at *
      norm_num at s ⊢; linarith
    have d := cos_two_mul (0.2126 : ℝ)
    have q := sin_sq_add_cos_sq (0.2126 : ℝ)
    rw [show (2 : ℝ) * 0.2126 = 0.4252 by norm_num] at d
    generalize sin 0.2126 = w at *
    generalize cos 0.2126 = z at *
    generalize cos 0.4252 = u at *
    norm_num at s1 ⊢
    nlinarith
  refine ⟨c, abs_le_of_sq_le_sq ?_ (by norm_num)⟩
  have := sin_sq_add_cos_sq e
  norm_num at c ⊢
  nlinarith

/-- Within 3000 years the cosine of the obliquity is above 0.9142. -/
theorem cos_obliquity_era {jd : ℝ} (h : |millennia jd| ≤ 3.02) : 0.9142 ≤ cos (trueObliquity (jd + 0)) := by
  have b : |centuries (jd + 0)| ≤ 30.3 := by
    have : centuries (jd + 0) = 10 * millennia jd := by unfold centuries millennia; ring
    rw [this, abs_mul, abs_of_pos (by norm_num : (0 : ℝ) < 10)]
    norm_num at h ⊢; linarith
  have lo := (obliquity_between (h.trans (by norm_num : (3.02 : ℝ) ≤ 5.9))).1
  have z : |nutationInObliquity (jd + 0)| ≤ arcsec 11 := by
    rw [nutationInObliquity_eq, dToR_sec, abs_arcsec, arcsec_le]
    refine (nutEps_abs _).trans ?_
    change _ + _ * |centuries (jd + 0)| ≤ _
    generalize |centuries (jd + 0)| = w at *
    norm_num at b ⊢; linarith
  have hi : trueObliquity (jd + 0) ≤ 0.4165 := by
    unfold trueObliquity
    generalize centuries (jd + 0) = U at *
    obtain ⟨z1, z2⟩ := abs_le.mp z
    obtain ⟨b1, b2⟩ := abs_le.mp b
    have s0 := sq_nonneg U
    have s3 : |U ^ 3| ≤ 27818.2 := by
      rw [abs_pow]
      calc |U| ^ 3 ≤ 30.3 ^ 3 := by gcongr
        _ ≤ 27818.2 := by norm_num
    obtain ⟨c1, c2⟩ := abs_le.mp s3
    have p := Real.pi_gt_d4
    have p' := Real.pi_lt_d4
    generalize nutationInObliquity (jd + 0) = y at *
    norm_num at b1 b2 c1 c2
    have X2 : 84381.448 - 46.8150 * U - 0.00059 * U ^ 2 + 0.001813 * U ^ 3 ≤ 85852 := by norm_num; linarith
    generalize 84381.448 - 46.8150 * U - 0.00059 * U ^ 2 + 0.001813 * U ^ 3 = X at *
    unfold arcsec at *
    norm_num at p p' ⊢
    nlinarith
  generalize trueObliquity (jd + 0) = e at *
  norm_num at lo hi
  have mono : cos 0.4165 ≤ cos e := by
    refine cos_le_cos_of_nonneg_of_le_pi (by linarith) ?_ (by norm_num; linarith)
    have := Real.pi_gt_three; norm_num; linarith
  have s := (abs_le.mp (sin_bound (x := 0.20825) (by norm_num [abs_of_pos]))).2
  have s0 : 0 ≤ sin 0.20825 := by
    refine sin_nonneg_of_nonneg_of_le_pi (by norm_num) ?_
    have := Real.pi_gt_three; norm_num; linarith
  have s1 : sin 0.20825 ≤ 0.20695 := by
    rw [abs_of_pos (by norm_num : (0 : ℝ) < 0.20825)] at s
    generalize sin 0.20825 = w at *
    norm_num at s ⊢; linarith
  have d := cos_two_mul (0.20825 : ℝ)
  have q := sin_sq_add_cos_sq (0.20825 : ℝ)
  rw [show (2 : ℝ) * 0.20825 = 0.4165 by norm_num] at d
  generalize sin 0.20825 = w at *
  generalize cos 0.20825 = z at *
  generalize cos 0.4165 = u at *
  norm_num at s1 ⊢
  nlinarith

/-- Within 3000 years the sine of the obliquity is below 0.4055. -/
theorem sin_obliquity {jd : ℝ} (h : |millennia jd| ≤ 3.02) : |sin (trueObliquity (jd + 0))| ≤ 0.4055 := by
  have c := cos_obliquity_era h
  generalize trueObliquity (jd + 0) = e at *
  refine abs_le_of_sq_le_sq ?_ (by norm_num)
  have := sin_sq_add_cos_sq e
  norm_num at c ⊢
  nlinarith

theorem place_sun_range (jd : ℝ) (h : |millennia jd| ≤ 6) :
    ∃ ra dec e b, place jd "Sun" = .ok (ra, dec, -0.0145438286569) ∧ 0 ≤ ra ∧ ra < 2 * π ∧ -(π / 2) ≤ dec ∧
      dec ≤ π / 2 ∧ |e| ≤ arcsec 0.000002 ∧ |b| ≤ arcsec 0.0554 ∧
      direction ra dec = turnX (trueObliquity jd) (direction
        (poisson Data.earthL (millennia jd) + π + nutationInLongitude jd -
          arcsec (20.4898 / poisson Data.earthR (millennia jd)) - arcsec 0.09033 + e)
        (-poisson Data.earthB (millennia jd) + b)) := by
  obtain ⟨ra, dec, e, b, h1, r1, r2, r3, r4, h2, h3, h4⟩ :=
    sun_place_apparent jd (nutationInLongitude jd) (trueObliquity jd) h
  refine ⟨ra, dec, e, b, ?_, r1, r2, r3, r4, h2, h3, h4⟩
  unfold place
  rw [nutationPair_eq]
  simp only [reduceCtorEq, String.reduceEq, if_false, if_true, h1, Except.map, sunRstAltitude]

/-- Right ascension (unreduced) and declination of the Sun as functions of the time, near functions that are nearly
parabolas. -/
theorem sun_day_parab {jd : ℝ} (h : |millennia jd| ≤ 5.9) :
    ∃ ra dec A D : ℝ → ℝ, (∀ n, |n| ≤ 1 → (∃ y, place (jd + n) "Sun" = .ok (y, dec n, -0.0145438286569) ∧ 0 ≤ y ∧
        y < 2 * π ∧ ∃ k : ℤ, y = ra n + k * (2 * π)) ∧ |ra n - A n| ≤ 1.099 * arcsec 0.672 ∧
        |dec n - D n| ≤ 1.0001 * arcsec 0.672 ∧ 0.91 ≤ cos (dec n)) ∧
      (∃ v q, Parab A v q 8.4e-7 ∧ |v| ≤ 0.01989 ∧ |q| ≤ 0.00006) ∧
      ∃ v q, Parab D v q 1.2e-6 ∧ |v| ≤ 0.01811 * |sin (trueObliquity (jd + 0))| ∧ |q| ≤ 0.0001 := by
  obtain ⟨v, q, hp, hv, hq, hg⟩ := earthL_day h
  have z1 : |(0 : ℝ)| ≤ 1 := by norm_num
  obtain ⟨e0, e1⟩ := obliquity_between h
  obtain ⟨c0, s0⟩ := cos_obliquity e0 e1
  set eps := trueObliquity (jd + 0) with heps
  set B0 := -poisson Data.earthB (millennia (jd + 0)) with hB0
  have hB : |B0| ≤ 0.00002 := by
    rw [hB0, abs_neg]
    exact (earth6 _ _ (millennia_day h z1) (millennia_day h z1)).2.2.2.2.2
  set K := π + nutationInLongitude (jd + 0) - arcsec (20.4898 / poisson Data.earthR (millennia (jd + 0))) -
    arcsec 0.09033 with hK
  set g : ℝ → ℝ := fun n => poisson Data.earthL (millennia (jd + n)) + K with hgd
  have gp : Parab g v q 1.5e-7 := by
    intro n hn
    have := hp n hn
    simp only [hgd]
    refine le_trans (le_of_eq ?_) this
    congr 1; ring
  have gg : ∀ n, |n| ≤ 1 → |g n - g 0| ≤ 0.0181 := by
    intro n hn
    simp only [hgd]
    rw [add_sub_add_right_eq_sub]
    exact hg n hn
  have cb : 0 < cos B0 := by
    have := one_sub_sq_div_two_le_cos (x := B0)
    have k : B0 ^ 2 ≤ 0.00002 ^ 2 := by rw [← sq_abs]; gcongr
    norm_num at k; linarith
  have tb : |tan B0| ≤ 0.000022 := by
    have t := tan_lip (show |B0| ≤ 0.2 by norm_num at hB ⊢; linarith) (show |(0 : ℝ)| ≤ 0.2 by norm_num)
    rw [tan_zero, sub_zero, sub_zero] at t
    norm_num at t hB ⊢; linarith
  have ht : |tan B0 * sin eps| ≤ 0.00001 := by
    rw [abs_mul]
    exact (mul_le_mul tb s0 (abs_nonneg _) (by norm_num)).trans (by norm_num)
  have hc : 0.9105 ≤ cos eps := by norm_num at c0 ⊢; linarith
  have hk : |sin B0 * cos eps| ≤ 0.0001 := by
    rw [abs_mul]
    have a1 : |sin B0| ≤ 0.00002 := abs_sin_le_abs.trans hB
    have := mul_le_mul a1 (abs_cos_le_one eps) (abs_nonneg _) (by norm_num)
    norm_num at this ⊢; linarith
  have ha : |cos B0 * sin eps| ≤ 0.414 := by
    rw [abs_mul]
    have := mul_le_mul (abs_cos_le_one B0) s0 (abs_nonneg _) (by norm_num)
    norm_num at this ⊢; linarith
  have pA := alpha_parab gp hv hq gg hc (cos_le_one _) ht
  have pD : ∃ v' q', Parab (fun n => arcsin (sin B0 * cos eps + cos B0 * sin eps * sin (g n))) v' q' 1.2e-6 ∧
      |v'| ≤ 0.01811 * |sin eps| ∧ |q'| ≤ 0.0001 := by
    obtain ⟨v', q', k1, k2, k3⟩ := delta_parab gp hv hq gg ha hk
    refine ⟨v', q', k1, k2.trans ?_, k3⟩
    rw [abs_mul]
    exact mul_le_mul_of_nonneg_left (mul_le_of_le_one_left (abs_nonneg _) (abs_cos_le_one _)) (by norm_num)
  have key : ∀ n, |n| ≤ 1 → ∃ ra dec, (∃ y, place (jd + n) "Sun" = .ok (y, dec, -0.0145438286569) ∧ 0 ≤ y ∧
        y < 2 * π ∧ ∃ k : ℤ, y = ra + k * (2 * π)) ∧
        |ra - alphaI (cos eps) (tan B0 * sin eps) (g n)| ≤ 1.099 * arcsec 0.672 ∧
        |dec - arcsin (sin B0 * cos eps + cos B0 * sin eps * sin (g n))| ≤ 1.0001 * arcsec 0.672 ∧ 0.91 ≤ cos dec := by
    intro n hn
    obtain ⟨y, dec, e, b, h1, y0, y1, d0, d1, he, hb, hd⟩ := place_sun_range (jd + n) (millennia_day h hn)
    have m6 := earth6 (millennia (jd + n)) (millennia (jd + 0)) (millennia_day h hn) (millennia_day h z1)
    have m0 := earth6 (millennia (jd + 0)) (millennia (jd + 0)) (millennia_day h z1) (millennia_day h z1)
    have step : |millennia (jd + n) - millennia (jd + 0)| ≤ 1 / 365250 := by
      rw [millennia_add, millennia_add, show millennia jd + n / 365250 - (millennia jd + 0 / 365250) = n / 365250 by ring,
        abs_div, abs_of_pos (by norm_num : (0 : ℝ) < 365250)]
      gcongr
    have hab : |arcsec (20.4898 / poisson Data.earthR (millennia (jd + 0))) -
        arcsec (20.4898 / poisson Data.earthR (millennia (jd + n)))| ≤ 9.1e-8 := by
      have r1 := m6.2.2.2.1
      have r0 := m0.2.2.2.1
      have l := aberration_lip (R := poisson Data.earthR (millennia (jd + n)))
        (S := poisson Data.earthR (millennia (jd + 0))) (by norm_num at r1 ⊢; linarith) (by norm_num at r0 ⊢; linarith)
      rw [(aberration_low_value _ (by norm_num at r1; linarith)).1,
        (aberration_low_value _ (by norm_num at r0; linarith)).1, neg_sub_neg] at l
      refine l.trans ?_
      have r := m6.2.1
      generalize |poisson Data.earthR (millennia (jd + n)) - poisson Data.earthR (millennia (jd + 0))| = w at *
      generalize |millennia (jd + n) - millennia (jd + 0)| = u at *
      norm_num at step r ⊢; linarith
    have hpsi := (nutation_day h hn).1
    have hobl := obliquity_day h hn
    have hlat : |-poisson Data.earthB (millennia (jd + n)) + b - B0| ≤ 1.0623e-6 + arcsec 0.0554 := by
      have r := m6.2.2.1
      have : -poisson Data.earthB (millennia (jd + n)) + b - B0 =
          -(poisson Data.earthB (millennia (jd + n)) - poisson Data.earthB (millennia (jd + 0))) + b := by
        rw [hB0]; ring
      rw [this]
      refine (abs_add_le _ _).trans (add_le_add ?_ hb)
      rw [abs_neg]
      refine r.trans ?_
      generalize |millennia (jd + n) - millennia (jd + 0)| = u at *
      norm_num at step ⊢; linarith
    have hlon : |poisson Data.earthL (millennia (jd + n)) + π + nutationInLongitude (jd + n) -
          arcsec (20.4898 / poisson Data.earthR (millennia (jd + n))) - arcsec 0.09033 + e - g n| ≤
        arcsec 0.268 + 9.1e-8 + arcsec 0.000002 := by
      have : poisson Data.earthL (millennia (jd + n)) + π + nutationInLongitude (jd + n) -
          arcsec (20.4898 / poisson Data.earthR (millennia (jd + n))) - arcsec 0.09033 + e - g n =
          (nutationInLongitude (jd + n) - nutationInLongitude (jd + 0)) +
          (arcsec (20.4898 / poisson Data.earthR (millennia (jd + 0))) -
            arcsec (20.4898 / poisson Data.earthR (millennia (jd + n)))) + e := by
        simp only [hgd]; rw [hK]; ring
      rw [this]
      exact (abs_add_le _ _).trans (add_le_add ((abs_add_le _ _).trans (add_le_add hpsi hab)) he)
    have ideal := alpha_direction hc ht cb (g n)
    have dist : ((direction y dec).sub (direction (alphaI (cos eps) (tan B0 * sin eps) (g n))
        (arcsin (sin B0 * cos eps + cos B0 * sin eps * sin (g n))))).norm ≤ arcsec 0.672 := by
      rw [ideal, hd]
      refine (norm_triangle _ (turnX eps (direction (poisson Data.earthL (millennia (jd + n)) + π +
        nutationInLongitude (jd + n) - arcsec (20.4898 / poisson Data.earthR (millennia (jd + n))) - arcsec 0.09033 + e)
        (-poisson Data.earthB (millennia (jd + n)) + b))) _).trans ?_
      refine (add_le_add ((turnX_lip _ _ _ _).trans hobl) ((le_of_eq (turnX_isometry _ _ _)).trans
        ((direction_lip _ _ _ _).trans (add_le_add hlon hlat)))).trans ?_
      unfold arcsec
      have := Real.pi_gt_d4
      norm_num at this ⊢
      linarith
    have Z0 : |sin B0 * cos eps + cos B0 * sin eps * sin (g n)| ≤ 0.4132 := by
      refine (abs_add_le _ _).trans ?_
      have a1 : |sin B0 * cos eps| ≤ 0.00002 := by
        rw [abs_mul]
        exact (mul_le_of_le_one_right (abs_nonneg _) (abs_cos_le_one _)).trans (abs_sin_le_abs.trans hB)
      have a2 : |cos B0 * sin eps * sin (g n)| ≤ 0.4131 := by
        rw [abs_mul, abs_mul]
        refine (mul_le_of_le_one_right (by positivity) (abs_sin_le_one _)).trans ?_
        exact (mul_le_of_le_one_left (abs_nonneg _) (abs_cos_le_one _)).trans s0
      norm_num at a1 a2 ⊢; linarith
    generalize sin B0 * cos eps + cos B0 * sin eps * sin (g n) = Z at *
    have cd : 0.9105 ≤ cos (arcsin Z) := by
      rw [Real.cos_arcsin, Real.le_sqrt' (by norm_num)]
      have : Z ^ 2 ≤ 0.4132 ^ 2 := by rw [← sq_abs]; gcongr
      norm_num at this ⊢; linarith
    have l1 := neg_pi_div_two_le_arcsin Z
    have l2 := arcsin_le_pi_div_two Z
    have small : arcsec 0.672 ≤ 0.00001 := by
      unfold arcsec
      have := Real.pi_lt_d2
      norm_num at this ⊢; linarith
    obtain ⟨f1, k, f2⟩ := coords_near (cos_nonneg_of_neg_pi_div_two_le_of_le d0 d1) cd
      (by rw [abs_le]; constructor <;> linarith) dist small
    have c9 : 0.91 ≤ cos dec := by
      have l := (abs_le.mp ((abs_cos_sub_le dec (arcsin Z)).trans f1)).1
      norm_num at cd small l ⊢; linarith
    refine ⟨y - k * (2 * π), dec, ⟨y, h1, y0, y1, k, by ring⟩, ?_, f1, c9⟩
    rw [show y - k * (2 * π) - alphaI (cos eps) (tan B0 * sin eps) (g n) =
      y - alphaI (cos eps) (tan B0 * sin eps) (g n) - k * (2 * π) by ring]
    exact f2
  choose! ra dec hrd using key
  exact ⟨ra, dec, _, _, hrd, pA, pD⟩

end Verif
