import Verif.Lemmas.NutRate
import Verif.Props.CronusPlaces
import Mathlib.Analysis.SpecialFunctions.Trigonometric.Bounds

/-!
# Lemmas about the place of the Sun within a day: nutation and obliquity, near directions
-/

namespace Verif
open Real

theorem centuries_day {jd n : ℝ} (h : |millennia jd| ≤ 5.9) (hn : |n| ≤ 1) : |centuries (jd + n)| ≤ 60 := by
  have := millennia_day h hn
  have e : centuries (jd + n) = 10 * millennia (jd + n) := by unfold centuries millennia; ring
  rw [e, abs_mul, abs_of_pos (by norm_num : (0 : ℝ) < 10)]
  linarith

theorem centuries_step (jd n : ℝ) : centuries (jd + n) - centuries (jd + 0) = n / 36525 := by unfold centuries; ring

theorem nutation_day {jd n : ℝ} (h : |millennia jd| ≤ 5.9) (hn : |n| ≤ 1) :
    |nutationInLongitude (jd + n) - nutationInLongitude (jd + 0)| ≤ arcsec 0.268 ∧
    |nutationInObliquity (jd + n) - nutationInObliquity (jd + 0)| ≤ arcsec 0.1079 := by
  have a := centuries_day h hn
  have b := centuries_day h (show |(0 : ℝ)| ≤ 1 by norm_num)
  have d : |centuries (jd + n) - centuries (jd + 0)| ≤ 1 / 36525 := by
    rw [centuries_step, abs_div, abs_of_pos (by norm_num : (0 : ℝ) < 36525)]; gcongr
  have n1 : (Data.nutationTable.map fun r : NutRow => nutRowRate r.2.2.2.2.2.1 r.2.2.2.2.2.2.1 r).sum ≤
      9780 * 10 ^ 17 := by decide +kernel
  have n2 : (Data.nutationTable.map fun r : NutRow => nutRowRate r.2.2.2.2.2.2.2.1 r.2.2.2.2.2.2.2.2 r).sum ≤
      3940 * 10 ^ 17 := by decide +kernel
  have p := nutSum_rate a b Data.nutationTable (fun r => r.2.2.2.2.2.1) (fun r => r.2.2.2.2.2.2.1) (g := sin)
    abs_sin_le_one abs_sin_sub_le n1
  have q := nutSum_rate a b Data.nutationTable (fun r => r.2.2.2.2.2.2.2.1) (fun r => r.2.2.2.2.2.2.2.2) (g := cos)
    abs_cos_le_one abs_cos_sub_le n2
  constructor
  · rw [nutationInLongitude_eq, nutationInLongitude_eq, dToR_sec, dToR_sec, ← show ∀ x y, arcsec (x - y) =
      arcsec x - arcsec y from fun x y => by unfold arcsec; ring, abs_arcsec, arcsec_le]
    refine p.trans ?_
    push_cast
    change _ * |centuries (jd + n) - centuries (jd + 0)| ≤ _
    generalize |centuries (jd + n) - centuries (jd + 0)| = w at *
    norm_num at d ⊢
    linarith
  · rw [nutationInObliquity_eq, nutationInObliquity_eq, dToR_sec, dToR_sec, ← show ∀ x y, arcsec (x - y) =
      arcsec x - arcsec y from fun x y => by unfold arcsec; ring, abs_arcsec, arcsec_le]
    refine q.trans ?_
    push_cast
    change _ * |centuries (jd + n) - centuries (jd + 0)| ≤ _
    generalize |centuries (jd + n) - centuries (jd + 0)| = w at *
    norm_num at d ⊢
    linarith

theorem obliquity_day {jd n : ℝ} (h : |millennia jd| ≤ 5.9) (hn : |n| ≤ 1) :
    |trueObliquity (jd + n) - trueObliquity (jd + 0)| ≤ arcsec 0.11 := by
  have a := centuries_day h hn
  have b := centuries_day h (show |(0 : ℝ)| ≤ 1 by norm_num)
  have d := centuries_step jd n
  have q := (nutation_day h hn).2
  unfold trueObliquity
  generalize centuries (jd + n) = T at *
  generalize centuries (jd + 0) = U at *
  have e : ∀ x y : ℝ, arcsec (84381.448 - 46.8150 * T - 0.00059 * T ^ 2 + 0.001813 * T ^ 3) + x -
      (arcsec (84381.448 - 46.8150 * U - 0.00059 * U ^ 2 + 0.001813 * U ^ 3) + y) =
      arcsec ((T - U) * (-46.8150 - 0.00059 * (T + U) + 0.001813 * (T ^ 2 + T * U + U ^ 2))) + (x - y) := by
    intro x y; unfold arcsec; ring
  rw [e]
  have c : |arcsec ((T - U) * (-46.8150 - 0.00059 * (T + U) + 0.001813 * (T ^ 2 + T * U + U ^ 2)))| ≤ arcsec 0.002 := by
    rw [abs_arcsec, arcsec_le, d, abs_mul, abs_div, abs_of_pos (by norm_num : (0 : ℝ) < 36525)]
    obtain ⟨a1, a2⟩ := abs_le.mp a
    obtain ⟨b1, b2⟩ := abs_le.mp b
    have k : |-46.8150 - 0.00059 * (T + U) + 0.001813 * (T ^ 2 + T * U + U ^ 2)| ≤ 70 := by
      have s1 : T ^ 2 ≤ 3600 := by nlinarith
      have s2 : U ^ 2 ≤ 3600 := by nlinarith
      have s3 := sq_nonneg (T + U)
      have s4 := sq_nonneg (T - U)
      rw [abs_le]
      norm_num
      constructor <;> nlinarith
    have : |n| / 36525 ≤ 1 / 36525 := by gcongr
    refine (mul_le_mul this k (abs_nonneg _) (by norm_num)).trans (by norm_num)
  refine (abs_add_le _ _).trans ((add_le_add c q).trans ?_)
  unfold arcsec
  have : 0 < π / 648000 := by positivity
  norm_num
  linarith

theorem obliquity_between {jd : ℝ} (h : |millennia jd| ≤ 5.9) : 0.39 ≤ trueObliquity (jd + 0) ∧
    trueObliquity (jd + 0) ≤ 0.4252 := by
  have b := centuries_day h (show |(0 : ℝ)| ≤ 1 by norm_num)
  have z : |nutationInObliquity (jd + 0)| ≤ arcsec 11 := by
    rw [nutationInObliquity_eq, dToR_sec, abs_arcsec, arcsec_le]
    refine (nutEps_abs _).trans ?_
    change _ + _ * |centuries (jd + 0)| ≤ _
    generalize |centuries (jd + 0)| = w at *
    norm_num; linarith
  unfold trueObliquity
  generalize centuries (jd + 0) = U at *
  obtain ⟨z1, z2⟩ := abs_le.mp z
  obtain ⟨b1, b2⟩ := abs_le.mp b
  have s2 : U ^ 2 ≤ 3600 := by nlinarith
  have s0 := sq_nonneg U
  have s3 : |U ^ 3| ≤ 216000 := by
    rw [abs_pow]
    calc |U| ^ 3 ≤ 60 ^ 3 := by gcongr
      _ = 216000 := by norm_num
  obtain ⟨c1, c2⟩ := abs_le.mp s3
  have p := Real.pi_gt_d4
  have p' := Real.pi_lt_d4
  generalize nutationInObliquity (jd + 0) = y at *
  have X1 : 81170 ≤ 84381.448 - 46.8150 * U - 0.00059 * U ^ 2 + 0.001813 * U ^ 3 := by norm_num; linarith
  have X2 : 84381.448 - 46.8150 * U - 0.00059 * U ^ 2 + 0.001813 * U ^ 3 ≤ 87590 := by norm_num; linarith
  generalize 84381.448 - 46.8150 * U - 0.00059 * U ^ 2 + 0.001813 * U ^ 3 = X at *
  unfold arcsec at *
  norm_num at p p' ⊢
  constructor <;> nlinarith

/-! ### Near directions -/

theorem half_small {x y : ℝ} (hx : |x| ≤ π) (h : |sin (x / 2)| ≤ y) (hy : y ≤ 0.0001) : |x| ≤ 2.0001 * y := by
  have e : |sin (x / 2)| = sin (|x| / 2) := by
    rcases le_total 0 x with p | p
    · rw [abs_of_nonneg p] at hx ⊢
      exact abs_of_nonneg (sin_nonneg_of_nonneg_of_le_pi (by linarith) (by linarith))
    · rw [abs_of_nonpos p] at hx ⊢
      rw [show x / 2 = -(-x / 2) by ring, sin_neg, abs_neg]
      exact abs_of_nonneg (sin_nonneg_of_nonneg_of_le_pi (by linarith) (by linarith))
  rw [e] at h
  have n := abs_nonneg x
  generalize |x| = w at *
  have s := mul_le_sin (x := w / 2) (by linarith) (by linarith)
  have p := Real.pi_lt_d2
  have pp := Real.pi_pos
  have w1 : w / 2 ≤ 0.0002 := by
    have : w / π ≤ 0.0001 := by
      have e : 2 / π * (w / 2) = w / π := by ring
      rw [e] at s; linarith
    rw [div_le_iff₀ pp] at this
    norm_num at p this ⊢; linarith
  rcases n.eq_or_lt with h0 | h0
  · rw [← h0] at h ⊢
    simp at h
    norm_num; linarith
  · have := sin_gt_sub_cube (x := w / 2) (by linarith)
    norm_num at w1 this ⊢
    nlinarith [sq_nonneg w, mul_pos h0 h0]

theorem near_turn (x : ℝ) : ∃ k : ℤ, |x - k * (2 * π)| ≤ π := by
  refine ⟨round (x / (2 * π)), ?_⟩
  have h := abs_sub_round (x / (2 * π))
  have p : (0 : ℝ) < 2 * π := by positivity
  have e : x - (round (x / (2 * π)) : ℝ) * (2 * π) = (x / (2 * π) - round (x / (2 * π))) * (2 * π) := by
    field_simp
  rw [e, abs_mul, abs_of_pos p]
  nlinarith

/-- Coordinates of near directions. -/
theorem coords_near {l b l' b' d : ℝ} (hb : 0 ≤ cos b) (hb' : 0.9105 ≤ cos b') (hp : |b - b'| ≤ π)
    (h : ((direction l b).sub (direction l' b')).norm ≤ d) (hd : d ≤ 0.00001) :
    |b - b'| ≤ 1.0001 * d ∧ ∃ k : ℤ, |l - l' - k * (2 * π)| ≤ 1.099 * d := by
  have d0 : 0 ≤ d := (norm_nonneg' _).trans h
  unfold V3.norm at h
  rw [Real.sqrt_le_left d0] at h
  have e : ((direction l b).sub (direction l' b')).x ^ 2 + ((direction l b).sub (direction l' b')).y ^ 2 +
      ((direction l b).sub (direction l' b')).z ^ 2 =
      2 * (1 - cos (b - b')) + 2 * (cos b * cos b') * (1 - cos (l - l')) := by
    simp only [direction, V3.sub, cos_sub]
    linear_combination (cos b ^ 2) * sin_sq_add_cos_sq l + (cos b' ^ 2) * sin_sq_add_cos_sq l' +
      sin_sq_add_cos_sq b + sin_sq_add_cos_sq b'
  rw [e] at h
  have half : ∀ x, 1 - cos x = 2 * sin (x / 2) ^ 2 := by
    intro x
    have := cos_two_mul (x / 2)
    rw [show 2 * (x / 2) = x by ring] at this
    nlinarith [sin_sq_add_cos_sq (x / 2)]
  rw [half, half] at h
  norm_num at hb' hd
  have c0 : 0 ≤ cos b * cos b' := mul_nonneg hb (by linarith)
  have g1 : |sin ((b - b') / 2)| ≤ d / 2 := by
    refine abs_le_of_sq_le_sq ?_ (by linarith)
    have := mul_nonneg c0 (sq_nonneg (sin ((l - l') / 2)))
    nlinarith
  have r1 := half_small hp g1 (by norm_num; linarith)
  have r2 : |b - b'| ≤ 1.0001 * d := by norm_num at r1 ⊢; linarith
  refine ⟨r2, ?_⟩
  have cb : 0.9104 ≤ cos b := by
    have := (abs_le.mp (abs_cos_sub_le b b')).1
    norm_num at r2 ⊢; linarith
  have cc : 0.8289 ≤ cos b * cos b' := by
    norm_num at cb ⊢; nlinarith
  obtain ⟨k, hk⟩ := near_turn (l - l')
  refine ⟨k, ?_⟩
  have sk : sin ((l - l' - k * (2 * π)) / 2) ^ 2 = sin ((l - l') / 2) ^ 2 := by
    have a := half (l - l' - k * (2 * π))
    have b := half (l - l')
    rw [cos_sub_int_mul_two_pi] at a
    linarith
  have g2 : |sin ((l - l' - k * (2 * π)) / 2)| ≤ 0.5494 * d := by
    refine abs_le_of_sq_le_sq ?_ (by norm_num; linarith)
    rw [sk]
    have q := sq_nonneg (sin ((l - l') / 2))
    have := mul_le_mul_of_nonneg_right cc q
    have q2 := sq_nonneg (sin ((b - b') / 2))
    norm_num at this ⊢
    nlinarith
  have r3 := half_small hk g2 (by norm_num; linarith)
  norm_num at r3 ⊢
  linarith

end Verif
