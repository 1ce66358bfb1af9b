import Verif.Lemmas.SunAberration

/-!
# The area swept by the Earth is constant

`L' R ^ 2` for the main terms of the series of the Earth.
-/

namespace Verif
open Real

/-- Waves with the period of a year in the distance. -/
noncomputable def annualR (t θ : ℝ) : ℝ :=
  0.01670699626 * cos (3.09846350771 + θ) + t * (0.00103018608 * cos (1.10748969588 + θ) +
    t * (0.00004359385 * cos (5.78455133738 + θ) + t * (0.00000144595 * cos (4.27319435148 + θ))))

/-- Half a year. -/
noncomputable def halfR (θ : ℝ) : ℝ := 0.00013956023 * cos (3.05524609620 + 2 * θ)

/-- Waves with the period of a year in the motion. -/
noncomputable def annualL (t θ : ℝ) : ℝ :=
  -(0.03341656456 * 6283.0758499914 * sin (4.66925680417 + θ)) +
    t * (-(0.00206058863 * 6283.0758499914 * sin (2.67823455584 + θ)) +
    t * (-(0.00008719837 * 6283.0758499914 * sin (1.07209665242 + θ)) +
    t * (-(0.00000289226 * 6283.0758499914 * sin (5.84384198723 + θ)))))

noncomputable def halfL (θ : ℝ) : ℝ := -(0.00034894275 * (2 * 6283.0758499914) * sin (4.62610241759 + 2 * θ))

theorem mainR_eq (t : ℝ) : pval mainR t = annualR t (6283.0758499914 * t) + halfR (6283.0758499914 * t) := by
  simp only [mainR, pval, seriesVal, vsopTerm, List.map_cons, List.map_nil, List.sum_cons, List.sum_nil, annualR, halfR]
  push_cast
  rw [show (1256615169998280 : ℝ) / 10 ^ 11 * t = 2 * (6283.0758499914 * t) by norm_num; ring,
    show (628307584999140 : ℝ) / 10 ^ 11 * t = 6283.0758499914 * t by norm_num]
  norm_num
  ring

theorem mainL_eq (t : ℝ) : dval mainL t = annualL t (6283.0758499914 * t) + halfL (6283.0758499914 * t) := by
  simp only [mainL, dval, dser, List.map_cons, List.map_nil, List.sum_cons, List.sum_nil, annualL, halfL]
  push_cast
  rw [show (1256615169998280 : ℝ) / 10 ^ 11 * t = 2 * (6283.0758499914 * t) by norm_num; ring,
    show (628307584999140 : ℝ) / 10 ^ 11 * t = 6283.0758499914 * t by norm_num]
  norm_num
  ring

theorem main_small : pCurv 2 mainL ≤ 1.6e6 ∧ pFroz 2 mainL ≤ 0.003 := by
  simp only [mainL, pCurv, pFroz, curv, pAmpl, ampl]
  norm_num

/-- Twice the mean motion over the mean distance. -/
noncomputable def kap : ℝ := 2 * 6283.31966747491 / 1.00013988799

theorem horner_abs_le {t x0 x1 x2 x3 b0 b1 b2 b3 : ℝ} (ht : |t| ≤ 2) (h0 : |x0| ≤ b0) (h1 : |x1| ≤ b1) (h2 : |x2| ≤ b2)
    (h3 : |x3| ≤ b3) : |x0 + t * (x1 + t * (x2 + t * x3))| ≤ b0 + 2 * (b1 + 2 * (b2 + 2 * b3)) := by
  have m : ∀ {x b : ℝ}, |x| ≤ b → |t * x| ≤ 2 * b := by
    intro x b h
    rw [abs_mul]; exact mul_le_mul ht h (abs_nonneg _) (by norm_num)
  refine (abs_add_le _ _).trans (add_le_add h0 (m ?_))
  refine (abs_add_le _ _).trans (add_le_add h1 (m ?_))
  exact (abs_add_le _ _).trans (add_le_add h2 (m h3))

theorem wave_le {A x : ℝ} (h : 0 ≤ A) : |A * cos x| ≤ A := by
  rw [abs_mul, abs_of_nonneg h]; exact mul_le_of_le_one_right h (abs_cos_le_one x)

theorem annualR_abs {t : ℝ} (ht : |t| ≤ 2) (θ : ℝ) : |annualR t θ| ≤ 0.018954 ∧
    |annualR t θ - 0.01670699626 * cos (3.09846350771 + θ)| ≤ 0.0022464 := by
  constructor
  · refine (horner_abs_le ht (wave_le (by norm_num)) (wave_le (by norm_num)) (wave_le (by norm_num))
      (wave_le (by norm_num))).trans (by norm_num)
  · have := horner_abs_le ht (show |(0 : ℝ)| ≤ 0 by simp) (wave_le (x := 1.10748969588 + θ) (A := 0.00103018608) (by norm_num))
      (wave_le (x := 5.78455133738 + θ) (A := 0.00004359385) (by norm_num))
      (wave_le (x := 4.27319435148 + θ) (A := 0.00000144595) (by norm_num))
    unfold annualR
    rw [add_sub_cancel_left]
    rw [zero_add] at this
    exact this.trans (by norm_num)

/-- The motion is opposite to the distance. -/
theorem annual_opposite {t : ℝ} (ht : |t| ≤ 2) (θ : ℝ) : |annualL t θ + kap * annualR t θ| ≤ 0.047 := by
  have p1 := pi_gt_d6
  have p2 := pi_lt_d6
  have e : annualL t θ + kap * annualR t θ =
      (-(0.03341656456 * 6283.0758499914 * sin (4.66925680417 + θ)) +
        kap * 0.01670699626 * cos (3.09846350771 + θ)) + t * (
      (-(0.00206058863 * 6283.0758499914 * sin (2.67823455584 + θ)) +
        kap * 0.00103018608 * cos (1.10748969588 + θ)) + t * (
      (-(0.00008719837 * 6283.0758499914 * sin (1.07209665242 + θ)) +
        kap * 0.00004359385 * cos (5.78455133738 + θ)) + t * (
      -(0.00000289226 * 6283.0758499914 * sin (5.84384198723 + θ)) +
        kap * 0.00000144595 * cos (4.27319435148 + θ)))) := by
    unfold annualL annualR; ring
  rw [e]
  have k0 : 0 ≤ kap := by unfold kap; norm_num
  have k1 : kap ≤ 12564.89 := by unfold kap; norm_num
  have hY : ∀ {A x e : ℝ}, 0 ≤ A → |x| ≤ e → kap * A * |x| ≤ 12564.89 * A * e := by
    intro A x e hA hx
    exact mul_le_mul (mul_le_mul_of_nonneg_right k1 hA) hx (abs_nonneg _) (by positivity)
  refine (horner_abs_le ht
    (opposite_waves (X := 0.03341656456 * 6283.0758499914) (Y := kap * 0.01670699626) 0 (d := 0.0374) (e := 12564.89 * 0.01670699626 * 0.000005) (by positivity) ?_ (hY (by norm_num) ?_))
    (opposite_waves (X := 0.00206058863 * 6283.0758499914) (Y := kap * 0.00103018608) 0 (d := 0.00268) (e := 12564.89 * 0.00103018608 * 0.000055) (by positivity) ?_ (hY (by norm_num) ?_))
    (opposite_waves (X := 0.00008719837 * 6283.0758499914) (Y := kap * 0.00004359385) 1 (d := 0.000124) (e := 12564.89 * 0.00004359385 * 0.00007) (by positivity) ?_ (hY (by norm_num) ?_))
    (opposite_waves (X := 0.00000289226 * 6283.0758499914) (Y := kap * 0.00000144595) 0 (d := 0.000005) (e := 12564.89 * 0.00000144595 * 0.00016) (by positivity) ?_ (hY (by norm_num) ?_))).trans (by norm_num)
  all_goals rw [abs_le]
  all_goals (try unfold kap)
  all_goals (push_cast; norm_num at p1 p2 ⊢)
  all_goals constructor <;> linarith

/-- The waves of half a year cancel. -/
theorem half_opposite (θ : ℝ) :
    |-(3 / 2 * 6283.31966747491 * 0.01670699626 ^ 2) * cos (2 * (3.09846350771 + θ)) +
      2 * 6283.31966747491 * 1.00013988799 * halfR θ + 1.00013988799 ^ 2 * halfL θ| ≤ 0.004 := by
  have p1 := pi_gt_d6
  have p2 := pi_lt_d6
  have a := opposite_waves (X := 1.00013988799 ^ 2 * (0.00034894275 * (2 * 6283.0758499914)))
    (Y := 3 / 2 * 6283.31966747491 * 0.01670699626 ^ 2 + 2 * 6283.31966747491 * 1.00013988799 * 0.00013956023)
    (c := 4.62610241759) (a := 3.05524609620) (θ := 2 * θ) 0 (d := 0.0016) (e := 4.39 * 0.00007) (by positivity)
    (by rw [abs_le]; norm_num)
    (by
      refine mul_le_mul (by norm_num) ?_ (abs_nonneg _) (by norm_num)
      rw [abs_le]; push_cast; norm_num at p1 p2 ⊢; constructor <;> linarith)
  have b := two_waves (X := 3 / 2 * 6283.31966747491 * 0.01670699626 ^ 2)
    (Y := 3 / 2 * 6283.31966747491 * 0.01670699626 ^ 2) (α := 2 * 3.09846350771 - π) (β := 3.05524609620) (θ := 2 * θ)
    (by positivity)
  have e : cos (2 * 3.09846350771 - π + 2 * θ) = -cos (2 * (3.09846350771 + θ)) := by
    rw [show 2 * 3.09846350771 - π + 2 * θ = 2 * (3.09846350771 + θ) - π by ring, cos_sub_pi]
  rw [e, sub_self, abs_zero, zero_add] at b
  have c : |2 * 3.09846350771 - π - 3.05524609620| ≤ 0.0001 := by
    rw [abs_le]; norm_num at p1 p2 ⊢; constructor <;> linarith
  have b' := b.trans (mul_le_mul_of_nonneg_left c (by positivity))
  unfold halfR halfL
  generalize cos (2 * (3.09846350771 + θ)) = x at *
  generalize cos (3.05524609620 + 2 * θ) = y at *
  generalize sin (4.62610241759 + 2 * θ) = z at *
  obtain ⟨a1, a2⟩ := abs_le.mp a
  obtain ⟨b1, b2⟩ := abs_le.mp b'
  rw [abs_le]
  norm_num at a1 a2 b1 b2 ⊢
  constructor <;> linarith

theorem halfR_abs (θ : ℝ) : |halfR θ| ≤ 0.00013957 := (wave_le (by norm_num)).trans (by norm_num)

theorem halfL_abs (θ : ℝ) : |halfL θ| ≤ 4.386 := by
  unfold halfL
  rw [abs_neg, abs_mul, abs_of_nonneg (by norm_num)]
  exact (mul_le_of_le_one_right (by norm_num) (abs_sin_le_one _)).trans (by norm_num)

/-- Kepler's second law for the main terms. -/
theorem swept_main {t : ℝ} (ht : |t| ≤ 2) (θ : ℝ) :
    |(6283.31966747491 + annualL t θ + halfL θ) * (1.00013988799 + annualR t θ + halfR θ) ^ 2 -
      (6283.31966747491 * 1.00013988799 ^ 2 - 3 / 2 * 6283.31966747491 * 0.01670699626 ^ 2)| ≤ 1.96 := by
  have hd := annual_opposite ht θ
  obtain ⟨ha, hx⟩ := annualR_abs ht θ
  have h2 := half_opposite θ
  have ha2 := halfR_abs θ
  have hf2 := halfL_abs θ
  have hc := cos_sq (3.09846350771 + θ)
  have hcA := wave_le (A := 0.01670699626) (x := 3.09846350771 + θ) (by norm_num)
  have k1 : kap ≤ 12564.89 := by unfold kap; norm_num
  have k0 : 0 ≤ kap := by unfold kap; norm_num
  have hk : kap * 1.00013988799 = 2 * 6283.31966747491 := by unfold kap; norm_num
  generalize annualR t θ = a at *
  generalize annualL t θ = f at *
  generalize halfR θ = a2 at *
  generalize halfL θ = f2 at *
  generalize cos (2 * (3.09846350771 + θ)) = C2 at *
  generalize cos (3.09846350771 + θ) = C at *
  obtain ⟨δ, hδ⟩ : ∃ δ, f = δ - kap * a := ⟨f + kap * a, by ring⟩
  subst hδ
  rw [sub_add_cancel] at hd
  generalize hn : (6283.31966747491 : ℝ) = n at *
  generalize hr : (1.00013988799 : ℝ) = r at *
  generalize hA : (0.01670699626 : ℝ) = A at *
  generalize kap = κ at *
  have id : (n + (δ - κ * a) + f2) * (r + a + a2) ^ 2 - (n * r ^ 2 - 3 / 2 * n * A ^ 2) =
      δ * (r + a) ^ 2 - κ * a ^ 3 - 3 * n * ((a - A * C) * (a + A * C)) +
      (-(3 / 2 * n * A ^ 2) * C2 + 2 * n * r * a2 + r ^ 2 * f2) +
      f2 * ((a + a2) * (2 * r + a + a2)) +
      (2 * a2 * (n * a + (δ - κ * a) * (r + a)) + (n + (δ - κ * a)) * a2 ^ 2) := by
    linear_combination (-(r * a + 2 * a ^ 2)) * hk + (-3 * n * A ^ 2) * hc
  rw [id]
  subst hn hr hA
  have b1 : |δ * (1.00013988799 + a) ^ 2| ≤ 0.047 * 1.0387 := by
    rw [abs_mul]
    refine mul_le_mul hd ?_ (abs_nonneg _) (by norm_num)
    rw [abs_of_nonneg (sq_nonneg _)]
    obtain ⟨q1, q2⟩ := abs_le.mp ha
    norm_num at q1 q2 ⊢; nlinarith
  have b2 : |κ * a ^ 3| ≤ 12564.89 * 0.018954 ^ 3 := by
    rw [abs_mul, abs_pow, abs_of_nonneg k0]
    exact mul_le_mul k1 (pow_le_pow_left₀ (abs_nonneg _) ha 3) (by positivity) (by norm_num)
  have b3 : |3 * 6283.31966747491 * ((a - 0.01670699626 * C) * (a + 0.01670699626 * C))| ≤
      3 * 6283.31966747491 * (0.0022464 * 0.035661) := by
    rw [abs_mul, abs_of_nonneg (by norm_num : (0 : ℝ) ≤ 3 * 6283.31966747491), abs_mul]
    refine mul_le_mul_of_nonneg_left (mul_le_mul hx ?_ (abs_nonneg _) (by norm_num)) (by norm_num)
    refine (abs_add_le _ _).trans ((add_le_add ha hcA).trans (by norm_num))
  have b4 : |f2 * ((a + a2) * (2 * 1.00013988799 + a + a2))| ≤ 4.386 * (0.0190936 * 2.01938) := by
    rw [abs_mul, abs_mul]
    have u := (abs_add_le a a2).trans (add_le_add ha ha2)
    refine mul_le_mul hf2 (mul_le_mul (u.trans (by norm_num)) ?_ (abs_nonneg _) (by norm_num)) (by positivity) (by norm_num)
    rw [show 2 * 1.00013988799 + a + a2 = 2 * 1.00013988799 + (a + a2) by ring]
    refine (abs_add_le _ _).trans ((add_le_add_right u _).trans ?_)
    rw [abs_of_pos (by norm_num)]; norm_num
  have c1 : |δ - κ * a| ≤ 238.25 := by
    refine (abs_sub _ _).trans ?_
    rw [abs_mul, abs_of_nonneg k0]
    have := mul_le_mul k1 ha (abs_nonneg _) (by norm_num)
    norm_num at this hd ⊢; linarith
  have b5 : |2 * a2 * (6283.31966747491 * a + (δ - κ * a) * (1.00013988799 + a))| ≤ 2 * 0.00013957 * 362 := by
    rw [abs_mul, abs_mul, abs_two]
    refine mul_le_mul (mul_le_mul_of_nonneg_left ha2 (by norm_num)) ?_ (abs_nonneg _) (by norm_num)
    refine (abs_add_le _ _).trans ?_
    rw [abs_mul, abs_mul, abs_of_pos (by norm_num : (0 : ℝ) < 6283.31966747491)]
    have u : |1.00013988799 + a| ≤ 1.019094 := by
      refine (abs_add_le _ _).trans ((add_le_add_right ha _).trans ?_)
      rw [abs_of_pos (by norm_num)]; norm_num
    have := mul_le_mul c1 u (abs_nonneg _) (by norm_num)
    norm_num at this ha ⊢; linarith
  have b6 : |(6283.31966747491 + (δ - κ * a)) * a2 ^ 2| ≤ 6600 * 0.00013957 ^ 2 := by
    rw [abs_mul, abs_pow]
    refine mul_le_mul ?_ (pow_le_pow_left₀ (abs_nonneg _) ha2 2) (by positivity) (by norm_num)
    refine (abs_add_le _ _).trans ((add_le_add_right c1 _).trans ?_)
    rw [abs_of_pos (by norm_num)]; norm_num
  generalize δ * (1.00013988799 + a) ^ 2 = z1 at *
  generalize κ * a ^ 3 = z2 at *
  generalize 3 * 6283.31966747491 * ((a - 0.01670699626 * C) * (a + 0.01670699626 * C)) = z3 at *
  generalize f2 * ((a + a2) * (2 * 1.00013988799 + a + a2)) = z4 at *
  generalize 2 * a2 * (6283.31966747491 * a + (δ - κ * a) * (1.00013988799 + a)) = z5 at *
  generalize (6283.31966747491 + (δ - κ * a)) * a2 ^ 2 = z6 at *
  generalize -(3 / 2 * 6283.31966747491 * 0.01670699626 ^ 2) * C2 + 2 * 6283.31966747491 * 1.00013988799 * a2 +
    1.00013988799 ^ 2 * f2 = z7 at *
  rw [abs_le] at b1 b2 b3 b4 b5 b6 h2 ⊢
  norm_num at b1 b2 b3 b4 b5 b6 h2 ⊢
  constructor <;> linarith

end Verif
