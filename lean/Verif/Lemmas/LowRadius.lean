import Verif.Lemmas.LowSun

/-!
# Low precision Sun: the distance against the series of the Earth
-/

namespace Verif
open Real

set_option exponentiation.threshold 500
set_option maxRecDepth 100000

theorem lowR_cr1 : nearN (-407922506259) 10000 [cosRow (1000000000000, -114074396538933)] = true := by decide +kernel
theorem lowR_sr1 : nearN (-913016554553) 10000 [sinRow (1000000000000, -114074396538933)] = true := by decide +kernel

theorem lowR_r1 : |cos (-1.99097381183) - (-0.407922506259)| ≤ 1.4e-8 ∧ |sin (-1.99097381183) - (-0.913016554553)| ≤ 1.4e-8 := by
  have p1 := pi_gt_d20
  have p2 := pi_lt_d20
  have h : |((-1.99097381183) : ℝ) * 180 / π * 10 ^ 12 - ((-114074396538933 : ℤ) : ℝ)| ≤ 1 := by
    refine rad_near ?_
    rw [abs_le]; push_cast; norm_num at p1 p2 ⊢
    constructor <;> linarith
  have a := cosDeg_near h lowR_cr1
  have b := sinDeg_near h lowR_sr1
  rw [deg_rad] at a b
  push_cast at a b
  norm_num at a b ⊢
  exact ⟨by linarith, by linarith⟩

theorem lowR_cr2 : nearN (-898039062640) 10000 [cosRow (1000000000000, 153901496041546)] = true := by decide +kernel
theorem lowR_sr2 : nearN 439915721442 10000 [sinRow (1000000000000, 153901496041546)] = true := by decide +kernel

theorem lowR_r2 : |cos 2.68608782967 - (-0.898039062640)| ≤ 1.4e-8 ∧ |sin 2.68608782967 - 0.439915721442| ≤ 1.4e-8 := by
  have p1 := pi_gt_d20
  have p2 := pi_lt_d20
  have h : |(2.68608782967 : ℝ) * 180 / π * 10 ^ 12 - ((153901496041546 : ℤ) : ℝ)| ≤ 1 := by
    refine rad_near ?_
    rw [abs_le]; push_cast; norm_num at p1 p2 ⊢
    constructor <;> linarith
  have a := cosDeg_near h lowR_cr2
  have b := sinDeg_near h lowR_sr2
  rw [deg_rad] at a b
  push_cast at a b
  norm_num at a b ⊢
  exact ⟨by linarith, by linarith⟩

theorem lowR_cr3 : nearN 385791407366 10000 [cosRow (1000000000000, 67307119411863)] = true := by decide +kernel
theorem lowR_sr3 : nearN 922586033930 10000 [sinRow (1000000000000, 67307119411863)] = true := by decide +kernel

theorem lowR_r3 : |cos 1.17473084377 - 0.385791407366| ≤ 1.4e-8 ∧ |sin 1.17473084377 - 0.922586033930| ≤ 1.4e-8 := by
  have p1 := pi_gt_d20
  have p2 := pi_lt_d20
  have h : |(1.17473084377 : ℝ) * 180 / π * 10 ^ 12 - ((67307119411863 : ℤ) : ℝ)| ≤ 1 := by
    refine rad_near ?_
    rw [abs_le]; push_cast; norm_num at p1 p2 ⊢
    constructor <;> linarith
  have a := cosDeg_near h lowR_cr3
  have b := sinDeg_near h lowR_sr3
  rw [deg_rad] at a b
  push_cast at a b
  norm_num at a b ⊢
  exact ⟨by linarith, by linarith⟩

theorem lowR_cq1 : nearN (-407784882814) 10000 [cosRow (1000000000000, -114065760356973)] = true := by decide +kernel
theorem lowR_sq1 : nearN (-913078030263) 10000 [sinRow (1000000000000, -114065760356973)] = true := by decide +kernel

theorem lowR_q1 : |cos (-1.99082308202) - (-0.407784882814)| ≤ 1.4e-8 ∧ |sin (-1.99082308202) - (-0.913078030263)| ≤ 1.4e-8 := by
  have p1 := pi_gt_d20
  have p2 := pi_lt_d20
  have h : |((-1.99082308202) : ℝ) * 180 / π * 10 ^ 12 - ((-114065760356973 : ℤ) : ℝ)| ≤ 1 := by
    refine rad_near ?_
    rw [abs_le]; push_cast; norm_num at p1 p2 ⊢
    constructor <;> linarith
  have a := cosDeg_near h lowR_cq1
  have b := sinDeg_near h lowR_sq1
  rw [deg_rad] at a b
  push_cast at a b
  norm_num at a b ⊢
  exact ⟨by linarith, by linarith⟩

theorem lowR_cq2 : nearN (-815333404802) 10000 [cosRow (1000000000000, 144620341547922)] = true := by decide +kernel
theorem lowR_sq2 : nearN 578991743477 10000 [sinRow (1000000000000, 144620341547922)] = true := by decide +kernel

theorem lowR_q2 : |cos 2.52410112537 - (-0.815333404802)| ≤ 1.4e-8 ∧ |sin 2.52410112537 - 0.578991743477| ≤ 1.4e-8 := by
  have p1 := pi_gt_d20
  have p2 := pi_lt_d20
  have h : |(2.52410112537 : ℝ) * 180 / π * 10 ^ 12 - ((144620341547922 : ℤ) : ℝ)| ≤ 1 := by
    refine rad_near ?_
    rw [abs_le]; push_cast; norm_num at p1 p2 ⊢
    constructor <;> linarith
  have a := cosDeg_near h lowR_cq2
  have b := sinDeg_near h lowR_sq2
  rw [deg_rad] at a b
  push_cast at a b
  norm_num at a b ⊢
  exact ⟨by linarith, by linarith⟩

theorem lowR_cq3 : nearN 651125432115 10000 [cosRow (1000000000000, 49373491530915)] = true := by decide +kernel
theorem lowR_sq3 : nearN 758970138841 10000 [sinRow (1000000000000, 49373491530915)] = true := by decide +kernel

theorem lowR_q3 : |cos 0.86172999042 - 0.651125432115| ≤ 1.4e-8 ∧ |sin 0.86172999042 - 0.758970138841| ≤ 1.4e-8 := by
  have p1 := pi_gt_d20
  have p2 := pi_lt_d20
  have h : |(0.86172999042 : ℝ) * 180 / π * 10 ^ 12 - ((49373491530915 : ℤ) : ℝ)| ≤ 1 := by
    refine rad_near ?_
    rw [abs_le]; push_cast; norm_num at p1 p2 ⊢
    constructor <;> linarith
  have a := cosDeg_near h lowR_cq3
  have b := sinDeg_near h lowR_sq3
  rw [deg_rad] at a b
  push_cast at a b
  norm_num at a b ⊢
  exact ⟨by linarith, by linarith⟩

theorem cos_sub_pi' (x : ℝ) : cos (x - π) = -cos x := cos_sub_pi x

theorem cos_sub_three_pi (x : ℝ) : cos (x - (π + 2 * π)) = -cos x := by
  rw [show x - (π + 2 * π) = x - π - 2 * π by ring, cos_sub_two_pi, cos_sub_pi]

/-- The annual wave of the distance within 1000 years of J2000, `t` in millennia. -/
theorem radius_annual1 {t : ℝ} (ht : |t| ≤ 1) :
    |0.01670699626 * cos (3.09846350771 + 6283.0758499914 * t) + t * (0.00103018608 * cos (1.10748969588 + 6283.0758499914 * t) +
      t * (0.00004359385 * cos (5.78455133738 + 6283.0758499914 * t) + t * (0.00000144595 * cos (4.27319435148 + 6283.0758499914 * t)))) +
      (0.016708634 - 0.00042037 * t - 0.00001267 * t ^ 2) * cos (deg (357.5291092 + 359990.502909 * t - 0.01536 * t ^ 2 + t ^ 3 / 24490))| ≤ 0.0000024 := by
  have p1 := pi_gt_d20
  have p2 := pi_lt_d20
  obtain ⟨k1, l1⟩ := lowR_r1
  obtain ⟨k2, l2⟩ := lowR_r2
  obtain ⟨k3, l3⟩ := lowR_r3
  have hs : |(deg (357.5291092 + 359990.502909 * t - 0.01536 * t ^ 2 + t ^ 3 / 24490)) - π - (3.09846350771 + 6283.0758499914 * t) + (0.056298319125 * t + 0.000268082573 * t ^ 2)| ≤ 5e-6 := by
    have e : (deg (357.5291092 + 359990.502909 * t - 0.01536 * t ^ 2 + t ^ 3 / 24490)) - π - (3.09846350771 + 6283.0758499914 * t) + (0.056298319125 * t + 0.000268082573 * t ^ 2) =
        (357.5291092 * (π / 180) - π - 3.09846350771) + t * ((359990.502909 * (π / 180) - 6283.0758499914 + 0.056298319125) +
        t * ((0.000268082573 + (-0.01536) * (π / 180)) + t * ((1 / 24490) * (π / 180)))) := by
      unfold deg; ring
    rw [e]
    refine (step_le ht (a := 4e-6) ?_ (step_le ht (a := 1e-12) ?_ (step_le ht (a := 1e-12) ?_
      (b := 7.2e-7) ?_))).trans (by norm_num)
    all_goals
      rw [abs_le]
      norm_num at p1 p2 ⊢
      try (constructor <;> linarith)
  have hC : |(0.016708634 - 0.00042037 * t - 0.00001267 * t ^ 2) - (0.016708634 + (-0.00042037) * t + (-0.00001267) * t ^ 2)| ≤ 0 := by
    rw [show (0.016708634 - 0.00042037 * t - 0.00001267 * t ^ 2) - (0.016708634 + (-0.00042037) * t + (-0.00001267) * t ^ 2) = 0 by ring, abs_zero]
  obtain ⟨u, v⟩ := wave_poly (A0 := 0.01670699626) (A1 := 0.00103018608) (A2 := 0.00004359385) (A3 := 0.00000144595) (Q := 0.0569 * 1) (c := 0.0172)
    (by norm_num) (by norm_num) (by norm_num) ht k1 k2 k3 l1 l2 l3 hs hC (by norm_num) (by norm_num) (by norm_num)
  have w := wave_match 0.01670699626 0.00103018608 0.00004359385 0.00000144595 (-1.99097381183) 2.68608782967 1.17473084377 (0.016708634 - 0.00042037 * t - 0.00001267 * t ^ 2)
    ((deg (357.5291092 + 359990.502909 * t - 0.01536 * t ^ 2 + t ^ 3 / 24490)) - π - (3.09846350771 + 6283.0758499914 * t)) (3.09846350771 + 6283.0758499914 * t) t
  rw [show (3.09846350771 + 6283.0758499914 * t) + (-1.99097381183) = 1.10748969588 + 6283.0758499914 * t by ring,
    show (3.09846350771 + 6283.0758499914 * t) + 2.68608782967 = 5.78455133738 + 6283.0758499914 * t by ring,
    show (3.09846350771 + 6283.0758499914 * t) + 1.17473084377 = 4.27319435148 + 6283.0758499914 * t by ring,
    show (3.09846350771 + 6283.0758499914 * t) + ((deg (357.5291092 + 359990.502909 * t - 0.01536 * t ^ 2 + t ^ 3 / 24490)) - π - (3.09846350771 + 6283.0758499914 * t)) = deg (357.5291092 + 359990.502909 * t - 0.01536 * t ^ 2 + t ^ 3 / 24490) - π by ring,
    cos_sub_pi, mul_neg, sub_neg_eq_add] at w
  refine w.trans ((add_le_add u v).trans ?_)
  norm_num

/-- The annual wave of the distance within 2000 years of J2000. -/
theorem radius_annual2 {t : ℝ} (ht : |t| ≤ 2) :
    |0.01670699626 * cos (3.09846350771 + 6283.0758499914 * t) + t * (0.00103018608 * cos (1.10748969588 + 6283.0758499914 * t) +
      t * (0.00004359385 * cos (5.78455133738 + 6283.0758499914 * t) + t * (0.00000144595 * cos (4.27319435148 + 6283.0758499914 * t)))) +
      (0.016708634 - 0.00042037 * t - 0.00001267 * t ^ 2) * cos (deg (357.5291092 + 359990.502909 * t - 0.01536 * t ^ 2 + t ^ 3 / 24490))| ≤ 0.0000050 := by
  have p1 := pi_gt_d20
  have p2 := pi_lt_d20
  obtain ⟨k1, l1⟩ := lowR_r1
  obtain ⟨k2, l2⟩ := lowR_r2
  obtain ⟨k3, l3⟩ := lowR_r3
  have hs : |(deg (357.5291092 + 359990.502909 * t - 0.01536 * t ^ 2 + t ^ 3 / 24490)) - π - (3.09846350771 + 6283.0758499914 * t) + (0.056298319125 * t + 0.000268082573 * t ^ 2)| ≤ 1e-5 := by
    have e : (deg (357.5291092 + 359990.502909 * t - 0.01536 * t ^ 2 + t ^ 3 / 24490)) - π - (3.09846350771 + 6283.0758499914 * t) + (0.056298319125 * t + 0.000268082573 * t ^ 2) =
        (357.5291092 * (π / 180) - π - 3.09846350771) + t * ((359990.502909 * (π / 180) - 6283.0758499914 + 0.056298319125) +
        t * ((0.000268082573 + (-0.01536) * (π / 180)) + t * ((1 / 24490) * (π / 180)))) := by
      unfold deg; ring
    rw [e]
    refine (step_le ht (a := 4e-6) ?_ (step_le ht (a := 1e-12) ?_ (step_le ht (a := 1e-12) ?_
      (b := 7.2e-7) ?_))).trans (by norm_num)
    all_goals
      rw [abs_le]
      norm_num at p1 p2 ⊢
      try (constructor <;> linarith)
  have hC : |(0.016708634 - 0.00042037 * t - 0.00001267 * t ^ 2) - (0.016708634 + (-0.00042037) * t + (-0.00001267) * t ^ 2)| ≤ 0 := by
    rw [show (0.016708634 - 0.00042037 * t - 0.00001267 * t ^ 2) - (0.016708634 + (-0.00042037) * t + (-0.00001267) * t ^ 2) = 0 by ring, abs_zero]
  obtain ⟨u, v⟩ := wave_poly (A0 := 0.01670699626) (A1 := 0.00103018608) (A2 := 0.00004359385) (A3 := 0.00000144595) (Q := 0.0569 * 2) (c := 0.0177)
    (by norm_num) (by norm_num) (by norm_num) ht k1 k2 k3 l1 l2 l3 hs hC (by norm_num) (by norm_num) (by norm_num)
  have w := wave_match 0.01670699626 0.00103018608 0.00004359385 0.00000144595 (-1.99097381183) 2.68608782967 1.17473084377 (0.016708634 - 0.00042037 * t - 0.00001267 * t ^ 2)
    ((deg (357.5291092 + 359990.502909 * t - 0.01536 * t ^ 2 + t ^ 3 / 24490)) - π - (3.09846350771 + 6283.0758499914 * t)) (3.09846350771 + 6283.0758499914 * t) t
  rw [show (3.09846350771 + 6283.0758499914 * t) + (-1.99097381183) = 1.10748969588 + 6283.0758499914 * t by ring,
    show (3.09846350771 + 6283.0758499914 * t) + 2.68608782967 = 5.78455133738 + 6283.0758499914 * t by ring,
    show (3.09846350771 + 6283.0758499914 * t) + 1.17473084377 = 4.27319435148 + 6283.0758499914 * t by ring,
    show (3.09846350771 + 6283.0758499914 * t) + ((deg (357.5291092 + 359990.502909 * t - 0.01536 * t ^ 2 + t ^ 3 / 24490)) - π - (3.09846350771 + 6283.0758499914 * t)) = deg (357.5291092 + 359990.502909 * t - 0.01536 * t ^ 2 + t ^ 3 / 24490) - π by ring,
    cos_sub_pi, mul_neg, sub_neg_eq_add] at w
  refine w.trans ((add_le_add u v).trans ?_)
  norm_num

/-- The half-annual wave of the distance within 1000 years of J2000. -/
theorem radius_half1 {t : ℝ} (ht : |t| ≤ 1) :
    |0.00013956023 * cos (3.0552460962 + 12566.1516999828 * t) + t * (0.00001721238 * cos (1.06442301418 + 12566.1516999828 * t) +
      t * (0.00000123633 * cos (5.57934722157 + 12566.1516999828 * t) + t * (0.00000006729 * cos (3.91697608662 + 12566.1516999828 * t)))) +
      ((0.016708634 - 0.00042037 * t - 0.00001267 * t ^ 2) ^ 2 / 2) * cos (2 * deg (357.5291092 + 359990.502909 * t - 0.01536 * t ^ 2 + t ^ 3 / 24490))| ≤ 0.0000004 := by
  have p1 := pi_gt_d20
  have p2 := pi_lt_d20
  obtain ⟨k1, l1⟩ := lowR_q1
  obtain ⟨k2, l2⟩ := lowR_q2
  obtain ⟨k3, l3⟩ := lowR_q3
  have hs : |(2 * deg (357.5291092 + 359990.502909 * t - 0.01536 * t ^ 2 + t ^ 3 / 24490)) - (π + 2 * π) - (3.0552460962 + 12566.1516999828 * t) + (0.112596638250 * t + 0.000536165146 * t ^ 2)| ≤ 1e-4 := by
    have e : (2 * deg (357.5291092 + 359990.502909 * t - 0.01536 * t ^ 2 + t ^ 3 / 24490)) - (π + 2 * π) - (3.0552460962 + 12566.1516999828 * t) + (0.112596638250 * t + 0.000536165146 * t ^ 2) =
        (715.0582184 * (π / 180) - (π + 2 * π) - 3.0552460962) + t * ((719981.005818 * (π / 180) - 12566.1516999828 + 0.112596638250) +
        t * ((0.000536165146 + (-0.03072) * (π / 180)) + t * ((2 / 24490) * (π / 180)))) := by
      unfold deg; ring
    rw [e]
    refine (step_le ht (a := 9.7e-5) ?_ (step_le ht (a := 1e-12) ?_ (step_le ht (a := 1e-12) ?_
      (b := 1.44e-6) ?_))).trans (by norm_num)
    all_goals
      rw [abs_le]
      norm_num at p1 p2 ⊢
      try (constructor <;> linarith)
  have hC : |((0.016708634 - 0.00042037 * t - 0.00001267 * t ^ 2) ^ 2 / 2) - (0.000139589225 + (-0.000007023808) * t + (-0.000000123343) * t ^ 2)| ≤ 6e-9 := by
    rw [show ((0.016708634 - 0.00042037 * t - 0.00001267 * t ^ 2) ^ 2 / 2) - (0.000139589225 + (-0.000007023808) * t + (-0.000000123343) * t ^ 2) = (0.016708634 ^ 2 / 2 - 0.000139589225) + t * ((-0.016708634 * 0.00042037 - (-0.000007023808)) +
      t * ((0.00042037 ^ 2 / 2 - 0.016708634 * 0.00001267 - (-0.000000123343)) + t * (0.00042037 * 0.00001267 + t * (0.00001267 ^ 2 / 2)))) by ring]
    refine (step_le ht le_rfl (step_le ht le_rfl (step_le ht le_rfl (step_le ht le_rfl le_rfl)))).trans ?_
    norm_num [abs_le]
  obtain ⟨u, v⟩ := wave_poly (A0 := 0.00013956023) (A1 := 0.00001721238) (A2 := 0.00000123633) (A3 := 0.00000006729) (Q := 0.1137 * 1) (c := 0.000148)
    (by norm_num) (by norm_num) (by norm_num) ht k1 k2 k3 l1 l2 l3 hs hC (by norm_num) (by norm_num) (by norm_num)
  have w := wave_match 0.00013956023 0.00001721238 0.00000123633 0.00000006729 (-1.99082308202) 2.52410112537 0.86172999042 ((0.016708634 - 0.00042037 * t - 0.00001267 * t ^ 2) ^ 2 / 2)
    ((2 * deg (357.5291092 + 359990.502909 * t - 0.01536 * t ^ 2 + t ^ 3 / 24490)) - (π + 2 * π) - (3.0552460962 + 12566.1516999828 * t)) (3.0552460962 + 12566.1516999828 * t) t
  rw [show (3.0552460962 + 12566.1516999828 * t) + (-1.99082308202) = 1.06442301418 + 12566.1516999828 * t by ring,
    show (3.0552460962 + 12566.1516999828 * t) + 2.52410112537 = 5.57934722157 + 12566.1516999828 * t by ring,
    show (3.0552460962 + 12566.1516999828 * t) + 0.86172999042 = 3.91697608662 + 12566.1516999828 * t by ring,
    show (3.0552460962 + 12566.1516999828 * t) + ((2 * deg (357.5291092 + 359990.502909 * t - 0.01536 * t ^ 2 + t ^ 3 / 24490)) - (π + 2 * π) - (3.0552460962 + 12566.1516999828 * t)) = 2 * deg (357.5291092 + 359990.502909 * t - 0.01536 * t ^ 2 + t ^ 3 / 24490) - (π + 2 * π) by ring,
    cos_sub_three_pi, mul_neg, sub_neg_eq_add] at w
  refine w.trans ((add_le_add u v).trans ?_)
  norm_num

/-- The half-annual wave of the distance within 2000 years of J2000. -/
theorem radius_half2 {t : ℝ} (ht : |t| ≤ 2) :
    |0.00013956023 * cos (3.0552460962 + 12566.1516999828 * t) + t * (0.00001721238 * cos (1.06442301418 + 12566.1516999828 * t) +
      t * (0.00000123633 * cos (5.57934722157 + 12566.1516999828 * t) + t * (0.00000006729 * cos (3.91697608662 + 12566.1516999828 * t)))) +
      ((0.016708634 - 0.00042037 * t - 0.00001267 * t ^ 2) ^ 2 / 2) * cos (2 * deg (357.5291092 + 359990.502909 * t - 0.01536 * t ^ 2 + t ^ 3 / 24490))| ≤ 0.0000015 := by
  have p1 := pi_gt_d20
  have p2 := pi_lt_d20
  obtain ⟨k1, l1⟩ := lowR_q1
  obtain ⟨k2, l2⟩ := lowR_q2
  obtain ⟨k3, l3⟩ := lowR_q3
  have hs : |(2 * deg (357.5291092 + 359990.502909 * t - 0.01536 * t ^ 2 + t ^ 3 / 24490)) - (π + 2 * π) - (3.0552460962 + 12566.1516999828 * t) + (0.112596638250 * t + 0.000536165146 * t ^ 2)| ≤ 1.1e-4 := by
    have e : (2 * deg (357.5291092 + 359990.502909 * t - 0.01536 * t ^ 2 + t ^ 3 / 24490)) - (π + 2 * π) - (3.0552460962 + 12566.1516999828 * t) + (0.112596638250 * t + 0.000536165146 * t ^ 2) =
        (715.0582184 * (π / 180) - (π + 2 * π) - 3.0552460962) + t * ((719981.005818 * (π / 180) - 12566.1516999828 + 0.112596638250) +
        t * ((0.000536165146 + (-0.03072) * (π / 180)) + t * ((2 / 24490) * (π / 180)))) := by
      unfold deg; ring
    rw [e]
    refine (step_le ht (a := 9.7e-5) ?_ (step_le ht (a := 1e-12) ?_ (step_le ht (a := 1e-12) ?_
      (b := 1.44e-6) ?_))).trans (by norm_num)
    all_goals
      rw [abs_le]
      norm_num at p1 p2 ⊢
      try (constructor <;> linarith)
  have hC : |((0.016708634 - 0.00042037 * t - 0.00001267 * t ^ 2) ^ 2 / 2) - (0.000139589225 + (-0.000007023808) * t + (-0.000000123343) * t ^ 2)| ≤ 4.4e-8 := by
    rw [show ((0.016708634 - 0.00042037 * t - 0.00001267 * t ^ 2) ^ 2 / 2) - (0.000139589225 + (-0.000007023808) * t + (-0.000000123343) * t ^ 2) = (0.016708634 ^ 2 / 2 - 0.000139589225) + t * ((-0.016708634 * 0.00042037 - (-0.000007023808)) +
      t * ((0.00042037 ^ 2 / 2 - 0.016708634 * 0.00001267 - (-0.000000123343)) + t * (0.00042037 * 0.00001267 + t * (0.00001267 ^ 2 / 2)))) by ring]
    refine (step_le ht le_rfl (step_le ht le_rfl (step_le ht le_rfl (step_le ht le_rfl le_rfl)))).trans ?_
    norm_num [abs_le]
  obtain ⟨u, v⟩ := wave_poly (A0 := 0.00013956023) (A1 := 0.00001721238) (A2 := 0.00000123633) (A3 := 0.00000006729) (Q := 0.1137 * 2) (c := 0.000155)
    (by norm_num) (by norm_num) (by norm_num) ht k1 k2 k3 l1 l2 l3 hs hC (by norm_num) (by norm_num) (by norm_num)
  have w := wave_match 0.00013956023 0.00001721238 0.00000123633 0.00000006729 (-1.99082308202) 2.52410112537 0.86172999042 ((0.016708634 - 0.00042037 * t - 0.00001267 * t ^ 2) ^ 2 / 2)
    ((2 * deg (357.5291092 + 359990.502909 * t - 0.01536 * t ^ 2 + t ^ 3 / 24490)) - (π + 2 * π) - (3.0552460962 + 12566.1516999828 * t)) (3.0552460962 + 12566.1516999828 * t) t
  rw [show (3.0552460962 + 12566.1516999828 * t) + (-1.99082308202) = 1.06442301418 + 12566.1516999828 * t by ring,
    show (3.0552460962 + 12566.1516999828 * t) + 2.52410112537 = 5.57934722157 + 12566.1516999828 * t by ring,
    show (3.0552460962 + 12566.1516999828 * t) + 0.86172999042 = 3.91697608662 + 12566.1516999828 * t by ring,
    show (3.0552460962 + 12566.1516999828 * t) + ((2 * deg (357.5291092 + 359990.502909 * t - 0.01536 * t ^ 2 + t ^ 3 / 24490)) - (π + 2 * π) - (3.0552460962 + 12566.1516999828 * t)) = 2 * deg (357.5291092 + 359990.502909 * t - 0.01536 * t ^ 2 + t ^ 3 / 24490) - (π + 2 * π) by ring,
    cos_sub_three_pi, mul_neg, sub_neg_eq_add] at w
  refine w.trans ((add_le_add u v).trans ?_)
  norm_num

/-! ### The ellipse -/

/-- The distance in the ellipse with eccentricity `e` at true anomaly `M + C`, expanded to second order, when the equation of the
centre `C` is `2 e sin M` up to `δ`. -/
theorem ellipse_radius {e M C δ : ℝ} (e0 : 0 ≤ e) (e1 : e ≤ 0.0176) (hC : |C - 2 * e * sin M| ≤ δ) (hδ : δ ≤ 0.0004) :
    |(1 - e ^ 2) / (1 + e * cos (M + C)) - (1 + e ^ 2 / 2 - e * cos M - e ^ 2 / 2 * cos (2 * M))| ≤ 2.95e-5 + 0.0176 * δ := by
  have sM := abs_sin_le_one M
  have cM := abs_cos_le_one M
  have hC1 : |C| ≤ 0.0356 := by
    have h1 : |2 * e * sin M| ≤ 0.0352 := by
      rw [abs_mul, abs_of_nonneg (by positivity)]
      refine (mul_le_of_le_one_right (by positivity) sM).trans ?_
      norm_num at e1 ⊢; linarith
    have := abs_sub_abs_le_abs_sub C (2 * e * sin M)
    generalize |2 * e * sin M| = z at *
    norm_num at h1 hδ ⊢; linarith
  have C0 := abs_nonneg C
  have hx1 : |C| ≤ 1 := hC1.trans (by norm_num)
  have c2 : C ^ 2 ≤ 0.0356 ^ 2 := by rw [← sq_abs]; exact pow_le_pow_left₀ C0 hC1 2
  have c3 : |C| ^ 3 ≤ 0.0356 ^ 3 := pow_le_pow_left₀ C0 hC1 3
  have c4 : |C| ^ 4 ≤ 0.0356 ^ 4 := pow_le_pow_left₀ C0 hC1 4
  have c5 : |C| ^ 5 ≤ 0.0356 ^ 5 := pow_le_pow_left₀ C0 hC1 5
  have d1 : |1 - cos C| ≤ 0.0006338 := by
    have h1 := cos_bound hx1
    have h2 : |C ^ 2 / 2| ≤ 0.0356 ^ 2 / 2 := by rw [abs_of_nonneg (by positivity)]; linarith
    rw [show 1 - cos C = C ^ 2 / 2 - (cos C - (1 - C ^ 2 / 2)) by ring]
    refine (abs_sub _ _).trans ((add_le_add h2 (h1.trans (mul_le_mul_of_nonneg_right c4 (by norm_num)))).trans ?_)
    norm_num
  have d2 : |sin C - C| ≤ 0.0000076 := by
    have h1 := sin_bound hx1
    have h2 : |C ^ 3 / 6| ≤ 0.0356 ^ 3 / 6 := by rw [abs_div, abs_pow, abs_of_pos (by norm_num : (0 : ℝ) < 6)]; linarith
    rw [show sin C - C = (sin C - (C - C ^ 3 / 6)) - C ^ 3 / 6 by ring]
    refine (abs_sub _ _).trans ((add_le_add (h1.trans (div_le_div_of_nonneg_right c5 (by norm_num))) h2).trans ?_)
    norm_num
  have hcos := cos_add M C
  have cc := abs_cos_le_one (M + C)
  generalize hc : cos (M + C) = c at *
  have hρ : |cos M - c - C * sin M| ≤ 0.0006414 := by
    rw [hcos, show cos M - (cos M * cos C - sin M * sin C) - C * sin M = cos M * (1 - cos C) + sin M * (sin C - C) by ring]
    refine (abs_add_le _ _).trans ?_
    rw [abs_mul, abs_mul]
    have h1 := mul_le_mul cM d1 (abs_nonneg _) zero_le_one
    have h2 := mul_le_mul sM d2 (abs_nonneg _) zero_le_one
    norm_num at h1 h2 ⊢; linarith
  obtain ⟨ρ, hr⟩ : ∃ ρ, ρ = cos M - c - C * sin M := ⟨_, rfl⟩
  rw [← hr] at hρ
  have hce : c = cos M - (C * sin M + ρ) := by rw [hr]; ring
  have ec : |e * c| ≤ 0.0176 := by
    rw [abs_mul, abs_of_nonneg e0]
    exact (mul_le_of_le_one_right e0 cc).trans e1
  have dpos : 0.98 ≤ 1 + e * c := by
    have := (abs_le.1 ec).1
    norm_num at this ⊢; linarith
  have d0 : 0 < 1 + e * c := by norm_num at dpos; linarith
  have e3 : e ^ 3 ≤ 0.0176 ^ 3 := pow_le_pow_left₀ e0 e1 3
  have e2 : e ^ 2 ≤ 0.0176 ^ 2 := pow_le_pow_left₀ e0 e1 2
  have A : |(1 - e ^ 2) / (1 + e * c) - (1 - e * c + e ^ 2 * c ^ 2 - e ^ 2)| ≤ 0.0000056 := by
    rw [show (1 - e ^ 2) / (1 + e * c) - (1 - e * c + e ^ 2 * c ^ 2 - e ^ 2) = e ^ 3 * (c * (1 - c ^ 2)) / (1 + e * c) by
      field_simp; ring, abs_div, abs_of_pos d0, div_le_iff₀ d0, abs_mul, abs_of_nonneg (by positivity : 0 ≤ e ^ 3)]
    have h1 : |c * (1 - c ^ 2)| ≤ 1 := by
      have q : c ^ 2 ≤ 1 := by rw [← sq_abs]; exact pow_le_one₀ (abs_nonneg _) cc
      rw [abs_mul]
      refine mul_le_one₀ cc (abs_nonneg _) ?_
      rw [abs_le]; constructor <;> nlinarith [sq_nonneg c]
    have h2 : e ^ 3 * |c * (1 - c ^ 2)| ≤ 0.0176 ^ 3 := (mul_le_of_le_one_right (by positivity) h1).trans e3
    refine h2.trans ?_
    norm_num at dpos ⊢; linarith
  have B : |(1 - e * c + e ^ 2 * c ^ 2 - e ^ 2) - (1 + e ^ 2 / 2 - e * cos M - e ^ 2 / 2 * cos (2 * M))| ≤ 0.0000238 + 0.0176 * δ := by
    have id : (1 - e * c + e ^ 2 * c ^ 2 - e ^ 2) - (1 + e ^ 2 / 2 - e * cos M - e ^ 2 / 2 * cos (2 * M)) =
        e ^ 2 * ((C * sin M + ρ) ^ 2 - 2 * cos M * (C * sin M + ρ)) + e * ((C - 2 * e * sin M) * sin M) + e * ρ := by
      rw [cos_two_mul, hce]
      have h := sin_sq_add_cos_sq M
      linear_combination (2 * e ^ 2) * h
    rw [id]
    have f1 : |C * sin M| ≤ 0.0356 := by
      rw [abs_mul]; exact (mul_le_of_le_one_right C0 sM).trans hC1
    have f2 : |(C * sin M + ρ) ^ 2| ≤ 0.03625 ^ 2 := by
      rw [abs_pow]
      refine pow_le_pow_left₀ (abs_nonneg _) ((abs_add_le _ _).trans ((add_le_add f1 hρ).trans ?_)) 2
      norm_num
    have f3 : |2 * cos M * (C * sin M + ρ)| ≤ 0.0369 := by
      rw [show 2 * cos M * (C * sin M + ρ) = C * sin (2 * M) + 2 * (cos M * ρ) by rw [sin_two_mul]; ring]
      have h1 : |C * sin (2 * M)| ≤ 0.0356 := by
        rw [abs_mul]; exact (mul_le_of_le_one_right C0 (abs_sin_le_one _)).trans hC1
      have h2 : |2 * (cos M * ρ)| ≤ 2 * 0.0006414 := by
        rw [abs_mul, abs_mul, abs_of_pos (by norm_num : (0 : ℝ) < 2)]
        have := mul_le_mul cM hρ (abs_nonneg _) zero_le_one
        linarith
      refine (abs_add_le _ _).trans ((add_le_add h1 h2).trans ?_)
      norm_num
    have g1 : |e ^ 2 * ((C * sin M + ρ) ^ 2 - 2 * cos M * (C * sin M + ρ))| ≤ 0.0176 ^ 2 * (0.03625 ^ 2 + 0.0369) := by
      rw [abs_mul, abs_of_nonneg (by positivity : 0 ≤ e ^ 2)]
      exact mul_le_mul e2 ((abs_sub _ _).trans (add_le_add f2 f3)) (abs_nonneg _) (by norm_num)
    have g2 : |e * ((C - 2 * e * sin M) * sin M)| ≤ 0.0176 * δ := by
      rw [abs_mul, abs_of_nonneg e0, abs_mul]
      exact mul_le_mul e1 ((mul_le_of_le_one_right (abs_nonneg _) sM).trans hC) (by positivity) (by norm_num)
    have g3 : |e * ρ| ≤ 0.0176 * 0.0006414 := by
      rw [abs_mul, abs_of_nonneg e0]
      exact mul_le_mul e1 hρ (abs_nonneg _) (by norm_num)
    refine (abs_add_le _ _).trans ((add_le_add ((abs_add_le _ _).trans (add_le_add g1 g2)) g3).trans ?_)
    norm_num at *
    linarith
  refine (abs_sub_le _ _ _).trans ((add_le_add A B).trans ?_)
  norm_num; linarith

/-! ### The other terms of the distance -/

def lowMainR : List (List Term) :=
  [[(100013988799, 0, 0), (1670699626, 309846350771, 628307584999140), (13956023, 305524609620, 1256615169998280)],
  [(103018608, 110748969588, 628307584999140), (1721238, 106442301418, 1256615169998280), (702215, 314159265359, 0)],
  [(4359385, 578455133738, 628307584999140), (123633, 557934722157, 1256615169998280), (12341, 314159265359, 0)],
  [(144595, 427319435148, 628307584999140), (6729, 391697608662, 1256615169998280), (774, 0, 0)],
  [(3858, 256384387339, 628307584999140), (306, 226769501230, 1256615169998280)],
  [(86, 121579741687, 628307584999140), (12, 65617264033, 1256615169998280)]]

theorem low_parts_radius : part isLow Data.earthR = lowMainR ∧
    pAmpl 1 (part (fun r => !isLow r) Data.earthR) ≤ 12252338 ∧ pAmpl 2 (part (fun r => !isLow r) Data.earthR) ≤ 12629758 := by
  decide +kernel

theorem low_tail_radius {T : ℕ} {t : ℝ} (ht : |t| ≤ T) :
    |pval (lowMainR.drop 4) t| ≤ (4164 + T * 98) / 10 ^ 11 := by
  refine (pval_abs _ ht).trans (le_of_eq ?_)
  have : pAmpl T (lowMainR.drop 4) = 4164 + T * 98 := by
    simp [lowMainR, pAmpl, ampl]
  rw [this]; push_cast; ring

theorem low_head_radius (t : ℝ) : pval lowMainR t =
    (1.00013988799 + 0.00000702215 * cos 3.14159265359 * t + 0.00000012341 * cos 3.14159265359 * t ^ 2 + 0.00000000774 * t ^ 3) +
    (0.01670699626 * cos (3.09846350771 + 6283.0758499914 * t) + t * (0.00103018608 * cos (1.10748969588 + 6283.0758499914 * t) +
      t * (0.00004359385 * cos (5.78455133738 + 6283.0758499914 * t) + t * (0.00000144595 * cos (4.27319435148 + 6283.0758499914 * t))))) +
    (0.00013956023 * cos (3.0552460962 + 12566.1516999828 * t) + t * (0.00001721238 * cos (1.06442301418 + 12566.1516999828 * t) +
      t * (0.00000123633 * cos (5.57934722157 + 12566.1516999828 * t) + t * (0.00000006729 * cos (3.91697608662 + 12566.1516999828 * t))))) +
    t ^ 4 * pval (lowMainR.drop 4) t := by
  unfold lowMainR
  simp only [List.drop_succ_cons, List.drop_zero]
  rw [pval, pval, pval, pval]
  generalize pval [_, _] t = z
  simp only [seriesVal, vsopTerm, List.map_cons, List.map_nil, List.sum_cons, List.sum_nil]
  push_cast
  norm_num
  ring

theorem cos_almost_pi : |cos 3.14159265359 + 1| ≤ 1e-11 := by
  have p1 := pi_gt_d20
  have p2 := pi_lt_d20
  have h := abs_cos_sub_cos_le (3.14159265359 : ℝ) π
  rw [cos_pi, sub_neg_eq_add] at h
  refine h.trans ?_
  rw [abs_le]
  norm_num at p1 p2 ⊢
  constructor <;> linarith

end Verif
