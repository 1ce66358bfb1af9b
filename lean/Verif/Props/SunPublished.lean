import Verif.Lemmas.SunPublished
import Verif.Lemmas.Equinox
import Verif.Props.Published
import Verif.Props.Fk5

/-!
# C91: published positions of the Sun

Meeus, Astronomical Algorithms, second edition, examples 25.a and 25.b: the Sun on 1992 October 13, 0h.
-/

namespace Verif
open Real

set_option exponentiation.threshold 500
set_option maxRecDepth 100000

theorem modpi2_near {x y e : ℝ} {n : ℤ} (h : |x - (y + n * (2 * π))| ≤ e) (h0 : e ≤ y) (h1 : y + e < 2 * π) :
    |modpi2 x - y| ≤ e := by
  obtain ⟨a, b⟩ := abs_le.1 h
  rw [modpi2_congr (y := x - n * (2 * π)) ⟨n, by ring⟩, modpi2_of_mem (by linarith) (by linarith)]
  rw [abs_le]
  constructor <;> linarith

/-- C91: example 25.a, the low precision Sun: longitude 199.90988°, radius 0.99766 au, apparent longitude 199.90895°. -/
theorem sun_low_1992 :
    |(longitudeRadiusLow 2448908.5).1 - deg 199.90988| ≤ deg 0.000005 ∧ |(longitudeRadiusLow 2448908.5).2 - 0.99766| ≤ 0.000005 ∧
    |apparentLongitudeLow 2448908.5 (longitudeRadiusLow 2448908.5).1 - deg 199.90895| ≤ deg 0.000005 := by
  have eT : centuries 2448908.5 = -5273 / 73050 := by unfold centuries; norm_num
  obtain ⟨⟨l0, l1⟩, ⟨n, hL⟩, hR⟩ := longitude_radius_low_value 2448908.5
  obtain ⟨⟨a0, a1⟩, ⟨n', hA⟩, -⟩ := apparent_longitude_low_value 2448908.5 (longitudeRadiusLow 2448908.5).1
  rw [eT] at hL hR hA
  have s1 := sinDeg_near (x := Mean.sunAnomaly (-5273 / 73050)) (t := 1) (by unfold Mean.sunAnomaly; norm_num [abs_le]) sunX_sinM
  have s2 := sinDeg_near (x := 2 * Mean.sunAnomaly (-5273 / 73050)) (t := 1) (by unfold Mean.sunAnomaly; norm_num [abs_le]) sunX_sin2M
  have s3 := sinDeg_near (x := 3 * Mean.sunAnomaly (-5273 / 73050)) (t := 1) (by unfold Mean.sunAnomaly; norm_num [abs_le]) sunX_sin3M
  have sO := sinDeg_near (x := 125.04 - 1934.136 * (-5273 / 73050)) (t := 1) (by norm_num [abs_le]) sunX_sinO
  have hC : |lowCenter (-5273 / 73050) - (-1.8973193444)| ≤ 4e-8 := by
    unfold lowCenter
    rw [show 2 * deg (Mean.sunAnomaly (-5273 / 73050)) = deg (2 * Mean.sunAnomaly (-5273 / 73050)) by unfold deg; ring,
      show 3 * deg (Mean.sunAnomaly (-5273 / 73050)) = deg (3 * Mean.sunAnomaly (-5273 / 73050)) by unfold deg; ring]
    generalize sin (deg (Mean.sunAnomaly (-5273 / 73050))) = y1 at *
    generalize sin (deg (2 * Mean.sunAnomaly (-5273 / 73050))) = y2 at *
    generalize sin (deg (3 * Mean.sunAnomaly (-5273 / 73050))) = y3 at *
    rw [abs_le] at *
    norm_num at *
    constructor <;> linarith [s1.1, s1.2, s2.1, s2.2, s3.1, s3.2]
  have hv := cosDeg_near (x := Mean.sunAnomaly (-5273 / 73050) + lowCenter (-5273 / 73050)) (t := 100000)
    (A := -2242903353777298) (by
      unfold Mean.sunAnomaly
      rw [abs_le] at *
      norm_num at *
      constructor <;> linarith [hC.1, hC.2]) sunX_cosV
  have key : |(longitudeRadiusLow 2448908.5).1 - deg 199.90987716| ≤ deg 1e-7 := by
    have p := Real.pi_pos
    have := modpi2_near (x := (longitudeRadiusLow 2448908.5).1) (y := deg 199.90987716) (e := deg 1e-7) (n := n - 7) (by
      rw [hL, show deg (lowLongitude (-5273 / 73050) + lowCenter (-5273 / 73050)) + n * (2 * π) -
        (deg 199.90987716 + ((n - 7 : ℤ) : ℝ) * (2 * π)) =
        deg (lowLongitude (-5273 / 73050) + lowCenter (-5273 / 73050) + 7 * 360 - 199.90987716) by unfold deg; push_cast; ring,
        abs_deg]
      refine deg_le.2 ?_
      unfold lowLongitude
      rw [abs_le] at *
      norm_num at *
      constructor <;> linarith [hC.1, hC.2]) (deg_le.2 (by norm_num)) (by unfold deg; linarith)
    rwa [modpi2_of_mem l0 l1] at this
  refine ⟨?_, ?_, ?_⟩
  · refine near_pub key (deg_near (x := 199.90987716) (e := 3e-6) (by norm_num [abs_le])) ?_
    rw [← deg_add]
    exact deg_le.2 (by norm_num)
  · rw [hR]
    unfold ecc
    generalize cos (deg (Mean.sunAnomaly (-5273 / 73050) + lowCenter (-5273 / 73050))) = c at hv ⊢
    obtain ⟨c0, c1⟩ := abs_le.1 hv
    norm_num at c0 c1
    rw [abs_le, le_sub_iff_add_le, sub_le_iff_le_add]
    norm_num
    rw [le_div_iff₀ (by linarith), div_le_iff₀ (by linarith)]
    constructor <;> linarith
  · have p := Real.pi_pos
    have := modpi2_near (x := apparentLongitudeLow 2448908.5 (longitudeRadiusLow 2448908.5).1) (y := deg 199.90895)
      (e := deg 0.000005) (n := n') (by
      rw [hA]
      generalize (longitudeRadiusLow 2448908.5).1 = X at *
      rw [show X - deg (0.00569 + 0.00478 * sin (deg (125.04 - 1934.136 * (-5273 / 73050)))) + n' * (2 * π) -
        (deg 199.90895 + n' * (2 * π)) = (X - deg 199.90987716) +
          deg (199.90987716 - (0.00569 + 0.00478 * sin (deg (125.04 - 1934.136 * (-5273 / 73050)))) - 199.90895) by unfold deg; ring]
      refine (abs_add_le _ _).trans ((add_le_add key le_rfl).trans ?_)
      rw [abs_deg, ← deg_add]
      refine deg_le.2 ?_
      generalize sin (deg (125.04 - 1934.136 * (-5273 / 73050))) = y at *
      have : |199.90987716 - (0.00569 + 0.00478 * y) - 199.90895| ≤ 4e-6 := by
        rw [abs_le] at *
        norm_num at *
        constructor <;> linarith [sO.1, sO.2]
      norm_num at this ⊢
      linarith) (deg_le.2 (by norm_num)) (by unfold deg; linarith)
    rwa [modpi2_of_mem a0 a1] at this

theorem sunX_place :
    |poisson Data.earthL (millennia 2448908.5) + π - (deg 199.907297240 + ((-7 : ℤ) : ℝ) * (2 * π))| ≤ 1.05e-8 ∧
    |poisson Data.earthB (millennia 2448908.5) - (-0.00000360665)| ≤ 1.2e-8 ∧
    |poisson Data.earthR (millennia 2448908.5) - 0.99760852021| ≤ 9.9e-9 := by
  have eT : millennia 2448908.5 = -5273 / 730500 := by unfold millennia; norm_num
  obtain ⟨e1, e2, e3, -⟩ := earth6 (-5273 / 730500) (((-7218343600 : ℤ) : ℝ) * 1e-12) (by norm_num [abs_le]) (by norm_num [abs_le])
  have kL : leftTot 50 1 (tail1 (tail0 Data.earthL)) ≤ 719 := by decide +kernel
  have mL : ptA 1 (tail1 (tail0 Data.earthL)) ≤ 10 ^ 10 := by decide +kernel
  have kB : leftTot 2 1 Data.earthB ≤ 50 := by decide +kernel
  have mB : ptA 1 Data.earthB ≤ 10 ^ 10 := by decide +kernel
  have kR : leftTot 2 1 Data.earthR ≤ 50 := by decide +kernel
  have mR : ptA 1 Data.earthR ≤ 2 * 10 ^ 11 := by decide +kernel
  have hL := ptNearN_spec sunX_L rows_earthL kL mL
  have hB := ptNearN_spec sunX_B rows_earthB kB mB
  have hR := ptNearN_spec sunX_R rows_earthR kR mR
  have hd := head_earth (((-7218343600 : ℤ) : ℝ) * 1e-12)
  rw [eT]
  simp only [poisson_eq_pval] at e1 e2 e3 ⊢
  have d : |(-5273 / 730500 : ℝ) - ((-7218343600 : ℤ) : ℝ) * 1e-12| ≤ 2.8e-13 := by norm_num [abs_le]
  have e1 := e1.trans (mul_le_mul_of_nonneg_left d (by norm_num))
  have e2 := e2.trans (mul_le_mul_of_nonneg_left d (by norm_num))
  have e3 := e3.trans (mul_le_mul_of_nonneg_left d (by norm_num))
  generalize pval Data.earthL (-5273 / 730500) = l at *
  generalize pval Data.earthB (-5273 / 730500) = b at *
  generalize pval Data.earthR (-5273 / 730500) = r at *
  generalize pval Data.earthL (((-7218343600 : ℤ) : ℝ) * 1e-12) = l' at *
  generalize pval Data.earthB (((-7218343600 : ℤ) : ℝ) * 1e-12) = b' at *
  generalize pval Data.earthR (((-7218343600 : ℤ) : ℝ) * 1e-12) = r' at *
  generalize pval (tail1 (tail0 Data.earthL)) (((-7218343600 : ℤ) : ℝ) * 1e-12) = q at *
  have p1 := pi_gt_d20
  have p2 := pi_lt_d20
  unfold deg
  simp only [abs_le] at *
  push_cast at *
  norm_num at *
  refine ⟨⟨?_, ?_⟩, ⟨?_, ?_⟩, ⟨?_, ?_⟩⟩ <;> linarith [e1.1, e1.2, e2.1, e2.2, e3.1, e3.2, hL.1, hL.2, hB.1, hB.2, hR.1, hR.2]

/-- C91: example 25.b, the Sun from the complete theory, in the system of the FK5: longitude 199° 54' 26.18", latitude
0.72", distance 0.99760853 au, aberration -20.539". -/
theorem sun_1992 : ∃ L B R, sunDimension3 vsopDict [2448908.5] = .ok (.scalar L, .scalar B, .scalar R) ∧
    |(vsopToFk5 2448908.5 L B).1 - deg (199 + 54 / 60 + 26.18 / 3600)| ≤ arcsec 0.005 ∧
    |(vsopToFk5 2448908.5 L B).2 - arcsec 0.72| ≤ arcsec 0.005 ∧ |R - 0.99760853| ≤ 0.00000002 ∧
    |aberrationLow R - arcsec (-20.539)| ≤ arcsec 0.0005 := by
  refine ⟨_, _, _, sun_dimension3_value _, ?_⟩
  obtain ⟨hL, hB, hR⟩ := sunX_place
  have p1 := pi_gt_d20
  have p2 := pi_lt_d20
  generalize poisson Data.earthL (millennia 2448908.5) + π = l at *
  generalize poisson Data.earthB (millennia 2448908.5) = b at *
  generalize poisson Data.earthR (millennia 2448908.5) = r at *
  have hm := modpi2_near hL (by unfold deg; norm_num at p1 ⊢; linarith) (by unfold deg; norm_num at p1 p2 ⊢; linarith)
  have eJ : jcent 2448908.5 = -5273 / 73050 := jcent_of (by norm_num)
  have tB : |tan (-b)| ≤ 1e-5 := by
    have hb : |b| ≤ 4e-6 := by
      rw [abs_le] at *
      norm_num at *
      constructor <;> linarith
    have := tan_lip (b := -b) (c := 0) (by rw [abs_neg]; norm_num at hb ⊢; linarith) (by norm_num)
    rw [tan_zero, sub_zero, sub_zero, abs_neg] at this
    norm_num at this hb ⊢
    linarith
  generalize modpi2 l = g at *
  have hK : polyR [g, fk0, fk1] (-5273 / 73050) = g + deg (1.397 * (5273 / 73050) - 0.00031 * (5273 / 73050) ^ 2) := by
    unfold fk0 fk1 deg dToR
    simp [polyR, horner]
    ring
  have hx : |(g / (π / 180) + (1.397 * (5273 / 73050) - 0.00031 * (5273 / 73050) ^ 2)) * 10 ^ 12 -
      ((200008135900000 : ℤ) : ℝ)| ≤ 100000000 := by
    have e : g / (π / 180) = 199.907297240 + (g - deg 199.907297240) / (π / 180) := by
      unfold deg
      field_simp
      ring
    rw [e]
    have : |(g - deg 199.907297240) / (π / 180)| ≤ 1e-6 := by
      rw [abs_div, abs_of_pos (by positivity : 0 < π / 180), div_le_iff₀ (by positivity)]
      refine hm.trans ?_
      norm_num at p1 ⊢
      linarith
    generalize (g - deg 199.907297240) / (π / 180) = z at *
    rw [abs_le] at *
    norm_num at *
    constructor <;> linarith
  have eK : deg (g / (π / 180) + (1.397 * (5273 / 73050) - 0.00031 * (5273 / 73050) ^ 2)) =
      g + deg (1.397 * (5273 / 73050) - 0.00031 * (5273 / 73050) ^ 2) := by
    unfold deg
    field_simp
  have hc := cosDeg_near hx sunX_cosK
  have hs := sinDeg_near hx sunX_sinK
  rw [eK, ← hK] at hc hs
  unfold vsopToFk5
  simp only [eJ]
  generalize polyR [g, fk0, fk1] (-5273 / 73050) = k at *
  refine ⟨?_, ?_, ?_, ?_⟩
  · have hd : |fk3 * (cos k + sin k) * tan (-b)| ≤ 4e-12 := by
      rw [abs_mul, abs_mul, abs_of_pos fk3_bound.1]
      have : |cos k + sin k| ≤ 2 := by
        refine (abs_add_le _ _).trans ?_
        linarith [abs_cos_le_one k, abs_sin_le_one k]
      exact (mul_le_mul (mul_le_mul fk3_bound.2 this (abs_nonneg _) (by norm_num)) tB (abs_nonneg _) (by norm_num)).trans (by norm_num)
    refine modpi2_near (n := 0) ?_ ?_ ?_
    · rw [fk2_eq]
      generalize fk3 * (cos k + sin k) * tan (-b) = z at *
      unfold deg arcsec at *
      rw [abs_le] at *
      norm_num at *
      constructor <;> linarith
    · unfold deg arcsec
      norm_num at p1 p2 ⊢
      linarith
    · unfold deg arcsec
      norm_num at p1 p2 ⊢
      linarith
  · rw [fk3_eq]
    generalize cos k = c at *
    generalize sin k = s at *
    have h : |c - s - (-0.597490470768)| ≤ 1e-5 := by
      rw [abs_le] at *
      norm_num at *
      constructor <;> linarith
    rw [show -b + arcsec 0.03916 * (c - s) - arcsec 0.72 =
      -(b - (-0.00000360665)) + (arcsec 0.03916 * (c - s - (-0.597490470768)) +
        (0.00000360665 + arcsec (0.03916 * (-0.597490470768) - 0.72))) by unfold arcsec; ring]
    have hB' : |-(b - (-0.00000360665))| ≤ 1.2e-8 := by rwa [abs_neg]
    refine (abs_add_le _ _).trans ((add_le_add hB' (abs_add_le _ _)).trans ?_)
    have a0 : |arcsec 0.03916| ≤ 2e-7 := by rw [← fk3_eq, abs_of_pos fk3_bound.1]; exact fk3_bound.2
    have a1 := mul_le_mul a0 h (abs_nonneg _) (by norm_num)
    have a2 : |0.00000360665 + arcsec (0.03916 * (-0.597490470768) - 0.72)| ≤ 3e-9 := by
      unfold arcsec
      rw [abs_le]
      norm_num at p1 p2 ⊢
      constructor <;> linarith
    rw [abs_mul]
    refine (add_le_add le_rfl (add_le_add a1 a2)).trans ?_
    unfold arcsec
    norm_num at p1 ⊢
    linarith
  · rw [abs_le] at *
    norm_num at *
    constructor <;> linarith
  · obtain ⟨r0, r1⟩ := abs_le.1 hR
    have rp : 0 < r := by norm_num at r0 r1 ⊢; linarith
    rw [(aberration_low_value r rp).1, show -arcsec (20.4898 / r) - arcsec (-20.539) = arcsec (20.539 - 20.4898 / r) by
      unfold arcsec; ring, abs_arcsec]
    refine arcsec_le.2 ?_
    rw [abs_le, le_sub_iff_add_le, sub_le_comm]
    constructor
    · rw [← le_sub_iff_add_le', div_le_iff₀ rp]
      norm_num at r0 r1 ⊢
      linarith
    · rw [le_div_iff₀ rp]
      norm_num at r0 r1 ⊢
      linarith

end Verif
