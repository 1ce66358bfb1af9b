import Verif.Lemmas.Nutation
import Verif.Spec.MeanArguments

/-!
# C43, C44: nutation and obliquity

Real arithmetic.
-/

namespace Verif
open Real

theorem polyR_kD (T : ℝ) : polyR kD T = deg (Mean.elongation T) := by
  simp only [polyR, kD, horner, dToR, deg, Mean.elongation]; ring

theorem polyR_kM (T : ℝ) : polyR kM T = deg (Mean.sunAnomaly T) := by
  simp only [polyR, kM, horner, dToR, deg, Mean.sunAnomaly]; ring

theorem polyR_kM1 (T : ℝ) : polyR kM1 T = deg (Mean.moonAnomaly T) := by
  simp only [polyR, kM1, horner, dToR, deg, Mean.moonAnomaly]; ring

theorem polyR_kF (T : ℝ) : polyR kF T = deg (Mean.moonLatitude T) := by
  simp only [polyR, kF, horner, dToR, deg, Mean.moonLatitude]; ring

theorem polyR_kL1 (T : ℝ) : polyR kL1 T = deg (Mean.moonLongitude T) := by
  simp only [polyR, kL1, horner, dToR, deg, Mean.moonLongitude]; ring

/-- The polynomial `ko` has the wrong sign in its last coefficient. -/
theorem polyR_ko (T : ℝ) : polyR ko T = deg (Mean.node T + T ^ 4 / 30308000) := by
  simp only [polyR, ko, horner, dToR, deg, Mean.node]; ring

theorem dToR_sec (x : ℝ) : dToR (x / 3600) = arcsec x := by unfold dToR arcsec; ring

/-- C43: the nutation in longitude is the sum of the sines of the rows of the table. -/
theorem nutation_in_longitude_value (jd : ℝ) :
    nutationInLongitude jd = arcsec (Data.nutationTable.map fun r => match r with
      | (d, m, m', f, o, s, s', _, _) =>
        ((s : ℝ) / 10000 + s' / 100000 * centuries jd) * sin (deg (
          d * Mean.elongation (centuries jd) + m * Mean.sunAnomaly (centuries jd) +
          m' * Mean.moonAnomaly (centuries jd) + f * Mean.moonLatitude (centuries jd) +
          o * (Mean.node (centuries jd) + centuries jd ^ 4 / 30308000)))).sum := by
  rw [nutationInLongitude_eq, dToR_sec]
  unfold nutPsi
  congr 2
  refine List.map_congr_left fun r _ => ?_
  have e : jcent jd = centuries jd := rfl
  simp only [e, nutArg, polyR_kD, polyR_kM, polyR_kM1, polyR_kF, polyR_ko]
  congr 2
  unfold deg
  ring

/-- C43: the nutation in obliquity is the sum of the cosines of the rows of the table. -/
theorem nutation_in_obliquity_value (jd : ℝ) :
    nutationInObliquity jd = arcsec (Data.nutationTable.map fun r => match r with
      | (d, m, m', f, o, _, _, c, c') =>
        ((c : ℝ) / 10000 + c' / 100000 * centuries jd) * cos (deg (
          d * Mean.elongation (centuries jd) + m * Mean.sunAnomaly (centuries jd) +
          m' * Mean.moonAnomaly (centuries jd) + f * Mean.moonLatitude (centuries jd) +
          o * (Mean.node (centuries jd) + centuries jd ^ 4 / 30308000)))).sum := by
  rw [nutationInObliquity_eq, dToR_sec]
  unfold nutEps
  congr 2
  refine List.map_congr_left fun r _ => ?_
  have e : jcent jd = centuries jd := rfl
  simp only [e, nutArg, polyR_kD, polyR_kM, polyR_kM1, polyR_kF, polyR_ko]
  congr 2
  unfold deg
  ring

theorem abs_arcsec (x : ℝ) : |arcsec x| = arcsec |x| := by
  unfold arcsec; rw [abs_mul, abs_of_pos (a := π / 648000) (by positivity)]

theorem arcsec_le {x y : ℝ} : arcsec x ≤ arcsec y ↔ x ≤ y := by
  unfold arcsec
  have : 0 < π / 648000 := by positivity
  exact mul_le_mul_iff_left₀ this

theorem arcsec_lt {x y : ℝ} : arcsec x < arcsec y ↔ x < y := by
  unfold arcsec
  have : 0 < π / 648000 := by positivity
  exact mul_lt_mul_iff_left₀ this

/-- C43: growth of the nutation, for all times. -/
theorem nutation_growth (jd : ℝ) :
    |nutationInLongitude jd| ≤ arcsec (19.4316 + 0.01823 * |centuries jd|) ∧
    |nutationInObliquity jd| ≤ arcsec (10.0733 + 0.00141 * |centuries jd|) := by
  rw [nutationInLongitude_eq, nutationInObliquity_eq, dToR_sec, dToR_sec, abs_arcsec, abs_arcsec,
    arcsec_le, arcsec_le]
  exact ⟨nutPsi_abs _, nutEps_abs _⟩

/-- C43: within thirty centuries of J2000 the nutation is less than 20 seconds of arc in longitude
and less than 11 seconds of arc in obliquity. -/
theorem nutation_small (jd : ℝ) (h : |centuries jd| ≤ 30) :
    |nutationInLongitude jd| < arcsec 20 ∧ |nutationInObliquity jd| < arcsec 11 := by
  obtain ⟨a, b⟩ := nutation_growth jd
  refine ⟨a.trans_lt (arcsec_lt.mpr ?_), b.trans_lt (arcsec_lt.mpr ?_)⟩ <;>
    norm_num at h ⊢ <;> linarith

example : |centuries 2446895.5| ≤ 30 := by unfold centuries; rw [abs_le]; norm_num

/-! ### C44 -/

/-- Seconds of arc of `obliquity`. -/
noncomputable def obl (T : ℝ) : ℝ := 84381.448 - 46.8150 * T - 0.00059 * T ^ 2 + 0.001813 * T ^ 3

/-- Seconds of arc of `obliquity_hi`. -/
noncomputable def oblHi (U : ℝ) : ℝ :=
  84381.448 - 4680.93 * U - 1.55 * U ^ 2 + 1999.25 * U ^ 3 - 51.38 * U ^ 4 - 249.67 * U ^ 5 -
    39.05 * U ^ 6 + 7.12 * U ^ 7 + 27.87 * U ^ 8 + 5.79 * U ^ 9 + 2.45 * U ^ 10

theorem dmsR_sec (s : ℝ) : dmsR 0 0 s = s / 3600 := by
  unfold dmsR
  by_cases h : s < 0
  · simp [h, abs_of_neg h]; ring
  · simp [h, abs_of_nonneg (not_lt.mp h)]

theorem dmsR_eps : dmsR 23 26 21.448 = 84381.448 / 3600 := by
  unfold dmsR; norm_num

theorem obliquity_eq (jd : ℝ) : obliquity jd = arcsec (obl (centuries jd)) := by
  have e : jcent jd = centuries jd := rfl
  simp only [obliquity, e, el0, polyR, horner, dToR, dmsR_sec, dmsR_eps, arcsec, obl]
  ring

theorem obliquityHi_eq (jd : ℝ) : obliquityHi jd = arcsec (oblHi (centuries jd / 100)) := by
  have e : jcent jd = centuries jd := rfl
  simp only [obliquityHi, e, el1, polyR, horner, dToR, dmsR_sec, dmsR_eps, arcsec, oblHi]
  ring

theorem pow_abs_le {U b : ℝ} (h : |U| ≤ b) (n : ℕ) : |U ^ n| ≤ b ^ n := by
  rw [abs_pow]; exact pow_le_pow_left₀ (abs_nonneg _) h n

theorem obl_diff {U b : ℝ} (h : |U| ≤ b) :
    |oblHi U - obl (100 * U)| ≤ 0.57 * b + 4.35 * b ^ 2 + 186.25 * b ^ 3 + 51.38 * b ^ 4 +
      249.67 * b ^ 5 + 39.05 * b ^ 6 + 7.12 * b ^ 7 + 27.87 * b ^ 8 + 5.79 * b ^ 9 +
      2.45 * b ^ 10 := by
  have e : oblHi U - obl (100 * U) = 0.57 * U ^ 1 + 4.35 * U ^ 2 + 186.25 * U ^ 3 - 51.38 * U ^ 4 -
      249.67 * U ^ 5 - 39.05 * U ^ 6 + 7.12 * U ^ 7 + 27.87 * U ^ 8 + 5.79 * U ^ 9 +
      2.45 * U ^ 10 := by
    unfold oblHi obl; ring
  rw [e, abs_le]
  have p := fun n => abs_le.mp (pow_abs_le h n)
  have h1 := p 1
  rw [pow_one b] at h1
  constructor <;> linarith [h1.1, h1.2, (p 2).1, (p 2).2, (p 3).1, (p 3).2, (p 4).1, (p 4).2,
    (p 5).1, (p 5).2, (p 6).1, (p 6).2, (p 7).1, (p 7).2, (p 8).1, (p 8).2, (p 9).1, (p 9).2,
    (p 10).1, (p 10).2]

/-- C44: the two formulas for the obliquity differ by less than 1 second of arc within 1000 years
and by less than 2 seconds of arc within 2000 years of J2000. -/
theorem obliquity_agree (jd : ℝ) :
    (|centuries jd| ≤ 10 → |obliquityHi jd - obliquity jd| < arcsec 1) ∧
    (|centuries jd| ≤ 20 → |obliquityHi jd - obliquity jd| < arcsec 2) := by
  have e : obliquityHi jd - obliquity jd =
      arcsec (oblHi (centuries jd / 100) - obl (100 * (centuries jd / 100))) := by
    rw [obliquityHi_eq, obliquity_eq, show 100 * (centuries jd / 100) = centuries jd by ring]
    unfold arcsec; ring
  rw [e, abs_arcsec, arcsec_lt, arcsec_lt]
  constructor <;> intro h
  · have h' : |centuries jd / 100| ≤ 1 / 10 := by
      rw [abs_div, abs_of_pos (by norm_num : (0 : ℝ) < 100)]; linarith
    exact (obl_diff h').trans_lt (by norm_num)
  · have h' : |centuries jd / 100| ≤ 1 / 5 := by
      rw [abs_div, abs_of_pos (by norm_num : (0 : ℝ) < 100)]; linarith
    exact (obl_diff h').trans_lt (by norm_num)

/-- C44: within 10000 years of J2000 `obliquity_hi`, and within 2000 years also `obliquity`, is
between 22 and 25 degrees. -/
theorem obliquity_range (jd : ℝ) :
    (|centuries jd| ≤ 100 → deg 22 < obliquityHi jd ∧ obliquityHi jd < deg 25) ∧
    (|centuries jd| ≤ 20 → deg 23 < obliquity jd ∧ obliquity jd < deg 24) := by
  have d : ∀ x, deg x = arcsec (x * 3600) := by intro x; unfold deg arcsec; ring
  rw [obliquityHi_eq, obliquity_eq]
  simp only [d, arcsec_lt]
  constructor <;> intro h
  · generalize hU : centuries jd / 100 = U
    have h1 : |U| ≤ 1 := by
      rw [← hU, abs_div, abs_of_pos (by norm_num : (0 : ℝ) < 100)]; linarith
    have p := fun n => abs_le.mp (pow_abs_le h1 n)
    simp only [one_pow] at p
    obtain ⟨u1, u2⟩ := abs_le.mp h1
    have c1 : 4680.93 * U - 1999.25 * U ^ 3 ≤ 2800 := by
      norm_num
      nlinarith [mul_nonneg (by linarith : (0 : ℝ) ≤ U + 1) (sq_nonneg (U - 0.8834)),
        sq_nonneg (U - 0.8834)]
    have c2 : -2800 ≤ 4680.93 * U - 1999.25 * U ^ 3 := by
      norm_num
      nlinarith [mul_nonneg (by linarith : (0 : ℝ) ≤ 1 - U) (sq_nonneg (U + 0.8834)),
        sq_nonneg (U + 0.8834)]
    unfold oblHi
    constructor <;> linarith [(p 2).1, (p 2).2, (p 4).1, (p 4).2,
      (p 5).1, (p 5).2, (p 6).1, (p 6).2, (p 7).1, (p 7).2, (p 8).1, (p 8).2, (p 9).1, (p 9).2,
      (p 10).1, (p 10).2]
  · have p := fun n => abs_le.mp (pow_abs_le h n)
    have h1 := abs_le.mp h
    have q2 := p 2
    have q3 := p 3
    norm_num at q2 q3
    unfold obl
    constructor <;> norm_num <;> linarith [h1.1, h1.2, q2.1, q2.2, q3.1, q3.2]

example : |centuries 2446895.5| ≤ 10 := by unfold centuries; rw [abs_le]; norm_num

/-- C44: the two formulas are equal at J2000. -/
theorem obliquity_J2000 : obliquityHi 2451545 = obliquity 2451545 ∧
    obliquity 2451545 = deg (23 + 26 / 60 + 21.448 / 3600) := by
  rw [obliquityHi_eq, obliquity_eq]
  have : centuries 2451545 = 0 := by unfold centuries; norm_num
  rw [this]
  constructor
  · unfold oblHi obl; norm_num
  · unfold obl arcsec deg; norm_num; ring

end Verif
