import Verif.Lemmas.Lunar
import Verif.Props.Nutation
import Verif.Model.Sun

/-!
# C45: position of the Moon; C62: consistency of the mean arguments

Real arithmetic.
-/

namespace Verif
open Real

theorem deg_eq (x : ℝ) : dToR x = deg x := by unfold dToR deg; ring

theorem abs_deg (x : ℝ) : |deg x| = deg |x| := by
  unfold deg; rw [abs_mul, abs_of_pos (a := π / 180) (by positivity)]

theorem deg_le {x y : ℝ} : deg x ≤ deg y ↔ x ≤ y := by
  unfold deg
  have : 0 < π / 180 := by positivity
  exact mul_le_mul_iff_left₀ this

theorem deg_lt {x y : ℝ} : deg x < deg y ↔ x < y := by
  unfold deg
  have : 0 < π / 180 := by positivity
  exact mul_lt_mul_iff_left₀ this

theorem deg_add (x y : ℝ) : deg (x + y) = deg x + deg y := by unfold deg; ring

/-! ### C45 -/

/-- C45: `dimension3` gives the three values of `dimension`. -/
theorem lunar_dimension3_value (jd : ℝ) (l b r : ℝ) :
    lunarDimension3 jd = (l, b, r) ↔ lunarDimension jd "L" = .ok l ∧ lunarDimension jd "B" = .ok b ∧
      lunarDimension jd "R" = .ok r := by
  unfold lunarDimension3 lunarDimension
  simp

/-- C45: any other name of a dimension is refused. -/
theorem lunar_dimension_unknown (jd : ℝ) (dim : String) :
    (∃ x, lunarDimension jd dim = .ok x) ↔ dim = "L" ∨ dim = "B" ∨ dim = "R" := by
  unfold lunarDimension
  split_ifs <;> simp [*]

theorem lunar_dimension_error (jd : ℝ) (dim : String) (h1 : dim ≠ "L") (h2 : dim ≠ "B")
    (h3 : dim ≠ "R") :
    lunarDimension jd dim = .error (.Error "lunar" ("unknown dimension = " ++ dim)) := by
  unfold lunarDimension
  rw [if_neg h1, if_neg h2, if_neg h3]

/-- The eccentricity factor of a row with the multiple `m` of the Sun's anomaly. -/
noncomputable def eccFactor (T : ℝ) (m : ℤ) : ℝ :=
  if m = 1 ∨ m = -1 then 1 - 0.002516 * T - 0.0000074 * T ^ 2
  else if m = 2 ∨ m = -2 then (1 - 0.002516 * T - 0.0000074 * T ^ 2) ^ 2 else 1

theorem lunarFactor_eq (T : ℝ) (m : ℤ) : lunarFactor (lunarConstants T) m = eccFactor T m := by
  have e : (lunarConstants T).E = 1 - 0.002516 * T - 0.0000074 * T ^ 2 := by
    simp only [lunarConstants, polyR, horner]; ring
  have e2 : (lunarConstants T).E2 = (lunarConstants T).E * (lunarConstants T).E := rfl
  have a1 : |m| = 1 ↔ m = 1 ∨ m = -1 := abs_eq (by norm_num)
  have a2 : |m| = 2 ↔ m = 2 ∨ m = -2 := abs_eq (by norm_num)
  unfold lunarFactor eccFactor
  simp only [a1, a2, e2, e, sq]

theorem lunarArg_eq (T : ℝ) (d m m1 f : ℤ) : lunarArg T d m m1 f =
    deg (d * Mean.elongation T + m * Mean.sunAnomaly T + m1 * Mean.moonAnomaly T +
      f * Mean.moonLatitude T) := by
  unfold lunarArg
  rw [polyR_kD, polyR_kM, polyR_kM1, polyR_kF]
  unfold deg; ring

theorem polyR_kA1 (T : ℝ) : polyR kA1 T = deg (119.75 + 131.849 * T) := by
  simp only [polyR, kA1, horner, dToR, deg]; ring

theorem polyR_kA2 (T : ℝ) : polyR kA2 T = deg (53.09 + 479264.290 * T) := by
  simp only [polyR, kA2, horner, dToR, deg]; ring

theorem polyR_kA3 (T : ℝ) : polyR kA3 T = deg (313.45 + 481266.484 * T) := by
  simp only [polyR, kA3, horner, dToR, deg]; ring

/-- C45: the longitude is, up to whole turns, the mean longitude plus the sum of the sines of the
table plus three additional terms, plus the nutation. -/
theorem lunar_longitude_value (jd : ℝ) : Congr (2 * π) (lunarLongitude jd)
    (deg (Mean.moonLongitude (centuries jd) + 1e-6 * (
      (Data.lunarLR.map fun r => match r with
        | (d, m, m', f, l, _) => (l : ℝ) * eccFactor (centuries jd) m * sin (deg (
          d * Mean.elongation (centuries jd) + m * Mean.sunAnomaly (centuries jd) +
          m' * Mean.moonAnomaly (centuries jd) + f * Mean.moonLatitude (centuries jd)))).sum +
      3958 * sin (deg (119.75 + 131.849 * centuries jd)) +
      1962 * sin (deg (Mean.moonLongitude (centuries jd) - Mean.moonLatitude (centuries jd))) +
      318 * sin (deg (53.09 + 479264.290 * centuries jd)))) + nutationInLongitude jd) := by
  rw [lunarLongitude_eq]
  have e : jcent jd = centuries jd := rfl
  unfold lonSum
  simp only [e, lunarFactor_eq, lunarArg_eq, polyR_kA1, polyR_kA2, polyR_kL1, polyR_kF, deg_eq,
    deg_add (Mean.moonLongitude _)]
  have s : deg (Mean.moonLongitude (centuries jd)) - deg (Mean.moonLatitude (centuries jd)) =
    deg (Mean.moonLongitude (centuries jd) - Mean.moonLatitude (centuries jd)) := by
    unfold deg; ring
  rw [s]
  refine congr_add (congr_add (modpi2_spec _).2.2 ?_) (congr_refl _)
  refine ⟨0, ?_⟩
  rw [Int.cast_zero, zero_mul, add_zero]
  congr 1
  norm_num
  ring

/-- C45: value of the distance. -/
theorem lunar_radius_value (jd : ℝ) : lunarRadius jd = 385000.56 + 1e-3 *
    (Data.lunarLR.map fun r => match r with
      | (d, m, m', f, _, r) => (r : ℝ) * eccFactor (centuries jd) m * cos (deg (
        d * Mean.elongation (centuries jd) + m * Mean.sunAnomaly (centuries jd) +
        m' * Mean.moonAnomaly (centuries jd) + f * Mean.moonLatitude (centuries jd)))).sum := by
  rw [lunarRadius_eq]
  have e : jcent jd = centuries jd := rfl
  unfold radSum
  simp only [e, lunarFactor_eq, lunarArg_eq]
  norm_num
  ring

/-- C45: value of the latitude. -/
theorem lunar_latitude_value (jd : ℝ) : lunarLatitude jd = deg (1e-6 * (
      (Data.lunarB.map fun r => match r with
        | (d, m, m', f, b) => (b : ℝ) * eccFactor (centuries jd) m * sin (deg (
          d * Mean.elongation (centuries jd) + m * Mean.sunAnomaly (centuries jd) +
          m' * Mean.moonAnomaly (centuries jd) + f * Mean.moonLatitude (centuries jd)))).sum -
      2235 * sin (deg (Mean.moonLongitude (centuries jd))) +
      382 * sin (deg (313.45 + 481266.484 * centuries jd)) +
      175 * sin (deg (119.75 + 131.849 * centuries jd - Mean.moonLatitude (centuries jd))) +
      175 * sin (deg (119.75 + 131.849 * centuries jd + Mean.moonLatitude (centuries jd))) +
      127 * sin (deg (Mean.moonLongitude (centuries jd) - Mean.moonAnomaly (centuries jd))) -
      115 * sin (deg (Mean.moonLongitude (centuries jd) + Mean.moonAnomaly (centuries jd))))) := by
  rw [lunarLatitude_eq]
  have e : jcent jd = centuries jd := rfl
  have ds : ∀ x y, deg (x - y) = deg x - deg y := by intro x y; unfold deg; ring
  unfold latSum
  simp only [e, lunarFactor_eq, lunarArg_eq, polyR_kA1, polyR_kA3, polyR_kL1, polyR_kF, polyR_kM1,
    deg_eq, ds, deg_add (119.75 + 131.849 * centuries jd), deg_add (Mean.moonLongitude _)]
  congr 1
  norm_num
  ring

/-- C45: within 2000 years of J2000 the Moon is between 350000 and 420000 km away and within 6.1
degrees of the ecliptic. -/
theorem lunar_bounds (jd : ℝ) (h : |centuries jd| ≤ 20) :
    350000 < lunarRadius jd ∧ lunarRadius jd < 420000 ∧ |lunarLatitude jd| < deg 6.1 := by
  have h' : |jcent jd| ≤ 20 := h
  obtain ⟨r1, r2⟩ := abs_le.mp (radSum_abs h')
  refine ⟨?_, ?_, ?_⟩
  · rw [lunarRadius_eq]; norm_num; linarith
  · rw [lunarRadius_eq]; norm_num; linarith
  · rw [lunarLatitude_eq, deg_eq, abs_deg, deg_lt]
    have l := abs_le.mp (latSum_abs h')
    have s := fun x : ℝ => abs_le.mp (abs_sin_le_one x)
    rw [abs_lt]
    have s1 := s (polyR kL1 (jcent jd))
    have s2 := s (polyR kA3 (jcent jd))
    have s3 := s (polyR kA1 (jcent jd) - polyR kF (jcent jd))
    have s4 := s (polyR kA1 (jcent jd) + polyR kF (jcent jd))
    have s5 := s (polyR kL1 (jcent jd) - polyR kM1 (jcent jd))
    have s6 := s (polyR kL1 (jcent jd) + polyR kM1 (jcent jd))
    constructor <;> norm_num <;> linarith [l.1, l.2, s1.1, s1.2, s2.1, s2.2, s3.1, s3.2, s4.1, s4.2,
      s5.1, s5.2, s6.1, s6.2]

/-- C45: within 2000 years of J2000 the longitude is within 9.25 degrees of the mean longitude. -/
theorem lunar_longitude_range (jd : ℝ) (h : |centuries jd| ≤ 20) :
    |lunarLongitude jd - lunarMeanLongitude jd| < deg 9.25 := by
  have h' : |jcent jd| ≤ 20 := h
  have e : lunarLongitude jd - lunarMeanLongitude jd =
      deg ((lonSum (jcent jd) + (3958 * sin (polyR kA1 (jcent jd)) +
      1962 * sin (polyR kL1 (jcent jd) - polyR kF (jcent jd)) + 318 * sin (polyR kA2 (jcent jd)))) /
      1000000) + nutationInLongitude jd := by
    rw [lunarLongitude_eq, deg_eq]; unfold lunarMeanLongitude; ring
  have n := (nutation_small jd (by linarith)).1
  rw [e]
  refine (abs_add_le _ _).trans_lt ?_
  rw [abs_deg]
  have d : deg 9.25 = deg 9.24 + deg 0.01 := by rw [← deg_add]; norm_num
  have n2 : arcsec 20 ≤ deg 0.01 := by
    have : arcsec 20 = deg (20 / 3600) := by unfold arcsec deg; ring
    rw [this, deg_le]; norm_num
  rw [d]
  refine add_lt_add (deg_lt.mpr ?_) (n.trans_le n2)
  have l := abs_le.mp (lonSum_abs h')
  have s := fun x : ℝ => abs_le.mp (abs_sin_le_one x)
  have s1 := s (polyR kA1 (jcent jd))
  have s2 := s (polyR kL1 (jcent jd) - polyR kF (jcent jd))
  have s3 := s (polyR kA2 (jcent jd))
  rw [abs_lt]
  constructor <;> norm_num <;> linarith [l.1, l.2, s1.1, s1.2, s2.1, s2.2, s3.1, s3.2]

example : |centuries 2448724.5| ≤ 20 := by unfold centuries; rw [abs_le]; norm_num

/-- C45, negated: the longitude is not reduced to one turn; on 2000 January 11 the library's value
is negative. -/
theorem lunar_longitude_negative : lunarLongitude (2451545 + 36525 * 0.0002944) < -deg 3 := by
  generalize hjd : (2451545 : ℝ) + 36525 * 0.0002944 = jd
  have hT : jcent jd = 0.0002944 := by rw [← hjd]; unfold jcent; norm_num
  have h20 : |centuries jd| ≤ 20 := by
    change |jcent jd| ≤ 20
    rw [hT, abs_le]; norm_num
  have m : modpi2 (polyR kL1 (jcent jd)) < deg 0.01 := by
    rw [hT, polyR_kL1]
    have c : Congr (2 * π) (deg (Mean.moonLongitude 0.0002944))
        (deg (Mean.moonLongitude 0.0002944 - 360)) := ⟨1, by unfold deg; push_cast; ring⟩
    rw [modpi2_congr c, modpi2_of_mem]
    · rw [deg_lt]; unfold Mean.moonLongitude; norm_num
    · have := deg_le (x := 0) (y := Mean.moonLongitude 0.0002944 - 360)
      rw [show deg 0 = 0 by unfold deg; ring] at this
      rw [this]; unfold Mean.moonLongitude; norm_num
    · have := deg_lt (y := 360) (x := Mean.moonLongitude 0.0002944 - 360)
      rw [show deg 360 = 2 * π by unfold deg; ring] at this
      rw [this]; unfold Mean.moonLongitude; norm_num
  have a : sin (polyR kM1 (jcent jd)) < -0.99 := by
    rw [hT, polyR_kM1]
    have e : deg (Mean.moonAnomaly 0.0002944) =
        deg (Mean.moonAnomaly 0.0002944 - 270) + 3 * π / 2 := by unfold deg; ring
    rw [e, show (3 : ℝ) * π / 2 = π / 2 + π by ring, ← add_assoc, sin_add_pi, sin_add_pi_div_two]
    have b := one_sub_sq_div_two_le_cos (x := deg (Mean.moonAnomaly 0.0002944 - 270))
    have b1 : |deg (Mean.moonAnomaly 0.0002944 - 270)| ≤ 0.1 := by
      rw [abs_deg]
      unfold deg
      have q : |Mean.moonAnomaly 0.0002944 - 270| ≤ 5.5 := by
        unfold Mean.moonAnomaly; rw [abs_le]; norm_num
      have p := Real.pi_lt_d2
      norm_num at p q ⊢
      nlinarith [abs_nonneg (Mean.moonAnomaly 0.0002944 - 270), Real.pi_pos]
    have b2 : deg (Mean.moonAnomaly 0.0002944 - 270) ^ 2 ≤ 0.1 ^ 2 := sq_le_sq' (abs_le.mp b1).1 (abs_le.mp b1).2
    norm_num at b b2 ⊢
    linarith
  have l := (abs_le.mp (lonSum_center (T := jcent jd) h20)).2
  have n := (abs_lt.mp (nutation_small jd (by linarith)).1).2
  have n2 : arcsec 20 ≤ deg 0.01 := by
    have : arcsec 20 = deg (20 / 3600) := by unfold arcsec deg; ring
    rw [this, deg_le]; norm_num
  rw [lunarLongitude_eq, deg_eq]
  have s := fun x : ℝ => abs_le.mp (abs_sin_le_one x)
  have s1 := s (polyR kA1 (jcent jd))
  have s2 := s (polyR kL1 (jcent jd) - polyR kF (jcent jd))
  have s3 := s (polyR kA2 (jcent jd))
  have k : deg ((lonSum (jcent jd) + (3958 * sin (polyR kA1 (jcent jd)) +
      1962 * sin (polyR kL1 (jcent jd) - polyR kF (jcent jd)) + 318 * sin (polyR kA2 (jcent jd)))) /
      1000000) < deg (-3.02) := by
    rw [deg_lt]; norm_num at a ⊢
    linarith [s1.2, s2.2, s3.2]
  have f : deg (-3.02) + deg 0.01 + deg 0.01 = -deg 3 := by unfold deg; ring
  linarith

/-! ### C62 -/

/-- C62: the mean arguments of the Moon returned by the library. -/
theorem lunar_mean_values (jd : ℝ) :
    Congr (2 * π) (lunarMeanLongitude jd) (deg (Mean.moonLongitude (centuries jd))) ∧
    Congr (2 * π) (lunarMeanElongation jd) (deg (Mean.elongation (centuries jd))) ∧
    Congr (2 * π) (lunarMeanAnomaly jd) (deg (Mean.moonAnomaly (centuries jd))) ∧
    Congr (2 * π) (lunarArgumentOfLatitude jd) (deg (Mean.moonLatitude (centuries jd))) := by
  refine ⟨?_, ?_, ?_, ?_⟩
  · rw [← polyR_kL1]; exact (modpi2_spec _).2.2
  · rw [← polyR_kD]; exact (modpi2_spec _).2.2
  · rw [← polyR_kM1]; exact (modpi2_spec _).2.2
  · rw [← polyR_kF]; exact (modpi2_spec _).2.2

theorem lunar_mean_range (jd : ℝ) :
    ∀ x ∈ [lunarMeanLongitude jd, lunarMeanElongation jd, lunarMeanAnomaly jd,
      lunarArgumentOfLatitude jd, lunarNode jd, lunarPerigee jd, sunMeanLongitude jd,
      sunMeanLongitudePerigee jd], 0 ≤ x ∧ x < 2 * π := by
  intro x hx
  simp only [List.mem_cons, List.not_mem_nil, or_false] at hx
  rcases hx with rfl | rfl | rfl | rfl | rfl | rfl | rfl | rfl <;>
    exact ⟨(modpi2_spec _).1, (modpi2_spec _).2.1⟩

/-- `x` and `y` are equal up to whole turns and an error of `e` degrees. -/
def NearAngle (e x y : ℝ) : Prop := ∃ r, |r| ≤ deg e ∧ Congr (2 * π) x (y + r)

theorem nearAngle_of_congr {e x y X Y : ℝ} (hx : Congr (2 * π) x (deg X)) (hy : Congr (2 * π) y (deg Y))
    (k : ℤ) (h : |X - Y - k * 360| ≤ e) : NearAngle e x y := by
  refine ⟨deg (X - Y - k * 360), ?_, ?_⟩
  · rw [abs_deg]; exact deg_le.mpr h
  · obtain ⟨a, ea⟩ := hx
    obtain ⟨b, eb⟩ := hy
    refine ⟨a - b + k, ?_⟩
    rw [ea, eb]; unfold deg; push_cast; ring

theorem congr_sub_deg {x y X Y : ℝ} (hx : Congr (2 * π) x (deg X)) (hy : Congr (2 * π) y (deg Y)) :
    Congr (2 * π) (x - y) (deg (X - Y)) := by
  have := congr_sub' hx hy
  rwa [show deg X - deg Y = deg (X - Y) by unfold deg; ring] at this

theorem poly_bound {T : ℝ} (h : |T| ≤ 20) (a b c d e f : ℝ) :
    |a + b * T + c * T ^ 2 + d * T ^ 3 + e * T ^ 4 + f * T ^ 5| ≤
      |a| + 20 * |b| + 400 * |c| + 8000 * |d| + 160000 * |e| + 3200000 * |f| := by
  have p : ∀ (c : ℝ) (n : ℕ), |c * T ^ n| ≤ 20 ^ n * |c| := by
    intro c n; rw [abs_mul, mul_comm]; exact mul_le_mul_of_nonneg_right (pow_abs_le h n) (abs_nonneg _)
  have p1 := p b 1
  have p2 := p c 2
  have p3 := p d 3
  have p4 := p e 4
  have p5 := p f 5
  rw [pow_one] at p1
  rw [show (20 : ℝ) ^ 1 = 20 by norm_num] at p1
  rw [show (20 : ℝ) ^ 2 = 400 by norm_num] at p2
  rw [show (20 : ℝ) ^ 3 = 8000 by norm_num] at p3
  rw [show (20 : ℝ) ^ 4 = 160000 by norm_num] at p4
  rw [show (20 : ℝ) ^ 5 = 3200000 by norm_num] at p5
  calc _ ≤ |a + b * T + c * T ^ 2 + d * T ^ 3 + e * T ^ 4| + |f * T ^ 5| := abs_add_le _ _
    _ ≤ |a + b * T + c * T ^ 2 + d * T ^ 3| + |e * T ^ 4| + |f * T ^ 5| := by
      gcongr; exact abs_add_le _ _
    _ ≤ |a + b * T + c * T ^ 2| + |d * T ^ 3| + |e * T ^ 4| + |f * T ^ 5| := by
      gcongr; exact abs_add_le _ _
    _ ≤ |a + b * T| + |c * T ^ 2| + |d * T ^ 3| + |e * T ^ 4| + |f * T ^ 5| := by
      gcongr; exact abs_add_le _ _
    _ ≤ |a| + |b * T| + |c * T ^ 2| + |d * T ^ 3| + |e * T ^ 4| + |f * T ^ 5| := by
      gcongr; exact abs_add_le _ _
    _ ≤ _ := by linarith

/-- C62: within 2000 years of J2000, mean longitude minus mean anomaly is the longitude of the
perigee, up to 0.0003 degree. -/
theorem lunar_perigee_consistent (jd : ℝ) (h : |centuries jd| ≤ 20) :
    NearAngle 0.0003 (lunarMeanLongitude jd - lunarMeanAnomaly jd) (lunarPerigee jd) := by
  obtain ⟨h1, h2, h3, h4⟩ := lunar_mean_values jd
  have hp : Congr (2 * π) (lunarPerigee jd) (deg (83.3532465 + 4069.0137287 * centuries jd -
      0.0103200 * centuries jd ^ 2 - centuries jd ^ 3 / 80053 + centuries jd ^ 4 / 18999000)) := by
    have := (modpi2_spec (polyR [dToR 83.3532465, dToR 4069.0137287, dToR (-0.0103200),
      dToR (-1 / 80053), dToR (1 / 18999000)] (jcent jd))).2.2
    refine congr_trans this ⟨0, ?_⟩
    have e : jcent jd = centuries jd := rfl
    simp only [e, polyR, horner, dToR, deg]
    push_cast; ring
  refine nearAngle_of_congr (congr_sub_deg h1 h3) hp 0 ?_
  generalize centuries jd = T at *
  have := poly_bound h (218.3164477 - 134.9633964 - 83.3532465)
    (481267.88123421 - 477198.8675055 - 4069.0137287) (-0.0015786 - 0.0087414 + 0.0103200)
    (1 / 538841 - 1 / 69699 + 1 / 80053) (-1 / 65194000 + 1 / 14712000 - 1 / 18999000) 0
  refine (le_of_eq ?_).trans (this.trans ?_)
  · congr 1; unfold Mean.moonLongitude Mean.moonAnomaly; push_cast; ring
  · norm_num [abs_of_pos, abs_of_neg]

/-- C62: within 2000 years of J2000, the Moon's mean longitude minus its elongation is the mean
longitude of the Sun, up to 0.0004 degree. -/
theorem sun_longitude_consistent (jd : ℝ) (h : |centuries jd| ≤ 20) :
    NearAngle 0.0004 (lunarMeanLongitude jd - lunarMeanElongation jd) (sunMeanLongitude jd) := by
  obtain ⟨h1, h2, h3, h4⟩ := lunar_mean_values jd
  have hp : Congr (2 * π) (sunMeanLongitude jd) (deg (180 + 100.4664567 +
      36000.76982779 * centuries jd + 0.0003032028 * centuries jd ^ 2 + centuries jd ^ 3 / 49931000 -
      centuries jd ^ 4 / 153000000 - centuries jd ^ 5 / 200000000000)) := by
    refine congr_trans (modpi2_spec _).2.2 ⟨0, ?_⟩
    have e : jcent jd = centuries jd := rfl
    simp only [e, polyR, horner, dToR, deg]
    push_cast; ring
  refine nearAngle_of_congr (congr_sub_deg h1 h2) hp (-1) ?_
  generalize centuries jd = T at *
  have := poly_bound h (218.3164477 - 297.8501921 - 280.4664567 + 360)
    (481267.88123421 - 445267.1114034 - 36000.76982779) (-0.0015786 + 0.0018819 - 0.0003032028)
    (1 / 538841 - 1 / 545868 - 1 / 49931000) (-1 / 65194000 + 1 / 113065000 + 1 / 153000000)
    (1 / 200000000000)
  refine (le_of_eq ?_).trans (this.trans ?_)
  · congr 1; unfold Mean.moonLongitude Mean.elongation; push_cast; ring
  · norm_num [abs_of_pos, abs_of_neg]

/-- C62: within 2000 years of J2000, the Sun's mean longitude minus its mean anomaly is the
longitude of its perigee, up to 0.05 degree. -/
theorem sun_perigee_consistent (jd : ℝ) (h : |centuries jd| ≤ 20) :
    NearAngle 0.05 (sunMeanLongitude jd - deg (Mean.sunAnomaly (centuries jd)))
      (sunMeanLongitudePerigee jd) := by
  have hs : Congr (2 * π) (sunMeanLongitude jd) (deg (180 + 100.4664567 +
      36000.76982779 * centuries jd + 0.0003032028 * centuries jd ^ 2 + centuries jd ^ 3 / 49931000 -
      centuries jd ^ 4 / 153000000 - centuries jd ^ 5 / 200000000000)) := by
    refine congr_trans (modpi2_spec _).2.2 ⟨0, ?_⟩
    have e : jcent jd = centuries jd := rfl
    simp only [e, polyR, horner, dToR, deg]
    push_cast; ring
  have hp : Congr (2 * π) (sunMeanLongitudePerigee jd) (deg ((1012395 + 6189.03 *
      (centuries jd + 1) + 1.63 * (centuries jd + 1) ^ 2 + 0.012 * (centuries jd + 1) ^ 3) / 3600)) := by
    refine congr_trans (modpi2_spec _).2.2 ⟨0, ?_⟩
    have e : jcent jd = centuries jd := rfl
    simp only [e, polyR, horner, dToR, deg]
    push_cast; ring
  refine nearAngle_of_congr (congr_sub_deg hs (congr_refl _)) hp (-1) ?_
  generalize centuries jd = T at *
  have := poly_bound h (280.4664567 - 357.5291092 - (1012395 + 6189.03 + 1.63 + 0.012) / 3600 + 360)
    (36000.76982779 - 35999.0502909 - (6189.03 + 3.26 + 0.036) / 3600)
    (0.0003032028 + 0.0001536 - (1.63 + 0.036) / 3600)
    (1 / 49931000 - 1 / 24490000 - 0.012 / 3600) (-1 / 153000000) (-1 / 200000000000)
  refine (le_of_eq ?_).trans (this.trans ?_)
  · congr 1; unfold Mean.sunAnomaly; push_cast; ring
  · norm_num [abs_of_pos, abs_of_neg]

/-- C62: the published node: mean longitude minus argument of latitude, up to 0.0003 degree. -/
theorem node_published (T : ℝ) (h : |T| ≤ 20) :
    |Mean.moonLongitude T - Mean.moonLatitude T - Mean.node T| ≤ 0.0003 := by
  have := poly_bound h (218.3164477 - 93.2720950 - 125.0445479)
    (481267.88123421 - 483202.0175233 + 1934.1362891) (-0.0015786 + 0.0036539 - 0.0020754)
    (1 / 538841 + 1 / 3526000 - 1 / 467441) (-1 / 65194000 - 1 / 863310000 + 1 / 60616000) 0
  refine (le_of_eq ?_).trans (this.trans ?_)
  · congr 1; unfold Mean.moonLongitude Mean.moonLatitude Mean.node; ring
  · norm_num [abs_of_pos, abs_of_neg]

/-- C62: what the library returns as node: the wrong sign of the last coefficient adds
`T ^ 4 / 30308000` degrees. -/
theorem lunar_node_value (jd : ℝ) : Congr (2 * π) (lunarNode jd)
    (deg (Mean.node (centuries jd) + centuries jd ^ 4 / 30308000)) := by
  rw [← polyR_ko]; exact (modpi2_spec _).2.2

/-- C62: the node is consistent with mean longitude and argument of latitude up to 0.0056 degree
within 2000 years of J2000. -/
theorem lunar_node_consistent (jd : ℝ) (h : |centuries jd| ≤ 20) :
    NearAngle 0.0056 (lunarMeanLongitude jd - lunarArgumentOfLatitude jd) (lunarNode jd) := by
  obtain ⟨h1, h2, h3, h4⟩ := lunar_mean_values jd
  refine nearAngle_of_congr (congr_sub_deg h1 h4) (lunar_node_value jd) 0 ?_
  have n := abs_le.mp (node_published _ h)
  have q := abs_le.mp (pow_abs_le h 4)
  generalize centuries jd = T at *
  have q0 : 0 ≤ T ^ 4 := by positivity
  norm_num at q n
  rw [abs_le]; norm_num
  constructor <;> linarith [n.1, n.2, q.2]

/-- C62, negated: the sign makes the node disagree with the library's own longitude and argument of
latitude by more than ten times the tolerance of the other arguments, 2000 years before J2000. -/
theorem lunar_node_inconsistent : ∃ jd, |centuries jd| ≤ 20 ∧
    ¬ NearAngle 0.004 (lunarMeanLongitude jd - lunarArgumentOfLatitude jd) (lunarNode jd) := by
  refine ⟨2451545 - 36525 * 20, by unfold centuries; rw [abs_le]; norm_num, ?_⟩
  generalize hjd : (2451545 : ℝ) - 36525 * 20 = jd
  have hT : centuries jd = -20 := by rw [← hjd]; unfold centuries; norm_num
  rintro ⟨r, hr, c⟩
  obtain ⟨h1, h2, h3, h4⟩ := lunar_mean_values jd
  have c1 := congr_sub_deg h1 h4
  have c2 := lunar_node_value jd
  rw [hT] at c1 c2
  obtain ⟨k1, e1⟩ := c1
  obtain ⟨k2, e2⟩ := c2
  obtain ⟨k3, e3⟩ := c
  have e : r = deg (Mean.moonLongitude (-20) - Mean.moonLatitude (-20) - (Mean.node (-20) +
      (-20) ^ 4 / 30308000) + (k1 - k2 - k3 : ℤ) * 360) := by
    have : r = deg (Mean.moonLongitude (-20) - Mean.moonLatitude (-20)) -
        deg (Mean.node (-20) + (-20) ^ 4 / 30308000) + (k1 - k2 - k3) * (2 * π) := by linarith
    rw [this]; unfold deg; push_cast; ring
  rw [e, abs_deg, deg_le] at hr
  have v : |Mean.moonLongitude (-20) - Mean.moonLatitude (-20) - Mean.node (-20)| ≤ 0.0003 :=
    node_published _ (by norm_num)
  generalize k1 - k2 - k3 = k at *
  obtain ⟨v1, v2⟩ := abs_le.mp v
  obtain ⟨r1, r2⟩ := abs_le.mp hr
  norm_num at v1 v2 r1 r2
  rcases lt_trichotomy k 0 with hk | hk | hk
  · have : (k : ℝ) ≤ -1 := by exact_mod_cast (by omega : k ≤ -1)
    linarith
  · rw [hk] at r1; norm_num at r1; linarith
  · have : (1 : ℝ) ≤ k := by exact_mod_cast (by omega : 1 ≤ k)
    linarith

end Verif
