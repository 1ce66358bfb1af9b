import Verif.Props.CronusTables
import Verif.Props.Lunar
import Verif.Props.Geocentric

/-!
# C71: the places of the Sun and of the Moon which `cronus` computes
-/

namespace Verif
open Real

noncomputable section

/-! ### The main term of the nutation -/

/-- C43: up to 2.3 seconds of arc (in the centuries around J2000) the nutation in longitude is its main term, which has
the period of the node of the orbit of the Moon. -/
theorem nutation_main_term (jd : ℝ) :
    |nutationInLongitude jd - arcsec (-(17.1996 + 0.01742 * centuries jd) *
      sin (deg (Mean.node (centuries jd) + centuries jd ^ 4 / 30308000)))| ≤
      arcsec (2.232 + 0.00081 * |centuries jd|) := by
  have e : Data.nutationTable = (0, 0, 0, 0, 1, -171996, -1742, 92025, 89) :: Data.nutationTable.tail := rfl
  rw [nutationInLongitude_eq, dToR_sec]
  change |arcsec (nutPsi (centuries jd)) - _| ≤ _
  rw [show ∀ a b : ℝ, arcsec a - arcsec b = arcsec (a - b) by intros; unfold arcsec; ring, abs_arcsec, arcsec_le]
  generalize centuries jd = T
  have h := sum_coeff_abs Data.nutationTable.tail (fun r : NutRow => r.2.2.2.2.2.1)
    (fun r => r.2.2.2.2.2.2.1) (fun r => sin (nutArg T r)) T (fun r => Real.abs_sin_le_one _)
  have n1 : (Data.nutationTable.tail.map fun r : NutRow => r.2.2.2.2.2.1.natAbs).sum = 22320 := by
    decide +kernel
  have n2 : (Data.nutationTable.tail.map fun r : NutRow => r.2.2.2.2.2.2.1.natAbs).sum = 81 := by
    decide +kernel
  rw [n1, n2] at h
  unfold nutPsi
  rw [e, List.map_cons, List.sum_cons]
  have a : nutArg T (0, 0, 0, 0, 1, -171996, -1742, 92025, 89) = deg (Mean.node T + T ^ 4 / 30308000) := by
    unfold nutArg; rw [polyR_ko]; push_cast; ring
  rw [a]
  generalize (Data.nutationTable.tail.map fun r : NutRow => ((r.2.2.2.2.2.1 : ℝ) / 10000 +
    r.2.2.2.2.2.2.1 / 100000 * T) * sin (nutArg T r)).sum = s at h ⊢
  refine le_trans (le_of_eq ?_) (h.trans (le_of_eq ?_))
  · congr 1; push_cast; ring
  · push_cast; ring

/-- C43: at J2000 the nutation in longitude is between -19.5 and -8 seconds of arc. -/
theorem nutation_j2000 : -arcsec 19.5 < nutationInLongitude 2451545 ∧ nutationInLongitude 2451545 < -arcsec 8 := by
  have h := nutation_main_term 2451545
  have c : centuries 2451545 = 0 := by unfold centuries; norm_num
  rw [c, show ∀ a b : ℝ, |a - arcsec b| = |arcsec b - a| by intros; exact abs_sub_comm _ _] at h
  have n : Mean.node 0 + 0 ^ 4 / 30308000 = 125.0445479 := by unfold Mean.node; norm_num
  rw [n] at h
  have s : 0.61 ≤ sin (deg 125.0445479) := by
    have p := Real.pi_pos
    rw [← Real.sin_pi_sub]
    have m := Real.mul_le_sin (x := π - deg 125.0445479) (by unfold deg; norm_num; nlinarith)
      (by unfold deg; norm_num; nlinarith)
    refine le_trans ?_ m
    unfold deg
    rw [div_mul_eq_mul_div, le_div_iff₀ p]
    norm_num
    nlinarith
  have s1 := Real.sin_le_one (deg 125.0445479)
  generalize sin (deg 125.0445479) = x at *
  obtain ⟨h1, h2⟩ := abs_le.mp h
  unfold arcsec at *
  have q : 0 < π / 648000 := by positivity
  generalize π / 648000 = u at *
  norm_num at *
  constructor <;> nlinarith

/-! ### Specification -/

/-- Geometric longitude of the Moon: mean longitude, the sum of the table and three additional terms. -/
def moonLon (T : ℝ) : ℝ := deg (Mean.moonLongitude T + 1e-6 * (
      (Data.lunarLR.map fun r => match r with
        | (d, m, m', f, l, _) => (l : ℝ) * eccFactor T m * sin (deg (
          d * Mean.elongation T + m * Mean.sunAnomaly T + m' * Mean.moonAnomaly T + f * Mean.moonLatitude T))).sum +
      3958 * sin (deg (119.75 + 131.849 * T)) +
      1962 * sin (deg (Mean.moonLongitude T - Mean.moonLatitude T)) +
      318 * sin (deg (53.09 + 479264.290 * T))))

/-! ### The Sun -/

/-- C71: for every time within 6000 years of J2000 and every nutation and obliquity, `cronus` finds the place of the
Sun: opposite to the Earth, displaced by the nutation (once), by the aberration of 20.4898 seconds of arc over the
distance, and by the FK5 correction, which is -0.09033 seconds of arc in longitude up to 0.000002, and at most 0.0554
in latitude; turned to the equator. -/
theorem sun_place_apparent (jd psi eps : ℝ) (h : |millennia jd| ≤ 6) :
    ∃ ra dec e b, sunPlace jd psi eps = .ok (ra, dec) ∧ 0 ≤ ra ∧ ra < 2 * π ∧ -(π / 2) ≤ dec ∧ dec ≤ π / 2 ∧
      |e| ≤ arcsec 0.000002 ∧ |b| ≤ arcsec 0.0554 ∧
      direction ra dec = turnX eps (direction
        (poisson Data.earthL (millennia jd) + π + psi - arcsec (20.4898 / poisson Data.earthR (millennia jd)) -
          arcsec 0.09033 + e)
        (-poisson Data.earthB (millennia jd) + b)) := by
  obtain ⟨-, -, -, r1, -, b1⟩ := earth6 _ _ h h
  have r0 : 0 < poisson Data.earthR (millennia jd) := by norm_num at r1; linarith
  set L := modpi2 (poisson Data.earthL (millennia jd) + π) with hL
  set B := -poisson Data.earthB (millennia jd) with hB
  set R := poisson Data.earthR (millennia jd) with hR
  have hv : sunPlace jd psi eps = .ok (eclToEqu ((vsopToFk5 jd L B).1 + psi + aberrationLow R)
      (vsopToFk5 jd L B).2 eps) := by
    unfold sunPlace
    rw [sun_dimension3_value]
    rfl
  have hB0 : |B| ≤ 0.00002 := by rw [hB, abs_neg]; exact b1
  have f3 := (vsop_to_fk5_small jd L B).2.2.2
  have cb : 0 < cos (vsopToFk5 jd L B).2 := by
    refine cos_pos_of_mem_Ioo ?_
    have hp4 := Real.pi_lt_d2
    have hp3 := Real.pi_gt_three
    obtain ⟨k1, k2⟩ := abs_le.mp f3
    obtain ⟨k3, k4⟩ := abs_le.mp hB0
    unfold arcsec at k1 k2
    norm_num at k1 k2 k3 k4 hp4
    constructor <;> linarith
  obtain ⟨q0, q1, q2, q3⟩ := ecl_to_equ_range ((vsopToFk5 jd L B).1 + psi + aberrationLow R) (vsopToFk5 jd L B).2 eps
  have v1 : Congr (2 * π) (vsopToFk5 jd L B).1 (L + fkDelta jd L B) := by
    have := (modpi2_spec (L + fkDelta jd L B)).2.2
    unfold fkDelta at this ⊢
    rw [← polyR_fk] at this ⊢
    exact this
  refine ⟨(eclToEqu ((vsopToFk5 jd L B).1 + psi + aberrationLow R) (vsopToFk5 jd L B).2 eps).1,
    (eclToEqu ((vsopToFk5 jd L B).1 + psi + aberrationLow R) (vsopToFk5 jd L B).2 eps).2, fk3 * (cos (fkArg jd L) + sin (fkArg jd L)) * tan B, (vsopToFk5 jd L B).2 - B, hv, q0, q1, q2, q3, ?_,
    f3, ?_⟩
  · rw [fk3_eq, abs_mul, abs_mul, abs_arcsec, show |(0.03916 : ℝ)| = 0.03916 by norm_num]
    have a1 := (abs_cos_add_sin (fkArg jd L)).trans sqrt_two_bound
    have a2 : |tan B| ≤ 0.000022 := by
      have t := tan_lip (show |B| ≤ 0.2 by norm_num at hB0 ⊢; linarith) (show |(0 : ℝ)| ≤ 0.2 by norm_num)
      rw [tan_zero, sub_zero, sub_zero] at t
      norm_num at t hB0 ⊢; linarith
    have n1 := abs_nonneg (cos (fkArg jd L) + sin (fkArg jd L))
    have n2 := abs_nonneg (tan B)
    generalize |cos (fkArg jd L) + sin (fkArg jd L)| = x at *
    generalize |tan B| = y at *
    have xy : x * y ≤ 1.41422 * 0.000022 := mul_le_mul a1 a2 n2 (by norm_num)
    unfold arcsec
    have q : 0 < π / 648000 := by positivity
    generalize π / 648000 = u at *
    norm_num at xy ⊢
    nlinarith
  · rw [ecl_to_equ_rotates _ _ _ cb]
    congr 1
    refine direction_congr ?_ ⟨0, by push_cast; ring⟩
    rw [(aberration_low_value R r0).1]
    obtain ⟨k, ek⟩ := v1
    obtain ⟨j, ej⟩ := (modpi2_spec (poisson Data.earthL (millennia jd) + π)).2.2
    refine ⟨k + j, ?_⟩
    rw [ek, hL, ej]
    unfold fkDelta
    rw [fk2_eq]
    have : arcsec (-0.09033) = -arcsec 0.09033 := by unfold arcsec; ring
    rw [this]
    push_cast
    ring

/-! ### The Moon -/

theorem direction_apart (l b d : ℝ) (hb : 0 ≤ cos b) :
    ((direction (l + d) b).sub (direction l b)).norm = 2 * cos b * |sin (d / 2)| := by
  unfold V3.norm
  have hc : cos d = 1 - 2 * sin (d / 2) ^ 2 := by
    have := Real.cos_two_mul (d / 2)
    have s := sin_sq_add_cos_sq (d / 2)
    rw [show 2 * (d / 2) = d by ring] at this
    linarith
  have e : ((direction (l + d) b).sub (direction l b)).x ^ 2 + ((direction (l + d) b).sub (direction l b)).y ^ 2 +
      ((direction (l + d) b).sub (direction l b)).z ^ 2 = (2 * cos b * |sin (d / 2)|) ^ 2 := by
    simp only [direction, V3.sub, cos_add, sin_add]
    rw [mul_pow, sq_abs]
    have s1 := sin_sq_add_cos_sq d
    have s2 := sin_sq_add_cos_sq l
    rw [hc] at *
    generalize sin (d / 2) = u at *
    have : cos b ^ 2 * ((cos l * (1 - 2 * u ^ 2) - sin l * sin d - cos l) ^ 2 +
        (sin l * (1 - 2 * u ^ 2) + cos l * sin d - sin l) ^ 2) = (2 * cos b) ^ 2 * u ^ 2 := by
      have : (cos l * (1 - 2 * u ^ 2) - sin l * sin d - cos l) ^ 2 +
        (sin l * (1 - 2 * u ^ 2) + cos l * sin d - sin l) ^ 2 =
        (sin l ^ 2 + cos l ^ 2) * (sin d ^ 2 + (1 - 2 * u ^ 2) ^ 2 - (1 - 2 * u ^ 2) ^ 2 + 4 * u ^ 4) := by ring
      rw [this, s2, s1]
      ring
    linear_combination this
  rw [e, Real.sqrt_sq (by positivity)]

/-- C71, a defect: `Lunar.dimension3` already contains the nutation, and `cronus` adds it once more: the place of the
Moon is displaced by twice the nutation. -/
theorem moon_place_nutation_twice (jd eps : ℝ) (h : |centuries jd| ≤ 20) :
    direction (moonPlace jd (nutationInLongitude jd) eps).1 (moonPlace jd (nutationInLongitude jd) eps).2.1 =
      turnX eps (direction (moonLon (centuries jd) + 2 * nutationInLongitude jd) (lunarLatitude jd)) := by
  have hb := (lunar_bounds jd h).2.2
  have cb : 0 < cos (lunarLatitude jd) := by
    refine cos_pos_of_mem_Ioo ?_
    obtain ⟨k1, k2⟩ := abs_lt.mp hb
    have hp3 := Real.pi_pos
    unfold deg at k1 k2
    norm_num at k1 k2
    constructor <;> linarith
  unfold moonPlace lunarDimension3
  simp only
  rw [ecl_to_equ_rotates _ _ _ cb]
  congr 1
  refine direction_congr ?_ (congr_refl _)
  obtain ⟨k, e⟩ := lunar_longitude_value jd
  refine ⟨k, ?_⟩
  rw [e]
  unfold moonLon
  ring

/-- C71, a defect: so the place of the Moon is off the place with the nutation counted once, by an angle whose chord is
this; -/
theorem moon_place_off (jd eps : ℝ) (h : |centuries jd| ≤ 20) :
    ((direction (moonPlace jd (nutationInLongitude jd) eps).1 (moonPlace jd (nutationInLongitude jd) eps).2.1).sub
      (turnX eps (direction (moonLon (centuries jd) + nutationInLongitude jd) (lunarLatitude jd)))).norm =
      2 * cos (lunarLatitude jd) * |sin (nutationInLongitude jd / 2)| := by
  have hb := (lunar_bounds jd h).2.2
  have cb : 0 ≤ cos (lunarLatitude jd) := by
    refine cos_nonneg_of_mem_Icc ?_
    obtain ⟨k1, k2⟩ := abs_lt.mp hb
    have hp3 := Real.pi_pos
    unfold deg at k1 k2
    norm_num at k1 k2
    constructor <;> linarith
  rw [moon_place_nutation_twice jd eps h, turnX_isometry, ← direction_apart _ _ _ cb]
  congr 3
  ring

/-- and at J2000 the Moon is off by more than 3.8e-5, nearly eight seconds of arc. -/
theorem moon_place_off_j2000 (eps : ℝ) :
    3.8e-5 < ((direction (moonPlace 2451545 (nutationInLongitude 2451545) eps).1
      (moonPlace 2451545 (nutationInLongitude 2451545) eps).2.1).sub
      (turnX eps (direction (moonLon 0 + nutationInLongitude 2451545) (lunarLatitude 2451545)))).norm := by
  have c : centuries 2451545 = 0 := by unfold centuries; norm_num
  have h : |centuries 2451545| ≤ 20 := by rw [c]; norm_num
  have o := moon_place_off 2451545 eps h
  rw [c] at o
  rw [o]
  obtain ⟨n1, n2⟩ := nutation_j2000
  have hb := (lunar_bounds 2451545 h).2.2
  have hp4 := Real.pi_lt_d2
  have hp3 : 3.14 < π := Real.pi_gt_d2
  have cb : 0.99 ≤ cos (lunarLatitude 2451545) := by
    have := Real.one_sub_sq_div_two_le_cos (x := lunarLatitude 2451545)
    obtain ⟨k1, k2⟩ := abs_lt.mp hb
    unfold deg at k1 k2
    norm_num at *
    nlinarith
  have sb : 1.938e-5 ≤ |sin (nutationInLongitude 2451545 / 2)| := by
    generalize nutationInLongitude 2451545 = x at *
    rw [show x / 2 = -(-x / 2) by ring, Real.sin_neg, abs_neg]
    refine le_trans ?_ (le_abs_self _)
    unfold arcsec at n1 n2
    have y0 : 1.9382e-5 ≤ -x / 2 := by norm_num at *; linarith
    have y1 : -x / 2 ≤ 1e-4 := by norm_num at *; linarith
    generalize -x / 2 = y at *
    have := Real.sin_gt_sub_cube (x := y) (by norm_num at y0 ⊢; linarith)
    have y3 : y ^ 3 ≤ 1e-12 := by
      have : y ^ 3 ≤ (1e-4) ^ 3 := pow_le_pow_left₀ (by norm_num at y0 ⊢; linarith) y1 3
      norm_num at this ⊢; linarith
    norm_num at *
    linarith
  generalize |sin (nutationInLongitude 2451545 / 2)| = s at *
  generalize cos (lunarLatitude 2451545) = q at *
  norm_num at *
  nlinarith

/-- The standard altitude of the Moon belongs to its distance. -/
theorem moon_place_altitude (jd psi eps : ℝ) (h : |centuries jd| ≤ 20) :
    (moonPlace jd psi eps).2.2 = 0.7275 * arcsin (6378.1363 / lunarRadius jd) - 0.00989078087105 ∧
    350000 < lunarRadius jd ∧ lunarRadius jd < 420000 := by
  obtain ⟨h1, h2, -⟩ := lunar_bounds jd h
  refine ⟨?_, h1, h2⟩
  unfold moonPlace lunarDimension3 moonRstAltitude earthEquRadius standardRstAltitude
  simp only
  ring

/-! ### The entries of the table of `cronus` -/

/-- The true obliquity. -/
def trueObliquity (jd : ℝ) : ℝ :=
  arcsec (84381.448 - 46.8150 * centuries jd - 0.00059 * centuries jd ^ 2 + 0.001813 * centuries jd ^ 3) +
    nutationInObliquity jd

theorem nutationPair_eq (jd : ℝ) : nutationPair jd = (nutationInLongitude jd, trueObliquity jd) := by
  unfold nutationPair trueObliquity
  rw [obliquity_eq]
  rfl

/-- C68, C71: what the entries of the table of `cronus` mean.  Sun: the apparent place, with the standard altitude of
the Sun. -/
theorem cronus_place_sun (jd : ℝ) (h : |millennia jd| ≤ 6) :
    ∃ ra dec e b, place jd "Sun" = .ok (ra, dec, -0.0145438286569) ∧ |e| ≤ arcsec 0.000002 ∧ |b| ≤ arcsec 0.0554 ∧
      direction ra dec = turnX (trueObliquity jd) (direction
        (poisson Data.earthL (millennia jd) + π + nutationInLongitude jd -
          arcsec (20.4898 / poisson Data.earthR (millennia jd)) - arcsec 0.09033 + e)
        (-poisson Data.earthB (millennia jd) + b)) := by
  obtain ⟨ra, dec, e, b, h1, -, -, -, -, h2, h3, h4⟩ :=
    sun_place_apparent jd (nutationInLongitude jd) (trueObliquity jd) h
  refine ⟨ra, dec, e, b, ?_, h2, h3, h4⟩
  unfold place
  rw [nutationPair_eq]
  simp only [reduceCtorEq, String.reduceEq, if_false, if_true, h1, Except.map, sunRstAltitude]

/-- C68, C71: Moon: the geometric place displaced by twice the nutation, with the standard altitude for its distance. -/
theorem cronus_place_moon (jd : ℝ) (h : |centuries jd| ≤ 20) :
    ∃ ra dec, place jd "Moon" = .ok (ra, dec, 0.7275 * arcsin (6378.1363 / lunarRadius jd) - 0.00989078087105) ∧
      direction ra dec = turnX (trueObliquity jd)
        (direction (moonLon (centuries jd) + 2 * nutationInLongitude jd) (lunarLatitude jd)) := by
  refine ⟨_, _, ?_, moon_place_nutation_twice jd (trueObliquity jd) h⟩
  rw [← (moon_place_altitude jd (nutationInLongitude jd) (trueObliquity jd) h).1]
  unfold place
  rw [nutationPair_eq]
  rfl

/-- C68, C71: planets: the direction in which the light arrives, up to 1.56e-6, displaced by the nutation. -/
theorem cronus_place_planet {p : String} {c : Tables} (hp : p ∈ knownPlanets) (hE : p ≠ "Earth") (hc : HasTables p c)
    (jd : ℝ) (h : |millennia jd| ≤ 5.9) :
    ∃ x l b ra dec, Emitted c earthTables jd x ∧ sep c earthTables x = (direction l b).scale (sep c earthTables x).norm ∧
      place jd p = .ok (ra, dec, -0.00989078087105) ∧
      ((direction ra dec).sub (turnX (trueObliquity jd) (direction (l + nutationInLongitude jd) b))).norm ≤ 1.56e-6 := by
  obtain ⟨x, l, b, ra, dec, h1, -, h2, h3, -, -, -, -, h4⟩ := geocentric_planet_accurate hp hE hc h
    (nutationInLongitude jd) (trueObliquity jd) (1 / 86400) (by norm_num) (by norm_num)
  refine ⟨x, l, b, ra, dec, h1, h2, ?_, h4⟩
  have n1 : p ≠ "Moon" := by rintro rfl; revert hp; decide
  have n2 : p ≠ "Sun" := by rintro rfl; revert hp; decide
  unfold place
  rw [nutationPair_eq]
  simp only [if_neg n1, if_neg n2, h3, Except.map, standardRstAltitude]

example : |millennia 2451545| ≤ 5.9 ∧ |centuries 2451545| ≤ 20 := by unfold millennia centuries; norm_num

end
end Verif
