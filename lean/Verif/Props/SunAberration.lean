import Verif.Lemmas.SunAberration2
import Verif.Props.Aberration
import Verif.Props.CronusPlaces

/-!
# C100: the aberration of the Sun

`aberration_low` displaces the Sun by 20.4898 seconds of arc over its distance.  Physics says: the light
left the Sun `lightDay * R` days ago, and the velocity of the Earth displaces the direction from which
it comes.
-/

namespace Verif
open Real

noncomputable section

/-- The light that left the Sun at this time reaches the Earth at `jd`. -/
def sunEmitted (jd : ℝ) : ℝ := jd - lightDay * (earthTables.pos jd).norm

/-- The unit vector from the Earth to the Sun. -/
def sunDirection (jd : ℝ) : V3 := V3.scale (-1 / (earthTables.pos jd).norm) (earthTables.pos jd)

end

theorem earth_pos_norm {t : ℝ} (h : |millennia t| ≤ 6) :
    (earthTables.pos t).norm = poisson Data.earthR (millennia t) := by
  obtain ⟨-, -, -, r1, -, -⟩ := earth6 _ _ h h
  unfold Tables.pos
  rw [norm_scale, norm_direction, mul_one]
  exact abs_of_pos (lt_of_lt_of_le (by norm_num) r1)

theorem sun_times {jd : ℝ} (h : |millennia jd| ≤ 1.9) :
    |millennia jd| ≤ (2 : ℕ) ∧ |millennia (sunEmitted jd)| ≤ (2 : ℕ) ∧ sunEmitted jd < jd ∧
    millennia jd - millennia (sunEmitted jd) = lightDay / 365250 * poisson Data.earthR (millennia jd) ∧
    0.9807 ≤ poisson Data.earthR (millennia jd) ∧ poisson Data.earthR (millennia jd) ≤ 1.01943 ∧
    Window jd (sunEmitted jd) := by
  have h6 : |millennia jd| ≤ 6 := h.trans (by norm_num)
  have h2 : |millennia jd| ≤ (2 : ℕ) := h.trans (by norm_num)
  have p := earthR_parts h2
  rw [← poisson_eq_pval, mainR_eq] at p
  have a := (annualR_abs (by simpa using h2) (6283.0758499914 * millennia jd)).1
  have b := halfR_abs (6283.0758499914 * millennia jd)
  have q : 0.9807 ≤ poisson Data.earthR (millennia jd) ∧ poisson Data.earthR (millennia jd) ≤ 1.01943 := by
    rw [abs_le] at p a b
    obtain ⟨p1, p2⟩ := p; obtain ⟨a1, a2⟩ := a; obtain ⟨b1, b2⟩ := b
    norm_num at p1 p2 a1 a2 b1 b2 ⊢
    constructor <;> linarith
  have e : millennia jd - millennia (sunEmitted jd) = lightDay / 365250 * poisson Data.earthR (millennia jd) := by
    rw [millennia_sub, sunEmitted, earth_pos_norm h6]; ring
  have d : 0 ≤ millennia jd - millennia (sunEmitted jd) ∧ millennia jd - millennia (sunEmitted jd) ≤ 0.1 := by
    rw [e]; unfold lightDay
    obtain ⟨q1, q2⟩ := q
    norm_num at q1 q2 ⊢
    constructor <;> linarith
  refine ⟨h2, ?_, ?_, e, q.1, q.2, ?_, ?_⟩
  · rw [abs_le] at h ⊢
    push_cast
    norm_num at h d ⊢
    constructor <;> linarith
  · unfold sunEmitted; rw [earth_pos_norm h6]; unfold lightDay
    have := q.1; norm_num at this ⊢; linarith
  · unfold sunEmitted; rw [earth_pos_norm h6]; unfold lightDay
    have := q.2; norm_num at this ⊢; linarith
  · unfold sunEmitted; rw [earth_pos_norm h6]; unfold lightDay
    have := q.1; norm_num at this ⊢; linarith

/-- C100: while the light comes from the Sun, the longitude of the Earth grows by 20.4898 seconds of arc
over the distance, up to 0.035 seconds of arc, at all times within 1900 years of J2000. -/
theorem earth_motion_in_light_time (jd : ℝ) (h : |millennia jd| ≤ 1.9) :
    |poisson Data.earthL (millennia jd) - poisson Data.earthL (millennia (sunEmitted jd)) -
      arcsec (20.4898 / poisson Data.earthR (millennia jd))| ≤ arcsec 0.035 := by
  obtain ⟨h2, hu, -, e, r1, r2, -⟩ := sun_times h
  have x := earthL_parts h2 hu
  have p := earthR_parts h2
  have t2 : |millennia jd| ≤ 2 := by simpa using h2
  have s := swept_main t2 (6283.0758499914 * millennia jd)
  have aL := annual_opposite t2 (6283.0758499914 * millennia jd)
  have aR := (annualR_abs t2 (6283.0758499914 * millennia jd)).1
  have hR := halfR_abs (6283.0758499914 * millennia jd)
  have hL := halfL_abs (6283.0758499914 * millennia jd)
  rw [mainL_eq] at x
  rw [mainR_eq] at p
  obtain ⟨m1, m2⟩ := main_small
  rw [← poisson_eq_pval] at p
  rw [← poisson_eq_pval, ← poisson_eq_pval, e] at x
  have k1 : kap ≤ 12564.89 := by unfold kap; norm_num
  have k0 : 0 ≤ kap := by unfold kap; norm_num
  generalize poisson Data.earthL (millennia jd) - poisson Data.earthL (millennia (sunEmitted jd)) = D at *
  generalize poisson Data.earthR (millennia jd) = R at *
  generalize annualL (millennia jd) (6283.0758499914 * millennia jd) = f at *
  generalize annualR (millennia jd) (6283.0758499914 * millennia jd) = a at *
  generalize halfR (6283.0758499914 * millennia jd) = a2 at *
  generalize halfL (6283.0758499914 * millennia jd) = f2 at *
  generalize pCurv 2 mainL = c1 at *
  generalize pFroz 2 mainL = c2 at *
  have R0 : 0 < R := lt_of_lt_of_le (by norm_num) r1
  -- the motion in units of the light time
  obtain ⟨q, hq⟩ : ∃ q, q = lightDay / 365250 := ⟨_, rfl⟩
  rw [← hq] at x
  have q0 : 0 < q := by rw [hq]; unfold lightDay; norm_num
  have q1 : q ≤ 1.5813e-8 := by rw [hq]; unfold lightDay; norm_num
  have qR : 0 < q * R := mul_pos q0 R0
  rw [abs_of_pos qR] at x
  have x' : |D - (6283.31966747491 + (f + f2)) * (q * R)| ≤ 5.4515 * (q * R) := by
    refine x.trans ?_
    have u : q * R ≤ 1.613e-8 := by
      have := mul_le_mul q1 r2 R0.le (by norm_num)
      norm_num at this ⊢; linarith
    have v : c1 * (q * R) ^ 2 ≤ 1.6e6 * (1.613e-8 * (q * R)) := by
      rw [pow_two]
      exact mul_le_mul m1 (mul_le_mul_of_nonneg_right u qR.le) (by positivity) (by norm_num)
    have w := mul_le_mul_of_nonneg_right m2 qR.le
    norm_num at v w ⊢; linarith
  -- times the distance
  have y : |D * R - (6283.31966747491 + (f + f2)) * (q * R ^ 2)| ≤ q * 5.6655 := by
    have g : D * R - (6283.31966747491 + (f + f2)) * (q * R ^ 2) =
        (D - (6283.31966747491 + (f + f2)) * (q * R)) * R := by ring
    rw [g, abs_mul, abs_of_pos R0]
    refine (mul_le_mul_of_nonneg_right x' R0.le).trans ?_
    have : R * R ≤ 1.01943 * 1.01943 := mul_le_mul r2 r2 R0.le (by norm_num)
    have := mul_le_mul_of_nonneg_left this q0.le
    norm_num at this ⊢; linarith
  have f1 : |f| ≤ 238.25 := by
    have g : f = (f + kap * a) - kap * a := by ring
    rw [g]
    refine (abs_sub _ _).trans ?_
    rw [abs_mul, abs_of_nonneg k0]
    have := mul_le_mul k1 aR (abs_nonneg _) (by norm_num)
    norm_num at this aL ⊢; linarith
  have nf : |6283.31966747491 + (f + f2)| ≤ 6526 := by
    refine (abs_add_le _ _).trans ?_
    have := (abs_add_le f f2).trans (add_le_add f1 hL)
    rw [abs_of_pos (by norm_num : (0 : ℝ) < 6283.31966747491)]
    norm_num at this ⊢; linarith
  have z : |(6283.31966747491 + (f + f2)) * (R ^ 2 - (1.00013988799 + (a + a2)) ^ 2)| ≤ 2.4163 := by
    rw [show R ^ 2 - (1.00013988799 + (a + a2)) ^ 2 = (R - (1.00013988799 + (a + a2))) *
      (R + (1.00013988799 + (a + a2))) by ring, abs_mul, abs_mul]
    have v : |R + (1.00013988799 + (a + a2))| ≤ 2.0387 := by
      rw [abs_le] at aR hR ⊢
      obtain ⟨a1, a2⟩ := aR; obtain ⟨b1, b2⟩ := hR
      norm_num at a1 a2 b1 b2 r1 r2 ⊢
      constructor <;> linarith
    refine (mul_le_mul nf (mul_le_mul p v (abs_nonneg _) (by norm_num)) (by positivity) (by norm_num)).trans ?_
    norm_num
  have tot : |D * R - q * (6283.31966747491 * 1.00013988799 ^ 2 - 3 / 2 * 6283.31966747491 * 0.01670699626 ^ 2)| ≤
      q * 10.05 := by
    have g : D * R - q * (6283.31966747491 * 1.00013988799 ^ 2 - 3 / 2 * 6283.31966747491 * 0.01670699626 ^ 2) =
        (D * R - (6283.31966747491 + (f + f2)) * (q * R ^ 2)) +
        q * ((6283.31966747491 + (f + f2)) * (R ^ 2 - (1.00013988799 + (a + a2)) ^ 2) +
          ((6283.31966747491 + f + f2) * (1.00013988799 + a + a2) ^ 2 -
          (6283.31966747491 * 1.00013988799 ^ 2 - 3 / 2 * 6283.31966747491 * 0.01670699626 ^ 2))) := by ring
    rw [g]
    refine (abs_add_le _ _).trans ?_
    rw [abs_mul, abs_of_pos q0]
    have := mul_le_mul_of_nonneg_left ((abs_add_le _ _).trans (add_le_add z s)) q0.le
    norm_num at this y ⊢; linarith
  -- the constant
  have pi1 := pi_gt_d6
  have pi2 := pi_lt_d6
  have fin : |D * R - arcsec 20.4898| ≤ arcsec 0.0342 := by
    rw [hq] at tot
    unfold lightDay at tot
    unfold arcsec
    rw [abs_le] at tot ⊢
    norm_num at tot pi1 pi2 ⊢
    constructor <;> linarith
  have last : D - arcsec (20.4898 / R) = (D * R - arcsec 20.4898) / R := by
    unfold arcsec; field_simp
  rw [last, abs_div, abs_of_pos R0, div_le_iff₀ R0]
  refine fin.trans ?_
  unfold arcsec
  have := mul_le_mul_of_nonneg_left r1 (by positivity : 0 ≤ 0.035 * (π / 648000))
  refine le_trans ?_ this
  have := pi_pos
  norm_num; linarith

/-- C100: the light of the Sun appears to come exactly from the place opposite to that of the Earth at the
time of emission. -/
theorem sun_aberration_exact (jd : ℝ) (h : |millennia jd| ≤ 1.9) :
    aberrated (sunDirection jd) (meanVelocity earthTables (sunEmitted jd) jd) =
      V3.scale (-1 / (earthTables.pos jd).norm) (earthTables.pos (sunEmitted jd)) := by
  obtain ⟨-, -, lt, -, r1, -, -⟩ := sun_times h
  have n := earth_pos_norm (h.trans (by norm_num))
  have n0 : 0 < (earthTables.pos jd).norm := by rw [n]; norm_num at r1; linarith
  have e : jd - sunEmitted jd = lightDay * (earthTables.pos jd).norm := by unfold sunEmitted; ring
  have k : lightDay ≠ 0 := by unfold lightDay; norm_num
  unfold aberrated sunDirection meanVelocity
  rw [e]
  generalize (earthTables.pos jd).norm = r at *
  simp only [V3.plus, V3.scale, V3.sub]
  ext <;> · simp only; field_simp; ring

/-- C100: at all times within 1900 years of J2000 the displacement of `aberration_low` is that of physics up to 0.035
seconds of arc in longitude and 0.0015 in latitude. -/
theorem aberration_low_physical (jd : ℝ) (h : |millennia jd| ≤ 1.9) :
    ∃ l b, aberrated (sunDirection jd) (meanVelocity earthTables (sunEmitted jd) jd) =
        (direction l b).scale (aberrated (sunDirection jd) (meanVelocity earthTables (sunEmitted jd) jd)).norm ∧
      |l - (poisson Data.earthL (millennia jd) + π + aberrationLow (poisson Data.earthR (millennia jd)))| ≤
        arcsec 0.035 ∧ |b - -poisson Data.earthB (millennia jd)| ≤ arcsec 0.0015 := by
  have m := earth_motion_in_light_time jd h
  obtain ⟨h2, hu, lt, e, r1, r2, -⟩ := sun_times h
  have h6 : |millennia jd| ≤ 6 := h.trans (by norm_num)
  have u6 : |millennia (sunEmitted jd)| ≤ 6 := hu.trans (by norm_num)
  have R0 : 0 < poisson Data.earthR (millennia jd) := lt_of_lt_of_le (by norm_num) r1
  refine ⟨poisson Data.earthL (millennia (sunEmitted jd)) + π, -poisson Data.earthB (millennia (sunEmitted jd)), ?_, ?_, ?_⟩
  · rw [sun_aberration_exact jd h, norm_scale, earth_pos_norm h6, earth_pos_norm u6]
    have s0 : 0 < poisson Data.earthR (millennia (sunEmitted jd)) :=
      lt_of_lt_of_le (by norm_num) (earth6 _ _ u6 u6).2.2.2.1
    rw [abs_div, abs_neg, abs_one, abs_of_pos R0]
    simp only [Tables.pos, V3.scale, direction, earthTables, cos_add_pi, sin_add_pi, cos_neg, sin_neg]
    ext <;> · simp only; ring
  · rw [(aberration_low_value _ R0).1]
    rw [show poisson Data.earthL (millennia (sunEmitted jd)) + π - (poisson Data.earthL (millennia jd) + π +
      -arcsec (20.4898 / poisson Data.earthR (millennia jd))) = -(poisson Data.earthL (millennia jd) -
      poisson Data.earthL (millennia (sunEmitted jd)) - arcsec (20.4898 / poisson Data.earthR (millennia jd))) by ring,
      abs_neg]
    exact m
  · rw [show ∀ x y : ℝ, -x - -y = y - x by intros; ring]
    refine (earth6 _ _ h6 u6).2.2.1.trans ?_
    rw [e, abs_of_pos (mul_pos (by unfold lightDay; norm_num) R0)]
    unfold lightDay arcsec
    have := pi_gt_three
    norm_num at r2 ⊢; linarith

theorem turnZ_cross (a : ℝ) (o v : V3) : turnZ a (o.cross v) = (turnZ a o).cross (turnZ a v) := by
  have e := sin_sq_add_cos_sq a
  simp only [turnZ, V3.cross]
  ext <;> simp only
  · ring
  · ring
  · linear_combination (-(o.x * v.y - o.y * v.x)) * e

theorem turnZ_near (a : ℝ) (o : V3) : ((turnZ a o).sub o).norm ≤ |a| * o.norm := by
  unfold V3.norm
  rw [← Real.sqrt_sq (abs_nonneg a), ← Real.sqrt_mul (by positivity)]
  apply Real.sqrt_le_sqrt
  have e : (turnZ a o |>.sub o).x ^ 2 + (turnZ a o |>.sub o).y ^ 2 + (turnZ a o |>.sub o).z ^ 2 =
      2 * (1 - cos a) * (o.x ^ 2 + o.y ^ 2) := by
    simp only [turnZ, V3.sub]
    linear_combination (o.x ^ 2 + o.y ^ 2) * sin_sq_add_cos_sq a
  rw [e, sq_abs]
  have c : 2 * (1 - cos a) ≤ a ^ 2 := by have := one_sub_sq_div_two_le_cos (x := a); linarith
  have := mul_le_mul_of_nonneg_right c (by positivity : 0 ≤ o.x ^ 2 + o.y ^ 2)
  nlinarith [sq_nonneg (a * o.z)]

theorem turnZ_plus (a : ℝ) (v w : V3) : turnZ a (v.plus w) = (turnZ a v).plus (turnZ a w) := by
  simp only [turnZ, V3.plus]; ext <;> simp only <;> ring

/-- C100: the place of the Sun computed by `cronus` is that of physics: the light that leaves the Sun so as to arrive at `jd`
comes from the direction displaced by the velocity of the Earth; turned to the FK5 frame, by the nutation in longitude and to the
equator, it is the computed place up to 0.0367 seconds of arc, at all times within 1900 years of J2000, for every nutation and
obliquity. -/
theorem sun_place_physical (jd psi eps : ℝ) (h : |millennia jd| ≤ 1.9) :
    ∃ l b ra dec, aberrated (sunDirection jd) (meanVelocity earthTables (sunEmitted jd) jd) =
        (direction l b).scale (aberrated (sunDirection jd) (meanVelocity earthTables (sunEmitted jd) jd)).norm ∧
      sunPlace jd psi eps = .ok (ra, dec) ∧
      ((direction ra dec).sub (turnX eps (turnZ psi ((direction l b).plus
        ((fkAxis (centuries jd)).cross (direction l b)))))).norm ≤ arcsec 0.0367 := by
  obtain ⟨l, b, ab, hl, hb⟩ := aberration_low_physical jd h
  obtain ⟨-, -, -, -, r1, -, -⟩ := sun_times h
  have h6 : |millennia jd| ≤ 6 := h.trans (by norm_num)
  obtain ⟨-, -, -, -, -, b1⟩ := earth6 _ _ h6 h6
  have av := (aberration_low_value _ (lt_of_lt_of_le (by norm_num) r1)).1
  set L := modpi2 (poisson Data.earthL (millennia jd) + π) with hL
  set B := -poisson Data.earthB (millennia jd) with hB
  set R := poisson Data.earthR (millennia jd) with hR
  have hv : sunPlace jd psi eps = .ok (eclToEqu ((vsopToFk5 jd L B).1 + psi + aberrationLow R)
      (vsopToFk5 jd L B).2 eps) := by
    unfold sunPlace
    rw [sun_dimension3_value]
    rfl
  refine ⟨l, b, (eclToEqu ((vsopToFk5 jd L B).1 + psi + aberrationLow R) (vsopToFk5 jd L B).2 eps).1,
    (eclToEqu ((vsopToFk5 jd L B).1 + psi + aberrationLow R) (vsopToFk5 jd L B).2 eps).2, ab, hv, ?_⟩
  have hp4 := Real.pi_lt_d2
  have hp3 := Real.pi_gt_three
  have hB0 : |B| ≤ 0.00002 := by rw [hB, abs_neg]; exact b1
  have f3 := (vsop_to_fk5_small jd L B).2.2.2
  have rot := vsop_to_fk5_rotation_planets jd L B (hB0.trans (by norm_num))
  have cb : 0 < cos (vsopToFk5 jd L B).2 := by
    refine cos_pos_of_mem_Ioo ?_
    obtain ⟨k1, k2⟩ := abs_le.mp f3
    obtain ⟨k3, k4⟩ := abs_le.mp hB0
    unfold arcsec at k1 k2
    norm_num at k1 k2 k3 k4 hp4
    constructor <;> linarith
  have a1 : |aberrationLow R| ≤ 1.02e-4 := by
    rw [av, abs_neg, abs_arcsec]
    have : |20.4898 / R| ≤ 20.4898 / 0.9807 := by
      rw [abs_of_pos (by positivity)]
      exact div_le_div_of_nonneg_left (by norm_num) (by norm_num) r1
    refine (arcsec_le.mpr this).trans ?_
    unfold arcsec; norm_num at hp4 ⊢; linarith
  have w := (fk_axis_length (centuries jd)).2.1
  have o1 : (fkAxis (centuries jd)).norm ≤ 5.2e-7 := by
    refine w.trans ?_
    unfold arcsec; norm_num at hp4 ⊢; linarith
  have e1 : (vsopToFk5 jd L B).1 + psi + aberrationLow R = (vsopToFk5 jd L B).1 + aberrationLow R + psi := by ring
  rw [ecl_to_equ_rotates _ _ _ cb, turnX_isometry, e1, direction_turnZ, turnZ_isometry, direction_turnZ]
  rw [← turnZ_isometry (aberrationLow R), turnZ_plus, turnZ_cross, ← direction_turnZ (b := B)] at rot
  have lip := (direction_lip (L + aberrationLow R) B l b)
  have n3 := norm_direction (L + aberrationLow R) B
  have cong : direction (L + aberrationLow R) B =
      direction (poisson Data.earthL (millennia jd) + π + aberrationLow R) B := by
    refine direction_congr ?_ (congr_refl _)
    obtain ⟨j, ej⟩ := (modpi2_spec (poisson Data.earthL (millennia jd) + π)).2.2
    exact ⟨j, by rw [hL, ej]; ring⟩
  have d34 : ((direction (L + aberrationLow R) B).sub (direction l b)).norm ≤ arcsec 0.035 + arcsec 0.0015 := by
    rw [cong]
    refine (direction_lip _ _ _ _).trans ?_
    rw [abs_sub_comm _ l, abs_sub_comm _ b]
    exact add_le_add hl hb
  have tn := turnZ_near (aberrationLow R) (fkAxis (centuries jd))
  generalize turnZ (aberrationLow R) (direction (vsopToFk5 jd L B).1 (vsopToFk5 jd L B).2) = d1 at *
  generalize direction (L + aberrationLow R) B = d3 at *
  generalize direction l b = d4 at *
  generalize turnZ (aberrationLow R) (fkAxis (centuries jd)) = o' at *
  generalize fkAxis (centuries jd) = o at *
  have t1 := norm_triangle d1 (d3.plus (o'.cross d3)) (d4.plus (o.cross d4))
  have t2 := norm_triangle (d3.plus (o'.cross d3)) (d3.plus (o.cross d3)) (d4.plus (o.cross d4))
  rw [cross_sub] at t2
  have c1 : (d3.plus (o'.cross d3)).sub (d3.plus (o.cross d3)) = (o'.sub o).cross d3 := by
    simp only [V3.sub, V3.plus, V3.cross]; ext <;> · simp only; ring
  rw [c1] at t2
  have c2 := cross_le (o'.sub o) d3
  rw [n3, mul_one] at c2
  have c3 := mul_le_mul a1 o1 (norm_nonneg' o) (by norm_num)
  have pl := norm_plus_le (d3.sub d4) (o.cross (d3.sub d4))
  have cr := cross_le o (d3.sub d4)
  have n0 := norm_nonneg' (d3.sub d4)
  have cr2 := mul_le_mul o1 d34 n0 (by norm_num)
  unfold arcsec at d34 cr2 ⊢
  norm_num at rot d34 cr2 c3 ⊢
  linarith

example : |millennia (2448908.5 : ℝ)| ≤ 1.9 := by unfold millennia; rw [abs_le]; norm_num

end Verif
