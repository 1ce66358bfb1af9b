import Verif.Model.Coordinates
import Verif.Spec.Sphere
import Verif.Props.Interpolation

/-!
# C35-C38: coordinate transformations
-/

namespace Verif
open Real

/-! ### Auxiliary facts -/

theorem congr_refl {t : ℝ} (x : ℝ) : Congr t x x := ⟨0, by simp⟩

theorem cos_congr {x y : ℝ} (h : Congr (2 * π) x y) : cos x = cos y := by
  obtain ⟨k, rfl⟩ := h; exact Real.cos_add_int_mul_two_pi y k

theorem sin_congr {x y : ℝ} (h : Congr (2 * π) x y) : sin x = sin y := by
  obtain ⟨k, rfl⟩ := h; exact Real.sin_add_int_mul_two_pi y k

theorem cos_modpi2 (x : ℝ) : cos (modpi2 x) = cos x := cos_congr (modpi2_spec x).2.2
theorem sin_modpi2 (x : ℝ) : sin (modpi2 x) = sin x := sin_congr (modpi2_spec x).2.2

/-- Equal sine and cosine: equal up to whole turns. -/
theorem congr_of_cos_sin {x y : ℝ} (hc : cos x = cos y) (hs : sin x = sin y) :
    Congr (2 * π) x y := by
  have h := Real.Angle.cos_sin_inj hc hs
  obtain ⟨k, e⟩ := Real.Angle.angle_eq_iff_two_pi_dvd_sub.mp h
  exact ⟨k, by linarith⟩

theorem arctan2_polar (y x : ℝ) :
    √(x ^ 2 + y ^ 2) * cos (arctan2 y x) = x ∧ √(x ^ 2 + y ^ 2) * sin (arctan2 y x) = y := by
  have e : ‖(⟨x, y⟩ : ℂ)‖ = √(x ^ 2 + y ^ 2) := by
    rw [Complex.norm_def, Complex.normSq_mk]; ring_nf
  unfold arctan2
  rw [← e]
  exact ⟨Complex.norm_mul_cos_arg _, Complex.norm_mul_sin_arg _⟩

/-- Quadrant selection and arc sine recover a unit vector, if the arguments of `arctan2` are a
positive multiple of its first two components. -/
theorem direction_of_unit {X Y Z k x y : ℝ} (h : X ^ 2 + Y ^ 2 + Z ^ 2 = 1) (hk : 0 < k)
    (hx : X = k * x) (hy : Y = k * y) :
    direction (arctan2 y x) (arcsin Z) = ⟨X, Y, Z⟩ := by
  obtain ⟨p1, p2⟩ := arctan2_polar y x
  have z2 : Z ^ 2 ≤ 1 := by nlinarith [sq_nonneg X, sq_nonneg Y]
  have z3 := abs_le.mp ((sq_le_one_iff_abs_le_one Z).mp z2)
  have c : cos (arcsin Z) = k * √(x ^ 2 + y ^ 2) := by
    rw [Real.cos_arcsin]
    have : 1 - Z ^ 2 = k ^ 2 * (x ^ 2 + y ^ 2) := by rw [hx, hy] at h; linarith
    rw [this, Real.sqrt_mul (sq_nonneg k), Real.sqrt_sq hk.le]
  unfold direction
  rw [c, Real.sin_arcsin z3.1 z3.2, mul_assoc, mul_assoc, p1, p2, hx, hy]

theorem direction_congr {l l' b b' : ℝ} (h : Congr (2 * π) l l') (h' : Congr (2 * π) b b') :
    direction l b = direction l' b' := by
  unfold direction
  rw [cos_congr h, sin_congr h, cos_congr h', sin_congr h']

theorem direction_unit (l b : ℝ) :
    (direction l b).x ^ 2 + (direction l b).y ^ 2 + (direction l b).z ^ 2 = 1 := by
  simp only [direction]
  nlinarith [sin_sq_add_cos_sq l, sin_sq_add_cos_sq b,
    congrArg (fun t => cos b ^ 2 * t) (sin_sq_add_cos_sq l)]

/-- Away from the poles the direction determines longitude and latitude up to whole turns. -/
theorem direction_inj {l l' b b' : ℝ} (h : direction l b = direction l' b') (hb : 0 < cos b)
    (hb' : 0 < cos b') : Congr (2 * π) l l' ∧ Congr (2 * π) b b' := by
  have e1 := congrArg V3.x h
  have e2 := congrArg V3.y h
  have e3 := congrArg V3.z h
  simp only [direction] at e1 e2 e3
  have hc : cos b = cos b' := by
    have := sin_sq_add_cos_sq b
    have := sin_sq_add_cos_sq b'
    have h2 : cos b ^ 2 = cos b' ^ 2 := by rw [e3] at *; linarith
    exact (sq_eq_sq₀ hb.le hb'.le).mp h2
  rw [hc] at e1 e2
  exact ⟨congr_of_cos_sin (mul_left_cancel₀ hb'.ne' e1) (mul_left_cancel₀ hb'.ne' e2),
    congr_of_cos_sin hc e3⟩

theorem turnX_unit (e : ℝ) (v : V3) :
    (turnX e v).x ^ 2 + (turnX e v).y ^ 2 + (turnX e v).z ^ 2 = v.x ^ 2 + v.y ^ 2 + v.z ^ 2 := by
  simp only [turnX]
  have := sin_sq_add_cos_sq e
  have h2 : sin e ^ 2 = 1 - cos e ^ 2 := by linarith
  ring_nf
  rw [h2]
  ring

theorem turnX_neg (e : ℝ) (v : V3) : turnX (-e) (turnX e v) = v := by
  have h := sin_sq_add_cos_sq e
  ext <;> simp only [turnX, cos_neg, sin_neg]
  · linear_combination v.y * h
  · linear_combination v.z * h

theorem toHorizon_unit (e : ℝ) (v : V3) :
    (toHorizon e v).x ^ 2 + (toHorizon e v).y ^ 2 + (toHorizon e v).z ^ 2 =
      v.x ^ 2 + v.y ^ 2 + v.z ^ 2 := by
  simp only [toHorizon]
  have := sin_sq_add_cos_sq e
  have h2 : sin e ^ 2 = 1 - cos e ^ 2 := by linarith
  ring_nf
  rw [h2]
  ring

/-! ### C35 -/

/-- C35: the direction given by right ascension and declination is the given ecliptic direction,
expressed in the equatorial system. -/
theorem ecl_to_equ_rotates (l b e : ℝ) (hb : 0 < cos b) :
    direction (eclToEqu l b e).1 (eclToEqu l b e).2 = turnX e (direction l b) := by
  unfold eclToEqu
  simp only
  rw [direction_congr (modpi2_spec _).2.2 (congr_refl _)]
  have u := turnX_unit e (direction l b)
  rw [direction_unit] at u
  have z : sin b * cos e + cos b * sin e * sin l = (turnX e (direction l b)).z := by
    simp only [turnX, direction]; ring
  rw [z]
  refine direction_of_unit u hb rfl ?_
  simp only [turnX, direction]
  rw [Real.tan_eq_sin_div_cos]
  field_simp

/-- C35: ranges of the results, for every input. -/
theorem ecl_to_equ_range (l b e : ℝ) :
    0 ≤ (eclToEqu l b e).1 ∧ (eclToEqu l b e).1 < 2 * π ∧ -(π / 2) ≤ (eclToEqu l b e).2 ∧
      (eclToEqu l b e).2 ≤ π / 2 :=
  ⟨(modpi2_spec _).1, (modpi2_spec _).2.1, Real.neg_pi_div_two_le_arcsin _,
    Real.arcsin_le_pi_div_two _⟩

/-- C35: these facts determine the result, unless it is one of the celestial poles. -/
theorem ecl_to_equ_unique (l b e ra dec : ℝ) (hb : 0 < cos b)
    (h : direction ra dec = turnX e (direction l b)) (h0 : 0 ≤ ra) (h1 : ra < 2 * π)
    (h2 : -(π / 2) < dec) (h3 : dec < π / 2) : eclToEqu l b e = (ra, dec) := by
  have hd : 0 < cos dec := Real.cos_pos_of_mem_Ioo ⟨h2, h3⟩
  have r := ecl_to_equ_rotates l b e hb
  obtain ⟨q0, q1, q2, q3⟩ := ecl_to_equ_range l b e
  have s : sin (eclToEqu l b e).2 = sin dec := by
    have e1 := congrArg V3.z (r.trans h.symm)
    simpa only [direction] using e1
  have e2 : (eclToEqu l b e).2 = dec := by
    rw [← Real.arcsin_sin q2 q3, s, Real.arcsin_sin h2.le h3.le]
  have := direction_inj (r.trans h.symm) (by rw [e2]; exact hd) hd
  exact Prod.ext (congr_unique pi2_pos this.1 ⟨0, by simp⟩ q0 q1 h0 h1) e2

/-- C35: points of the ecliptic at the equinox, and a quarter of a turn from it. -/
theorem ecl_to_equ_cardinal (e : ℝ) (h0 : 0 < e) (h1 : e < π / 2) :
    eclToEqu 0 0 e = (0, 0) ∧ eclToEqu (π / 2) 0 e = (π / 2, e) ∧ eclToEqu π 0 e = (π, 0) ∧
      eclToEqu (3 * π / 2) 0 e = (3 * π / 2, -e) := by
  have p := Real.pi_pos
  have c : cos (3 * π / 2) = 0 := by
    rw [show 3 * π / 2 = π + π / 2 by ring, Real.cos_add]; simp
  have s : sin (3 * π / 2) = -1 := by
    rw [show 3 * π / 2 = π + π / 2 by ring, Real.sin_add]; simp
  refine ⟨ecl_to_equ_unique _ _ _ _ _ ?_ ?_ ?_ ?_ ?_ ?_, ecl_to_equ_unique _ _ _ _ _ ?_ ?_ ?_ ?_ ?_ ?_,
    ecl_to_equ_unique _ _ _ _ _ ?_ ?_ ?_ ?_ ?_ ?_, ecl_to_equ_unique _ _ _ _ _ ?_ ?_ ?_ ?_ ?_ ?_⟩ <;>
  first
  | (simp [direction, turnX, c, s]; done)
  | linarith

/-! ### C36 -/

/-- `equ_to_ecl` turns back. -/
theorem equ_to_ecl_rotates (a d e : ℝ) (hd : 0 < cos d) :
    direction (equToEcl a d e).1 (equToEcl a d e).2 = turnX (-e) (direction a d) := by
  unfold equToEcl
  simp only
  rw [direction_congr (modpi2_spec _).2.2 (modpi2_spec _).2.2]
  have u := turnX_unit (-e) (direction a d)
  rw [direction_unit] at u
  have z : sin d * cos e - cos d * sin e * sin a = (turnX (-e) (direction a d)).z := by
    simp only [turnX, direction, sin_neg, cos_neg]; ring
  rw [z]
  refine direction_of_unit u hd rfl ?_
  simp only [turnX, direction, sin_neg, cos_neg]
  rw [Real.tan_eq_sin_div_cos]
  field_simp
  ring

/-- C36: both results of `equ_to_ecl` lie in `[0, 2π)`; the latitude is that of `[-π/2, π/2]` with
`2π` added when it is negative. -/
theorem equ_to_ecl_range (a d e : ℝ) :
    0 ≤ (equToEcl a d e).1 ∧ (equToEcl a d e).1 < 2 * π ∧
    ∃ b, -(π / 2) ≤ b ∧ b ≤ π / 2 ∧ (equToEcl a d e).2 = if b < 0 then b + 2 * π else b := by
  refine ⟨(modpi2_spec _).1, (modpi2_spec _).2.1,
    arcsin (sin d * cos e - cos d * sin e * sin a), Real.neg_pi_div_two_le_arcsin _,
    Real.arcsin_le_pi_div_two _, ?_⟩
  have p := Real.pi_pos
  unfold equToEcl
  simp only
  generalize sin d * cos e - cos d * sin e * sin a = w
  have h1 := Real.neg_pi_div_two_le_arcsin w
  have h2 := Real.arcsin_le_pi_div_two w
  split_ifs with c
  · rw [← modpi2_of_mem (x := arcsin w + 2 * π) (by linarith) (by linarith)]
    exact modpi2_congr ⟨-1, by push_cast; ring⟩
  · exact modpi2_of_mem (by linarith) (by linarith)

theorem cos_equToEcl_nonneg (a d e : ℝ) : 0 ≤ cos (equToEcl a d e).2 := by
  unfold equToEcl
  simp only
  rw [cos_modpi2]
  exact Real.cos_arcsin_nonneg _

/-- C36: from the ecliptic to the equator and back. -/
theorem ecl_to_equ_equ_to_ecl (l b e : ℝ) (hb : 0 < cos b) (hd : 0 < cos (eclToEqu l b e).2) :
    equToEcl (eclToEqu l b e).1 (eclToEqu l b e).2 e = (modpi2 l, modpi2 b) := by
  have r := equ_to_ecl_rotates (eclToEqu l b e).1 (eclToEqu l b e).2 e hd
  rw [ecl_to_equ_rotates l b e hb, turnX_neg] at r
  have hz := congrArg V3.z r
  simp only [direction] at hz
  generalize hq : equToEcl (eclToEqu l b e).1 (eclToEqu l b e).2 e = q at r hz
  have hc : 0 < cos q.2 := by
    have h0 : 0 ≤ cos q.2 := by rw [← hq]; exact cos_equToEcl_nonneg _ _ _
    have := sin_sq_add_cos_sq b
    have := sin_sq_add_cos_sq q.2
    rw [hz] at this
    have h2 : cos q.2 ^ 2 = cos b ^ 2 := by linarith
    rw [(sq_eq_sq₀ h0 hb.le).mp h2]; exact hb
  obtain ⟨c1, c2⟩ := direction_inj r hc hb
  have m1 : q.1 = modpi2 q.1 := by
    rw [← hq]; unfold equToEcl; simp only; exact (modpi2_modpi2 _).symm
  have m2 : q.2 = modpi2 q.2 := by
    rw [← hq]; unfold equToEcl; simp only; exact (modpi2_modpi2 _).symm
  refine Prod.ext ?_ ?_
  · simp only; rw [m1]; exact modpi2_congr c1
  · simp only; rw [m2]; exact modpi2_congr c2

/-- C36: from the equator to the ecliptic and back. -/
theorem equ_to_ecl_ecl_to_equ (a d e : ℝ) (hd0 : -(π / 2) < d) (hd1 : d < π / 2)
    (hb : 0 < cos (equToEcl a d e).2) :
    eclToEqu (equToEcl a d e).1 (equToEcl a d e).2 e = (modpi2 a, d) := by
  have hd : 0 < cos d := Real.cos_pos_of_mem_Ioo ⟨hd0, hd1⟩
  refine ecl_to_equ_unique _ _ _ _ _ hb ?_ (modpi2_spec _).1 (modpi2_spec _).2.1 hd0 hd1
  rw [equ_to_ecl_rotates a d e hd]
  have := turnX_neg (-e) (direction a d)
  rw [neg_neg] at this
  rw [this]
  exact direction_congr (modpi2_spec _).2.2 ⟨0, by simp⟩

/-- C36: the hypothesis on the image is met unless the direction is that of the pole: here for all
directions of the ecliptic. -/
theorem cos_eclToEqu_pos (l e : ℝ) (h0 : 0 < cos e) : 0 < cos (eclToEqu l 0 e).2 := by
  unfold eclToEqu
  simp only [sin_zero, cos_zero, zero_mul, one_mul, zero_add]
  rw [Real.cos_arcsin]
  refine Real.sqrt_pos.mpr ?_
  have h1 := sin_sq_add_cos_sq e
  have h2 := sin_sq_add_cos_sq l
  nlinarith [sq_nonneg (sin e), sq_nonneg (cos l), mul_nonneg (sq_nonneg (sin e)) (sq_nonneg (cos l)),
    mul_pos h0 h0]

/-- C36: on the ecliptic the round trip holds without exception, for every obliquity below a right
angle. -/
theorem ecliptic_round_trip (l e : ℝ) (h0 : 0 < cos e) :
    equToEcl (eclToEqu l 0 e).1 (eclToEqu l 0 e).2 e = (modpi2 l, 0) := by
  rw [ecl_to_equ_equ_to_ecl l 0 e (by simp) (cos_eclToEqu_pos l e h0)]
  rw [modpi2_of_mem le_rfl (by have := Real.pi_pos; linarith)]

/-- C36: at southern latitudes `equ_to_ecl` does not return the latitude but one turn more. -/
theorem equ_to_ecl_south (l b e : ℝ) (hb0 : -(π / 2) < b) (hb1 : b < 0)
    (hd : 0 < cos (eclToEqu l b e).2) :
    (equToEcl (eclToEqu l b e).1 (eclToEqu l b e).2 e).2 = b + 2 * π := by
  have p := Real.pi_pos
  rw [ecl_to_equ_equ_to_ecl l b e (Real.cos_pos_of_mem_Ioo ⟨hb0, by linarith⟩) hd]
  simp only
  rw [← modpi2_of_mem (x := b + 2 * π) (by linarith) (by linarith)]
  exact modpi2_congr ⟨-1, by push_cast; ring⟩

/-! ### C37 -/

/-- C37: azimuth (from the south towards the west) and altitude describe the direction of the given
hour angle and declination in the horizontal system. -/
theorem equ_to_horiz_rotates (phi H d : ℝ) (hd : 0 < cos d) :
    direction (equToHoriz phi H d).1 (equToHoriz phi H d).2 = toHorizon phi (direction H d) := by
  unfold equToHoriz
  simp only
  have u := toHorizon_unit phi (direction H d)
  rw [direction_unit] at u
  have z : sin phi * sin d + cos phi * cos d * cos H = (toHorizon phi (direction H d)).z := by
    simp only [toHorizon, direction]; ring
  rw [z]
  refine direction_of_unit u hd ?_ rfl
  simp only [toHorizon, direction]
  rw [Real.tan_eq_sin_div_cos]
  field_simp

/-- C37: the azimuth is reduced to `(-π, π]` (not to `[0, 2π)`), the altitude to
`[-π/2, π/2]`. -/
theorem equ_to_horiz_range (phi H d : ℝ) :
    -π < (equToHoriz phi H d).1 ∧ (equToHoriz phi H d).1 ≤ π ∧ -(π / 2) ≤ (equToHoriz phi H d).2 ∧
      (equToHoriz phi H d).2 ≤ π / 2 :=
  ⟨Complex.neg_pi_lt_arg _, Complex.arg_le_pi _, Real.neg_pi_div_two_le_arcsin _,
    Real.arcsin_le_pi_div_two _⟩

/-- C37: those facts determine the result except in the zenith and the nadir. -/
theorem equ_to_horiz_unique (phi H d A h : ℝ) (hd : 0 < cos d)
    (e : direction A h = toHorizon phi (direction H d)) (h0 : -π < A) (h1 : A ≤ π)
    (h2 : -(π / 2) < h) (h3 : h < π / 2) : equToHoriz phi H d = (A, h) := by
  have hh : 0 < cos h := Real.cos_pos_of_mem_Ioo ⟨h2, h3⟩
  have r := equ_to_horiz_rotates phi H d hd
  obtain ⟨q0, q1, q2, q3⟩ := equ_to_horiz_range phi H d
  have s : sin (equToHoriz phi H d).2 = sin h := by
    have e1 := congrArg V3.z (r.trans e.symm)
    simpa only [direction] using e1
  have e2 : (equToHoriz phi H d).2 = h := by
    rw [← Real.arcsin_sin q2 q3, s, Real.arcsin_sin h2.le h3.le]
  have := direction_inj (r.trans e.symm) (by rw [e2]; exact hh) hh
  exact Prod.ext (repr_unique this.1 q0 q1 h0 h1) e2

/-- C37: the altitude depends on the hour angle through its cosine only, and is largest in the
meridian, where it is `π/2 - |phi - d|`. -/
theorem equ_to_horiz_culmination (phi H d : ℝ) (hp0 : -(π / 2) ≤ phi) (hp1 : phi ≤ π / 2)
    (hd0 : -(π / 2) ≤ d) (hd1 : d ≤ π / 2) :
    (equToHoriz phi H d).2 ≤ (equToHoriz phi 0 d).2 ∧
    (equToHoriz phi 0 d).2 = π / 2 - |phi - d| ∧
    (equToHoriz phi (-H) d).2 = (equToHoriz phi H d).2 := by
  have cp := Real.cos_nonneg_of_mem_Icc ⟨hp0, hp1⟩
  have cd := Real.cos_nonneg_of_mem_Icc ⟨hd0, hd1⟩
  unfold equToHoriz
  simp only [cos_neg, cos_zero, mul_one]
  refine ⟨Real.monotone_arcsin ?_, ?_, trivial⟩
  · nlinarith [Real.cos_le_one H, mul_nonneg cp cd]
  · have e : sin phi * sin d + cos phi * cos d = sin (π / 2 - |phi - d|) := by
      rw [Real.sin_pi_div_two_sub, Real.cos_abs, Real.cos_sub]; ring
    rw [e]
    refine Real.arcsin_sin ?_ ?_
    · have : |phi - d| ≤ π := by rw [abs_le]; constructor <;> linarith
      linarith
    · linarith [abs_nonneg (phi - d)]

/-- C37: an object of the equator stands in the west, on the horizon, six hours after culmination,
and in the east, at azimuth `-π/2`, six hours before. -/
theorem equ_to_horiz_west (phi : ℝ) :
    equToHoriz phi (π / 2) 0 = (π / 2, 0) ∧ equToHoriz phi (-(π / 2)) 0 = (-(π / 2), 0) := by
  have p := Real.pi_pos
  constructor <;>
  · apply equ_to_horiz_unique <;>
    first
    | (simp [direction, toHorizon]; done)
    | linarith

/-! ### C38 -/

/-- Flattening used by `ell_to_geo`. -/
noncomputable def geoF : ℝ := 1 / 298.2564219846

/-- C38: the radius and the polar distance returned are the polar coordinates of the point at the
given height above the ellipsoid, that is, of `foot + height * normal` where the foot lies on the
meridian ellipse and the outer normal there makes the given latitude with the equator. The second
result is therefore the angle from the axis of rotation and the third is the longitude unchanged
(the documentation names them the other way round).  The equatorial semi-axis is 6.3781363. -/
theorem ell_to_geo_spec (lat lon height : ℝ) :
    ∃ p q, OnEllipse 6.3781363 (6.3781363 * (1 - geoF)) p q ∧
      OuterNormal 6.3781363 (6.3781363 * (1 - geoF)) p q (cos lat) (sin lat) ∧
      (ellToGeo lat lon height).1 * sin (ellToGeo lat lon height).2.1 = p + height * cos lat ∧
      (ellToGeo lat lon height).1 * cos (ellToGeo lat lon height).2.1 = q + height * sin lat ∧
      0 ≤ (ellToGeo lat lon height).1 ∧ (ellToGeo lat lon height).2.2 = lon := by
  have hf0 : 0 < geoF := by unfold geoF; norm_num
  have hf1 : geoF < 1 := by unfold geoF; norm_num
  have h1 := sin_sq_add_cos_sq lat
  set f := geoF with hf
  have eF : (1.0 : ℝ) / 298.2564219846 = f := by rw [hf]; unfold geoF; norm_num
  unfold ellToGeo
  have l1 : (1.0 : ℝ) = 1 := by norm_num
  have l2 : (2.0 : ℝ) = 2 := by norm_num
  simp only [eF, earthEquRadius]
  rw [l1, l2]
  have ea : (6378.1363 : ℝ) / 1000 = 6.3781363 := by norm_num
  rw [ea]
  set a : ℝ := 6.3781363 with ha
  have a0 : 0 < a := by rw [ha]; norm_num
  set s := sin lat
  set c := cos lat
  have w0 : 0 < 1 - (2 * f - f * f) * s * s := by
    have : s ^ 2 ≤ 1 := by nlinarith [sq_nonneg c]
    nlinarith [mul_pos (sub_pos.mpr hf1) (sub_pos.mpr hf1), sq_nonneg s, sq_nonneg c,
      mul_nonneg (sq_nonneg (1 - f)) (sq_nonneg s), mul_nonneg (mul_pos hf0 (by linarith : 0 < 2 - f)).le (sq_nonneg c)]
  set W := √(1 - (2 * f - f * f) * s * s) with hW
  have W0 : 0 < W := Real.sqrt_pos.mpr w0
  have W2 : W ^ 2 = 1 - (2 * f - f * f) * s * s := Real.sq_sqrt w0.le
  have W3 : W ^ 2 = c ^ 2 + (1 - f) ^ 2 * s ^ 2 := by rw [W2]; norm_num; nlinarith
  refine ⟨a / W * c, a / W * (1 - f) ^ 2 * s, ?_, ?_, ?_, ?_, ?_, trivial⟩
  · unfold OnEllipse
    have f3 : (1 - f) ≠ 0 := by linarith
    field_simp
    linarith
  · have f3 : (1 - f) ≠ 0 := by linarith
    refine ⟨a * W, by positivity, ?_, ?_⟩ <;> field_simp
  · have := (arctan2_polar ((a / W + height) * c) ((a / W * (1 - (2 * f - f * f)) + height) * s)).2
    rw [show (a / W + height) * c * ((a / W + height) * c) +
      (a / W * (1 - (2 * f - f * f)) + height) * s * ((a / W * (1 - (2 * f - f * f)) + height) * s)
      = ((a / W * (1 - (2 * f - f * f)) + height) * s) ^ 2 + ((a / W + height) * c) ^ 2 by ring]
    rw [this]; ring
  · have := (arctan2_polar ((a / W + height) * c) ((a / W * (1 - (2 * f - f * f)) + height) * s)).1
    rw [show (a / W + height) * c * ((a / W + height) * c) +
      (a / W * (1 - (2 * f - f * f)) + height) * s * ((a / W * (1 - (2 * f - f * f)) + height) * s)
      = ((a / W * (1 - (2 * f - f * f)) + height) * s) ^ 2 + ((a / W + height) * c) ^ 2 by ring]
    rw [this]; norm_num; ring
  · exact Real.sqrt_nonneg _

/-- The foot point in `ell_to_geo_spec` is unique. -/
theorem ellipse_foot_unique {a b p q p' q' u v : ℝ} (ha : 0 < a) (hb : 0 < b)
    (h : OnEllipse a b p q) (h' : OnEllipse a b p' q') (n : OuterNormal a b p q u v)
    (n' : OuterNormal a b p' q' u v) : p = p' ∧ q = q' := by
  obtain ⟨k, k0, e1, e2⟩ := n
  obtain ⟨j, j0, e3, e4⟩ := n'
  unfold OnEllipse at h h'
  have x1 : p / a * k = a * u := by rw [e1]; field_simp
  have x2 : q / b * k = b * v := by rw [e2]; field_simp
  have x3 : p' / a * j = a * u := by rw [e3]; field_simp
  have x4 : q' / b * j = b * v := by rw [e4]; field_simp
  have s1 : k ^ 2 = (a * u) ^ 2 + (b * v) ^ 2 := by
    rw [← x1, ← x2]; linear_combination (-k ^ 2) * h
  have s2 : j ^ 2 = (a * u) ^ 2 + (b * v) ^ 2 := by
    rw [← x3, ← x4]; linear_combination (-j ^ 2) * h'
  have e : k = j := (sq_eq_sq₀ k0.le j0.le).mp (s1.trans s2.symm)
  subst e
  have y1 : p / a = p' / a := mul_right_cancel₀ k0.ne' (x1.trans x3.symm)
  have y2 : q / b = q' / b := mul_right_cancel₀ k0.ne' (x2.trans x4.symm)
  exact ⟨by field_simp at y1; exact y1, by field_simp at y2; exact y2⟩

/-- C38: on the ellipsoid the radius lies between the polar and the equatorial one. -/
theorem ell_to_geo_radius (lat lon : ℝ) :
    6.3781363 * (1 - geoF) ≤ (ellToGeo lat lon 0).1 ∧ (ellToGeo lat lon 0).1 ≤ 6.3781363 := by
  obtain ⟨p, q, h, -, e1, e2, r0, -⟩ := ell_to_geo_spec lat lon 0
  have hf0 : 0 < geoF := by unfold geoF; norm_num
  have hf1 : geoF < 1 := by unfold geoF; norm_num
  set r := (ellToGeo lat lon 0).1
  set t := (ellToGeo lat lon 0).2.1
  have r2 : r ^ 2 = p ^ 2 + q ^ 2 := by
    have e1' : r * sin t = p := by linarith
    have e2' : r * cos t = q := by linarith
    rw [← e1', ← e2']; linear_combination (-r ^ 2) * sin_sq_add_cos_sq t
  unfold OnEllipse at h
  set a : ℝ := 6.3781363 with ha
  have a0 : 0 < a := by rw [ha]; norm_num
  have b0 : 0 < a * (1 - geoF) := mul_pos a0 (by linarith)
  have ba : a * (1 - geoF) ≤ a := by nlinarith
  set b := a * (1 - geoF)
  have hp : p ^ 2 = a ^ 2 * (p / a) ^ 2 := by field_simp
  have hq : q ^ 2 = b ^ 2 * (q / b) ^ 2 := by field_simp
  have b2 : b ^ 2 ≤ a ^ 2 := by nlinarith
  constructor
  · refine (pow_le_pow_iff_left₀ b0.le r0 two_ne_zero).mp ?_
    rw [r2, hp, hq]
    nlinarith [mul_nonneg (sub_nonneg.mpr b2) (sq_nonneg (p / a))]
  · refine (pow_le_pow_iff_left₀ r0 a0.le two_ne_zero).mp ?_
    rw [r2, hp, hq]
    nlinarith [mul_nonneg (sub_nonneg.mpr b2) (sq_nonneg (q / b))]

/-- C38: the height is documented to be in kilometres, and so is the radius; but the semi-axis is
the equatorial radius in kilometres divided by 1000.  An observer 6.3781363 km above the equator is
reported to be twice as far from the centre of the Earth as one at sea level, and the whole Earth
is smaller than 7 km. -/
theorem ell_to_geo_wrong_unit (lon : ℝ) :
    (ellToGeo 0 lon 0).1 = 6.3781363 ∧ (ellToGeo 0 lon 6.3781363).1 = 2 * (ellToGeo 0 lon 0).1 ∧
    ∀ lat, (ellToGeo lat lon 0).1 < 7 := by
  have e : ∀ h : ℝ, 0 ≤ h → (ellToGeo 0 lon h).1 = 6.3781363 + h := by
    intro h h0
    unfold ellToGeo
    simp only [earthEquRadius, sin_zero, cos_zero, mul_zero, mul_one, add_zero]
    have : (1.0 : ℝ) - 0 = 1 := by norm_num
    rw [this, Real.sqrt_one, div_one, ← sq, Real.sqrt_sq (by norm_num; linarith)]
    norm_num
  refine ⟨by rw [e 0 le_rfl]; norm_num, ?_, fun lat => ?_⟩
  · rw [e _ (by norm_num), e 0 le_rfl]; norm_num
  · have := (ell_to_geo_radius lat lon).2
    norm_num at this ⊢; linarith

/-- C38: at sea level the equator is at polar distance `π/2` and the north pole at `0`. -/
theorem ell_to_geo_pole_equator (lon : ℝ) :
    (ellToGeo 0 lon 0).2.1 = π / 2 ∧ (ellToGeo (π / 2) lon 0).2.1 = 0 := by
  have hp : (0:ℝ) < (6378.1363 : ℝ) / 1000 := by norm_num
  constructor
  · unfold ellToGeo arctan2
    simp only [sin_zero, cos_zero, mul_zero, mul_one, add_zero, earthEquRadius]
    have : (1.0 : ℝ) - 0 = 1 := by norm_num
    rw [this, Real.sqrt_one, div_one]
    exact Complex.arg_eq_pi_div_two_iff.mpr ⟨rfl, hp⟩
  · unfold ellToGeo arctan2
    simp only [Real.sin_pi_div_two, Real.cos_pi_div_two, mul_zero, mul_one, add_zero, earthEquRadius]
    refine Complex.arg_eq_zero_iff.mpr ⟨?_, rfl⟩
    have : (0:ℝ) ≤ 1 - (2.0 * (1.0 / 298.2564219846) - 1.0 / 298.2564219846 * (1.0 / 298.2564219846)) := by
      norm_num
    exact mul_nonneg (div_nonneg hp.le (Real.sqrt_nonneg _)) this

/-! ### The hypotheses are met -/

example : direction (eclToEqu 1 1 0.4).1 (eclToEqu 1 1 0.4).2 = turnX 0.4 (direction 1 1) :=
  ecl_to_equ_rotates 1 1 0.4 Real.cos_one_pos

example (H : ℝ) : direction (equToHoriz 1 H 1).1 (equToHoriz 1 H 1).2 =
    toHorizon 1 (direction H 1) := equ_to_horiz_rotates 1 H 1 Real.cos_one_pos

example (l : ℝ) : equToEcl (eclToEqu l 0 1).1 (eclToEqu l 0 1).2 1 = (modpi2 l, 0) :=
  ecliptic_round_trip l 1 Real.cos_one_pos

end Verif
