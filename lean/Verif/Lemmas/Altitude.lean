import Verif.Lemmas.RiseSet
import Mathlib.Analysis.Calculus.MeanValue
import Mathlib.Geometry.Euclidean.Angle.Unoriented.TriangleInequality
import Mathlib.Analysis.SpecialFunctions.Trigonometric.Deriv

/-!
# Lemmas about altitudes, and the loop of `_riseset`
-/

namespace Verif
open Real

/-! ### Altitudes -/

theorem altitude_code (phi H d : ℝ) : (equToHoriz phi H d).2 = altitude phi H d := by
  unfold equToHoriz altitude toHorizon direction
  simp only
  congr 1; ring

theorem altitude_congr {phi H H' d : ℝ} (h : Congr (2 * π) H H') : altitude phi H d = altitude phi H' d := by
  unfold altitude toHorizon direction
  simp only
  rw [cos_congr h]

theorem altitude_eq (phi H d : ℝ) :
    altitude phi H d = arcsin (sin phi * sin d + cos phi * cos d * cos H) := by
  unfold altitude toHorizon direction
  simp only
  congr 1; ring

theorem horizon_z_range (phi H d : ℝ) : -1 ≤ sin phi * sin d + cos phi * cos d * cos H ∧
    sin phi * sin d + cos phi * cos d * cos H ≤ 1 := by
  have h1 := sin_sq_add_cos_sq phi
  have h2 := sin_sq_add_cos_sq d
  have h3 := sin_sq_add_cos_sq H
  have key : (sin phi * sin d + cos phi * (cos d * cos H)) ^ 2 ≤ 1 := by
    have a : (cos d * cos H) ^ 2 ≤ cos d ^ 2 := by
      rw [mul_pow]; nlinarith [sq_nonneg (sin H), sq_nonneg (cos d)]
    nlinarith [sq_nonneg (sin phi * (cos d * cos H) - cos phi * sin d), sq_nonneg (sin phi),
      sq_nonneg (cos phi), sq_nonneg (sin d)]
  rw [mul_assoc]
  exact abs_le.mp (abs_le_one_iff_mul_self_le_one.mpr (by nlinarith))

theorem sin_altitude (phi H d : ℝ) :
    sin (altitude phi H d) = sin phi * sin d + cos phi * cos d * cos H := by
  rw [altitude_eq]
  exact Real.sin_arcsin (horizon_z_range phi H d).1 (horizon_z_range phi H d).2

open InnerProductGeometry in
theorem angle_chord {x y : EuclideanSpace ℝ (Fin 3)} (hx : ‖x‖ = 1) (hy : ‖y‖ = 1) :
    angle x y ≤ π / 2 * ‖x - y‖ := by
  have h := norm_sub_sq_eq_norm_sq_add_norm_sq_sub_two_mul_norm_mul_norm_mul_cos_angle x y
  rw [hx, hy] at h
  have a0 := angle_nonneg x y
  have a1 := angle_le_pi x y
  set a := angle x y
  have hs : 2 / π * (a / 2) ≤ sin (a / 2) := mul_le_sin (by linarith) (by linarith)
  have s0 : 0 ≤ sin (a / 2) := sin_nonneg_of_nonneg_of_le_pi (by linarith) (by linarith)
  have e : ‖x - y‖ = 2 * sin (a / 2) := by
    refine (sq_eq_sq₀ (norm_nonneg _) (by linarith)).mp ?_
    have c2 := Real.cos_two_mul (a / 2)
    rw [show 2 * (a / 2) = a by ring] at c2
    have q := sin_sq_add_cos_sq (a / 2)
    nlinarith
  rw [e]
  have hp := pi_pos
  calc a = π / 2 * (2 * (2 / π * (a / 2))) := by field_simp
    _ ≤ _ := mul_le_mul_of_nonneg_left (by linarith) (by positivity)

open InnerProductGeometry in
theorem altitude_angle (phi H d : ℝ) :
    altitude phi H d = π / 2 - angle (toE (direction 0 phi)) (toE (direction H d)) := by
  rw [altitude_eq, angle, norm_toE, norm_toE, norm_direction, norm_direction, arcsin_eq_pi_div_two_sub_arccos]
  congr 2
  simp [toE, direction, PiLp.inner_apply, Fin.sum_univ_succ]
  ring

open InnerProductGeometry in
/-- A small angle is nearly its chord. -/
theorem angle_chord_small {x y : EuclideanSpace ℝ (Fin 3)} (hx : ‖x‖ = 1) (hy : ‖y‖ = 1) (h : ‖x - y‖ ≤ 0.01) :
    angle x y ≤ 1.0001 * ‖x - y‖ := by
  have w := angle_chord hx hy
  have h' := norm_sub_sq_eq_norm_sq_add_norm_sq_sub_two_mul_norm_mul_norm_mul_cos_angle x y
  rw [hx, hy] at h'
  have a0 := angle_nonneg x y
  have a1 := angle_le_pi x y
  set a := angle x y
  have s0 : 0 ≤ sin (a / 2) := sin_nonneg_of_nonneg_of_le_pi (by linarith) (by linarith)
  have e : ‖x - y‖ = 2 * sin (a / 2) := by
    refine (sq_eq_sq₀ (norm_nonneg _) (by linarith)).mp ?_
    have c2 := Real.cos_two_mul (a / 2)
    rw [show 2 * (a / 2) = a by ring] at c2
    have q := sin_sq_add_cos_sq (a / 2)
    nlinarith
  have a2 : a ≤ 0.016 := by
    have hp := pi_lt_d2
    have n := norm_nonneg (x - y)
    norm_num at hp h ⊢
    nlinarith
  rw [e]
  rcases a0.eq_or_lt with z | z
  · rw [← z]; norm_num
  · have := sin_gt_sub_cube (x := a / 2) (by linarith)
    norm_num at a2 this ⊢
    nlinarith [mul_pos z z]

/-- The altitude changes by at most the distance between the directions. -/
theorem altitude_lip (phi H d H' d' : ℝ) :
    |altitude phi H d - altitude phi H' d'| ≤ π / 2 * (|H - H'| + |d - d'|) := by
  have n1 : ∀ l b, ‖toE (direction l b)‖ = 1 := fun l b => by rw [norm_toE, norm_direction]
  have t1 := InnerProductGeometry.angle_le_angle_add_angle (toE (direction 0 phi)) (toE (direction H d))
    (toE (direction H' d'))
  have t2 := InnerProductGeometry.angle_le_angle_add_angle (toE (direction 0 phi)) (toE (direction H' d'))
    (toE (direction H d))
  rw [InnerProductGeometry.angle_comm (toE (direction H' d'))] at t2
  have c := angle_chord (n1 H d) (n1 H' d')
  rw [← toE_sub, norm_toE] at c
  have l := direction_lip H d H' d'
  have : π / 2 * ((direction H d).sub (direction H' d')).norm ≤ π / 2 * (|H - H'| + |d - d'|) :=
    mul_le_mul_of_nonneg_left l (by positivity)
  rw [altitude_angle, altitude_angle, abs_le]
  constructor <;> linarith

/-- The same for small changes. -/
theorem altitude_lip_small {phi H d H' d' : ℝ} (h : |H - H'| + |d - d'| ≤ 0.01) :
    |altitude phi H d - altitude phi H' d'| ≤ 1.0001 * (|H - H'| + |d - d'|) := by
  have n1 : ∀ l b, ‖toE (direction l b)‖ = 1 := fun l b => by rw [norm_toE, norm_direction]
  have t1 := InnerProductGeometry.angle_le_angle_add_angle (toE (direction 0 phi)) (toE (direction H d))
    (toE (direction H' d'))
  have t2 := InnerProductGeometry.angle_le_angle_add_angle (toE (direction 0 phi)) (toE (direction H' d'))
    (toE (direction H d))
  rw [InnerProductGeometry.angle_comm (toE (direction H' d'))] at t2
  have l := direction_lip H d H' d'
  have c := angle_chord_small (n1 H d) (n1 H' d') (by rw [← toE_sub, norm_toE]; exact l.trans h)
  rw [← toE_sub, norm_toE] at c
  have : 1.0001 * ((direction H d).sub (direction H' d')).norm ≤ 1.0001 * (|H - H'| + |d - d'|) :=
    mul_le_mul_of_nonneg_left l (by norm_num)
  rw [altitude_angle, altitude_angle, abs_le]
  constructor <;> linarith

/-! ### One pass -/

/-- Effect of a change of declination. -/
theorem dec_change {phi k a b : ℝ} (hk : |k| ≤ 1) :
    |sin phi * (sin a - sin b) + cos phi * k * (cos a - cos b)| ≤ |a - b| := by
  refine sq_le_sq.mp ?_
  have h1 := sin_sq_add_cos_sq phi
  have h2 := sin_sq_add_cos_sq a
  have h3 := sin_sq_add_cos_sq b
  have c := one_sub_sq_div_two_le_cos (x := a - b)
  rw [cos_sub] at c
  have k2 : k ^ 2 ≤ 1 := by rw [← sq_abs]; nlinarith [abs_nonneg k]
  have cs : (sin phi * (sin a - sin b) + cos phi * k * (cos a - cos b)) ^ 2 ≤
      (sin phi ^ 2 + (cos phi * k) ^ 2) * ((sin a - sin b) ^ 2 + (cos a - cos b) ^ 2) := by
    nlinarith [sq_nonneg (sin phi * (cos a - cos b) - cos phi * k * (sin a - sin b))]
  have p1 : sin phi ^ 2 + (cos phi * k) ^ 2 ≤ 1 := by
    rw [mul_pow]; nlinarith [sq_nonneg (cos phi)]
  have p2 : (sin a - sin b) ^ 2 + (cos a - cos b) ^ 2 ≤ (a - b) ^ 2 := by nlinarith
  calc _ ≤ _ := cs
    _ ≤ 1 * ((sin a - sin b) ^ 2 + (cos a - cos b) ^ 2) :=
      mul_le_mul_of_nonneg_right p1 (by positivity)
    _ ≤ _ := by linarith

theorem cos_step (H Hz : ℝ) (hx : |H - Hz| ≤ 0.2) :
    |cos H - cos Hz + sin H * (H - Hz)| ≤ 0.54 * |H - Hz| ^ 2 := by
  set x := H - Hz with hxd
  have e : cos Hz = cos H * cos x + sin H * sin x := by
    rw [← cos_sub]; congr 1; rw [hxd]; ring
  have e2 : cos H - cos Hz + sin H * x = cos H * (1 - cos x) + sin H * (x - sin x) := by rw [e]; ring
  rw [e2]
  have c0 := one_sub_sq_div_two_le_cos (x := x)
  have c1 := cos_le_one x
  have s : |x - sin x| ≤ |x| ^ 3 / 6 := by
    rcases le_total 0 x with h | h
    · have a := sin_le h
      have b := Real.sin_ge_sub_cube h
      rw [abs_of_nonneg h, abs_le]; constructor <;> linarith [pow_nonneg h 3]
    · have h' : 0 ≤ -x := by linarith
      have a := sin_le h'
      have b := Real.sin_ge_sub_cube h'
      rw [sin_neg] at a b
      rw [abs_of_nonpos h, abs_le]; constructor <;> linarith [pow_nonneg h' 3]
  have b1 : |cos H * (1 - cos x)| ≤ |x| ^ 2 / 2 := by
    rw [abs_mul, abs_of_nonneg (by linarith : 0 ≤ 1 - cos x), sq_abs]
    have := abs_cos_le_one H
    nlinarith
  have b2 : |sin H * (x - sin x)| ≤ |x| ^ 3 / 6 := by
    rw [abs_mul]
    have := abs_sin_le_one H
    nlinarith [abs_nonneg (x - sin x)]
  have b3 : |x| ^ 3 / 6 ≤ 0.04 * |x| ^ 2 := by
    have : |x| ^ 3 = |x| * |x| ^ 2 := by ring
    rw [this]
    norm_num at hx ⊢
    nlinarith [sq_nonneg |x|]
  refine (abs_add_le _ _).trans ?_
  refine (add_le_add b1 (b2.trans b3)).trans (le_of_eq ?_)
  ring_nf

theorem sin_diff {f g : ℝ} (hf : |f| ≤ 0.33) (hg : |g| ≤ 0.33) :
    |(f - g) - (sin f - sin g)| ≤ 0.055 * |f - g| := by
  have key := Convex.norm_image_sub_le_of_norm_hasDerivWithin_le (f := fun x : ℝ => x - sin x)
    (f' := fun x => 1 - cos x) (s := Set.Icc (-0.33 : ℝ) 0.33) (C := 0.055)
    (fun x _ => ((hasDerivAt_id x).sub (hasDerivAt_sin x)).hasDerivWithinAt)
    (fun x hx => by
      rw [Real.norm_eq_abs, abs_of_nonneg (by linarith [cos_le_one x])]
      have := one_sub_sq_div_two_le_cos (x := x)
      have h1 := hx.1
      have h2 := hx.2
      norm_num at h1 h2 ⊢
      nlinarith)
    (convex_Icc _ _) (abs_le.mp hg) (abs_le.mp hf)
  simp only [Real.norm_eq_abs] at key
  rw [show f - g - (sin f - sin g) = f - sin f - (g - sin g) by ring]
  exact key

/-- The correction of the code, compared with the error of the hour angle. -/
theorem rs_step {phi d dz H Hz h0 D : ℝ} (hz : altitude phi Hz dz = h0) (hh : |h0| ≤ 0.1)
    (hDe : D = cos d * cos phi * sin H) (hD : 0.3 ≤ |D|) (hx : |H - Hz| ≤ 0.135)
    (hd : |d - dz| ≤ 0.001) :
    |(altitude phi H d - h0) / (2 * π * D) + (H - Hz) / (2 * π)| ≤
      0.051 * |H - Hz| + 0.57 * |d - dz| := by
  have hp := Real.pi_gt_d4
  have hp' := Real.pi_lt_d4
  have hpi := pi_pos
  set f := altitude phi H d with hf
  set x := H - Hz with hxd
  have lip := altitude_lip phi H d Hz dz
  rw [hz, ← hf, ← hxd] at lip
  have lip2 : |f - h0| ≤ 0.22 := by
    refine lip.trans ?_
    have : |x| + |d - dz| ≤ 0.136 := by norm_num at hx hd ⊢; linarith
    have := mul_le_mul (show π / 2 ≤ 1.5708 by norm_num at hp' ⊢; linarith) this (by positivity) (by norm_num)
    refine this.trans (by norm_num)
  have f1 : |f| ≤ 0.33 := by
    have := abs_add_le (f - h0) h0
    rw [sub_add_cancel] at this
    norm_num at lip2 hh ⊢; linarith
  have hs := sin_diff f1 (hh.trans (by norm_num : (0.1 : ℝ) ≤ 0.33))
  have e1 : sin f = sin phi * sin d + cos phi * cos d * cos H := sin_altitude phi H d
  have e2 : sin h0 = sin phi * sin dz + cos phi * cos dz * cos Hz := by rw [← hz]; exact sin_altitude phi Hz dz
  set S := sin f - sin h0 with hS
  -- the change of the sine
  set R := S + D * x with hR
  have R1 : |R| ≤ 0.54 * |x| ^ 2 + |d - dz| := by
    have e : R = cos phi * cos d * (cos H - cos Hz + sin H * x) +
        (sin phi * (sin d - sin dz) + cos phi * cos Hz * (cos d - cos dz)) := by
      rw [hR, hS, e1, e2, hDe]; ring
    rw [e]
    refine (abs_add_le _ _).trans (add_le_add ?_ (dec_change (abs_cos_le_one Hz)))
    rw [abs_mul, abs_mul]
    have c := cos_step H Hz (hx.trans (by norm_num))
    have q : |cos phi| * |cos d| ≤ 1 := mul_le_one₀ (abs_cos_le_one _) (abs_nonneg _) (abs_cos_le_one _)
    calc _ ≤ 1 * |cos H - cos Hz + sin H * x| := mul_le_mul_of_nonneg_right q (abs_nonneg _)
      _ ≤ _ := by rw [one_mul]; exact c
  have R2 : |R| ≤ 0.073 * |x| + |d - dz| := by
    refine R1.trans ?_
    have : |x| ^ 2 ≤ 0.135 * |x| := by
      rw [pow_two]; exact mul_le_mul_of_nonneg_right hx (abs_nonneg _)
    norm_num at this ⊢
    linarith [abs_nonneg x]
  have D0 : D ≠ 0 := by
    intro h; rw [h] at hD; norm_num at hD
  have SB : |S| ≤ |D| * |x| + |R| := by
    have : S = R - D * x := by rw [hR]; ring
    rw [this, ← abs_mul]
    have := abs_sub R (D * x)
    linarith
  have FS : |(f - h0) - S| ≤ 0.0583 * |S| := by
    have a := abs_add_le ((f - h0) - S) S
    rw [sub_add_cancel] at a
    norm_num at hs ⊢
    linarith [abs_nonneg S, abs_nonneg ((f - h0) - S)]
  have e : (f - h0) / (2 * π * D) + x / (2 * π) = (((f - h0) - S) + R) / (2 * π * D) := by
    rw [hR]; field_simp; ring
  rw [e, abs_div, abs_mul, abs_of_pos (by positivity : (0 : ℝ) < 2 * π),
    div_le_iff₀ (by positivity)]
  have a := abs_add_le ((f - h0) - S) R
  have g1 : 0.0583 * (|D| * |x|) + 1.0583 * |R| ≤ (0.051 * |x| + 0.57 * |d - dz|) * (2 * π * |D|) := by
    have k1 : (6.283 : ℝ) ≤ 2 * π := by norm_num at hp ⊢; linarith
    have k2 : 6.283 * |D| ≤ 2 * π * |D| := mul_le_mul_of_nonneg_right k1 (abs_nonneg _)
    have k3 : (0.051 * |x| + 0.57 * |d - dz|) * (6.283 * |D|) ≤ (0.051 * |x| + 0.57 * |d - dz|) * (2 * π * |D|) :=
      mul_le_mul_of_nonneg_left k2 (by positivity)
    have k4 : 0.3 * |x| ≤ |D| * |x| := mul_le_mul_of_nonneg_right hD (abs_nonneg _)
    have k5 : 0.3 * |d - dz| ≤ |D| * |d - dz| := mul_le_mul_of_nonneg_right hD (abs_nonneg _)
    refine le_trans ?_ k3
    have x0 := abs_nonneg x
    have d0 := abs_nonneg (d - dz)
    generalize |x| = X at *
    generalize |d - dz| = E at *
    generalize |D| = B at *
    have e : (0.051 * X + 0.57 * E) * (6.283 * B) = 0.320433 * (B * X) + 3.58131 * (B * E) := by
      norm_num; ring
    rw [e]
    norm_num at k4 k5 R2 ⊢
    linarith
  refine a.trans (le_trans ?_ g1)
  norm_num at FS SB ⊢
  linarith [abs_nonneg R]

/-! ### The loop of `_riseset` -/

/-- The hour angle of the code, up to whole turns. -/
noncomputable def codeH (jd lon dT : ℝ) (u : ℝ × ℝ × ℝ) (m : ℝ) : ℝ :=
  gmstDegrees jd * (π / 180) + rsK1 * m - lon - parabola u (m + dT)

theorem codeH_congr {jd lon th dT m : ℝ} {y u : ℝ × ℝ × ℝ} (hr : Reduced y u)
    (ht : Congr (2 * π) th (gmstDegrees jd * (π / 180))) :
    Congr (2 * π) (diffAngle 0 (modpi2 (th + rsK1 * m) - lon - (y.2.1 - u.2.1 + parabola u (m + dT))))
      (codeH jd lon dT u m) := by
  refine congr_trans (diff_angle_congr _ _) ?_
  obtain ⟨a, ea⟩ := ht
  obtain ⟨b, eb⟩ := hr.2.1.2.2
  obtain ⟨c, ec⟩ := (modpi2_spec (th + rsK1 * m)).2.2
  refine ⟨a + c - b, ?_⟩
  unfold codeH
  rw [ec]
  push_cast
  linear_combination ea - eb

/-- The hour angle of the code compared with the true hour angle at another time. -/
theorem codeH_diff {jd lon dT m z s c r : ℝ} {u : ℝ × ℝ × ℝ} (hj : |jd - 2451545| ≤ 1100000)
    (hs : Slow s c u) (hz : |z| ≤ 1.2) (hn : |m + dT| ≤ r) (hn' : |z + dT| ≤ r) :
    |codeH jd lon dT u m - hourAngle jd lon dT u z - rsK1 * (m - z)| ≤ (s + r * c) * |m - z| + 2.3e-8 := by
  have g := gmst_uniform hj hz
  have l := parabola_lip hs hn hn'
  rw [show m + dT - (z + dT) = m - z by ring] at l
  have e : codeH jd lon dT u m - hourAngle jd lon dT u z - rsK1 * (m - z) =
      -(parabola u (m + dT) - parabola u (z + dT)) -
        (gmstDegrees (jd + z) - gmstDegrees jd - 360.985647 * z) * (π / 180) := by
    unfold codeH hourAngle rsK1 dToR
    norm_num
    ring
  rw [e]
  refine (abs_sub _ _).trans (add_le_add (by rw [abs_neg]; exact l) ?_)
  rw [abs_mul, abs_of_pos (by positivity : (0 : ℝ) < π / 180)]
  have hp := Real.pi_lt_d4
  have := mul_le_mul g (show π / 180 ≤ 3.1416 / 180 by linarith) (by positivity) (by norm_num)
  refine this.trans (by norm_num)

/-- One pass of the loop with a factor in `(-1, 1)`. -/
theorem riseset_pass {jd : ℚ} {th dT h0 delta lon lat phi m s c : ℝ} {y u d : ℝ × ℝ × ℝ} (hr : Reduced y u)
    (hs : Slow s c u) (s1 : s < π) (c1 : c < π) (ht : Congr (2 * π) th (gmstDegrees jd * (π / 180)))
    (hn0 : -1 < m + dT) (hn1 : m + dT < 1) (k : ℕ) :
    risesetLoop jd th dT y d h0 delta lon lat phi (k + 1) m =
      let D := cos (parabola d (m + dT)) * cos lat * sin (codeH jd lon dT u m)
      if D = 0 then if k = 0 then .error (.Error "riseset" "bailout") else .ok none
      else
        let m' := m + (altitude phi (codeH jd lon dT u m) (parabola d (m + dT)) - h0) / (2 * π * D)
        if |m' - m| < delta then .ok (some (jd + m')) else risesetLoop jd th dT y d h0 delta lon lat phi k m' := by
  have hH := codeH_congr (lon := lon) (dT := dT) (m := m) hr ht
  have ra := code_ra hr hs s1 c1 hn0 hn1
  have de := code_dec d hn0 hn1
  conv_lhs => unfold risesetLoop
  simp only [bind, Except.bind]
  rw [if_neg (by tauto), ra, de]
  simp only
  rw [altitude_code, altitude_congr hH, sin_congr hH]
  have e : pi2 * cos (parabola d (m + dT)) * cos lat * sin (codeH jd lon dT u m) =
      2 * π * (cos (parabola d (m + dT)) * cos lat * sin (codeH jd lon dT u m)) := by unfold pi2; ring
  rw [e]
  have hp := pi_pos
  by_cases h : cos (parabola d (m + dT)) * cos lat * sin (codeH jd lon dT u m) = 0
  · rw [if_pos (by rw [h, mul_zero]), if_pos h]
  · rw [if_neg (mul_ne_zero (by positivity) h), if_neg h]

/-- What the loop needs to know: `z` is the time at which an object, moving not faster than the Sun, passes
the altitude `h0` with enough vertical speed. -/
structure RiseState (jd : ℚ) (y u d : ℝ × ℝ × ℝ) (lon phi h0 th dT z : ℝ) : Prop where
  era : |(jd : ℝ) - 2451545| ≤ 1100000
  red : Reduced y u
  slow : Slow 0.02 0.001 u
  slowd : Slow 0.0075 0.001 d
  theta : Congr (2 * π) th (gmstDegrees jd * (π / 180))
  event : altitude phi (hourAngle jd lon dT u z) (parabola d (z + dT)) = h0
  h0s : |h0| ≤ 0.1
  steep : 0.45 ≤ |cos (parabola d (z + dT)) * cos phi * sin (hourAngle jd lon dT u z)|
  z1 : |z| ≤ 1.1
  fac : |z + dT| ≤ 0.97

theorem RiseState.pass {jd : ℚ} {y u d : ℝ × ℝ × ℝ} {lon phi h0 th dT z : ℝ}
    (S : RiseState jd y u d lon phi h0 th dT z) (delta : ℝ) (k : ℕ) {m : ℝ} (hm : |m - z| ≤ 0.0205) :
    ∃ m', |m' - z| ≤ 0.34 * |m - z| + 1e-8 ∧ risesetLoop jd th dT y d h0 delta lon phi phi (k + 1) m =
      if |m' - m| < delta then .ok (some (jd + m')) else risesetLoop jd th dT y d h0 delta lon phi phi k m' := by
  have hp := Real.pi_gt_d4
  have hpi := pi_pos
  norm_num at hp
  have hk := rsK1_bounds
  have f := abs_le.mp S.fac
  have hm' := abs_le.mp hm
  norm_num at f hm' hk
  have hn : |m + dT| ≤ 1 := by rw [abs_le]; constructor <;> linarith
  have hz : |z + dT| ≤ 1 := S.fac.trans (by norm_num)
  rw [riseset_pass S.red S.slow (by norm_num; linarith) (by norm_num; linarith) S.theta (by linarith)
    (by linarith) k]
  have cd := codeH_diff (lon := lon) S.era S.slow (S.z1.trans (by norm_num)) hn hz
  have dd := parabola_lip S.slowd hn hz
  rw [show m + dT - (z + dT) = m - z by ring] at dd
  have st := S.steep
  have ev := S.event
  set H := codeH jd lon dT u m
  set Hz := hourAngle jd lon dT u z
  set de := parabola d (m + dT)
  set dz := parabola d (z + dT)
  have e0 := abs_nonneg (m - z)
  have cdb : |H - Hz| ≤ 6.322 * |m - z| + 2.3e-8 := by
    have : H - Hz = (H - Hz - rsK1 * (m - z)) + rsK1 * (m - z) := by ring
    rw [this]
    refine (abs_add_le _ _).trans ?_
    rw [abs_mul rsK1, abs_of_pos (by linarith : 0 < rsK1)]
    have : rsK1 * |m - z| ≤ 6.301 * |m - z| := mul_le_mul_of_nonneg_right (by norm_num; linarith) e0
    norm_num at cd this ⊢
    linarith
  have x1 : |H - Hz| ≤ 0.135 := by norm_num at cdb hm ⊢; linarith
  have ddb : |de - dz| ≤ 0.0085 * |m - z| := dd.trans (by norm_num)
  have d1 : |de - dz| ≤ 0.001 := by norm_num at ddb hm ⊢; linarith
  set D := cos de * cos phi * sin H with hD
  have Dlow : 0.3 ≤ |D| := by
    have e : cos dz * cos phi * sin Hz - D = cos phi * (cos dz * (sin Hz - sin H) + (cos dz - cos de) * sin H) := by
      rw [hD]; ring
    have b : |cos dz * cos phi * sin Hz - D| ≤ |H - Hz| + |de - dz| := by
      rw [e, abs_mul]
      have b1 : |cos dz * (sin Hz - sin H)| ≤ |H - Hz| := by
        rw [abs_mul, abs_sub_comm H Hz]
        exact (mul_le_mul (abs_cos_le_one _) (abs_sin_sub_sin_le _ _) (abs_nonneg _) zero_le_one).trans
          (by rw [one_mul])
      have b2 : |(cos dz - cos de) * sin H| ≤ |de - dz| := by
        rw [abs_mul, abs_sub_comm de dz]
        exact (mul_le_mul (abs_cos_sub_cos_le _ _) (abs_sin_le_one _) (abs_nonneg _) (abs_nonneg _)).trans
          (by rw [mul_one])
      have b3 := (abs_add_le (cos dz * (sin Hz - sin H)) ((cos dz - cos de) * sin H)).trans (add_le_add b1 b2)
      calc _ ≤ 1 * _ := mul_le_mul_of_nonneg_right (abs_cos_le_one phi) (abs_nonneg _)
        _ ≤ _ := by rw [one_mul]; exact b3
    have t := abs_sub_abs_le_abs_sub (cos dz * cos phi * sin Hz) D
    generalize cos dz * cos phi * sin Hz = Q at st b t
    norm_num at st x1 d1 ⊢
    linarith
  have D0 : D ≠ 0 := by intro h; rw [h] at Dlow; norm_num at Dlow
  simp only
  rw [if_neg D0]
  refine ⟨m + (altitude phi H de - h0) / (2 * π * D), ?_, rfl⟩
  have step := rs_step ev S.h0s hD Dlow x1 d1
  set F := (altitude phi H de - h0) / (2 * π * D)
  have e : m + F - z = (F + (H - Hz) / (2 * π)) - (H - Hz - rsK1 * (m - z)) / (2 * π) -
      0.985647 / 360 * (m - z) := by
    rw [rsK1_eq]; field_simp; ring
  rw [e]
  have q1 : |(H - Hz - rsK1 * (m - z)) / (2 * π)| ≤ 0.00335 * |m - z| + 3.7e-9 := by
    rw [abs_div, abs_of_pos (by positivity : (0 : ℝ) < 2 * π), div_le_iff₀ (by positivity)]
    refine cd.trans ?_
    have : 0 ≤ (0.00335 * |m - z| + 3.7e-9) * (2 * π - 6.283) := by
      refine mul_nonneg (by positivity) (by norm_num; linarith)
    norm_num at this ⊢
    linarith
  have q2 : |0.985647 / 360 * (m - z)| ≤ 0.00274 * |m - z| := by
    rw [abs_mul]
    refine mul_le_mul_of_nonneg_right ?_ e0
    rw [abs_of_pos] <;> norm_num
  have t1 := abs_sub (F + (H - Hz) / (2 * π) - (H - Hz - rsK1 * (m - z)) / (2 * π)) (0.985647 / 360 * (m - z))
  have t2 := abs_sub (F + (H - Hz) / (2 * π)) ((H - Hz - rsK1 * (m - z)) / (2 * π))
  refine t1.trans ?_
  norm_num at q1 q2 step cdb ddb t2 ⊢
  linarith

theorem RiseState.loop {jd : ℚ} {y u d : ℝ × ℝ × ℝ} {lon phi h0 th dT z : ℝ}
    (S : RiseState jd y u d lon phi h0 th dT z) (delta : ℝ) :
    ∀ (k : ℕ) (m E : ℝ), 0 ≤ E → |m - z| ≤ E + 1e-8 / 0.66 → E ≤ 0.02 →
      1.34 * (0.34 ^ k * E + 1e-8 / 0.66) + 1e-8 < delta →
      ∃ t, risesetLoop jd th dT y d h0 delta lon phi phi (k + 1) m = .ok (some t) ∧
        |t - (jd + z)| ≤ 0.52 * delta + 2e-8 := by
  intro k
  induction k with
  | zero =>
    intro m E hE he h1 hd
    obtain ⟨m', c, e⟩ := S.pass delta 0 (m := m) (by norm_num at h1 he ⊢; linarith)
    have a1 : |m' - m| ≤ |m' - z| + |m - z| := by
      have := abs_sub_le m' z m
      rwa [abs_sub_comm z m] at this
    have a0 : |m - z| ≤ |m' - m| + |m' - z| := by
      have := abs_sub_le m m' z
      rwa [abs_sub_comm m m'] at this
    norm_num at c hd he
    have lt : |m' - m| < delta := by linarith
    refine ⟨jd + m', by rw [e, if_pos lt], ?_⟩
    rw [show (jd : ℝ) + m' - (jd + z) = m' - z by ring]
    norm_num
    linarith
  | succ k ih =>
    intro m E hE he h1 hd
    obtain ⟨m', c, e⟩ := S.pass delta (k + 1) (m := m) (by norm_num at h1 he ⊢; linarith)
    have a0 : |m - z| ≤ |m' - m| + |m' - z| := by
      have := abs_sub_le m m' z
      rwa [abs_sub_comm m m'] at this
    rw [e]
    by_cases lt : |m' - m| < delta
    · refine ⟨jd + m', if_pos lt, ?_⟩
      rw [show (jd : ℝ) + m' - (jd + z) = m' - z by ring]
      have := (abs_nonneg _).trans_lt lt
      norm_num at c ⊢
      linarith
    · rw [if_neg lt]
      refine ih m' (0.34 * E) (by positivity) ?_ (by norm_num at h1 ⊢; linarith) ?_
      · norm_num at c he ⊢; linarith
      · rw [pow_succ] at hd
        refine lt_of_eq_of_lt ?_ hd
        ring

end Verif
