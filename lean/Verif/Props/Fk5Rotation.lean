import Verif.Lemmas.Fk5Rotation
import Verif.Props.Fk5
import Verif.Props.Elongation

/-!
# C98: the reduction to the FK5 system is a rotation of the reference frame

The published formula (Meeus 1998, equation 32.3) is stated exactly.  Its meaning is stated on its own:
the two frames differ by a tiny rotation about an axis which is fixed among the stars.
-/

namespace Verif
open Real

/-- C98: the published formula, for all times, longitudes and latitudes. -/
theorem vsop_to_fk5_formula (jd L B : ℝ) :
    0 ≤ (vsopToFk5 jd L B).1 ∧ (vsopToFk5 jd L B).1 < 2 * π ∧
    Congr (2 * π) (vsopToFk5 jd L B).1 (L - arcsec 0.09033 + arcsec 0.03916 *
      (cos (L - fkPrecession (centuries jd)) + sin (L - fkPrecession (centuries jd))) * tan B) ∧
    (vsopToFk5 jd L B).2 = B + arcsec 0.03916 *
      (cos (L - fkPrecession (centuries jd)) - sin (L - fkPrecession (centuries jd))) := by
  have e : polyR [L, fk0, fk1] (jcent jd) = L - fkPrecession (centuries jd) := by
    rw [polyR_fk]; unfold fkArg fkPrecession
    rw [fk0_eq, fk1_eq, show jcent jd = centuries jd from rfl]; unfold deg; ring
  refine ⟨(modpi2_spec _).1, (modpi2_spec _).2.1, congr_trans (modpi2_spec _).2.2 ⟨0, ?_⟩, ?_⟩
  · rw [e, fk2_eq, fk3_eq]
    have : arcsec (-0.09033) = -arcsec 0.09033 := by unfold arcsec; ring
    rw [this]; push_cast; ring
  · unfold vsopToFk5
    simp only [e, fk3_eq]

/-- C98: for every time, longitude and latitude other than the poles, the corrected direction is the
given one turned by the rotation vector `fkAxis`, up to terms of second order. -/
theorem vsop_to_fk5_rotation (jd L B : ℝ) (hB : cos B ≠ 0) :
    ((direction (vsopToFk5 jd L B).1 (vsopToFk5 jd L B).2).sub
      ((direction L B).plus ((fkAxis (centuries jd)).cross (direction L B)))).norm ≤
      2 * arcsec (0.09033 + 0.0554 * |tan B|) ^ 2 + 3 * arcsec 0.0554 ^ 2 := by
  obtain ⟨-, -, f1, f2⟩ := vsop_to_fk5_formula jd L B
  rw [direction_congr f1 (congr_refl _), f2]
  unfold fkAxis fkAxis2000
  generalize hφ : fkPrecession (centuries jd) = φ
  have ea : arcsec (-0.09033) = -arcsec 0.09033 := by unfold arcsec; ring
  have ek : arcsec (-0.03916) = -arcsec 0.03916 := by unfold arcsec; ring
  rw [ea, ek]
  have k0 : 0 ≤ arcsec 0.03916 := by unfold arcsec; positivity
  have a0 : 0 ≤ arcsec 0.09033 := by unfold arcsec; positivity
  have kq : arcsec 0.03916 * 1.41422 ≤ arcsec 0.0554 := by
    unfold arcsec; nlinarith [pi_pos]
  have hp : |-arcsec 0.09033 + arcsec 0.03916 * (cos (L - φ) + sin (L - φ)) * tan B| ≤
      arcsec (0.09033 + 0.0554 * |tan B|) := by
    have q := mul_le_mul_of_nonneg_left ((abs_cos_add_sin (L - φ)).trans sqrt_two_bound) k0
    have q' := mul_le_mul_of_nonneg_right (q.trans kq) (abs_nonneg (tan B))
    refine (abs_add_le _ _).trans ?_
    rw [abs_neg, abs_of_nonneg a0, abs_mul, abs_mul, abs_of_nonneg k0]
    have : arcsec (0.09033 + 0.0554 * |tan B|) = arcsec 0.09033 + arcsec 0.0554 * |tan B| := by
      unfold arcsec; ring
    rw [this]; linarith
  have hq : |arcsec 0.03916 * (cos (L - φ) - sin (L - φ))| ≤ arcsec 0.0554 := by
    rw [abs_mul, abs_of_nonneg k0]
    exact (mul_le_mul_of_nonneg_left ((abs_cos_sub_sin (L - φ)).trans sqrt_two_bound) k0).trans kq
  have t := direction_tangent L B (-arcsec 0.09033 + arcsec 0.03916 * (cos (L - φ) + sin (L - φ)) * tan B)
    (arcsec 0.03916 * (cos (L - φ) - sin (L - φ)))
  have hp2 := sq_le_sq' (by linarith [(abs_le.mp hp).1]) (abs_le.mp hp).2
  have hq2 := sq_le_sq' (by linarith [(abs_le.mp hq).1]) (abs_le.mp hq).2
  have tb : tan B * cos B = sin B := tan_mul_cos hB
  rw [show L - arcsec 0.09033 + arcsec 0.03916 * (cos (L - φ) + sin (L - φ)) * tan B =
    L + (-arcsec 0.09033 + arcsec 0.03916 * (cos (L - φ) + sin (L - φ)) * tan B) by ring]
  have key : (turnZ φ ⟨-arcsec 0.03916, -arcsec 0.03916, -arcsec 0.09033⟩).cross (direction L B) =
      ⟨-((-arcsec 0.09033 + arcsec 0.03916 * (cos (L - φ) + sin (L - φ)) * tan B) * cos B * sin L) -
          arcsec 0.03916 * (cos (L - φ) - sin (L - φ)) * sin B * cos L,
        (-arcsec 0.09033 + arcsec 0.03916 * (cos (L - φ) + sin (L - φ)) * tan B) * cos B * cos L -
          arcsec 0.03916 * (cos (L - φ) - sin (L - φ)) * sin B * sin L,
        arcsec 0.03916 * (cos (L - φ) - sin (L - φ)) * cos B⟩ := by
    have one := sin_sq_add_cos_sq L
    rw [cos_sub, sin_sub]
    simp only [V3.cross, turnZ, direction]
    rw [← tb]
    generalize arcsec 0.03916 = k
    generalize arcsec 0.09033 = a
    generalize tan B = m
    ext
    · simp only
      linear_combination (k * m * cos B * (cos φ + sin φ)) * one
    · simp only
      linear_combination (-k * m * cos B * (cos φ - sin φ)) * one
    · simp only
      ring
  rw [key]
  linarith

/-- C98: for the latitudes of the planets and of the Sun the terms of second order are below `8e-13`
(0.2 microseconds of arc). -/
theorem vsop_to_fk5_rotation_planets (jd L B : ℝ) (hB : |B| ≤ 0.2) :
    ((direction (vsopToFk5 jd L B).1 (vsopToFk5 jd L B).2).sub
      ((direction L B).plus ((fkAxis (centuries jd)).cross (direction L B)))).norm ≤ 8e-13 := by
  have hc : cos B ≠ 0 := by
    have h1 := one_sub_sq_div_two_le_cos (x := B)
    have h2 := sq_le_sq' (abs_le.mp hB).1 (abs_le.mp hB).2
    have : 0 < cos B := by norm_num at h2 ⊢; linarith
    exact this.ne'
  refine (vsop_to_fk5_rotation jd L B hc).trans ?_
  have t := tan_lip hB (show |(0 : ℝ)| ≤ 0.2 by norm_num)
  rw [tan_zero, sub_zero, sub_zero] at t
  have h1 : arcsec (0.09033 + 0.0554 * |tan B|) ≤ 5e-7 := by
    have : arcsec (0.09033 + 0.0554 * |tan B|) ≤ arcsec 0.10252 := by
      rw [arcsec_le]; norm_num at t hB ⊢; linarith
    refine this.trans ?_
    unfold arcsec; have := pi_lt_d4; norm_num at this ⊢; linarith
  have h2 : arcsec 0.0554 ≤ 2.7e-7 := by
    unfold arcsec; have := pi_lt_d4; norm_num at this ⊢; linarith
  have g1 : 0 ≤ arcsec (0.09033 + 0.0554 * |tan B|) := by unfold arcsec; positivity
  have g2 : 0 ≤ arcsec 0.0554 := by unfold arcsec; positivity
  have e1 := pow_le_pow_left₀ g1 h1 2
  have e2 := pow_le_pow_left₀ g2 h2 2
  norm_num at e1 e2 ⊢
  linarith

/-- C98: the rotation vector has at all times the same length, 0.10596 seconds of arc. -/
theorem fk_axis_length (T : ℝ) : (fkAxis T).norm = (fkAxis2000).norm ∧ (fkAxis T).norm ≤ arcsec 0.10596 ∧
    arcsec 0.10595 ≤ (fkAxis T).norm := by
  have e : (fkAxis T).norm = (fkAxis2000).norm := by
    unfold V3.norm fkAxis turnZ
    congr 1
    have := sin_sq_add_cos_sq (fkPrecession T)
    simp only
    linear_combination (fkAxis2000.x ^ 2 + fkAxis2000.y ^ 2) * this
  refine ⟨e, ?_, ?_⟩
  · rw [e]; unfold V3.norm fkAxis2000
    rw [Real.sqrt_le_left (by unfold arcsec; positivity)]
    unfold arcsec
    have := sq_nonneg (π / 648000)
    nlinarith
  · rw [e]; unfold V3.norm fkAxis2000
    refine Real.le_sqrt_of_sq_le ?_
    unfold arcsec
    have := sq_nonneg (π / 648000)
    nlinarith

/-- C98: the correction keeps the angles between directions: the scalar product of two corrected
directions is that of the given ones up to `2.2e-12`. -/
theorem vsop_to_fk5_isometry (jd L B L' B' : ℝ) (hB : |B| ≤ 0.2) (hB' : |B'| ≤ 0.2) :
    |(direction (vsopToFk5 jd L B).1 (vsopToFk5 jd L B).2).dot
      (direction (vsopToFk5 jd L' B').1 (vsopToFk5 jd L' B').2) - (direction L B).dot (direction L' B')|
      ≤ 2.2e-12 := by
  have r1 := vsop_to_fk5_rotation_planets jd L B hB
  have r2 := vsop_to_fk5_rotation_planets jd L' B' hB'
  have w := (fk_axis_length (centuries jd)).2.1
  have n1 := norm_direction (vsopToFk5 jd L B).1 (vsopToFk5 jd L B).2
  have n2 := norm_direction (vsopToFk5 jd L' B').1 (vsopToFk5 jd L' B').2
  have m1 := norm_direction L B
  have m2 := norm_direction L' B'
  generalize direction (vsopToFk5 jd L B).1 (vsopToFk5 jd L B).2 = v' at *
  generalize direction (vsopToFk5 jd L' B').1 (vsopToFk5 jd L' B').2 = w' at *
  generalize direction L B = v at *
  generalize direction L' B' = u at *
  generalize fkAxis (centuries jd) = o at *
  have o1 : o.norm ≤ 5.2e-7 := by
    refine w.trans ?_
    unfold arcsec; have := pi_lt_d4; norm_num at this ⊢; linarith
  have o0 : 0 ≤ o.norm := Real.sqrt_nonneg _
  have c1 := cross_le o v
  have c2 := cross_le o u
  rw [m1, mul_one] at c1
  rw [m2, mul_one] at c2
  have d1 := abs_dot_le (o.cross v) (o.cross u)
  have d2 : |(o.cross v).dot (o.cross u)| ≤ 5.2e-7 * 5.2e-7 :=
    d1.trans (mul_le_mul (c1.trans o1) (c2.trans o1) (Real.sqrt_nonneg _) (by norm_num))
  have e1 := abs_dot_le (v'.sub (v.plus (o.cross v))) w'
  rw [n2, mul_one] at e1
  have e2 := abs_dot_le (v.plus (o.cross v)) (w'.sub (u.plus (o.cross u)))
  have p1 : (v.plus (o.cross v)).norm ≤ 1.001 := by
    have t := norm_triangle (v.plus (o.cross v)) v' ⟨0, 0, 0⟩
    have z : ∀ x : V3, x.sub ⟨0, 0, 0⟩ = x := by intro x; simp [V3.sub]
    rw [z, z, n1, norm_sub_comm] at t
    norm_num at t r1 ⊢; linarith
  have e3 : |(v.plus (o.cross v)).dot (w'.sub (u.plus (o.cross u)))| ≤ 1.001 * 8e-13 :=
    e2.trans (mul_le_mul p1 r2 (Real.sqrt_nonneg _) (by norm_num))
  have id : v'.dot w' - v.dot u = (v'.sub (v.plus (o.cross v))).dot w' +
      (v.plus (o.cross v)).dot (w'.sub (u.plus (o.cross u))) + (o.cross v).dot (o.cross u) := by
    simp only [V3.dot, V3.sub, V3.plus, V3.cross]; ring
  rw [id]
  refine (abs_add_le _ _).trans ((add_le_add (abs_add_le _ _) le_rfl).trans ?_)
  have e1' := e1.trans r1
  norm_num at e1' e3 d2 ⊢; linarith

example : cos (0.1 : ℝ) ≠ 0 := (cos_pos_of_mem_Ioo ⟨by linarith [pi_gt_three], by linarith [pi_gt_three]⟩).ne'

example : |(0.1 : ℝ)| ≤ 0.2 ∧ |(-0.05 : ℝ)| ≤ 0.2 := by constructor <;> norm_num

end Verif
