import Verif.Spec.Fk5
import Mathlib.Analysis.Calculus.Deriv.MeanValue
import Mathlib.Analysis.SpecialFunctions.Trigonometric.Bounds
import Mathlib.Analysis.SpecialFunctions.Trigonometric.Deriv

/-!
# First order change of a direction
-/

namespace Verif
open Real

theorem sub_sin_le {s : ℝ} (h : 0 ≤ s) : s - sin s ≤ s ^ 2 / 2 := by
  have m : MonotoneOn (fun s : ℝ => s ^ 2 / 2 - s + sin s) (Set.Ici 0) := by
    refine monotoneOn_of_deriv_nonneg (convex_Ici 0) (by fun_prop) (by fun_prop) ?_
    intro x hx
    rw [interior_Ici, Set.mem_Ioi] at hx
    have hd : HasDerivAt (fun s : ℝ => s ^ 2 / 2 - s + sin s) (2 * x / 2 - 1 + cos x) x := by
      have a := ((hasDerivAt_pow 2 x).div_const 2).sub (hasDerivAt_id x)
      have b := a.add (hasDerivAt_sin x)
      refine b.congr_deriv ?_
      norm_num
    rw [hd.deriv]
    have := abs_cos_sub_cos_le x 0
    rw [cos_zero, sub_zero, abs_of_pos hx] at this
    have := (abs_le.mp this).1
    linarith
  have := m (Set.mem_Ici.mpr le_rfl) (Set.mem_Ici.mpr h) h
  simp at this
  linarith

theorem abs_sin_sub_self_le (s : ℝ) : |sin s - s| ≤ s ^ 2 / 2 := by
  rcases le_total 0 s with h | h
  · rw [abs_sub_comm, abs_of_nonneg (by linarith [sin_le h])]
    exact sub_sin_le h
  · have := sub_sin_le (neg_nonneg.mpr h)
    rw [sin_neg] at this
    have k := sin_le (neg_nonneg.mpr h)
    rw [sin_neg] at k
    rw [abs_of_nonneg (by linarith)]
    nlinarith

theorem abs_cos_sub_one_le (s : ℝ) : |cos s - 1| ≤ s ^ 2 / 2 := by
  have := one_sub_sq_div_two_le_cos (x := s)
  rw [abs_sub_comm, abs_of_nonneg (by linarith [cos_le_one s])]; linarith

theorem cos_tangent (u s : ℝ) : |cos (u + s) - cos u + s * sin u| ≤ s ^ 2 := by
  have e : cos (u + s) - cos u + s * sin u = cos u * (cos s - 1) - sin u * (sin s - s) := by
    rw [cos_add]; ring
  rw [e]
  refine (abs_sub _ _).trans ?_
  rw [abs_mul, abs_mul]
  have a := mul_le_mul (abs_cos_le_one u) (abs_cos_sub_one_le s) (abs_nonneg _) zero_le_one
  have b := mul_le_mul (abs_sin_le_one u) (abs_sin_sub_self_le s) (abs_nonneg _) zero_le_one
  linarith

theorem sin_tangent (u s : ℝ) : |sin (u + s) - sin u - s * cos u| ≤ s ^ 2 := by
  have e : sin (u + s) - sin u - s * cos u = sin u * (cos s - 1) + cos u * (sin s - s) := by
    rw [sin_add]; ring
  rw [e]
  refine (abs_add_le _ _).trans ?_
  rw [abs_mul, abs_mul]
  have a := mul_le_mul (abs_sin_le_one u) (abs_cos_sub_one_le s) (abs_nonneg _) zero_le_one
  have b := mul_le_mul (abs_cos_le_one u) (abs_sin_sub_self_le s) (abs_nonneg _) zero_le_one
  linarith

/-- First order change of a direction. -/
theorem direction_tangent (L B p q : ℝ) :
    ((direction (L + p) (B + q)).sub ((direction L B).plus
      ⟨-(p * cos B * sin L) - q * sin B * cos L, p * cos B * cos L - q * sin B * sin L, q * cos B⟩)).norm
      ≤ 2 * p ^ 2 + 3 * q ^ 2 := by
  have n : ∀ v : V3, v.norm ≤ |v.x| + |v.y| + |v.z| := by
    intro v
    unfold V3.norm
    rw [Real.sqrt_le_left (by positivity)]
    have a := abs_nonneg v.x
    have b := abs_nonneg v.y
    have c := abs_nonneg v.z
    rw [← sq_abs v.x, ← sq_abs v.y, ← sq_abs v.z]
    nlinarith [mul_nonneg a b, mul_nonneg a c, mul_nonneg b c]
  refine (n _).trans ?_
  simp only [V3.sub, V3.plus, direction]
  have hx : cos (B + q) * cos (L + p) - (cos B * cos L + (-(p * cos B * sin L) - q * sin B * cos L)) =
      ((cos ((L + B) + (p + q)) - cos (L + B) + (p + q) * sin (L + B)) +
       (cos ((L - B) + (p - q)) - cos (L - B) + (p - q) * sin (L - B))) / 2 := by
    rw [show (L + B) + (p + q) = (L + p) + (B + q) by ring,
      show (L - B) + (p - q) = (L + p) - (B + q) by ring, cos_add (L + p), cos_sub (L + p), cos_add L B,
      cos_sub L B, sin_add L B, sin_sub L B]; ring
  have hy : cos (B + q) * sin (L + p) - (cos B * sin L + (p * cos B * cos L - q * sin B * sin L)) =
      ((sin ((L + B) + (p + q)) - sin (L + B) - (p + q) * cos (L + B)) +
       (sin ((L - B) + (p - q)) - sin (L - B) - (p - q) * cos (L - B))) / 2 := by
    rw [show (L + B) + (p + q) = (L + p) + (B + q) by ring,
      show (L - B) + (p - q) = (L + p) - (B + q) by ring, sin_add (L + p), sin_sub (L + p), cos_add L B,
      cos_sub L B, sin_add L B, sin_sub L B]; ring
  have hz : sin (B + q) - (sin B + q * cos B) = sin (B + q) - sin B - q * cos B := by ring
  rw [hx, hy, hz, abs_div, abs_div, abs_of_pos (by norm_num : (0 : ℝ) < 2)]
  have x1 := (abs_add_le _ _).trans (add_le_add (cos_tangent (L + B) (p + q)) (cos_tangent (L - B) (p - q)))
  have y1 := (abs_add_le _ _).trans (add_le_add (sin_tangent (L + B) (p + q)) (sin_tangent (L - B) (p - q)))
  have z1 := sin_tangent B q
  nlinarith

theorem cross_le (o v : V3) : (o.cross v).norm ≤ o.norm * v.norm := by
  unfold V3.norm V3.cross
  rw [← Real.sqrt_mul (by positivity)]
  apply Real.sqrt_le_sqrt
  nlinarith [sq_nonneg (o.x * v.x + o.y * v.y + o.z * v.z)]

end Verif
