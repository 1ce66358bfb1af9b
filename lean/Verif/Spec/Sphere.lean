import Mathlib.Analysis.SpecialFunctions.Trigonometric.Basic

/-!
# Specification of the coordinate systems: vectors in space, rotations, the meridian ellipse
-/

namespace Verif
open Real

/-- A vector in space. -/
@[ext] structure V3 where
  x : ℝ
  y : ℝ
  z : ℝ

noncomputable section

/-- The unit vector with a given longitude (counted from the first axis towards the second) and
latitude (counted from their plane towards the third axis). -/
def direction (lon lat : ℝ) : V3 := ⟨cos lat * cos lon, cos lat * sin lon, sin lat⟩

/-- Components, with respect to axes turned by `-e` about the first axis, of the vector with
components `v`.  Ecliptic components become equatorial ones if `e` is the obliquity: the first
axis points to the equinox, the ecliptic pole has equatorial components `(0, -sin e, cos e)`. -/
def turnX (e : ℝ) (v : V3) : V3 :=
  ⟨v.x, v.y * cos e - v.z * sin e, v.y * sin e + v.z * cos e⟩

/-- Components (south, west, zenith) for an observer at latitude `phi` of the vector with
components `v` with respect to (meridian point of the equator, west point, north pole). -/
def toHorizon (phi : ℝ) (v : V3) : V3 :=
  ⟨v.x * sin phi - v.z * cos phi, v.y, v.x * cos phi + v.z * sin phi⟩

/-- Scalar product. -/
def V3.dot (v w : V3) : ℝ := v.x * w.x + v.y * w.y + v.z * w.z

/-- Difference of vectors. -/
def V3.sub (v w : V3) : V3 := ⟨v.x - w.x, v.y - w.y, v.z - w.z⟩

/-- Multiple of a vector. -/
def V3.scale (r : ℝ) (v : V3) : V3 := ⟨r * v.x, r * v.y, r * v.z⟩

/-- Length of a vector. -/
def V3.norm (v : V3) : ℝ := √(v.x ^ 2 + v.y ^ 2 + v.z ^ 2)

/-- The point `(p, q)` of the meridian plane lies on the ellipse with semi-axes `a` (along the
equator) and `b` (along the axis of rotation). -/
def OnEllipse (a b p q : ℝ) : Prop := (p / a) ^ 2 + (q / b) ^ 2 = 1

/-- The vector `(u, v)` is an outer normal of that ellipse at `(p, q)`: it is a non-negative multiple
of the gradient. -/
def OuterNormal (a b p q u v : ℝ) : Prop := ∃ k, 0 < k ∧ u = k * (p / a ^ 2) ∧ v = k * (q / b ^ 2)

end
end Verif
