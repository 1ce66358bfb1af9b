import Verif.Spec.Sphere
import Verif.Spec.MeanArguments

/-!
# Specification of the rotation between the frame of VSOP87 and that of the FK5 catalogue
-/

namespace Verif
open Real

noncomputable section

/-- Vector product. -/
def V3.cross (v w : V3) : V3 :=
  ⟨v.y * w.z - v.z * w.y, v.z * w.x - v.x * w.z, v.x * w.y - v.y * w.x⟩

/-- Sum of vectors. -/
def V3.plus (v w : V3) : V3 := ⟨v.x + w.x, v.y + w.y, v.z + w.z⟩

/-- The vector `v` turned by the angle `a` about the third axis, from the first axis to the second. -/
def turnZ (a : ℝ) (v : V3) : V3 := ⟨v.x * cos a - v.y * sin a, v.x * sin a + v.y * cos a, v.z⟩

/-- General precession in longitude since J2000 used by the published formula, `T` in centuries. -/
def fkPrecession (T : ℝ) : ℝ := deg (1.397 * T + 0.00031 * T ^ 2)

/-- The rotation vector at J2000: components in the ecliptic of J2000. -/
def fkAxis2000 : V3 := ⟨arcsec (-0.03916), arcsec (-0.03916), arcsec (-0.09033)⟩

/-- The rotation vector with respect to the ecliptic and equinox of date: the longitude of the axis
grows by the precession, as that of every star. -/
def fkAxis (T : ℝ) : V3 := turnZ (fkPrecession T) fkAxis2000

end

end Verif
