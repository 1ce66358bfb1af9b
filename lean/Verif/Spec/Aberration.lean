import Verif.Spec.Fk5
import Verif.Spec.LightTime

/-!
# Specification: light-time and aberration as physics has them

The light leaves the planet at one time and reaches the Earth at another.  An observer who moves with
the velocity `v` sees it displaced: the direction `u` becomes that of `u + v / c`.
-/

namespace Verif
noncomputable section

/-- Light that leaves the planet at the time `s` reaches the Earth at the time `jd`. -/
def Arrives (p e : Tables) (jd s : ℝ) : Prop := s = jd - lightDay * ((p.pos s).sub (e.pos jd)).norm

/-- Mean velocity between two times, in astronomical units per day. -/
def meanVelocity (e : Tables) (s t : ℝ) : V3 := V3.scale (1 / (t - s)) ((e.pos t).sub (e.pos s))

/-- The direction `u` displaced by the (first order) aberration; `lightDay` is the reciprocal of the
velocity of light in astronomical units per day.  The result need not be a unit vector. -/
def aberrated (u v : V3) : V3 := u.plus (V3.scale lightDay v)

end
end Verif
