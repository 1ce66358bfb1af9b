import Verif.Spec.Sphere
import Verif.Spec.Poisson

/-!
# Specification: positions of the planets in space, and light-time
-/

namespace Verif
noncomputable section

/-- Three tables: longitude, latitude and distance of a planet from the Sun. -/
structure Tables where
  L : List (List (ℕ × ℕ × ℕ))
  B : List (List (ℕ × ℕ × ℕ))
  R : List (List (ℕ × ℕ × ℕ))

/-- Position in space at the Julian Day `t`, in astronomical units. -/
def Tables.pos (c : Tables) (t : ℝ) : V3 :=
  V3.scale (poisson c.R (millennia t)) (direction (poisson c.L (millennia t)) (poisson c.B (millennia t)))

/-- Vector from the second to the first of two planets, both at the time `t`. -/
def sep (p e : Tables) (t : ℝ) : V3 := (p.pos t).sub (e.pos t)

/-- Time the light needs for one astronomical unit, in days. -/
def lightDay : ℝ := 0.0057755183

/-- `s` is the time at which the light seen at `jd` was emitted, if Earth and planet are taken at the
same time `s` (which accounts for both light-time and aberration). -/
def Emitted (p e : Tables) (jd s : ℝ) : Prop := s = jd - lightDay * (sep p e s).norm

end
end Verif
