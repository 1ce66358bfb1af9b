import Mathlib.Data.Rat.Defs
import Mathlib.Data.List.Chain

/-!
# Specification: what is known about the orbits of the planets
-/

namespace Verif

/-- Bounds for a planet: distance from the Sun in astronomical units, ecliptic latitude in radians,
mean motion in longitude and its largest deviation, in radians per Julian millennium. -/
structure Orbit where
  name : String
  rmin : ℚ
  rmax : ℚ
  bmax : ℚ
  motion : ℚ
  dmotion : ℚ

/-- Bounds that hold for 2000 years before and after J2000. -/
def orbits2 : List Orbit := [
  ⟨"Mercury", 0.301, 0.489, 0.174, 26088.147, 15383⟩,
  ⟨"Venus", 0.717, 0.7291, 0.072, 10213.529, 188⟩,
  ⟨"Earth", 0.9808, 1.0195, 0.00001, 6283.32, 249⟩,
  ⟨"Mars", 1.353, 1.707, 0.047, 3340.856, 849⟩,
  ⟨"Jupiter", 4.905, 5.512, 0.03, 529.935, 65⟩,
  ⟨"Saturn", 8.779, 10.336, 0.06, 213.543, 37⟩,
  ⟨"Uranus", 18.19, 20.24, 0.02, 75.025, 9⟩,
  ⟨"Neptune", 29.74, 30.4, 0.037, 38.377, 1⟩]

/-- Bounds that hold for 6000 years before and after J2000. -/
def orbits6 : List Orbit := [
  ⟨"Mercury", 0.288, 0.502, 0.205, 26088.147, 18050⟩,
  ⟨"Venus", 0.715, 0.7311, 0.101, 10213.529, 269⟩,
  ⟨"Earth", 0.9748, 1.0255, 0.00002, 6283.32, 327⟩,
  ⟨"Mars", 1.28, 1.78, 0.071, 3340.856, 1233⟩,
  ⟨"Jupiter", 4.78, 5.64, 0.043, 529.935, 91⟩,
  ⟨"Saturn", 8.07, 11.04, 0.097, 213.543, 72⟩,
  ⟨"Uranus", 18.1, 20.32, 0.033, 75.025, 10⟩,
  ⟨"Neptune", 29.73, 30.41, 0.051, 38.377, 2⟩]

end Verif
