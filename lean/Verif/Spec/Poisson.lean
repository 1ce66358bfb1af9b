import Mathlib.Analysis.SpecialFunctions.Trigonometric.Basic
import Mathlib.Algebra.BigOperators.Group.Finset.Basic

/-!
# Specification of the planetary theory: Poisson series
-/

namespace Verif
open Real

/-- Value at `tau` (Julian millennia since J2000) of a table of series: the `i`-th series is
multiplied by `tau ^ i`, a row is amplitude, phase, frequency in units of `1e-11`. -/
noncomputable def poisson (c : List (List (ℕ × ℕ × ℕ))) (tau : ℝ) : ℝ :=
  ∑ i ∈ Finset.range c.length, tau ^ i *
    ((c.getD i []).map fun r => (r.1 : ℝ) * 1e-11 * cos (r.2.1 * 1e-11 + r.2.2 * 1e-11 * tau)).sum

/-- Julian millennia from J2000 (2000 January 1.5). -/
noncomputable def millennia (jd : ℝ) : ℝ := (jd - 2451545) / 365250

end Verif
