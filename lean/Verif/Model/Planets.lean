import Verif.Model.Coordinates
import Verif.Data.Vsop.Mercury
import Verif.Data.Vsop.Venus
import Verif.Data.Vsop.Earth
import Verif.Data.Vsop.Mars
import Verif.Data.Vsop.Jupiter
import Verif.Data.Vsop.Saturn
import Verif.Data.Vsop.Uranus
import Verif.Data.Vsop.Neptune

/-!
# Model of `planets.py`

Real arithmetic; the decimal literals of the tables are taken exactly.
-/

namespace Verif

/-- A row `[A, B, C]` of a table, in units of `1e-11`.  Used for the tables of vsop87d_dict.py. -/
abbrev Term := ℕ × ℕ × ℕ

/-- `vsop87d_dict.py` 24-31922 `_planets`: a dictionary with a pair of strings as key. -/
def vsopDict : List ((String × String) × List (List Term)) := [
  (("Mercury", "L"), Data.mercuryL), (("Mercury", "B"), Data.mercuryB), (("Mercury", "R"), Data.mercuryR),
  (("Venus", "L"), Data.venusL), (("Venus", "B"), Data.venusB), (("Venus", "R"), Data.venusR),
  (("Earth", "L"), Data.earthL), (("Earth", "B"), Data.earthB), (("Earth", "R"), Data.earthR),
  (("Mars", "L"), Data.marsL), (("Mars", "B"), Data.marsB), (("Mars", "R"), Data.marsR),
  (("Jupiter", "L"), Data.jupiterL), (("Jupiter", "B"), Data.jupiterB), (("Jupiter", "R"), Data.jupiterR),
  (("Saturn", "L"), Data.saturnL), (("Saturn", "B"), Data.saturnB), (("Saturn", "R"), Data.saturnR),
  (("Uranus", "L"), Data.uranusL), (("Uranus", "B"), Data.uranusB), (("Uranus", "R"), Data.uranusR),
  (("Neptune", "L"), Data.neptuneL), (("Neptune", "B"), Data.neptuneB), (("Neptune", "R"), Data.neptuneR)]

/-- The module level variables `_planets` and `_first_time` (`planets.py` 60-62). -/
structure VsopState where
  firstTime : Bool
  planets : List ((String × String) × List (List Term))

/-- `planets.py` 60-62: the state after importing the module. -/
def vsopImport : VsopState := ⟨true, []⟩

/-- `planets.py` 72-86 `VSOP87d.__init__`. -/
def vsopInit (s : VsopState) : VsopState :=
  if s.firstTime then ⟨false, vsopDict⟩ else s

noncomputable section
open Real

/-- `planets.py` 118: `A * np.cos(B + C * tau)`. -/
def vsopTerm (r : Term) (tau : ℝ) : ℝ :=
  r.1 / 10 ^ 11 * cos (r.2.1 / 10 ^ 11 + r.2.2 / 10 ^ 11 * tau)

/-- `planets.py` 117-119: the loop over the series.  `np.sum` without an axis adds up the whole
two-dimensional array of terms and times.  `X` and `tauN` start as scalars `0.0` and `1.0`; they
are modelled as arrays of the length of `tau`, which is what they become by broadcasting (all
tables have more than one series). -/
def vsopLoop (tau : List ℝ) : List (List Term) → List ℝ → List ℝ → List ℝ
  | [], X, _ => X
  | s :: c, X, tauN =>
    let S := (s.map fun r => (tau.map fun t => vsopTerm r t).sum).sum
    vsopLoop tau c (List.zipWith (· + ·) X (tauN.map fun t => S * t)) (List.zipWith (· * ·) tauN tau)

/-- `planets.py` 88-124 `VSOP87d.dimension` with the dictionary `planets`. -/
def vsopDimension (planets : List ((String × String) × List (List Term))) (jd : List ℝ)
    (planet dim : String) : Except PyErr (Out ℝ) :=
  let tau := jd.map fun j => jcent j / 10
  match planets.lookup (planet, dim) with
  | none => .error (.KeyError planet)
  | some c =>
    let X := vsopLoop tau c (tau.map fun _ => 0) (tau.map fun _ => 1)
    let X := if dim = "L" then X.map modpi2 else X
    .ok (scalarIfOne X)

/-- `planets.py` 126-150 `VSOP87d.dimension3`. -/
def vsopDimension3 (planets : List ((String × String) × List (List Term))) (jd : List ℝ)
    (planet : String) : Except PyErr (Out ℝ × Out ℝ × Out ℝ) := do
  let L ← vsopDimension planets jd planet "L"
  let B ← vsopDimension planets jd planet "B"
  let R ← vsopDimension planets jd planet "R"
  .ok (L, B, R)

/-- `np.polynomial.Polynomial(terms)(x)` in real arithmetic.  Used for lines 397-421 of util.py. -/
def polyR (terms : List ℝ) (x : ℝ) : ℝ := horner (fun x => x) x terms

/-- `util.py` 156-162 `dms_to_d` in real arithmetic. -/
def dmsR (deg minute sec : ℝ) : ℝ :=
  let result := |deg| + |minute| / 60 + |sec| / 3600
  if deg < 0 ∨ minute < 0 ∨ sec < 0 then -result else result

/-- `planets.py` 156. -/
def fk0 : ℝ := dToR (-1.397)
/-- `planets.py` 157. -/
def fk1 : ℝ := dToR (-0.00031)
/-- `planets.py` 158. -/
def fk2 : ℝ := dToR (dmsR 0 0 (-0.09033))
/-- `planets.py` 159. -/
def fk3 : ℝ := dToR (dmsR 0 0 0.03916)

/-- `planets.py` 162-192 `vsop_to_fk5`, for a single time. -/
def vsopToFk5 (jd L B : ℝ) : ℝ × ℝ :=
  let T := jcent jd
  let L1 := polyR [L, fk0, fk1] T
  let cosL1 := cos L1
  let sinL1 := sin L1
  let deltaL := fk2 + fk3 * (cosL1 + sinL1) * tan B
  let deltaB := fk3 * (cosL1 - sinL1)
  (modpi2 (L + deltaL), B + deltaB)

end
end Verif
