import Verif.Model.Sun
import Verif.Model.Geocentric

/-!
# Array arguments of the astronomical functions

The functions documented for "float or ndarray", and the coordinate transformations (`ArrayLike`), operation
by operation on NumPy values: a value is a scalar or a 1-D array, and every operation broadcasts.  Real
arithmetic.  A Python list is treated like an array, since every function used here converts it.
-/

namespace Verif

/-- A NumPy function of one argument.
Used for the calls of NumPy functions in coordinates.py lines 64-68, 97-101, 137-145, 175-179, sun.py lines 199-250 and planets.py lines 185-192. -/
def np1 {α β : Type} (g : α → β) : Out α → Out β
  | .scalar a => .scalar (g a)
  | .arr l => .arr (l.map g)

/-- A NumPy operation of two arguments, with broadcasting.
Used for the operations in coordinates.py lines 64-68, 97-101, 137-145, 175-179, sun.py lines 199-250 and planets.py lines 185-192. -/
def np2 {α β γ : Type} (g : α → β → γ) : Out α → Out β → Except PyErr (Out γ)
  | .scalar a, .scalar b => .ok (.scalar (g a b))
  | .scalar a, .arr l => .ok (.arr (l.map (g a)))
  | .arr l, .scalar b => .ok (.arr (l.map fun a => g a b))
  | .arr l, .arr m => do
    let rows ← bcast2 l m
    .ok (.arr (rows.map fun r => g r.1 r.2))

/-- `bool(x)`, used by `if x`.  (Simplified: for an empty array NumPy versions differ.)
Used for lines 231-264 of planets.py. -/
def npTruth : Out Bool → Except PyErr Bool
  | .scalar b => .ok b
  | .arr [b] => .ok b
  | .arr _ => .error
      (.ValueError "The truth value of an array with more than one element is ambiguous. Use a.any() or a.all()")

/-- `util.py` 37-55 `_scalar_if_one`. -/
def npScalarIfOne {α : Type} (x : Out α) : Out α := scalarIfOne x.toList

noncomputable section
open Real

/-- `calendar.py` 542-557 `jd_to_jcent` of an array. -/
def npJcent (jd : List ℝ) : Out ℝ := scalarIfOne (jd.map jcent)

/-- `util.py` 397-421 `polynomial` at an array: `polyval` is Horner's rule, each step an operation on arrays. -/
def npPoly (x : Out ℝ) : List ℝ → Except PyErr (Out ℝ)
  | [] => .error (.ValueError "Coefficient array is empty")
  | [c] => .ok (np1 (fun x => c + x * 0) x)
  | c :: cs => do
    let h ← npPoly x cs
    let p ← np2 (· * ·) h x
    .ok (np1 (fun p => c + p) p)

/-- `coordinates.py` 40-69 `ecl_to_equ`. -/
def npEclToEqu (longitude latitude obliquity : Out ℝ) : Except PyErr (Out ℝ × Out ℝ) := do
  let cose := np1 cos obliquity
  let sine := np1 sin obliquity
  let sinl := np1 sin longitude
  let p ← np2 (· * ·) sinl cose
  let q ← np2 (· * ·) (np1 tan latitude) sine
  let d ← np2 (· - ·) p q
  let a ← np2 arctan2 d (np1 cos longitude)
  let ra := np1 modpi2 a
  let p ← np2 (· * ·) (np1 sin latitude) cose
  let q ← np2 (· * ·) (np1 cos latitude) sine
  let q ← np2 (· * ·) q sinl
  let d ← np2 (· + ·) p q
  .ok (ra, np1 arcsin d)

/-- `coordinates.py` 72-102 `equ_to_horiz`; the first argument is `globals.latitude`. -/
def npEquToHoriz (gLatitude : ℝ) (H decl : Out ℝ) : Except PyErr (Out ℝ × Out ℝ) := do
  let cosH := np1 cos H
  let sinLat := sin gLatitude
  let cosLat := cos gLatitude
  let d ← np2 (· - ·) (np1 (fun c => c * sinLat) cosH) (np1 (fun t => t * cosLat) (np1 tan decl))
  let A ← np2 arctan2 (np1 sin H) d
  let p := np1 (fun s => sinLat * s) (np1 sin decl)
  let q ← np2 (· * ·) (np1 (fun c => cosLat * c) (np1 cos decl)) cosH
  let s ← np2 (· + ·) p q
  .ok (A, np1 arcsin s)

/-- `coordinates.py` 151-180 `equ_to_ecl`. -/
def npEquToEcl (ra dec obliquity : Out ℝ) : Except PyErr (Out ℝ × Out ℝ) := do
  let cose := np1 cos obliquity
  let sine := np1 sin obliquity
  let sina := np1 sin ra
  let p ← np2 (· * ·) sina cose
  let q ← np2 (· * ·) (np1 tan dec) sine
  let d ← np2 (· + ·) p q
  let a ← np2 arctan2 d (np1 cos ra)
  let p ← np2 (· * ·) (np1 sin dec) cose
  let q ← np2 (· * ·) (np1 cos dec) sine
  let q ← np2 (· * ·) q sina
  let d ← np2 (· - ·) p q
  .ok (np1 modpi2 a, np1 modpi2 (np1 arcsin d))

/-- `coordinates.py` 105-148 `ell_to_geo`; the longitude is returned as it was given. -/
def npEllToGeo (latitude longitude height : Out ℝ) : Except PyErr (Out ℝ × Out ℝ × Out ℝ) := do
  let f : ℝ := 1.0 / 298.2564219846
  let ea := earthEquRadius / 1000
  let ee := 2.0 * f - f * f
  let sinLat := np1 sin latitude
  let cosLat := np1 cos latitude
  let s ← np2 (· * ·) (np1 (fun s => ee * s) sinLat) sinLat
  let N := np1 (fun s => ea / √(1.0 - s)) s
  let a ← np2 (· + ·) N height
  let Hx ← np2 (· * ·) a cosLat
  let a ← np2 (· + ·) (np1 (fun N => N * (1 - ee)) N) height
  let Hy ← np2 (· * ·) a sinLat
  let x2 ← np2 (· * ·) Hx Hx
  let y2 ← np2 (· * ·) Hy Hy
  let s ← np2 (· + ·) x2 y2
  let theta ← np2 arctan2 Hx Hy
  .ok (np1 sqrt s, theta, longitude)

/-- `sun.py` 57-95 `Sun.mean_longitude`. -/
def npSunMeanLongitude (jd : List ℝ) : Except PyErr (Out ℝ) := do
  let T := npJcent jd
  let X ← npPoly (np1 (fun T => T / 10) T) [dToR 100.4664567, dToR 360007.6982779, dToR 0.03032028,
    dToR (1 / 49931), dToR (-1 / 15300), dToR (-1 / 2000000)]
  .ok (npScalarIfOne (np1 modpi2 (np1 (fun X => X + π) X)))

/-- `sun.py` 97-118 `Sun.mean_longitude_perigee`. -/
def npSunMeanLongitudePerigee (jd : List ℝ) : Except PyErr (Out ℝ) := do
  let T := npJcent jd
  let X ← npPoly (np1 (fun T => T + 1) T) [1012395, 6189.03, 1.63, 0.012]
  let X := np1 (fun X => X / 3600) X
  let X := np1 dToR X
  .ok (npScalarIfOne (np1 modpi2 X))

/-- `sun.py` 169-212 `longitude_radius_low`. -/
def npLongitudeRadiusLow (jd : List ℝ) : Except PyErr (Out ℝ × Out ℝ) := do
  let ck3 := dToR 0.019993
  let ck4 := dToR (-0.000101)
  let ck5 := dToR 0.000289
  let T := npJcent jd
  let L0 ← npPoly T [dToR 280.46646, dToR 36000.76983, dToR 0.0003032]
  let M ← npPoly T [dToR 357.5291092, dToR 35999.0502909, dToR (-0.0001536), dToR (1 / 24490000)]
  let er ← npPoly T [0.016708634, -0.000042037, -0.0000001267]
  let c ← npPoly T [dToR 1.914602, dToR (-0.004817), dToR (-0.000014)]
  let c1 ← np2 (· * ·) c (np1 sin M)
  let c2 ← np2 (· * ·) (np1 (fun T => ck3 - ck4 * T) T) (np1 (fun M => sin (2 * M)) M)
  let c3 := np1 (fun M => ck5 * sin (3 * M)) M
  let c12 ← np2 (· + ·) c1 c2
  let C ← np2 (· + ·) c12 c3
  let l ← np2 (· + ·) L0 C
  let L := np1 modpi2 l
  let v ← np2 (· + ·) M C
  let e2 ← np2 (· * ·) er er
  let p ← np2 (· * ·) er (np1 cos v)
  let R ← np2 (· / ·) (np1 (fun e2 => 1.000001018 * (1 - e2)) e2) (np1 (fun p => 1 + p) p)
  .ok (L, R)

/-- `sun.py` 215-240 `apparent_longitude_low`. -/
def npApparentLongitudeLow (jd : List ℝ) (L : Out ℝ) : Except PyErr (Out ℝ) := do
  let lk0 := dToR 125.04
  let lk1 := dToR 1934.136
  let lk2 := dToR 0.00569
  let lk3 := dToR 0.00478
  let T := npJcent jd
  let omega := np1 (fun T => lk0 - lk1 * T) T
  let d ← np2 (· - ·) (np1 (fun L => L - lk2) L) (np1 (fun o => lk3 * sin o) omega)
  .ok (npScalarIfOne (np1 modpi2 d))

/-- `planets.py` 162-192 `vsop_to_fk5`.  An array `L` is refused: `np.polynomial.Polynomial([L, _k0, _k1])`
gets a ragged sequence. -/
def npVsopToFk5 (jd : List ℝ) (L B : Out ℝ) : Except PyErr (Out ℝ × Out ℝ) :=
  match L with
  | .arr _ => .error (.ValueError "setting an array element with a sequence. The requested array has an inhomogeneous shape after 1 dimensions.")
  | .scalar L => do
    let T := npJcent jd
    let L1 ← npPoly T [L, fk0, fk1]
    let cosL1 := np1 cos L1
    let sinL1 := np1 sin L1
    let s ← np2 (· + ·) cosL1 sinL1
    let p ← np2 (· * ·) (np1 (fun s => fk3 * s) s) (np1 tan B)
    let deltaL := np1 (fun p => fk2 + p) p
    let d ← np2 (· - ·) cosL1 sinL1
    let deltaB := np1 (fun d => fk3 * d) d
    let b ← np2 (· + ·) B deltaB
    .ok (npScalarIfOne (np1 modpi2 (np1 (fun d => L + d) deltaL)), npScalarIfOne b)

/-- `util.py` 115-134 `diff_angle`. -/
def npDiffAngle (a b : Out ℝ) : Except PyErr (Out ℝ) := do
  let lt ← np2 (fun b a => decide (b < a)) b a
  let c ← npTruth lt
  let result ← if c then np2 (fun b a => b + pi2 - a) b a else np2 (fun b a => b - a) b a
  let c ← npTruth (np1 (fun r => decide (r > π)) result)
  .ok (if c then np1 (fun r => r - pi2) result else result)

/-- `planets.py` 241-246: the rectangular offset of the planet (`p`) from the Earth (`e`). -/
def npRectOffset (e p : Out ℝ × Out ℝ × Out ℝ) : Except PyErr (Out ℝ × Out ℝ × Out ℝ) := do
  let (L0, B0, R0) := e
  let (L, B, R) := p
  let cosB0 := np1 cos B0
  let cosB := np1 cos B
  let rc ← np2 (· * ·) R cosB
  let rc0 ← np2 (· * ·) R0 cosB0
  let u ← np2 (· * ·) rc (np1 cos L)
  let v ← np2 (· * ·) rc0 (np1 cos L0)
  let x ← np2 (· - ·) u v
  let u ← np2 (· * ·) rc (np1 sin L)
  let v ← np2 (· * ·) rc0 (np1 sin L0)
  let y ← np2 (· - ·) u v
  let u ← np2 (· * ·) R (np1 sin B)
  let v ← np2 (· * ·) R0 (np1 sin B0)
  let z ← np2 (· - ·) u v
  .ok (x, y, z)

/-- `planets.py` 232-264: the loop, with `n` passes left; `t` is an array. -/
def npGeocentricLoop (planets : List ((String × String) × List (List Term))) (jd : List ℝ) (planet : String)
    (delta : ℝ) : ℕ → List ℝ → Out ℝ → Except PyErr (Out ℝ × Out ℝ)
  | 0, _, _ => .error (.Error "planets" "bailout")
  | n + 1, t, l0 => do
    let e ← vsopDimension3 planets t "Earth"
    let p ← vsopDimension3 planets t planet
    let (x, y, z) ← npRectOffset e p
    let x2 ← np2 (· * ·) x x
    let y2 ← np2 (· * ·) y y
    let geoL ← np2 arctan2 y x
    let s ← np2 (· + ·) x2 y2
    let b ← np2 arctan2 z (np1 sqrt s)
    let z2 ← np2 (· * ·) z z
    let s ← np2 (· + ·) s z2
    let tau := np1 (fun s => 0.0057755183 * √s) s
    let d ← npDiffAngle geoL l0
    let c ← npTruth (np1 (fun d => decide (|d| < pi2 * delta)) d)
    if c then .ok (geoL, b)
    else do
      let t ← np2 (· - ·) (.arr jd) tau
      npGeocentricLoop planets jd planet delta n t.toList geoL

/-- `planets.py` 195-275 `geocentric_planet`. -/
def npGeocentricPlanet (jd : List ℝ) (planet : String) (deltaPsi epsilon delta : ℝ) :
    Except PyErr (Out ℝ × Out ℝ) := do
  let (geoL, b) ← npGeocentricLoop vsopDict jd planet delta 20 jd (.scalar (-100))
  let (geoL, b) ← npVsopToFk5 jd geoL b
  let geoL := np1 (fun l => l + deltaPsi) geoL
  npEclToEqu geoL b (.scalar epsilon)

end
end Verif
