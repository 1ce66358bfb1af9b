import Verif.Model.Geocentric
import Verif.Spec.LightTime
import Verif.Props.Planets
import Mathlib.Analysis.InnerProductSpace.PiL2
import Mathlib.Analysis.SpecialFunctions.Trigonometric.Bounds

/-!
# Lemmas about vectors, positions of the planets and directions
-/

namespace Verif
open Real

/-! ### Vectors -/

/-- The vector as an element of Euclidean space. -/
noncomputable def toE (v : V3) : EuclideanSpace ℝ (Fin 3) := !₂[v.x, v.y, v.z]

theorem norm_toE (v : V3) : ‖toE v‖ = v.norm := by
  rw [EuclideanSpace.norm_eq]
  simp [toE, V3.norm, Fin.sum_univ_three]

theorem toE_sub (v w : V3) : toE (v.sub w) = toE v - toE w := by
  ext i; fin_cases i <;> simp [toE, V3.sub]

theorem toE_scale (r : ℝ) (v : V3) : toE (v.scale r) = r • toE v := by
  ext i; fin_cases i <;> simp [toE, V3.scale]

theorem toE_inj {v w : V3} (h : toE v = toE w) : v = w := by
  have e : ∀ i, toE v i = toE w i := fun i => by rw [h]
  have e0 := e 0; have e1 := e 1; have e2 := e 2
  simp [toE] at e0 e1 e2
  exact V3.ext e0 e1 e2

theorem norm_nonneg' (v : V3) : 0 ≤ v.norm := Real.sqrt_nonneg _

theorem norm_sub_comm (a b : V3) : (a.sub b).norm = (b.sub a).norm := by
  rw [← norm_toE, ← norm_toE, toE_sub, toE_sub, norm_sub_rev]

theorem norm_triangle (a b c : V3) : (a.sub c).norm ≤ (a.sub b).norm + (b.sub c).norm := by
  simp only [← norm_toE, toE_sub]
  exact norm_sub_le_norm_sub_add_norm_sub _ _ _

theorem abs_norm_sub (a b : V3) : |a.norm - b.norm| ≤ (a.sub b).norm := by
  simp only [← norm_toE, toE_sub]
  exact abs_norm_sub_norm_le _ _

theorem norm_scale (r : ℝ) (v : V3) : (v.scale r).norm = |r| * v.norm := by
  simp only [← norm_toE, toE_scale, norm_smul, Real.norm_eq_abs]

theorem norm_direction (l b : ℝ) : (direction l b).norm = 1 := by
  unfold V3.norm
  rw [direction_unit, Real.sqrt_one]

/-- Two directions differ by at most the differences of longitude and latitude. -/
theorem direction_lip (l b l' b' : ℝ) :
    ((direction l b).sub (direction l' b')).norm ≤ |l - l'| + |b - b'| := by
  unfold V3.norm
  rw [Real.sqrt_le_left (by positivity)]
  have e : ((direction l b).sub (direction l' b')).x ^ 2 + ((direction l b).sub (direction l' b')).y ^ 2 +
      ((direction l b).sub (direction l' b')).z ^ 2 =
      2 * (1 - cos (b - b')) + 2 * (cos b * cos b') * (1 - cos (l - l')) := by
    simp only [direction, V3.sub, cos_sub]
    linear_combination (cos b ^ 2) * sin_sq_add_cos_sq l + (cos b' ^ 2) * sin_sq_add_cos_sq l' +
      sin_sq_add_cos_sq b + sin_sq_add_cos_sq b'
  rw [e]
  have h1 := one_sub_sq_div_two_le_cos (x := b - b')
  have h2 := one_sub_sq_div_two_le_cos (x := l - l')
  have h3 : cos b * cos b' ≤ 1 := by
    nlinarith [sq_nonneg (cos b - cos b'), sin_sq_add_cos_sq b, sin_sq_add_cos_sq b',
      sq_nonneg (sin b), sq_nonneg (sin b')]
  have h4 := cos_le_one (l - l')
  have h5 : (cos b * cos b') * (1 - cos (l - l')) ≤ 1 * (1 - cos (l - l')) :=
    mul_le_mul_of_nonneg_right h3 (by linarith)
  have h6 : 0 ≤ |l - l'| * |b - b'| := by positivity
  nlinarith [sq_abs (l - l'), sq_abs (b - b')]

/-- Normalised vectors. -/
theorem normalised_near {a b : V3} {u v : V3} (ha : a = u.scale a.norm) (hb : b = v.scale b.norm)
    (hu : u.norm = 1) (h : 0 < b.norm) : (u.sub v).norm ≤ 2 * ((a.sub b).norm / b.norm) := by
  have e : b.norm * (u.sub v).norm ≤ 2 * (a.sub b).norm := by
    have k : (b.norm) • (toE u - toE v) = (toE a - toE b) - (a.norm - b.norm) • toE u := by
      conv_rhs => rw [ha, hb]
      rw [toE_scale, toE_scale]
      have n1 : (u.scale a.norm).norm = a.norm := by rw [← ha]
      have n2 : (v.scale b.norm).norm = b.norm := by rw [← hb]
      rw [n1, n2]
      module
    have n := congrArg (fun x => ‖x‖) k
    simp only [norm_smul, Real.norm_eq_abs] at n
    rw [abs_of_pos h, ← toE_sub, norm_toE] at n
    rw [n]
    refine (norm_sub_le _ _).trans ?_
    rw [norm_smul, norm_toE, hu, mul_one, ← toE_sub, norm_toE, Real.norm_eq_abs]
    linarith [abs_norm_sub a b]
  rw [mul_div_assoc', le_div_iff₀ h]
  linarith

/-! ### Plane directions -/

/-- Two plane vectors of length at least `r` that differ by `e`. -/
theorem arctan2_near {x y x' y' r e : ℝ} (hr : 0 < r) (h : r ^ 2 ≤ x ^ 2 + y ^ 2)
    (h' : r ^ 2 ≤ x' ^ 2 + y' ^ 2) (he : 0 ≤ e) (hd : (x - x') ^ 2 + (y - y') ^ 2 ≤ e ^ 2) :
    |diffAngle (arctan2 y x) (arctan2 y' x')| ≤ π / 2 * (e / r) := by
  have hp := Real.pi_pos
  obtain ⟨p1, p2⟩ := arctan2_polar y x
  obtain ⟨p1', p2'⟩ := arctan2_polar y' x'
  have a1 : -π < arctan2 y x ∧ arctan2 y x ≤ π := Complex.arg_mem_Ioc _
  have a2 : -π < arctan2 y' x' ∧ arctan2 y' x' ≤ π := Complex.arg_mem_Ioc _
  have rng := diff_angle_range (arctan2 y x) (arctan2 y' x') (by rw [abs_lt]; constructor <;> linarith)
  have cg := cos_congr (diff_angle_congr (arctan2 y x) (arctan2 y' x'))
  generalize diffAngle (arctan2 y x) (arctan2 y' x') = d at *
  generalize arctan2 y x = a at *
  generalize arctan2 y' x' = a' at *
  have s1 : r ≤ √(x ^ 2 + y ^ 2) := Real.le_sqrt_of_sq_le h
  have s2 : r ≤ √(x' ^ 2 + y' ^ 2) := Real.le_sqrt_of_sq_le h'
  generalize √(x ^ 2 + y ^ 2) = m at *
  generalize √(x' ^ 2 + y' ^ 2) = m' at *
  have q := Real.cos_le_one_sub_mul_cos_sq (x := d) (abs_le.mpr ⟨rng.1.le, rng.2⟩)
  have key : 2 * (m * m') * (1 - cos d) ≤ e ^ 2 := by
    refine le_trans ?_ hd
    rw [cg, cos_sub, ← p1, ← p2, ← p1', ← p2']
    nlinarith [sq_nonneg (m - m'), sin_sq_add_cos_sq a, sin_sq_add_cos_sq a',
      congrArg (fun t => m ^ 2 * t) (sin_sq_add_cos_sq a),
      congrArg (fun t => m' ^ 2 * t) (sin_sq_add_cos_sq a')]
  have mm : r ^ 2 ≤ m * m' := by nlinarith
  have c0 : 2 / π ^ 2 * d ^ 2 ≤ 1 - cos d := by linarith
  have k2 : 2 * r ^ 2 * (2 / π ^ 2 * d ^ 2) ≤ e ^ 2 := by
    refine le_trans ?_ key
    exact mul_le_mul (by linarith) c0 (by positivity) (by linarith [sq_nonneg r])
  refine abs_le_of_sq_le_sq ?_ (by positivity)
  rw [mul_pow, div_pow, div_pow]
  rw [show π ^ 2 / 2 ^ 2 * (e ^ 2 / r ^ 2) = π ^ 2 * e ^ 2 / (4 * r ^ 2) by ring,
    le_div_iff₀ (by positivity)]
  rw [show 2 * r ^ 2 * (2 / π ^ 2 * d ^ 2) = 4 * r ^ 2 * d ^ 2 / π ^ 2 by ring,
    div_le_iff₀ (by positivity)] at k2
  linarith

/-- Longitude and latitude as computed by the code recover the vector. -/
theorem direction_arctan2 (x y z : ℝ) :
    V3.scale (V3.norm ⟨x, y, z⟩) (direction (arctan2 y x) (arctan2 z (√(x ^ 2 + y ^ 2)))) = ⟨x, y, z⟩ ∧
    (0 < x ^ 2 + y ^ 2 → 0 < cos (arctan2 z (√(x ^ 2 + y ^ 2)))) := by
  obtain ⟨p1, p2⟩ := arctan2_polar y x
  obtain ⟨q1, q2⟩ := arctan2_polar z (√(x ^ 2 + y ^ 2))
  rw [Real.sq_sqrt (by positivity)] at q1 q2
  constructor
  · simp only [V3.scale, V3.norm, direction]
    ext
    · change √(x ^ 2 + y ^ 2 + z ^ 2) * (cos (arctan2 z √(x ^ 2 + y ^ 2)) * cos (arctan2 y x)) = x
      rw [← mul_assoc, q1, p1]
    · change √(x ^ 2 + y ^ 2 + z ^ 2) * (cos (arctan2 z √(x ^ 2 + y ^ 2)) * sin (arctan2 y x)) = y
      rw [← mul_assoc, q1, p2]
    · exact q2
  · intro h
    have s : 0 < √(x ^ 2 + y ^ 2) := Real.sqrt_pos.mpr h
    by_contra hc
    have := mul_nonpos_of_nonneg_of_nonpos (Real.sqrt_nonneg (x ^ 2 + y ^ 2 + z ^ 2)) (not_lt.mp hc)
    linarith

/-! ### Positions of the planets -/

/-- The tables of a planet. -/
def HasTables (p : String) (c : Tables) : Prop :=
  vsopDict.lookup (p, "L") = some c.L ∧ vsopDict.lookup (p, "B") = some c.B ∧
    vsopDict.lookup (p, "R") = some c.R

/-- The tables of the Earth. -/
def earthTables : Tables := ⟨Data.earthL, Data.earthB, Data.earthR⟩

theorem earth_hasTables : HasTables "Earth" earthTables := lookup_earth

/-- Checks by integer arithmetic that a planet is never faster than `v` (astronomical units per day). -/
def speedOk (v : ℚ) (o : Orbit) : Bool :=
  match vsopDict.lookup (o.name, "B"), vsopDict.lookup (o.name, "R") with
  | some cB, some cR => decide (0 ≤ o.rmax ∧ o.rmax * ((|o.motion| + o.dmotion) * 10 ^ 22 + pSpeed 6 cB) +
      pSpeed 6 cR ≤ v * 365250 * 10 ^ 22)
  | _, _ => false

theorem speeds_ok : (∀ o ∈ orbits6, speedOk 0.0777 o = true) ∧
    ∀ o ∈ orbits6, o.name = "Earth" → speedOk 0.0191 o = true := by decide +kernel

theorem millennia_sub (t s : ℝ) : millennia t - millennia s = (t - s) / 365250 := by
  unfold millennia; ring

theorem pos_lip {o : Orbit} (ho : o ∈ orbits6) {v : ℚ} (hv : speedOk v o = true) {c : Tables}
    (hc : HasTables o.name c) {t s : ℝ} (ht : |millennia t| ≤ 6) (hs : |millennia s| ≤ 6) :
    ((c.pos t).sub (c.pos s)).norm ≤ v * |t - s| := by
  obtain ⟨cL, cB, cR, hL, hB, hR, h1, h2⟩ := orbitOk_spec (orbits6_ok o ho)
  obtain ⟨L, B, R⟩ := c
  obtain ⟨e1, e2, e3⟩ := hc
  simp only at e1 e2 e3
  rw [hL, Option.some.injEq] at e1; rw [hB, Option.some.injEq] at e2; rw [hR, Option.some.injEq] at e3
  subst e1 e2 e3
  unfold speedOk at hv
  rw [hB, hR] at hv
  simp only [decide_eq_true_eq] at hv
  obtain ⟨r0, sp⟩ := hv
  have r0 : (0 : ℝ) ≤ o.rmax := by exact_mod_cast r0
  have sp : (o.rmax * ((|o.motion| + o.dmotion) * 10 ^ 22 + pSpeed 6 cB) + pSpeed 6 cR : ℝ) ≤
    v * 365250 * 10 ^ 22 := by exact_mod_cast sp
  rw [Rat.cast_abs] at sp
  have lB := pval_lip (T := 6) cB ht hs
  have lR := pval_lip (T := 6) cR ht hs
  have lL := h2 _ _ ht hs
  obtain ⟨r1, r2, -⟩ := h1 _ ht
  obtain ⟨r1', r2', -⟩ := h1 _ hs
  have rmin0 : (0 : ℝ) < o.rmin := by exact_mod_cast (orbits_ordered.2.2.2.2 o ho).1
  rw [← poisson_eq_pval, ← poisson_eq_pval] at lB lR
  unfold Tables.pos
  simp only
  generalize poisson cL (millennia t) = l at *
  generalize poisson cL (millennia s) = l' at *
  generalize poisson cB (millennia t) = b at *
  generalize poisson cB (millennia s) = b' at *
  generalize poisson cR (millennia t) = r at *
  generalize poisson cR (millennia s) = r' at *
  rw [millennia_sub] at lB lR lL
  have ab : |(t - s) / 365250| = |t - s| / 365250 := by rw [abs_div, abs_of_pos (by norm_num : (0 : ℝ) < 365250)]
  rw [ab] at lB lR lL
  have lL' : |l - l'| ≤ (|(o.motion : ℝ)| + o.dmotion) * (|t - s| / 365250) := by
    have := abs_add_le (l - l' - o.motion * ((t - s) / 365250)) (o.motion * ((t - s) / 365250))
    rw [sub_add_cancel, abs_mul, ab] at this
    linarith
  have d := direction_lip l b l' b'
  have k : ((V3.scale r (direction l b)).sub (V3.scale r' (direction l' b'))).norm ≤
      |r - r'| + r' * ((direction l b).sub (direction l' b')).norm := by
    rw [← norm_toE, toE_sub, toE_scale, toE_scale]
    rw [show r • toE (direction l b) - r' • toE (direction l' b') =
      (r - r') • toE (direction l b) + r' • (toE (direction l b) - toE (direction l' b')) by module]
    refine (norm_add_le _ _).trans ?_
    rw [norm_smul, norm_smul, norm_toE, norm_direction, mul_one, ← toE_sub, norm_toE, Real.norm_eq_abs,
      Real.norm_eq_abs, abs_of_pos (lt_of_lt_of_le rmin0 r1')]
  refine k.trans ?_
  have k2 : r' * ((direction l b).sub (direction l' b')).norm ≤
      o.rmax * ((|(o.motion : ℝ)| + o.dmotion) * (|t - s| / 365250) +
        (pSpeed 6 cB : ℝ) / 10 ^ 22 * (|t - s| / 365250)) :=
    mul_le_mul r2' (by linarith) (norm_nonneg' _) r0
  generalize (pSpeed 6 cB : ℝ) = PB at *
  generalize (pSpeed 6 cR : ℝ) = PR at *
  have n := abs_nonneg (t - s)
  have k3 := mul_le_mul_of_nonneg_right sp (by positivity : 0 ≤ |t - s| / 365250 / 10 ^ 22)
  generalize |t - s| = D at *
  have e : (v : ℝ) * 365250 * 10 ^ 22 * (D / 365250 / 10 ^ 22) = v * D := by field_simp
  rw [e] at k3
  refine le_trans (add_le_add lR k2) (le_trans (le_of_eq ?_) k3)
  field_simp
  ring

/-- The part of a position in the plane of the ecliptic. -/
theorem pos_plane (c : Tables) (t : ℝ) :
    (c.pos t).x = poisson c.R (millennia t) * cos (poisson c.B (millennia t)) *
      cos (poisson c.L (millennia t)) ∧
    (c.pos t).y = poisson c.R (millennia t) * cos (poisson c.B (millennia t)) *
      sin (poisson c.L (millennia t)) ∧
    (c.pos t).z = poisson c.R (millennia t) * sin (poisson c.B (millennia t)) := by
  simp only [Tables.pos, V3.scale, direction, mul_assoc, and_self]

/-- Smallest distance from the Earth, in the plane of the ecliptic. -/
def planeGap (o : Orbit) : ℚ :=
  if o.rmax ≤ 0.9 then 0.9747 - o.rmax else o.rmin * (1 - o.bmax ^ 2 / 2) - 1.0255

theorem orbits_apart : ∀ o ∈ orbits6, o.name ≠ "Earth" →
    0.24 ≤ planeGap o ∧ o.rmax * o.bmax + 0.0001 ≤ 0.6 * planeGap o := by decide +kernel

theorem orbits_far : ∀ o ∈ orbits6, o.rmax ≤ 30.41 ∧ 0 ≤ o.bmax ∧ o.bmax ≤ 0.205 ∧ 
    (o.name = "Earth" → o.rmin = 0.9748 ∧ o.rmax = 1.0255 ∧ o.bmax = 0.00002) := by decide +kernel

theorem tables_orbit {o : Orbit} (ho : o ∈ orbits6) {c : Tables} (hc : HasTables o.name c) {t : ℝ}
    (ht : |millennia t| ≤ 6) : (o.rmin : ℝ) ≤ poisson c.R (millennia t) ∧
      poisson c.R (millennia t) ≤ o.rmax ∧ |poisson c.B (millennia t)| ≤ o.bmax := by
  obtain ⟨cL, cB, cR, hL, hB, hR, h1, -⟩ := orbitOk_spec (orbits6_ok o ho)
  obtain ⟨L, B, R⟩ := c
  obtain ⟨e1, e2, e3⟩ := hc
  simp only at e1 e2 e3
  rw [hB, Option.some.injEq] at e2; rw [hR, Option.some.injEq] at e3
  subst e2 e3
  exact h1 _ ht

theorem orbit_of_name {p : String} (h : p ∈ knownPlanets) : ∃ o ∈ orbits6, o.name = p := by
  rw [← orbits_ordered.1.2] at h
  obtain ⟨o, ho, e⟩ := List.mem_map.mp h
  exact ⟨o, ho, e⟩

/-- Speed of a planet relative to the Earth. -/
theorem sep_lip {p : String} (hp : p ∈ knownPlanets) {c : Tables} (hc : HasTables p c) {t s : ℝ}
    (ht : |millennia t| ≤ 6) (hs : |millennia s| ≤ 6) :
    ((sep c earthTables t).sub (sep c earthTables s)).norm ≤ 0.0968 * |t - s| := by
  obtain ⟨o, ho, rfl⟩ := orbit_of_name hp
  obtain ⟨e, he, ee⟩ := orbit_of_name (p := "Earth") (by decide)
  have k1 := pos_lip ho (speeds_ok.1 o ho) hc ht hs
  have k2 := pos_lip he (speeds_ok.2 e he ee) (c := earthTables) (by rw [ee]; exact earth_hasTables) ht hs
  have : ((sep c earthTables t).sub (sep c earthTables s)).norm ≤
      ((c.pos t).sub (c.pos s)).norm + ((earthTables.pos t).sub (earthTables.pos s)).norm := by
    simp only [← norm_toE, toE_sub, sep]
    rw [show ∀ a b c d : EuclideanSpace ℝ (Fin 3), a - b - (c - d) = (a - c) - (b - d) by
      intros; module]
    exact norm_sub_le _ _
  push_cast at k1 k2
  norm_num at k1 k2 ⊢
  linarith

/-- Distance of a planet from the Earth: at least 0.24 in the plane, at most 31.5 in space. -/
theorem sep_bounds {p : String} (hp : p ∈ knownPlanets) (hE : p ≠ "Earth") {c : Tables}
    (hc : HasTables p c) {t : ℝ} (ht : |millennia t| ≤ 6) :
    0.24 ^ 2 ≤ (sep c earthTables t).x ^ 2 + (sep c earthTables t).y ^ 2 ∧
    |(sep c earthTables t).z| ≤ 0.6 * √((sep c earthTables t).x ^ 2 + (sep c earthTables t).y ^ 2) ∧
    (sep c earthTables t).norm ≤ 31.5 := by
  obtain ⟨o, ho, rfl⟩ := orbit_of_name hp
  obtain ⟨e, he, ee⟩ := orbit_of_name (p := "Earth") (by decide)
  obtain ⟨f1, f2, f3⟩ := (orbits_far e he).2.2.2 ee
  obtain ⟨q1, q2, q3⟩ := tables_orbit he (c := earthTables) (by rw [ee]; exact earth_hasTables) ht
  rw [f1] at q1; rw [f2] at q2; rw [f3] at q3
  obtain ⟨p1, p2, p3⟩ := tables_orbit ho hc ht
  obtain ⟨g1, g2, g3, -⟩ := orbits_far o ho
  have g1 : (o.rmax : ℝ) ≤ 30.41 := by
    have := (Rat.cast_le (K := ℝ)).mpr g1
    push_cast at this; norm_num at this ⊢; linarith
  have g2 : (0 : ℝ) ≤ o.bmax := by exact_mod_cast g2
  have g3 : (o.bmax : ℝ) ≤ 0.205 := by
    have := (Rat.cast_le (K := ℝ)).mpr g3
    push_cast at this; norm_num at this ⊢; linarith
  have rmin0 : (0 : ℝ) < o.rmin := by exact_mod_cast (orbits_ordered.2.2.2.2 o ho).1
  obtain ⟨ap1, ap2⟩ := orbits_apart o ho hE
  have ap1 : (0.24 : ℝ) ≤ planeGap o := by
    have := (Rat.cast_le (K := ℝ)).mpr ap1
    push_cast at this; norm_num at this ⊢; linarith
  have ap2 : (o.rmax : ℝ) * o.bmax + 0.0001 ≤ 0.6 * planeGap o := by
    have := (Rat.cast_le (K := ℝ)).mpr ap2
    push_cast at this; norm_num at this ⊢; linarith
  push_cast at q1 q2 q3
  have plane : (planeGap o : ℝ) ^ 2 ≤ (sep c earthTables t).x ^ 2 + (sep c earthTables t).y ^ 2 := by
    obtain ⟨x1, y1, -⟩ := pos_plane c t
    obtain ⟨x2, y2, -⟩ := pos_plane earthTables t
    simp only [sep, V3.sub]
    rw [x1, y1, x2, y2]
    have cB : 1 - (o.bmax : ℝ) ^ 2 / 2 ≤ cos (poisson c.B (millennia t)) := by
      refine le_trans ?_ one_sub_sq_div_two_le_cos
      have : poisson c.B (millennia t) ^ 2 ≤ (o.bmax : ℝ) ^ 2 := sq_le_sq' (abs_le.mp p3).1 (abs_le.mp p3).2
      linarith
    have cB1 := cos_le_one (poisson c.B (millennia t))
    have cE : 0.99999 ≤ cos (poisson earthTables.B (millennia t)) := by
      refine le_trans ?_ one_sub_sq_div_two_le_cos
      have : poisson earthTables.B (millennia t) ^ 2 ≤ (0.00002 : ℝ) ^ 2 := sq_le_sq'
        (by norm_num at q3 ⊢; exact (abs_le.mp q3).1) (by norm_num at q3 ⊢; exact (abs_le.mp q3).2)
      norm_num at this ⊢; linarith
    have cE1 := cos_le_one (poisson earthTables.B (millennia t))
    have b2 : (o.bmax : ℝ) ^ 2 ≤ 0.205 ^ 2 := by gcongr
    generalize poisson c.R (millennia t) = r at *
    generalize poisson earthTables.R (millennia t) = r' at *
    generalize cos (poisson c.B (millennia t)) = k at *
    generalize cos (poisson earthTables.B (millennia t)) = k' at *
    generalize poisson c.L (millennia t) = l at *
    generalize poisson earthTables.L (millennia t) = l' at *
    have r0 : 0 < r := lt_of_lt_of_le rmin0 p1
    have k0 : 0 ≤ k := by norm_num at b2; linarith
    have m1 : r' * k' ≤ 1.0255 := by
      norm_num at q1 q2 cE ⊢; nlinarith
    have m2 : 0.9747 ≤ r' * k' := by
      norm_num at q1 q2 cE ⊢; nlinarith
    have m3 : (planeGap o : ℝ) ^ 2 ≤ (r * k - r' * k') ^ 2 := by
      unfold planeGap at ap1 ap2 ⊢
      split_ifs at ap1 ap2 ⊢ with h
      · have k1 : r * k ≤ o.rmax := (mul_le_of_le_one_right r0.le cB1).trans p2
        push_cast at ap1 ap2 ⊢
        have g0 : (0 : ℝ) ≤ 0.9747 - o.rmax := le_trans (by norm_num) ap1
        have g1 : (0.9747 : ℝ) - o.rmax ≤ r' * k' - r * k := by linarith
        rw [← neg_sq (r * k - r' * k'), neg_sub]
        gcongr
      · have k1 : o.rmin * (1 - o.bmax ^ 2 / 2) ≤ r * k :=
          mul_le_mul p1 cB (by norm_num at b2; linarith) r0.le
        push_cast at ap1 ap2 ⊢
        have g0 : (0 : ℝ) ≤ o.rmin * (1 - o.bmax ^ 2 / 2) - 1.0255 := le_trans (by norm_num) ap1
        have g1 : o.rmin * (1 - o.bmax ^ 2 / 2) - 1.0255 ≤ r * k - r' * k' := by linarith
        gcongr
    refine m3.trans ?_
    have pr : 0 ≤ r * k * (r' * k') := mul_nonneg (mul_nonneg r0.le k0) (by norm_num at m2; linarith)
    have c1 : cos l * cos l' + sin l * sin l' ≤ 1 := by rw [← cos_sub]; exact cos_le_one _
    have s1 := sin_sq_add_cos_sq l
    have s2 := sin_sq_add_cos_sq l'
    generalize r * k = A at *
    generalize r' * k' = A' at *
    have : (A * cos l - A' * cos l') ^ 2 + (A * sin l - A' * sin l') ^ 2 =
      A ^ 2 * (sin l ^ 2 + cos l ^ 2) + A' ^ 2 * (sin l' ^ 2 + cos l' ^ 2) -
        2 * (A * A') * (cos l * cos l' + sin l * sin l') := by ring
    rw [this, s1, s2, show (A - A') ^ 2 = A ^ 2 * 1 + A' ^ 2 * 1 - 2 * (A * A') * 1 by ring]
    have := mul_le_mul_of_nonneg_left c1 pr
    linarith
  refine ⟨le_trans (by gcongr) plane, ?_, ?_⟩
  · have g : (planeGap o : ℝ) ≤ √((sep c earthTables t).x ^ 2 + (sep c earthTables t).y ^ 2) :=
      Real.le_sqrt_of_sq_le plane
    refine le_trans ?_ (mul_le_mul_of_nonneg_left g (by norm_num))
    refine le_trans ?_ ap2
    simp only [sep, V3.sub]
    rw [(pos_plane c t).2.2, (pos_plane earthTables t).2.2]
    refine (abs_sub _ _).trans ?_
    rw [abs_mul, abs_mul, abs_of_pos (lt_of_lt_of_le rmin0 p1),
      abs_of_pos (a := poisson earthTables.R (millennia t)) (by norm_num at q1; linarith)]
    have s1 : |sin (poisson c.B (millennia t))| ≤ o.bmax := Real.abs_sin_le_abs.trans p3
    have s2 := Real.abs_sin_le_abs.trans q3
    refine add_le_add (mul_le_mul p2 s1 (abs_nonneg _) (by linarith)) ?_
    refine (mul_le_mul q2 s2 (abs_nonneg _) (by norm_num)).trans (by norm_num)
  · have n : ∀ c : Tables, (c.pos t).norm = |poisson c.R (millennia t)| := by
      intro c
      unfold Tables.pos
      rw [norm_scale, norm_direction, mul_one]
    have : (sep c earthTables t).norm ≤ (c.pos t).norm + (earthTables.pos t).norm := by
      simp only [← norm_toE, toE_sub, sep]
      exact norm_sub_le _ _
    rw [n, n, abs_of_pos (lt_of_lt_of_le rmin0 p1),
      abs_of_pos (by norm_num at q1; linarith)] at this
    norm_num at q2 g1 ⊢
    linarith

end Verif
