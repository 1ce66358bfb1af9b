import Verif.Spec.Aberration
import Verif.Lemmas.Fk5Rotation
import Verif.Props.Fk5Rotation
import Verif.Props.Geocentric

/-!
# C99: light-time and aberration of the planets

`geocentric_planet` takes Earth and planet at the same earlier time.  Here this is compared with what
physics says: light from the planet at the time of emission, the Earth at the time of observation,
displaced by the velocity of the Earth.
-/

namespace Verif
open Real

section
variable {p : String} {c : Tables} {jd : ℝ}

theorem earth_lip {t s : ℝ} (ht : |millennia t| ≤ 6) (hs : |millennia s| ≤ 6) :
    ((earthTables.pos t).sub (earthTables.pos s)).norm ≤ 0.0191 * |t - s| := by
  obtain ⟨e, he, ee⟩ := orbit_of_name (p := "Earth") (by decide)
  have k2 := pos_lip he (speeds_ok.2 e he ee) (c := earthTables) (by rw [ee]; exact earth_hasTables) ht hs
  push_cast at k2
  norm_num at k2 ⊢
  linarith

theorem planet_lip (hp : p ∈ knownPlanets) (hc : HasTables p c) {t s : ℝ} (ht : |millennia t| ≤ 6)
    (hs : |millennia s| ≤ 6) : ((c.pos t).sub (c.pos s)).norm ≤ 0.0777 * |t - s| := by
  obtain ⟨o, ho, rfl⟩ := orbit_of_name hp
  have k1 := pos_lip ho (speeds_ok.1 o ho) hc ht hs
  push_cast at k1
  norm_num at k1 ⊢
  linarith

/-- Distance of the planet at one time from the Earth at another one. -/
theorem arrival_gap {t s : ℝ} (ht : |millennia t| ≤ 6) (hs : |millennia s| ≤ 6) (c : Tables) :
    |((c.pos s).sub (earthTables.pos t)).norm - (sep c earthTables s).norm| ≤ 0.0191 * |t - s| := by
  refine (abs_norm_sub _ _).trans ?_
  have e : (V3.sub ((c.pos s).sub (earthTables.pos t)) (sep c earthTables s)) =
      (earthTables.pos s).sub (earthTables.pos t) := by
    unfold sep; simp only [V3.sub]; ext <;> simp
  rw [e, norm_sub_comm]
  exact earth_lip ht hs

/-- C99: there is exactly one time at which the light leaves the planet. -/
theorem arrives_exists (hp : p ∈ knownPlanets) (hE : p ≠ "Earth") (hc : HasTables p c)
    (h : |millennia jd| ≤ 5.9) :
    ∃ y, Arrives c earthTables jd y ∧ jd - 0.2 ≤ y ∧ y < jd ∧
      ∀ y', |millennia y'| ≤ 6 → Arrives c earthTables jd y' → y' = y := by
  have hE' : ∀ t, Window jd t → |millennia t| ≤ 6 := fun t w => window_era h w
  have wj : Window jd jd := ⟨by norm_num, le_rfl⟩
  have lip : ∀ {t s}, |millennia t| ≤ 6 → |millennia s| ≤ 6 →
      |((c.pos t).sub (earthTables.pos jd)).norm - ((c.pos s).sub (earthTables.pos jd)).norm| ≤
        0.0777 * |t - s| := by
    intro t s ht hs
    refine (abs_norm_sub _ _).trans ?_
    have e : V3.sub ((c.pos t).sub (earthTables.pos jd)) ((c.pos s).sub (earthTables.pos jd)) =
        (c.pos t).sub (c.pos s) := by simp only [V3.sub]; ext <;> simp
    rw [e]
    exact planet_lip hp hc ht hs
  have cont : ContinuousOn (fun t => t + lightDay * ((c.pos t).sub (earthTables.pos jd)).norm)
      (Set.Icc (jd - 0.2) jd) := by
    refine continuousOn_id.add (ContinuousOn.mul continuousOn_const ?_)
    have lip' : LipschitzOnWith ⟨0.0777, by norm_num⟩
        (fun t => ((c.pos t).sub (earthTables.pos jd)).norm) (Set.Icc (jd - 0.2) jd) := by
      refine LipschitzOnWith.of_dist_le_mul fun t wt s ws => ?_
      rw [Real.dist_eq, Real.dist_eq]
      exact lip (hE' t wt) (hE' s ws)
    exact lip'.continuousOn
  have lo : Window jd (jd - 0.2) := ⟨le_rfl, by norm_num⟩
  have b1 := (sep_bounds hp hE hc (hE' _ lo)).2.2
  have g := arrival_gap (hE' _ wj) (hE' _ lo) c
  have b2 := norm_nonneg' ((c.pos jd).sub (earthTables.pos jd))
  obtain ⟨y, wy, ey⟩ := intermediate_value_Icc (by norm_num : jd - 0.2 ≤ jd) cont
    (show jd ∈ Set.Icc _ _ from ⟨by
      have g' := (abs_le.mp g).2
      rw [show jd - (jd - 0.2) = 0.2 by ring, abs_of_pos (by norm_num : (0 : ℝ) < 0.2)] at g'
      simp only [lightDay]; norm_num at b1 g' ⊢; linarith, by
      simp only [lightDay]; norm_num; linarith⟩)
  simp only at ey
  have ey' : Arrives c earthTables jd y := by unfold Arrives; linarith
  have lt : y < jd := by
    refine lt_of_le_of_ne wy.2 fun hj => ?_
    subst hj
    have b := (sep_bounds hp hE hc (hE' _ wj)).1
    have : 0 < (sep c earthTables y).norm := by
      unfold V3.norm
      refine Real.sqrt_pos.mpr ?_
      norm_num at b
      linarith [sq_nonneg (sep c earthTables y).z]
    have k : 0 < lightDay := by unfold lightDay; norm_num
    have := mul_pos k this
    unfold sep at this
    linarith
  refine ⟨y, ey', wy.1, lt, fun y' m' e' => ?_⟩
  have l := lip m' (hE' y wy)
  have d : y' - y = -(lightDay * (((c.pos y').sub (earthTables.pos jd)).norm -
      ((c.pos y).sub (earthTables.pos jd)).norm)) := by
    unfold Arrives at e' ey'
    linarith
  have d2 := congrArg abs d
  rw [abs_neg, abs_mul] at d2
  have k : |lightDay| = 0.0057755183 := by unfold lightDay; rw [abs_of_pos]; norm_num
  rw [k] at d2
  have n := abs_nonneg (y' - y)
  have : |y' - y| = 0 := by
    have := mul_le_mul_of_nonneg_left l (by norm_num : (0 : ℝ) ≤ 0.0057755183)
    norm_num at this d2
    linarith
  rw [abs_eq_zero] at this
  linarith

/-- C99: taking Earth and planet at the time of emission is the same as displacing the true direction
by the aberration that belongs to the mean velocity of the Earth while the light was under way.  This
is exact. -/
theorem aberration_exact {y : ℝ} (hy : Arrives c earthTables jd y) (lt : y < jd) {u : V3}
    (hu : (c.pos y).sub (earthTables.pos jd) = u.scale ((c.pos y).sub (earthTables.pos jd)).norm) :
    sep c earthTables y =
      (aberrated u (meanVelocity earthTables y jd)).scale ((c.pos y).sub (earthTables.pos jd)).norm := by
  have k : 0 < lightDay := by unfold lightDay; norm_num
  have hr : ((c.pos y).sub (earthTables.pos jd)).norm = (jd - y) / lightDay := by
    unfold Arrives at hy
    rw [eq_div_iff k.ne']; linarith
  rw [hr] at hu ⊢
  have j : jd - y ≠ 0 := by linarith
  unfold sep aberrated meanVelocity
  have e : ∀ a b d : V3, a.sub b = (a.sub d).plus (d.sub b) := by
    intro a b d; simp only [V3.sub, V3.plus]; ext <;> simp
  rw [e _ _ (earthTables.pos jd), hu]
  generalize (earthTables.pos jd).sub (earthTables.pos y) = w
  simp only [V3.plus, V3.scale]
  ext <;> · simp only; field_simp

/-- C99: the displacement by the aberration is at most 23 seconds of arc. -/
theorem aberration_size {y : ℝ} (h : |millennia jd| ≤ 5.9) (wy : Window jd y) (lt : y < jd) (u : V3) :
    ((aberrated u (meanVelocity earthTables y jd)).sub u).norm ≤ arcsec 23 := by
  have wj : Window jd jd := ⟨by norm_num, le_rfl⟩
  have l := earth_lip (window_era h wj) (window_era h wy)
  have e : (aberrated u (meanVelocity earthTables y jd)).sub u =
      V3.scale lightDay (meanVelocity earthTables y jd) := by
    simp [aberrated, V3.plus, V3.sub]
  have j : 0 < jd - y := by linarith
  rw [e, norm_scale, meanVelocity, norm_scale, abs_of_pos (by positivity : 0 < 1 / (jd - y)),
    abs_of_pos (by unfold lightDay; norm_num)]
  rw [abs_of_pos j] at l
  have : 1 / (jd - y) * ((earthTables.pos jd).sub (earthTables.pos y)).norm ≤ 0.0191 := by
    rw [one_div, inv_mul_le_iff₀ j]; linarith
  have m := mul_le_mul_of_nonneg_left this (by unfold lightDay; norm_num : 0 ≤ lightDay)
  refine m.trans ?_
  unfold lightDay arcsec
  have := pi_gt_d2
  norm_num at this ⊢; linarith

/-- What `geocentric_planet` returns, in terms of the time of the last pass of its loop. -/
theorem geocentric_core (hp : p ∈ knownPlanets) (hE : p ≠ "Earth") (hc : HasTables p c)
    (h : |millennia jd| ≤ 5.9) {x : ℝ} (wx : Window jd x) (ex : Emitted c earthTables jd x)
    (deltaPsi epsilon delta : ℝ) (hd : 1e-50 ≤ delta) (hd1 : delta ≤ 14) :
    ∃ t, Window jd t ∧ |t - x| ≤ 0.00056 * |jd - x| ∧
      geocentricPlanet jd p deltaPsi epsilon delta = .ok (eclToEqu
        ((vsopToFk5 jd (sep c earthTables t).lon (sep c earthTables t).lat).1 + deltaPsi)
        (vsopToFk5 jd (sep c earthTables t).lon (sep c earthTables t).lat).2 epsilon) := by
  obtain ⟨t, wt, tx, a⟩ := loop_converges hp hE hc h wx ex hd1 18 (by
    refine lt_of_lt_of_le ?_ hd; norm_num)
  refine ⟨t, wt, tx, ?_⟩
  unfold geocentricPlanet
  rw [show (20 : ℕ) = 18 + 2 from rfl, a]
  rfl

/-- The time of emission as the code takes it is close to the true one. -/
theorem emission_times (hp : p ∈ knownPlanets) (hc : HasTables p c) (h : |millennia jd| ≤ 5.9) {x y : ℝ}
    (wx : Window jd x) (wy : Window jd y) (ex : Emitted c earthTables jd x)
    (ey : Arrives c earthTables jd y) : |x - y| ≤ 1.105e-4 * |jd - y| := by
  have wj : Window jd jd := ⟨by norm_num, le_rfl⟩
  have g := arrival_gap (window_era h wj) (window_era h wy) c
  have s := (abs_norm_sub _ _).trans (sep_lip hp hc (window_era h wx) (window_era h wy))
  have d : x - y = -(lightDay * (((sep c earthTables x).norm - (sep c earthTables y).norm) -
      (((c.pos y).sub (earthTables.pos jd)).norm - (sep c earthTables y).norm))) := by
    unfold Emitted at ex; unfold Arrives at ey; linarith
  have d2 := congrArg abs d
  have k : |lightDay| = 0.0057755183 := by unfold lightDay; rw [abs_of_pos]; norm_num
  rw [abs_neg, abs_mul, k] at d2
  have t := (abs_sub _ _).trans (add_le_add s g)
  have m := mul_le_mul_of_nonneg_left t (by norm_num : (0 : ℝ) ≤ 0.0057755183)
  have n1 := abs_nonneg (x - y)
  have n2 := abs_nonneg (jd - y)
  norm_num at d2 m ⊢
  linarith

theorem cross_sub (o v w : V3) : V3.sub (v.plus (o.cross v)) (w.plus (o.cross w)) =
    (v.sub w).plus (o.cross (v.sub w)) := by
  simp only [V3.sub, V3.plus, V3.cross]; ext <;> · simp only; ring

theorem norm_plus_le (v w : V3) : (v.plus w).norm ≤ v.norm + w.norm := by
  have t := norm_triangle (v.plus w) v ⟨0, 0, 0⟩
  have e1 : (v.plus w).sub v = w := by simp [V3.plus, V3.sub]
  have e2 : ∀ x : V3, x.sub ⟨0, 0, 0⟩ = x := by intro x; simp [V3.sub]
  rw [e1, e2, e2] at t
  linarith

theorem turnZ_isometry (a : ℝ) (v w : V3) : ((turnZ a v).sub (turnZ a w)).norm = (v.sub w).norm := by
  unfold V3.norm
  congr 1
  simp only [turnZ, V3.sub]
  linear_combination ((v.x - w.x) ^ 2 + (v.y - w.y) ^ 2) * sin_sq_add_cos_sq a

theorem direction_turnZ (l b a : ℝ) : direction (l + a) b = turnZ a (direction l b) := by
  simp only [direction, turnZ, cos_add, sin_add]; ext <;> simp only <;> ring

/-- C99: for every planet but the Earth, every time within 5900 years of J2000 and every precision from
`1e-50` to 14 days: there is exactly one time `y` at which the light seen at `jd` left the planet.  Let
`u` be the unit vector from the Earth at `jd` to the planet at `y`, displaced by the aberration of the
mean velocity of the Earth between `y` and `jd`; turn it to the FK5 frame, by the nutation in longitude
and to the equator.  `geocentric_planet` returns that direction up to `7.6e-7` (0.16 seconds of arc). -/
theorem geocentric_planet_physical (hp : p ∈ knownPlanets) (hE : p ≠ "Earth") (hc : HasTables p c)
    (h : |millennia jd| ≤ 5.9) (deltaPsi epsilon delta : ℝ) (hd : 1e-50 ≤ delta) (hd1 : delta ≤ 14) :
    ∃ y u l b ra dec, Arrives c earthTables jd y ∧ y < jd ∧
      (∀ y', |millennia y'| ≤ 6 → Arrives c earthTables jd y' → y' = y) ∧
      u.norm = 1 ∧ (c.pos y).sub (earthTables.pos jd) = u.scale ((c.pos y).sub (earthTables.pos jd)).norm ∧
      aberrated u (meanVelocity earthTables y jd) =
        (direction l b).scale (aberrated u (meanVelocity earthTables y jd)).norm ∧
      geocentricPlanet jd p deltaPsi epsilon delta = .ok (ra, dec) ∧
      ((direction ra dec).sub (turnX epsilon (turnZ deltaPsi ((direction l b).plus
        ((fkAxis (centuries jd)).cross (direction l b)))))).norm ≤ 7.6e-7 := by
  obtain ⟨x, ex, x1, x2, -⟩ := emitted_exists hp hE hc h
  obtain ⟨y, ey, y1, y2, yu⟩ := arrives_exists hp hE hc h
  have wy : Window jd y := ⟨y1, y2.le⟩
  obtain ⟨t, wt, tx, res⟩ := geocentric_core hp hE hc h ⟨x1, x2⟩ ex deltaPsi epsilon delta hd hd1
  have xy := emission_times hp hc h ⟨x1, x2⟩ wy ex ey
  obtain ⟨t1, t2, t3⟩ := lat_bound hp hE hc (window_era h wt)
  obtain ⟨-, -, v3⟩ := lat_bound hp hE hc (window_era h wy)
  have l := sep_lip hp hc (window_era h wt) (window_era h wy)
  have wj : Window jd jd := ⟨by norm_num, le_rfl⟩
  have g := arrival_gap (window_era h wj) (window_era h wy) c
  have k0 : 0 < lightDay := by unfold lightDay; norm_num
  have jy : |jd - y| = lightDay * ((c.pos y).sub (earthTables.pos jd)).norm := by
    rw [abs_of_pos (by linarith)]; unfold Arrives at ey; linarith
  have r0 : 0 < ((c.pos y).sub (earthTables.pos jd)).norm := by
    have : 0 < lightDay * ((c.pos y).sub (earthTables.pos jd)).norm := by
      rw [← jy, abs_pos]; linarith
    exact (pos_iff_pos_of_mul_pos this).mp k0
  set r := ((c.pos y).sub (earthTables.pos jd)).norm with hr
  set u : V3 := V3.scale (1 / r) ((c.pos y).sub (earthTables.pos jd)) with hu
  have un : u.norm = 1 := by
    rw [hu, norm_scale, ← hr, abs_of_pos (by positivity)]; field_simp
  have ur : (c.pos y).sub (earthTables.pos jd) = u.scale r := by
    rw [hu]; simp only [V3.scale]; ext <;> · simp only; field_simp
  have exact' := aberration_exact ey y2 ur
  rw [← hr] at exact'
  have ab : aberrated u (meanVelocity earthTables y jd) =
      (direction (sep c earthTables y).lon (sep c earthTables y).lat).scale
        (aberrated u (meanVelocity earthTables y jd)).norm := by
    have n : (sep c earthTables y).norm = r * (aberrated u (meanVelocity earthTables y jd)).norm := by
      rw [exact', norm_scale, abs_of_pos r0]
    rw [n] at v3
    generalize direction (sep c earthTables y).lon (sep c earthTables y).lat = w at *
    rw [exact'] at v3
    generalize aberrated u (meanVelocity earthTables y jd) = a at *
    have q := fun (f : V3 → ℝ) => congrArg f v3
    have qx := q V3.x; have qy := q V3.y; have qz := q V3.z
    simp only [V3.scale] at qx qy qz
    ext
    · exact mul_left_cancel₀ r0.ne' (by rw [qx]; simp only [V3.scale]; ring)
    · exact mul_left_cancel₀ r0.ne' (by rw [qy]; simp only [V3.scale]; ring)
    · exact mul_left_cancel₀ r0.ne' (by rw [qz]; simp only [V3.scale]; ring)
  refine ⟨y, u, (sep c earthTables y).lon, (sep c earthTables y).lat, (eclToEqu
    ((vsopToFk5 jd (sep c earthTables t).lon (sep c earthTables t).lat).1 + deltaPsi)
    (vsopToFk5 jd (sep c earthTables t).lon (sep c earthTables t).lat).2 epsilon).1, (eclToEqu
    ((vsopToFk5 jd (sep c earthTables t).lon (sep c earthTables t).lat).1 + deltaPsi)
    (vsopToFk5 jd (sep c earthTables t).lon (sep c earthTables t).lat).2 epsilon).2, ey, y2, yu, un, ur, ab, res, ?_⟩
  have rot := vsop_to_fk5_rotation jd (sep c earthTables t).lon (sep c earthTables t).lat (by
    have : 0 < cos (sep c earthTables t).lat := by
      refine cos_pos_of_mem_Ioo ?_
      obtain ⟨k3, k4⟩ := abs_le.mp t2
      have := pi_gt_three
      norm_num at k3 k4
      constructor <;> linarith
    exact this.ne')
  obtain ⟨-, -, -, f3⟩ := vsop_to_fk5_small jd (sep c earthTables t).lon (sep c earthTables t).lat
  have s0 : (1 - 1.104e-4) * r ≤ (sep c earthTables y).norm := by
    have := (abs_le.mp g).2
    rw [jy] at this; unfold lightDay at this
    norm_num at this ⊢; linarith
  have sp : 0 < (sep c earthTables y).norm := lt_of_lt_of_le (mul_pos (by norm_num) r0) s0
  have near := normalised_near t3 v3 (norm_direction _ _) sp
  have ty : |t - y| ≤ 6.711e-4 * |jd - y| := by
    have a1 : |t - y| ≤ |t - x| + |x - y| := by
      have := abs_add_le (t - x) (x - y); rwa [sub_add_sub_cancel] at this
    have a2 : |jd - x| ≤ |jd - y| + |x - y| := by
      have := abs_sub (jd - y) (x - y); rwa [sub_sub_sub_cancel_right] at this
    have := abs_nonneg (jd - y)
    norm_num at tx xy ⊢; linarith
  have near2 : 2 * (((sep c earthTables t).sub (sep c earthTables y)).norm / (sep c earthTables y).norm) ≤
      7.55e-7 := by
    rw [← le_div_iff₀' (by norm_num), div_le_iff₀ sp]
    rw [jy] at ty
    unfold lightDay at ty
    have := mul_le_mul_of_nonneg_left ty (by norm_num : (0 : ℝ) ≤ 0.0968)
    norm_num at this l s0 ⊢
    linarith
  have near3 := near.trans near2
  have hp4 := Real.pi_lt_d2
  have hp3 := Real.pi_gt_three
  set l' := (vsopToFk5 jd (sep c earthTables t).lon (sep c earthTables t).lat).1 with hl'
  set b' := (vsopToFk5 jd (sep c earthTables t).lon (sep c earthTables t).lat).2 with hb'
  have f3' : |b' - (sep c earthTables t).lat| ≤ 2.7e-7 := by
    refine f3.trans ?_
    unfold arcsec; norm_num at hp4 ⊢; linarith
  have cb : 0 < cos b' := by
    refine cos_pos_of_mem_Ioo ?_
    obtain ⟨k1, k2⟩ := abs_le.mp f3'
    obtain ⟨k3, k4⟩ := abs_le.mp t2
    norm_num at k1 k2 k3 k4
    constructor <;> linarith
  have rot' : 2 * arcsec (0.09033 + 0.0554 * |tan (sep c earthTables t).lat|) ^ 2 + 3 * arcsec 0.0554 ^ 2 ≤
      1e-12 := by
    have h1 : arcsec (0.09033 + 0.0554 * |tan (sep c earthTables t).lat|) ≤ 6.03e-7 := by
      have : arcsec (0.09033 + 0.0554 * |tan (sep c earthTables t).lat|) ≤ arcsec 0.124 := by
        rw [arcsec_le]; norm_num at t1 ⊢; linarith
      refine this.trans ?_
      unfold arcsec; norm_num at hp4 ⊢; linarith
    have h2 : arcsec 0.0554 ≤ 2.7e-7 := by
      unfold arcsec; norm_num at hp4 ⊢; linarith
    have g1 : 0 ≤ arcsec (0.09033 + 0.0554 * |tan (sep c earthTables t).lat|) := by
      unfold arcsec; positivity
    have g2 : 0 ≤ arcsec 0.0554 := by unfold arcsec; positivity
    have e1 := pow_le_pow_left₀ g1 h1 2
    have e2 := pow_le_pow_left₀ g2 h2 2
    norm_num at e1 e2 ⊢
    linarith
  have rot2 := rot.trans rot'
  have w := (fk_axis_length (centuries jd)).2.1
  have o1 : (fkAxis (centuries jd)).norm ≤ 5.2e-7 := by
    refine w.trans ?_
    unfold arcsec; norm_num at hp4 ⊢; linarith
  rw [ecl_to_equ_rotates _ _ _ cb, turnX_isometry, direction_turnZ, turnZ_isometry]
  generalize direction l' b' = d1 at *
  generalize direction (sep c earthTables t).lon (sep c earthTables t).lat = d2 at *
  generalize direction (sep c earthTables y).lon (sep c earthTables y).lat = d3 at *
  generalize fkAxis (centuries jd) = o at *
  have tri := norm_triangle d1 (d2.plus (o.cross d2)) (d3.plus (o.cross d3))
  rw [cross_sub] at tri
  have pl := norm_plus_le (d2.sub d3) (o.cross (d2.sub d3))
  have cr := cross_le o (d2.sub d3)
  have n0 := norm_nonneg' (d2.sub d3)
  have cr2 := mul_le_mul o1 near3 n0 (by norm_num)
  norm_num at rot2 near3 cr2 ⊢
  linarith

/-- Mars on 2000 January 1.5. -/
example : "Mars" ∈ knownPlanets ∧ "Mars" ≠ "Earth" ∧ (∃ c, HasTables "Mars" c) ∧
    |millennia (2451545 : ℝ)| ≤ 5.9 ∧ (1e-50 : ℝ) ≤ 1 / 86400 ∧ (1 / 86400 : ℝ) ≤ 14 := by
  refine ⟨by decide, by decide, ⟨⟨Data.marsL, Data.marsB, Data.marsR⟩, rfl, rfl, rfl⟩, ?_, ?_, ?_⟩
  · unfold millennia; norm_num
  · norm_num
  · norm_num

end
end Verif
