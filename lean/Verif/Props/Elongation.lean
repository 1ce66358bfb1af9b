import Verif.Props.CronusPlaces

/-!
# C73: Mercury and Venus are never seen far from the Sun

Real arithmetic.  The angle between two displayed places is the one whose cosine is the scalar product
of their directions.
-/

namespace Verif
open Real

theorem abs_dot_le (v w : V3) : |v.dot w| ≤ v.norm * w.norm := by
  unfold V3.norm
  rw [← Real.sqrt_mul (by positivity)]
  refine Real.abs_le_sqrt ?_
  unfold V3.dot
  nlinarith [sq_nonneg (v.x * w.y - v.y * w.x), sq_nonneg (v.x * w.z - v.z * w.x),
    sq_nonneg (v.y * w.z - v.z * w.y)]

theorem dot_turnX (e : ℝ) (v w : V3) : (turnX e v).dot (turnX e w) = v.dot w := by
  simp only [turnX, V3.dot]
  linear_combination (v.y * w.y + v.z * w.z) * sin_sq_add_cos_sq e

theorem norm_turnX (e : ℝ) (v : V3) : (turnX e v).norm = v.norm := by
  unfold V3.norm
  congr 1
  simp only [turnX]
  linear_combination (v.y ^ 2 + v.z ^ 2) * sin_sq_add_cos_sq e

theorem dot_shift (l b l' b' d : ℝ) :
    (direction (l + d) b).dot (direction (l' + d) b') = (direction l b).dot (direction l' b') := by
  simp only [direction, V3.dot, cos_add, sin_add]
  linear_combination (cos b * cos b' * (cos l * cos l' + sin l * sin l')) * sin_sq_add_cos_sq d

/-- Scalar product of two vectors close to two unit vectors. -/
theorem dot_near {u v u' v' : V3} {d e : ℝ} (hu : u.norm = 1) (hv : v'.norm = 1)
    (h : (u'.sub u).norm ≤ d) (h' : (v'.sub v).norm ≤ e) : u.dot v - d - e ≤ u'.dot v' := by
  have k : u'.dot v' = u.dot v + (u'.sub u).dot v' + u.dot (v'.sub v) := by
    simp only [V3.dot, V3.sub]; ring
  have a := (abs_le.mp (abs_dot_le (u'.sub u) v')).1
  have b := (abs_le.mp (abs_dot_le u (v'.sub v))).1
  rw [hv, mul_one] at a
  rw [hu, one_mul] at b
  rw [k]
  linarith

/-- The algebra of the triangle: sides `r` and `R` at the Sun, `c` the projection of `r` on `R`. -/
theorem triangle_algebra {r R c n a b k q : ℝ} (r0 : 0 ≤ r) (hP : r ≤ a) (hR : b ≤ R) (hb : 0 < b)
    (hab : a < b) (hk : k ^ 2 + (a / b) ^ 2 ≤ 1) (npos : 0 ≤ n)
    (cr : c ≤ r) (key : n * q = R - c) (n2 : n ^ 2 = r ^ 2 + R ^ 2 - 2 * R * c) : k ≤ q := by
  have R0 : 0 < R := lt_of_lt_of_le hb hR
  have rR : r < R := by linarith
  have npos' : 0 < n := by
    rcases npos.lt_or_eq with q | q
    · exact q
    · rw [← q] at n2
      nlinarith [mul_le_mul_of_nonneg_left cr R0.le]
  have s1 : r ^ 2 * b ^ 2 ≤ a ^ 2 * R ^ 2 := by
    have a0 : 0 ≤ a := r0.trans hP
    have := mul_le_mul hP hR hb.le a0
    have := pow_le_pow_left₀ (mul_nonneg r0 hb.le) this 2
    rwa [mul_pow, mul_pow] at this
  have s2 : k ^ 2 * R ^ 2 ≤ R ^ 2 - r ^ 2 := by
    have e1 : (k ^ 2 + (a / b) ^ 2) * b ^ 2 = k ^ 2 * b ^ 2 + a ^ 2 := by field_simp
    have e2 : k ^ 2 * b ^ 2 + a ^ 2 ≤ b ^ 2 := by
      rw [← e1]; have := mul_le_mul_of_nonneg_right hk (sq_nonneg b); linarith
    have b2 : 0 < b ^ 2 := by positivity
    have e3 : (k ^ 2 * R ^ 2) * b ^ 2 ≤ (R ^ 2 - r ^ 2) * b ^ 2 := by
      have := mul_le_mul_of_nonneg_right e2 (sq_nonneg R)
      linarith
    exact le_of_mul_le_mul_right e3 b2
  have s3 : (k * n * R) ^ 2 ≤ ((R - c) * R) ^ 2 := by
    have e1 : (k * n * R) ^ 2 = (k ^ 2 * R ^ 2) * n ^ 2 := by ring
    have e2 : ((R - c) * R) ^ 2 = (R ^ 2 - r ^ 2) * (r ^ 2 + R ^ 2 - 2 * R * c) +
      (r ^ 2 - R * c) ^ 2 := by ring
    have e3 := mul_le_mul_of_nonneg_right s2 (sq_nonneg n)
    rw [e1, e2]
    rw [n2] at e3 ⊢
    linarith [sq_nonneg (r ^ 2 - R * c)]
  have s4 : k * n * R ≤ (R - c) * R :=
    (abs_le_of_sq_le_sq' s3 (mul_nonneg (by linarith) R0.le)).2
  have s5 : k * n ≤ R - c := le_of_mul_le_mul_right s4 R0
  rw [← key, mul_comm k n] at s5
  exact le_of_mul_le_mul_left s5 npos'

/-- The triangle of Sun, Earth and planet: the cosine of the angle at the Earth, if the planet is
nearer to the Sun. `w` is the direction from the Earth to the planet. -/
theorem triangle_elongation {P E w : V3} {L B R n a b k : ℝ} (hE : E = (direction L B).scale R)
    (hP : P.norm ≤ a) (hR : b ≤ R) (hb : 0 < b) (hab : a < b) (hk : k ^ 2 + (a / b) ^ 2 ≤ 1)
    (hw : P.sub E = w.scale n) (hn : n = (P.sub E).norm) :
    k ≤ w.dot (direction (L + π) (-B)) := by
  have u : direction (L + π) (-B) = (direction L B).scale (-1) := by
    simp only [direction, V3.scale, cos_add_pi, sin_add_pi, cos_neg, sin_neg]
    ext <;> simp
  rw [u]
  have hd : (direction L B).x ^ 2 + (direction L B).y ^ 2 + (direction L B).z ^ 2 = 1 :=
    direction_unit L B
  generalize direction L B = D at *
  have P0 : P.norm ^ 2 = P.x ^ 2 + P.y ^ 2 + P.z ^ 2 := Real.sq_sqrt (by positivity)
  have n0 : n ^ 2 = (P.x - E.x) ^ 2 + (P.y - E.y) ^ 2 + (P.z - E.z) ^ 2 := by
    rw [hn]; exact Real.sq_sqrt (by positivity)
  have npos : 0 ≤ n := by rw [hn]; exact norm_nonneg' _
  have hD : D.norm = 1 := by unfold V3.norm; rw [hd, Real.sqrt_one]
  have cr := abs_dot_le P D
  rw [hD, mul_one] at cr
  subst hE
  have ex : P.x - R * D.x = n * w.x := congrArg V3.x hw
  have ey : P.y - R * D.y = n * w.y := congrArg V3.y hw
  have ez : P.z - R * D.z = n * w.z := congrArg V3.z hw
  refine triangle_algebra (norm_nonneg' P) hP hR hb hab hk npos (abs_le.mp cr).2 ?_ ?_
  · simp only [V3.dot, V3.scale]
    linear_combination (-D.x) * ex.symm - D.y * ey.symm - D.z * ez.symm + R * hd
  · rw [n0, P0]
    simp only [V3.dot, V3.scale]
    linear_combination R ^ 2 * hd

theorem norm_pos' (c : Tables) (t : ℝ) : (c.pos t).norm = |poisson c.R (millennia t)| := by
  unfold Tables.pos
  rw [norm_scale, norm_direction, mul_one]

/-- A planet nearer to the Sun than `a`, as displayed: cosine of the angle to the displayed Sun. -/
theorem inner_elongation {p : String} {c : Tables} (hp : p ∈ knownPlanets) (hE : p ≠ "Earth")
    (hc : HasTables p c) {a k : ℝ} (ha : ∀ t, |millennia t| ≤ 6 → |poisson c.R (millennia t)| ≤ a)
    (hab : a ≤ 0.7311) (hk : k ^ 2 + (a / 0.9748) ^ 2 ≤ 1) (jd : ℝ)
    (h : |millennia jd| ≤ 5.9) (psi eps delta : ℝ) (hd : 1e-50 ≤ delta) (hd1 : delta ≤ 14) :
    ∃ ra dec ra' dec', geocentricPlanet jd p psi eps delta = .ok (ra, dec) ∧
      sunPlace jd psi eps = .ok (ra', dec') ∧
      k - 0.0003 ≤ (direction ra dec).dot (direction ra' dec') := by
  obtain ⟨x, l, b, ra, dec, ex, xu, hs, h1, -, -, -, -, h2⟩ :=
    geocentric_planet_accurate hp hE hc h psi eps delta hd hd1
  have h6 : |millennia jd| ≤ 6 := by norm_num at h ⊢; linarith
  obtain ⟨ra', dec', e, b', g1, -, -, -, -, he, hb', g2⟩ := sun_place_apparent jd psi eps h6
  refine ⟨ra, dec, ra', dec', h1, g1, ?_⟩
  -- the time of emission
  have x6 : |millennia x| ≤ 6 := by
    obtain ⟨x', ex', y1, y2, -⟩ := emitted_exists hp hE hc h
    have w6 : |millennia x'| ≤ 6 := window_era h ⟨y1, y2⟩
    rw [← xu x' w6 ex']; exact w6
  obtain ⟨eL, eR, eB, r1, r2, -⟩ := earth6 _ _ x6 h6
  obtain ⟨-, -, -, q1, q2, -⟩ := earth6 _ _ h6 x6
  have hx := ha x x6
  have r0 : 0 < poisson Data.earthR (millennia x) := by norm_num at r1; linarith
  have sn : (sep c earthTables x).norm ≤ 1.76 := by
    have := norm_sub_le (toE (c.pos x)) (toE (earthTables.pos x))
    rw [← toE_sub, norm_toE, norm_toE, norm_toE, norm_pos', norm_pos'] at this
    change (sep c earthTables x).norm ≤ _ + |poisson Data.earthR (millennia x)| at this
    rw [abs_of_pos r0] at this
    norm_num at this r2 hab ⊢; linarith
  have xj : |x - jd| ≤ 0.0102 := by
    have := norm_nonneg' (sep c earthTables x)
    rw [show x - jd = -(lightDay * (sep c earthTables x).norm) by
      have : x = jd - lightDay * (sep c earthTables x).norm := ex
      linarith, abs_neg, abs_of_nonneg (mul_nonneg (by unfold lightDay; norm_num) this)]
    unfold lightDay
    norm_num at sn ⊢; linarith
  have mj : |millennia x - millennia jd| ≤ 0.0102 / 365250 := by
    rw [show millennia x - millennia jd = (x - jd) / 365250 by unfold millennia; ring, abs_div,
      abs_of_pos (by norm_num : (0 : ℝ) < 365250)]
    gcongr
  -- the triangle
  have tri : k ≤ (direction l b).dot (direction (poisson Data.earthL (millennia x) + π)
      (-poisson Data.earthB (millennia x))) :=
    triangle_elongation (P := c.pos x) (E := earthTables.pos x) (n := (sep c earthTables x).norm)
      (a := a) (b := 0.9748) (R := poisson Data.earthR (millennia x)) rfl (by rw [norm_pos']; exact hx)
      r1 (by norm_num) (by norm_num at hab ⊢; linarith) hk hs rfl
  rw [← dot_shift _ _ _ _ psi, ← dot_turnX eps] at tri
  -- the displayed Sun
  have near : ((direction ra' dec').sub (turnX eps (direction (poisson Data.earthL (millennia x) + π + psi)
      (-poisson Data.earthB (millennia x))))).norm ≤ 0.00029 := by
    rw [g2, turnX_isometry]
    refine (direction_lip _ _ _ _).trans ?_
    have ab : 0 ≤ arcsec (20.4898 / poisson Data.earthR (millennia jd)) ∧
        arcsec (20.4898 / poisson Data.earthR (millennia jd)) ≤ arcsec 21.1 := by
      have q0 : 0 < poisson Data.earthR (millennia jd) := by norm_num at q1; linarith
      refine ⟨by unfold arcsec; positivity, ?_⟩
      rw [arcsec_le, div_le_iff₀ q0]
      norm_num at q1 ⊢; linarith
    generalize arcsec (20.4898 / poisson Data.earthR (millennia jd)) = A at *
    have eL2 : |poisson Data.earthL (millennia x) - poisson Data.earthL (millennia jd)| ≤ 0.000185 := by
      have t := abs_add_le (poisson Data.earthL (millennia x) - poisson Data.earthL (millennia jd) -
        6283.32 * (millennia x - millennia jd)) (6283.32 * (millennia x - millennia jd))
      rw [sub_add_cancel, abs_mul, abs_of_pos (by norm_num : (0 : ℝ) < 6283.32)] at t
      norm_num at t eL mj ⊢; linarith
    have eB2 : |poisson Data.earthB (millennia x) - poisson Data.earthB (millennia jd)| ≤ 1e-7 := by
      norm_num at eB mj ⊢; linarith
    have p := Real.pi_lt_d2
    have n1 : arcsec 21.1 + arcsec 0.09033 + arcsec 2e-6 + arcsec 554e-4 ≤ 0.000104 := by
      unfold arcsec; norm_num at p ⊢; linarith
    have n2 : 0 ≤ arcsec 0.09033 := by unfold arcsec; positivity
    have he' : |e| ≤ arcsec 2e-6 := he
    have hb2 : |b'| ≤ arcsec 554e-4 := hb'
    generalize arcsec 0.09033 = F at *
    generalize arcsec 2e-6 = F1 at *
    generalize arcsec 554e-4 = F2 at *
    generalize arcsec 21.1 = F3 at *
    generalize poisson Data.earthL (millennia x) = u at *
    generalize poisson Data.earthL (millennia jd) = v at *
    generalize poisson Data.earthB (millennia x) = u' at *
    generalize poisson Data.earthB (millennia jd) = v' at *
    have k1 : |v + π + psi - A - F + e - (u + π + psi)| ≤ 0.000185 + A + F + F1 := by
      obtain ⟨a1, a2⟩ := abs_le.mp eL2
      obtain ⟨b1, b2⟩ := abs_le.mp he'
      rw [abs_le]; constructor <;> linarith
    have k2 : |-v' + b' - -u'| ≤ 1e-7 + F2 := by
      obtain ⟨a1, a2⟩ := abs_le.mp eB2
      obtain ⟨b1, b2⟩ := abs_le.mp hb2
      rw [abs_le]; constructor <;> linarith
    refine (add_le_add k1 k2).trans ?_
    norm_num at n1 ⊢
    linarith [ab.2]
  have fin := dot_near (u := turnX eps (direction (l + psi) b))
    (v := turnX eps (direction (poisson Data.earthL (millennia x) + π + psi)
      (-poisson Data.earthB (millennia x)))) (by rw [norm_turnX, norm_direction])
    (norm_direction ra' dec') h2 near
  norm_num at fin tri ⊢
  linarith

/-- The angle between the places `(ra, dec)` and `(ra', dec')` is at most `x` degrees. -/
def Within (x ra dec ra' dec' : ℝ) : Prop := arccos ((direction ra dec).dot (direction ra' dec')) ≤ deg x

theorem within_of_dot {x ra dec ra' dec' : ℝ} (h0 : 0 ≤ x) (h1 : x ≤ 180)
    (h : cos (deg x) ≤ (direction ra dec).dot (direction ra' dec')) : Within x ra dec ra' dec' := by
  unfold Within
  refine (Real.arccos_le_arccos h).trans (le_of_eq ?_)
  refine Real.arccos_cos ?_ ?_
  · unfold deg; positivity
  · unfold deg; have := Real.pi_pos; nlinarith

theorem cos_deg_mercury : cos (deg 31.1) ≤ 0.8567 := by
  have e : deg 31.1 = π / 6 + deg 1.1 := by unfold deg; ring
  rw [e, cos_add, cos_pi_div_six, sin_pi_div_six]
  have p1 := Real.pi_gt_d6
  have p2 := Real.pi_lt_d6
  have x1 : (0.01919 : ℝ) ≤ deg 1.1 ∧ deg 1.1 ≤ 0.0192 := by
    unfold deg; norm_num at p1 p2 ⊢; constructor <;> linarith
  have s := Real.sin_gt_sub_cube (x := deg 1.1) (by have := x1.1; norm_num at this; linarith)
  have c := cos_le_one (deg 1.1)
  have q : √3 ≤ 1.7321 := by rw [Real.sqrt_le_left (by norm_num)]; norm_num
  have q0 : 0 ≤ √3 := Real.sqrt_nonneg _
  have cube : deg 1.1 ^ 3 ≤ 0.0192 ^ 3 := pow_le_pow_left₀ (by have := x1.1; norm_num at this; linarith) x1.2 3
  norm_num at x1 q cube ⊢
  nlinarith

theorem cos_deg_venus : cos (deg 48.8) ≤ 0.661 := by
  have e : deg 48.8 = π / 4 + deg 3.8 := by unfold deg; ring
  rw [e, cos_add, cos_pi_div_four, sin_pi_div_four]
  have p1 := Real.pi_gt_d6
  have p2 := Real.pi_lt_d6
  have x1 : (0.0663 : ℝ) ≤ deg 3.8 ∧ deg 3.8 ≤ 0.0664 := by
    unfold deg; norm_num at p1 p2 ⊢; constructor <;> linarith
  have s := Real.sin_gt_sub_cube (x := deg 3.8) (by have := x1.1; norm_num at this; linarith)
  have c := cos_le_one (deg 3.8)
  have q : √2 ≤ 1.4143 := by rw [Real.sqrt_le_left (by norm_num)]; norm_num
  have q0 : 0 ≤ √2 := Real.sqrt_nonneg _
  have cube : deg 3.8 ^ 3 ≤ 0.0664 ^ 3 := pow_le_pow_left₀ (by have := x1.1; norm_num at this; linarith) x1.2 3
  have d : cos (deg 3.8) - sin (deg 3.8) ≤ 0.9338 := by norm_num at x1 cube ⊢; linarith
  have := mul_le_mul q d
  norm_num at d q ⊢
  nlinarith

theorem orbit_radius {o : Orbit} (ho : o ∈ orbits6) {c : Tables} (hc : HasTables o.name c) :
    ∀ t, |millennia t| ≤ 6 → |poisson c.R (millennia t)| ≤ o.rmax := by
  intro t ht
  obtain ⟨r1, r2, -⟩ := tables_orbit ho hc ht
  have rmin0 : (0 : ℝ) < o.rmin := by exact_mod_cast (orbits_ordered.2.2.2.2 o ho).1
  rw [abs_of_pos (by linarith)]
  exact r2

/-- C73: for every time within 5900 years of J2000, the place of Mercury returned by
`geocentric_planet` is within 31.1 degrees of the place of the Sun (computed as `cronus` does, with
the same nutation and obliquity). -/
theorem mercury_elongation {c : Tables} (hc : HasTables "Mercury" c) (jd : ℝ) (h : |millennia jd| ≤ 5.9)
    (psi eps delta : ℝ) (hd : 1e-50 ≤ delta) (hd1 : delta ≤ 14) :
    ∃ ra dec ra' dec', geocentricPlanet jd "Mercury" psi eps delta = .ok (ra, dec) ∧
      sunPlace jd psi eps = .ok (ra', dec') ∧ Within 31.1 ra dec ra' dec' := by
  have ho : (⟨"Mercury", 0.288, 0.502, 0.205, 26088.147, 18050⟩ : Orbit) ∈ orbits6 := by simp [orbits6]
  have hr := orbit_radius ho hc
  obtain ⟨ra, dec, ra', dec', h1, h2, h3⟩ := inner_elongation (a := 0.502) (k := 0.8572)
    (by decide) (by decide) hc (fun t ht => by have := hr t ht; push_cast at this; norm_num at this ⊢; exact this)
    (by norm_num) (by norm_num) jd h psi eps delta hd hd1
  refine ⟨ra, dec, ra', dec', h1, h2, within_of_dot (by norm_num) (by norm_num) ?_⟩
  have := cos_deg_mercury
  norm_num at this h3 ⊢
  linarith

/-- C73: the same for Venus with 48.8 degrees. -/
theorem venus_elongation {c : Tables} (hc : HasTables "Venus" c) (jd : ℝ) (h : |millennia jd| ≤ 5.9)
    (psi eps delta : ℝ) (hd : 1e-50 ≤ delta) (hd1 : delta ≤ 14) :
    ∃ ra dec ra' dec', geocentricPlanet jd "Venus" psi eps delta = .ok (ra, dec) ∧
      sunPlace jd psi eps = .ok (ra', dec') ∧ Within 48.8 ra dec ra' dec' := by
  have ho : (⟨"Venus", 0.715, 0.7311, 0.101, 10213.529, 269⟩ : Orbit) ∈ orbits6 := by simp [orbits6]
  have hr := orbit_radius ho hc
  obtain ⟨ra, dec, ra', dec', h1, h2, h3⟩ := inner_elongation (a := 0.7311) (k := 0.6614)
    (by decide) (by decide) hc (fun t ht => by have := hr t ht; push_cast at this; norm_num at this ⊢; exact this)
    (by norm_num) (by norm_num) jd h psi eps delta hd hd1
  refine ⟨ra, dec, ra', dec', h1, h2, within_of_dot (by norm_num) (by norm_num) ?_⟩
  have := cos_deg_venus
  norm_num at this h3 ⊢
  linarith

/-- C73: so in the table of `cronus`. -/
theorem cronus_inner_planets (jd : ℝ) (h : |millennia jd| ≤ 5.9) (p : String) (x : ℝ)
    (hp : (p, x) ∈ [("Mercury", (31.1 : ℝ)), ("Venus", 48.8)]) :
    ∃ ra dec alt ra' dec' alt', place jd p = .ok (ra, dec, alt) ∧
      place jd "Sun" = .ok (ra', dec', alt') ∧ Within x ra dec ra' dec' := by
  have key : ∀ q : String, q ≠ "Moon" → q ≠ "Sun" → ∀ {ra dec ra' dec' : ℝ},
      geocentricPlanet jd q (nutationInLongitude jd) (trueObliquity jd) (1 / 86400) = .ok (ra, dec) →
      sunPlace jd (nutationInLongitude jd) (trueObliquity jd) = .ok (ra', dec') →
      place jd q = .ok (ra, dec, standardRstAltitude) ∧
      place jd "Sun" = .ok (ra', dec', sunRstAltitude) := by
    intro q n1 n2 ra dec ra' dec' h1 h2
    unfold place
    rw [nutationPair_eq]
    constructor
    · simp only [if_neg n1, if_neg n2, h1, Except.map]
    · simp only [reduceCtorEq, String.reduceEq, if_false, if_true, h2, Except.map]
  simp only [List.mem_cons, Prod.mk.injEq, List.not_mem_nil, or_false] at hp
  rcases hp with ⟨rfl, rfl⟩ | ⟨rfl, rfl⟩
  · obtain ⟨c, hc⟩ := hasTables_of_known (p := "Mercury") (by decide)
    obtain ⟨ra, dec, ra', dec', h1, h2, h3⟩ := mercury_elongation hc jd h (nutationInLongitude jd)
      (trueObliquity jd) (1 / 86400) (by norm_num) (by norm_num)
    obtain ⟨k1, k2⟩ := key _ (by decide) (by decide) h1 h2
    exact ⟨ra, dec, _, ra', dec', _, k1, k2, h3⟩
  · obtain ⟨c, hc⟩ := hasTables_of_known (p := "Venus") (by decide)
    obtain ⟨ra, dec, ra', dec', h1, h2, h3⟩ := venus_elongation hc jd h (nutationInLongitude jd)
      (trueObliquity jd) (1 / 86400) (by norm_num) (by norm_num)
    obtain ⟨k1, k2⟩ := key _ (by decide) (by decide) h1 h2
    exact ⟨ra, dec, _, ra', dec', _, k1, k2, h3⟩

/-- The hypotheses are met. -/
example : ∃ c, HasTables "Mercury" c := hasTables_of_known (by decide)
example : ∃ c, HasTables "Venus" c := hasTables_of_known (by decide)
example : |millennia 2451545| ≤ 5.9 := by unfold millennia; norm_num

end Verif
