import Verif.Lemmas.FloatGeoLoop
import Verif.Props.FloatCoord

/-!
# C80: `geocentric_planet` in binary64
-/

namespace Verif
open Real

section
variable {fl : ℚ → ℚ} {lib : GeoLib} {p : String} {c : Tables} {jd : ℚ}

/-- C80: in binary64 three passes suffice for a precision of at least `1.1e-5` days (the library uses one
second), as a comment in the code claims; four suffice for `1.2e-8` days. -/
theorem geocentric_passes_float (hf : Rounding fl) (hl : lib.Good fl 64) (hp : p ∈ knownPlanets) (hE : p ≠ "Earth")
    (h : |millennia jd| ≤ 5.9) {delta : ℚ} (hd2 : delta ≤ 14) :
    (1.1e-5 ≤ delta → ∃ r, geocentricLoopF fl lib jd p delta 3 jd (-100) = .ok r ∧
      geocentricLoopF fl lib jd p delta 20 jd (-100) = .ok r) ∧
    (1.2e-8 ≤ delta → ∃ r, geocentricLoopF fl lib jd p delta 4 jd (-100) = .ok r ∧
      geocentricLoopF fl lib jd p delta 20 jd (-100) = .ok r) := by
  obtain ⟨c, hc⟩ := hasTables_of_known hp
  obtain ⟨x, ex, x1, x2, -⟩ := emitted_exists hp hE hc h
  constructor
  · intro hd
    have hd' : (1.1e-5 : ℝ) ≤ delta := by have := (Rat.cast_le (K := ℝ)).mpr hd; push_cast at this; exact this
    obtain ⟨t', G, b, -, -, -, -, -, k⟩ := geo_convergesF hf.floatLike hl hp hE hc h ⟨x1, x2⟩ ex
      (le_trans (by norm_num) hd) hd2 1 (by
        simp only [Function.iterate_succ, Function.iterate_zero, Function.comp, id, shrinkT]
        norm_num at hd' ⊢; linarith)
    exact ⟨_, k 0, k 17⟩
  · intro hd
    have hd' : (1.2e-8 : ℝ) ≤ delta := by have := (Rat.cast_le (K := ℝ)).mpr hd; push_cast at this; exact this
    obtain ⟨t', G, b, -, -, -, -, -, k⟩ := geo_convergesF hf.floatLike hl hp hE hc h ⟨x1, x2⟩ ex
      (le_trans (by norm_num) hd) hd2 2 (by
        simp only [Function.iterate_succ, Function.iterate_zero, Function.comp, id, shrinkT]
        norm_num at hd' ⊢; linarith)
    exact ⟨_, k 0, k 16⟩

/-- Right ascension and declination in binary64, for directions well away from the poles. -/
theorem ecl_to_equ_direction {fl : ℚ → ℚ} (hf : FloatLike fl) {lib : TrigLib} {N : ℕ} (hl : lib.Good fl N) (l b e : ℚ)
    (hb : |(b : ℝ)| ≤ 0.61) (hs : |sin (b : ℝ)| ≤ 0.52) (he : |e| ≤ 0.437) :
    ∃ ra dec : ℚ, eclToEquF fl lib l b e = (ra, some dec) ∧ 0 ≤ ra ∧ ra ≤ pi2F ∧
      ((direction ra dec).sub (turnX e (direction l b))).norm ≤ 2e-13 := by
  have he' : |(e : ℝ)| ≤ 0.437 := by have := (Rat.cast_le (K := ℝ)).mpr he; push_cast at this; exact this
  have cb : 0 < cos (b : ℝ) := by
    obtain ⟨h1, h2⟩ := abs_le.mp hb
    have := Real.pi_gt_three
    exact Real.cos_pos_of_mem_Ioo ⟨by norm_num at h1 ⊢; linarith, by norm_num at h2 ⊢; linarith⟩
  have c : 0.28 ≤ cos (eclToEqu l b e).2 := by
    unfold eclToEqu
    simp only
    rw [Real.cos_arcsin]
    apply Real.le_sqrt_of_sq_le
    have z : |sin (b : ℝ) * cos (e : ℝ) + cos (b : ℝ) * sin (e : ℝ) * sin (l : ℝ)| ≤ 0.957 := by
      refine (abs_add_le _ _).trans ?_
      rw [abs_mul, abs_mul, abs_mul]
      have s2 : |sin (e : ℝ)| ≤ 0.437 := (Real.abs_sin_le_abs).trans he'
      have t1 : |sin (b : ℝ)| * |cos (e : ℝ)| ≤ 0.52 * 1 := mul_le_mul hs (abs_cos_le_one _) (abs_nonneg _) (by norm_num)
      have t2 : |cos (b : ℝ)| * |sin (e : ℝ)| ≤ 1 * 0.437 := mul_le_mul (abs_cos_le_one _) s2 (abs_nonneg _) (by norm_num)
      have t3 : |cos (b : ℝ)| * |sin (e : ℝ)| * |sin (l : ℝ)| ≤ 1 * 0.437 * 1 :=
        mul_le_mul t2 (abs_sin_le_one _) (abs_nonneg _) (by norm_num)
      norm_num at t1 t3 ⊢; linarith
    have := sq_le_sq' (neg_le_of_abs_le z) (le_of_abs_le z)
    norm_num at this ⊢; linarith
  obtain ⟨h0, h1, h2, -⟩ := ecl_to_equ_float hf hl l b e cb
  obtain ⟨k, h1⟩ := h1 (le_trans (by norm_num) c)
  obtain ⟨d, h2, h3⟩ := h2 (le_trans (by norm_num) c)
  have c0 : 0 < cos (eclToEqu l b e).2 := lt_of_lt_of_le (by norm_num) c
  refine ⟨(eclToEquF fl lib l b e).1, d, by rw [← h2], h0.1, h0.2, ?_⟩
  rw [← ecl_to_equ_rotates _ _ _ cb,
    direction_congr (l := (eclToEqu l b e).1) (l' := (eclToEqu l b e).1 + k * (2 * π)) ⟨-k, by push_cast; ring⟩ (congr_refl _)]
  refine (direction_lip _ _ _ _).trans ?_
  have q1 : (2.3e-14 : ℝ) / cos (eclToEqu l b e).2 ≤ 1e-13 := by rw [div_le_iff₀ c0]; norm_num at c ⊢; linarith
  have q2 : (1.7e-14 : ℝ) / cos (eclToEqu l b e).2 ≤ 1e-13 := by rw [div_le_iff₀ c0]; norm_num at c ⊢; linarith
  have := add_le_add (h1.trans q1) (h3.trans q2)
  refine this.trans (by norm_num)

/-- C80: for every planet but the Earth, every time within 5900 years of J2000 and every precision from
`5.3e-9` to 14 days, `geocentric_planet` in binary64 returns two numbers, no nan, and the direction is to
`1.6e-6` (0.33 arc seconds, mostly the FK5 correction) the one from the Earth to the planet at the unique
time of emission `x`, shifted in longitude by the nutation and turned to the equator. -/
theorem geocentric_planet_float (hf : Rounding fl) (hl : lib.Good fl 64) (hp : p ∈ knownPlanets) (hE : p ≠ "Earth")
    (hc : HasTables p c) (h : |millennia jd| ≤ 5.9) (deltaPsi epsilon delta : ℚ) (hpsi : |deltaPsi| ≤ 1)
    (heps : |epsilon| ≤ 0.437) (hd : 5.3e-9 ≤ delta) (hd2 : delta ≤ 14) :
    ∃ (x l b : ℝ) (ra dec : ℚ), Emitted c earthTables jd x ∧
      (∀ x', |millennia x'| ≤ 6 → Emitted c earthTables jd x' → x' = x) ∧
      sep c earthTables x = (direction l b).scale (sep c earthTables x).norm ∧
      geocentricPlanetF fl lib jd p deltaPsi epsilon delta = .ok (ra, some dec) ∧
      0 ≤ ra ∧ ra ≤ pi2F ∧
      ((direction ra dec).sub (turnX epsilon (direction (l + deltaPsi) b))).norm ≤ 1.6e-6 := by
  have hf' := hf.floatLike
  have hd' : (5.3e-9 : ℝ) ≤ delta := by have := (Rat.cast_le (K := ℝ)).mpr hd; push_cast at this; exact this
  have hpsi' : |(deltaPsi : ℝ)| ≤ 1 := by exact_mod_cast hpsi
  obtain ⟨x, ex, x1, x2, xu⟩ := emitted_exists hp hE hc h
  obtain ⟨t, G, b, wt, tx, G1, G2, b1, a⟩ := geo_convergesF hf' hl hp hE hc h ⟨x1, x2⟩ ex
    (le_trans (by norm_num) hd) hd2 3 (by
      simp only [Function.iterate_succ, Function.iterate_zero, Function.comp, id, shrinkT]
      norm_num at hd' ⊢; linarith)
  have a := a 15
  obtain ⟨t1, t2, t3⟩ := lat_bound hp hE hc (window_era h wt)
  obtain ⟨-, -, v3⟩ := lat_bound hp hE hc (window_era h ⟨x1, x2⟩)
  have l := sep_lip hp hc (window_era h wt) (window_era h ⟨x1, x2⟩)
  have sb := (sep_bounds hp hE hc (window_era h ⟨x1, x2⟩)).1
  have nx24 : 0.24 ≤ (sep c earthTables x).norm := by
    unfold V3.norm
    exact Real.le_sqrt_of_sq_le (by linarith [sq_nonneg (sep c earthTables x).z])
  have nx : 0 < (sep c earthTables x).norm := lt_of_lt_of_le (by norm_num) nx24
  have near := normalised_near t3 v3 (norm_direction _ _) nx
  have jx : |(jd : ℝ) - x| = lightDay * (sep c earthTables x).norm := by
    have : (jd : ℝ) - x = lightDay * (sep c earthTables x).norm := by
      have : x = jd - lightDay * (sep c earthTables x).norm := ex
      linarith
    rw [this, abs_of_nonneg]
    unfold lightDay; positivity
  have near2 : 2 * (((sep c earthTables t).sub (sep c earthTables x)).norm / (sep c earthTables x).norm) ≤
      6.3e-7 := by
    rw [← le_div_iff₀' (by norm_num), div_le_iff₀ nx]
    rw [jx] at tx
    unfold lightDay at tx
    have := mul_le_mul_of_nonneg_left tx (by norm_num : (0 : ℝ) ≤ 0.0968)
    norm_num at this l nx24 ⊢
    linarith
  generalize hlat : (sep c earthTables t).lat = lat at *
  generalize hlon : (sep c earthTables t).lon = lon at *
  -- the latitude before the correction
  unfold Near at b1
  have bb : |(b : ℝ)| ≤ 0.605 := by
    have := abs_add_le ((b : ℝ) - lat) lat
    rw [sub_add_cancel] at this
    norm_num at this b1 t2 ⊢; linarith
  have tanle : ∀ y : ℝ, |y - lat| ≤ 1e-6 → 0.8 ≤ cos y ∧ |sin y| ≤ 0.52 ∧ |tan y| ≤ 0.601 := by
    intro y hy
    have cl : 0.82 ≤ cos lat := by
      refine le_trans ?_ one_sub_sq_div_two_le_cos
      have := sq_le_sq' (abs_le.mp t2).1 (abs_le.mp t2).2
      norm_num at this ⊢; linarith
    have c0 : 0 < cos lat := lt_of_lt_of_le (by norm_num) cl
    have sl : |sin lat| ≤ 0.6 * cos lat := by
      rw [tan_eq_sin_div_cos, abs_div, abs_of_pos c0, div_le_iff₀ c0] at t1; exact t1
    have dc := (Real.abs_cos_sub_cos_le y lat).trans hy
    have ds := (Real.abs_sin_sub_sin_le y lat).trans hy
    have sy : |sin y| ≤ 0.6 * cos lat + 1e-6 := by
      have := abs_add_le (sin y - sin lat) (sin lat)
      rw [sub_add_cancel] at this
      linarith
    obtain ⟨d1, d2⟩ := abs_le.mp dc
    have cy : 0.8 ≤ cos y := by norm_num at d1 cl ⊢; linarith
    have cy0 : 0 < cos y := lt_of_lt_of_le (by norm_num) cy
    have sy2 : |sin y| ≤ 0.601 * cos y := by norm_num at sy d1 cy ⊢; linarith
    refine ⟨cy, ?_, by rw [tan_eq_sin_div_cos, abs_div, abs_of_pos cy0, div_le_iff₀ cy0]; exact sy2⟩
    refine abs_le_of_sq_le_sq ?_ (by norm_num)
    have := pow_le_pow_left₀ (abs_nonneg _) sy2 2
    rw [sq_abs] at this
    have q := sin_sq_add_cos_sq y
    norm_num at this ⊢; nlinarith
  obtain ⟨-, -, tb⟩ := tanle b (b1.trans (by norm_num))
  obtain ⟨d, f1, f2, f3, f4⟩ := fk5F_small hf' hl.trig jd G b G1 (bb.trans (by norm_num)) tb
  generalize hFK : vsopToFk5F fl lib.toNumLib jd G b = FK at *
  obtain ⟨l', b'⟩ := FK
  simp only at f2 f3 f4
  -- nutation
  obtain ⟨n1, -⟩ := f2.add_fl hf' (range_abs f3) (near_self deltaPsi) hpsi'
  have n1 := n1.mono (e' := 2e-14) (by rw [uuR, wwR]; norm_num)
  -- equatorial coordinates
  have bl' : |(b' : ℝ) - lat| ≤ 2.87e-7 := by
    have := abs_sub_le (b' : ℝ) b lat
    norm_num at this f4 b1 ⊢; linarith
  obtain ⟨cb', sb', -⟩ := tanle b' (bl'.trans (by norm_num))
  have bb' : |(b' : ℝ)| ≤ 0.61 := by
    have := abs_add_le ((b' : ℝ) - b) b
    rw [sub_add_cancel] at this
    norm_num at this f4 bb ⊢; linarith
  obtain ⟨ra, dec, r1, r2, r3, r4⟩ := ecl_to_equ_direction hf' hl.trig (fl (l' + deltaPsi)) b' epsilon bb' sb' heps
  refine ⟨x, (sep c earthTables x).lon, (sep c earthTables x).lat, ra, dec, ex, xu, v3, ?_, r2, r3, ?_⟩
  · unfold geocentricPlanetF
    rw [show (20 : ℕ) = 3 + 2 + 15 from rfl, a]
    simp only [bind, Except.bind, hFK, r1]
  · have tri := norm_triangle (direction ra dec) (turnX epsilon (direction (fl (l' + deltaPsi) : ℚ) b'))
      (turnX epsilon (direction ((sep c earthTables x).lon + deltaPsi) (sep c earthTables x).lat))
    rw [turnX_isometry] at tri
    have tri2 := norm_triangle (direction (fl (l' + deltaPsi) : ℚ) b') (direction (lon + deltaPsi) lat)
      (direction ((sep c earthTables x).lon + deltaPsi) (sep c earthTables x).lat)
    rw [direction_shift lon] at tri2
    have dl : ((direction (fl (l' + deltaPsi) : ℚ) b').sub (direction (lon + deltaPsi) lat)).norm ≤ 9.1e-7 := by
      obtain ⟨k, hk⟩ := n1
      obtain ⟨j, hj⟩ := G2
      unfold Near at hk hj
      rw [direction_congr (l := lon + deltaPsi) (l' := lon + deltaPsi + ((k + j : ℤ) : ℝ) * (2 * π))
        ⟨-(k + j), by push_cast; ring⟩ (congr_refl lat)]
      refine (direction_lip _ _ _ _).trans ?_
      have e : (fl (l' + deltaPsi) : ℝ) - (lon + deltaPsi + ((k + j : ℤ) : ℝ) * (2 * π)) =
          ((fl (l' + deltaPsi) : ℝ) - (G + d + deltaPsi + k * (2 * π))) + (G - (lon + j * (2 * π))) + d := by
        push_cast; ring
      rw [e]
      have e1 := abs_add_le (((fl (l' + deltaPsi) : ℝ) - (G + d + deltaPsi + k * (2 * π))) + (G - (lon + j * (2 * π)))) d
      have e2 := abs_add_le ((fl (l' + deltaPsi) : ℝ) - (G + d + deltaPsi + k * (2 * π))) (G - (lon + j * (2 * π)))
      norm_num at e1 e2 hk hj f1 bl' ⊢; linarith
    norm_num at tri tri2 dl near near2 r4 ⊢
    linarith

end

/-! ### Other arguments -/

/-- C80: an unknown planet raises `KeyError`. -/
theorem geocentric_unknown_float {fl : ℚ → ℚ} (hf : Rounding fl) {lib : GeoLib} (hl : lib.Good fl 64) (jd deltaPsi epsilon delta : ℚ)
    {p : String} (h : p ∉ knownPlanets) (ht : |millennia jd| ≤ 6) :
    geocentricPlanetF fl lib jd p deltaPsi epsilon delta = .error (.KeyError p) := by
  obtain ⟨L, B, R, e, -⟩ := helioF_near hf.floatLike hl.trig.num (p := "Earth") (by decide) earth_hasTables jd ht
  have n : vsopDict.lookup (p, "L") = none := by
    rw [← Option.not_isSome_iff_eq_none, vsopDict_lookup_iff]
    exact fun k => h k.1
  have k : helioF fl lib.toNumLib jd p = .error (.KeyError p) := by
    unfold helioF vsopDimensionF
    rw [n]
    rfl
  unfold geocentricPlanetF
  rw [geocentricLoopF, e, k]
  rfl

/-- C80: a precision of at most zero ends in "bailout". -/
theorem geocentric_delta_nonpos_float {fl : ℚ → ℚ} (hf : Rounding fl) {lib : GeoLib} (hl : lib.Good fl 64) {p : String}
    (hp : p ∈ knownPlanets) (hE : p ≠ "Earth") {jd : ℚ} (h : |millennia jd| ≤ 5.9) (deltaPsi epsilon : ℚ) {delta : ℚ}
    (hd : delta ≤ 0) :
    geocentricPlanetF fl lib jd p deltaPsi epsilon delta = .error (.Error "planets" "bailout") := by
  obtain ⟨c, hc⟩ := hasTables_of_known hp
  have d : fl (pi2F * delta) ≤ 0 := by
    have := hf.floatLike.mono (show pi2F * delta ≤ 0 from mul_nonpos_of_nonneg_of_nonpos (by unfold pi2F; norm_num) hd)
    rwa [hf.floatLike.fl_zero] at this
  have : ∀ n t l0, Window jd ((t : ℚ) : ℝ) → geocentricLoopF fl lib jd p delta n t l0 = .error (.Error "planets" "bailout") := by
    intro n
    induction n with
    | zero => intro t l0 _; rfl
    | succ n ih =>
      intro t l0 w
      obtain ⟨G, b, t', -, -, -, -, g5, g6⟩ := geo_passF hf.floatLike hl hp hE hc h w
      rw [g6, if_neg (not_lt.mpr (d.trans (abs_nonneg _))), ih _ _ g5]
  unfold geocentricPlanetF
  rw [this 20 jd (-100) ⟨by norm_num, le_rfl⟩]
  rfl

/-! ### The assumptions can be met -/

theorem geoLib_exists (D : ℕ) (sumF : List ℚ → ℚ) (fl : ℚ → ℚ) (hs : SumLike fl 1400 D sumF) :
    ∃ lib : GeoLib, lib.Good fl D := by
  obtain ⟨T, hT⟩ := trigLib_exists D sumF fl hs
  have ex : ∀ x : ℚ, 0 ≤ x → ∃ q : ℚ, |(q : ℝ) - √(x : ℝ)| ≤ 1 / 2 ^ 50 * √(x : ℝ) := by
    intro x hx
    rcases eq_or_lt_of_le hx with h | h
    · exact ⟨0, by rw [← h]; simp⟩
    · have h' : (0 : ℝ) < √(x : ℝ) := Real.sqrt_pos.mpr (by exact_mod_cast h)
      obtain ⟨q, h1, h2⟩ := exists_rat_btwn (show √(x : ℝ) - 1 / 2 ^ 50 * √(x : ℝ) < √(x : ℝ) by
        have : 0 < 1 / 2 ^ 50 * √(x : ℝ) := by positivity
        linarith)
      refine ⟨q, abs_le.mpr ⟨by linarith, ?_⟩⟩
      have : 0 < 1 / 2 ^ 50 * √(x : ℝ) := by positivity
      linarith
  choose f hf using ex
  exact ⟨⟨T, fun x => if h : 0 ≤ x then f x h else 0⟩, hT, fun x hx => by
    simp only [dif_pos hx]; exact hf x hx⟩

example : ∃ lib : GeoLib, lib.Good rne 64 :=
  geoLib_exists 64 (halfSum rne 64) rne fun l h => halfSum_flSum rne 64 l (h.trans (by norm_num))

example : "Venus" ∈ knownPlanets ∧ "Venus" ≠ "Earth" ∧ HasTables "Venus" ⟨Data.venusL, Data.venusB, Data.venusR⟩ ∧
    |millennia ((2448976.5 : ℚ) : ℝ)| ≤ 5.9 ∧ |(0.00008 : ℚ)| ≤ 1 ∧ |(0.4091 : ℚ)| ≤ 0.437 ∧
    (5.3e-9 : ℚ) ≤ 1 / 86400 ∧ (1.1e-5 : ℚ) ≤ 1 / 86400 ∧ (1 / 86400 : ℚ) ≤ 14 := by
  refine ⟨by decide, by decide, hasTables_venus, ?_, ?_, ?_, ?_, ?_, ?_⟩
  · push_cast
    norm_num [millennia, abs_of_neg]
  all_goals norm_num [abs_of_pos]

end Verif
