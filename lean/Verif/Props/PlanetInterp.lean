import Verif.Props.PlanetTransits

/-!
# C109: the transits of the planets are transits

The time found for a transit is one at which the right ascension interpolated from three days puts the planet in the
meridian (C107).  Here the interpolated right ascension is compared with the one the library itself computes for that time:
the difference is at most a fraction of a minute of arc for Jupiter, Saturn, Uranus and Neptune, and at most two degrees
for Mercury, Venus and Mars, which can be close to the Earth.
-/

namespace Verif
open Real

noncomputable section

/-! ### Specification -/

/-- The values `y` and `d` are the right ascensions and declinations of the planet on three days. -/
def PlanetTriple (p : String) (jd : ℝ) (y d : ℝ × ℝ × ℝ) : Prop :=
  place (jd - 1) p = .ok (y.1, d.1, standardRstAltitude) ∧ place jd p = .ok (y.2.1, d.2.1, standardRstAltitude) ∧
    place (jd + 1) p = .ok (y.2.2, d.2.2, standardRstAltitude)

/-- Largest error of an interpolated right ascension, in radians. -/
def raError (p : String) : ℝ :=
  if p = "Mercury" then 0.03 else if p = "Venus" then 0.02 else if p = "Mars" then 0.0237
  else if p = "Jupiter" then 0.000215 else if p = "Saturn" then 0.000115 else if p = "Uranus" then 0.000045 else 0.00003

/-! ### Interpolation -/

theorem raError_eq (p : String) : raError p = interpError p := by
  unfold raError interpError; split_ifs <;> norm_num

theorem raError_bounds (p : String) : 0 < raError p ∧ raError p ≤ 0.03 := by
  unfold raError; split_ifs <;> norm_num

theorem planet_known {n : String} (hn : n ∈ skyPlanets) : n ∈ knownPlanets ∧ n ≠ "Earth" := by
  unfold skyPlanets at hn; revert n; decide

theorem planet_triple_day {p : String} (hp : p ∈ skyPlanets) {jd : ℝ} {y d : ℝ × ℝ × ℝ} (h : |millennia jd| ≤ 5.89)
    (hs : PlanetTriple p jd y d) : ∃ u, Reduced y u ∧ Slow 0.26 0.095 u ∧ ∀ n, |n| ≤ 1 → ∃ z s, ∃ k : ℤ,
      place (jd + n) p = .ok (z, s, standardRstAltitude) ∧ |parabola u n - (z + k * (2 * π))| ≤ raError p := by
  obtain ⟨hk, hE⟩ := planet_known hp
  obtain ⟨y', d', h0, h1, h2, u, hr, su, key⟩ := planet_day hk hE h
  obtain ⟨s0, s1, s2⟩ := hs
  rw [h0] at s0
  rw [h1] at s1
  rw [h2] at s2
  simp only [Except.ok.injEq, Prod.mk.injEq, and_true] at s0 s1 s2
  have : y' = y := Prod.ext s0.1 (Prod.ext s1.1 s2.1)
  subst this
  refine ⟨u, hr, slow_mono su le_rfl ?_, fun n hn => ?_⟩
  · obtain ⟨o, ho, rfl⟩ := orbit_of_name hk
    exact (paces_real ho hE).2.2.2.2.2.2.2.2.1
  · rw [raError_eq]; exact key n hn

/-- C109: interpolation between the places of three days gives the right ascension of a planet up to `raError`. -/
theorem planet_interpolated {p : String} (hp : p ∈ skyPlanets) {jd n : ℝ} {y d : ℝ × ℝ × ℝ} (h : |millennia jd| ≤ 5.89)
    (hs : PlanetTriple p jd y d) (hn0 : -1 < n) (hn1 : n < 1) :
    ∃ r z s, interpolateAngle3 n y.1 y.2.1 y.2.2 = .ok r ∧ place (jd + n) p = .ok (z, s, standardRstAltitude) ∧
      TurnNear r z (raError p) := by
  obtain ⟨u, hr, su, key⟩ := planet_triple_day hp h hs
  obtain ⟨z, s, k, e, f⟩ := key n (by rw [abs_le]; constructor <;> linarith)
  have hp := Real.pi_gt_three
  refine ⟨_, z, s, code_ra hr su (by norm_num; linarith) (by norm_num; linarith) hn0 hn1, e, ?_⟩
  obtain ⟨-, ⟨-, -, j, hj⟩, -⟩ := hr
  refine ⟨j + k, ?_⟩
  rw [hj]
  refine le_trans (le_of_eq ?_) f
  congr 1
  push_cast
  ring

/-- The hypotheses hold of every planet of the table at noon of 2000 January 1. -/
example {p : String} (hp : p ∈ skyPlanets) : ∃ y d, |millennia 2451545| ≤ 5.89 ∧ PlanetTriple p 2451545 y d := by
  have h : |millennia 2451545| ≤ 5.89 := by unfold millennia; norm_num
  obtain ⟨y, d, h0, h1, h2, -⟩ := planet_day (planet_known hp).1 (planet_known hp).2 h
  exact ⟨y, d, h, h0, h1, h2⟩

/-! ### Transits -/

/-- C109: a transit of a planet found by the code is a transit of the planet: at a time `w` that differs from the one
returned by at most a tenth of the precision asked for and a millisecond, the planet is in the meridian up to `raError`. -/
theorem planet_transit {p : String} (hp : p ∈ skyPlanets) {jd : ℚ} {y d : ℝ × ℝ × ℝ} {lon delta t : ℝ}
    (era : |(jd : ℝ) - 2451545| ≤ 1100000) (hs : PlanetTriple p jd y d) (l0 : -π ≤ lon) (l1 : lon ≤ π)
    (hd : 1e-20 ≤ delta) (hd1 : delta ≤ 0.001) (h : transit jd y delta lon = .ok (some t))
    (hn : |t - jd + deltaTDays jd| ≤ 0.999) :
    ∃ w, |t - w| ≤ 0.1 * delta + 1e-8 ∧ AtMeridian p lon (deltaTDays jd) w (raError p) := by
  obtain ⟨u, hr, su, key⟩ := planet_triple_day hp ((era_millennia era).trans (by norm_num)) hs
  have I : TransitInput jd y u lon := ⟨era, hr, slow_mono su (by norm_num) (by norm_num), l0, l1⟩
  obtain ⟨m, ⟨K, hK⟩, hm, -, -⟩ := transit_sound I hd h
  have near : |m + deltaTDays jd| ≤ 1 := by
    rw [abs_le] at hm hn ⊢
    norm_num at hm hn hd1
    constructor <;> linarith [hm.1, hm.2, hn.1, hn.2]
  obtain ⟨z, s, k, e, f1⟩ := key _ near
  refine ⟨jd + m, hm, z, s, _, by rw [add_assoc]; exact e, K + k, ?_⟩
  unfold hourAngle at hK
  refine le_trans (le_of_eq ?_) f1
  congr 1
  push_cast
  linear_combination hK

/-- The interpolated hour angle of a planet grows nearly uniformly. -/
theorem planet_hour_rate {jd lon dT m x : ℝ} {u : ℝ × ℝ × ℝ} (era : |jd - 2451545| ≤ 1100000) (su : Slow 0.26 0.095 u)
    (hm : |m| ≤ 1) (hx : |x| ≤ 0.01) (hn : |m + dT| ≤ 0.98) :
    |hourAngle jd lon dT u (m + x) - hourAngle jd lon dT u m - rsK1 * x| ≤ 5e-8 + 0.355 * |x| := by
  rw [abs_le] at hx hn hm
  norm_num at hx hn
  have g1 := gmst_uniform (m := m + x) era (by rw [abs_le]; norm_num; constructor <;> linarith)
  have g2 := gmst_uniform (m := m) era (by rw [abs_le]; norm_num; constructor <;> linarith)
  have p := parabola_lip (r := 1) (n := m + x + dT) (n' := m + dT) su
    (by rw [abs_le]; constructor <;> linarith) (by rw [abs_le]; constructor <;> linarith)
  rw [show m + x + dT - (m + dT) = x by ring] at p
  have e : hourAngle jd lon dT u (m + x) - hourAngle jd lon dT u m - rsK1 * x =
      ((gmstDegrees (jd + (m + x)) - gmstDegrees jd - 360.985647 * (m + x)) -
        (gmstDegrees (jd + m) - gmstDegrees jd - 360.985647 * m)) * (π / 180) -
      (parabola u (m + x + dT) - parabola u (m + dT)) := by
    unfold hourAngle
    rw [rsK1_eq]; ring
  rw [e]
  refine (abs_sub _ _).trans (add_le_add ?_ (p.trans ?_))
  · rw [abs_mul, abs_of_pos (by positivity : 0 < π / 180)]
    have t := (abs_sub (gmstDegrees (jd + (m + x)) - gmstDegrees jd - 360.985647 * (m + x))
      (gmstDegrees (jd + m) - gmstDegrees jd - 360.985647 * m)).trans (add_le_add g1 g2)
    have t2 := mul_le_mul t (show π / 180 ≤ 0.0175 by have := Real.pi_lt_d4; norm_num at this ⊢; linarith)
      (by positivity) (by norm_num)
    exact t2.trans (by norm_num)
  · exact mul_le_mul_of_nonneg_right (by norm_num) (abs_nonneg _)

/-- Near a time at which the hour angle is nearly a multiple of a turn it is a multiple of a turn. -/
theorem planet_crossing_near {jd lon dT m B : ℝ} {u : ℝ × ℝ × ℝ} {K : ℤ} (era : |jd - 2451545| ≤ 1100000)
    (su : Slow 0.26 0.095 u) (hm : |m| ≤ 1) (hn : |m + dT| ≤ 0.98) (B0 : 0 < B) (B1 : B ≤ 0.03)
    (near : |hourAngle jd lon dT u m - K * (2 * π)| ≤ B) :
    ∃ w, |w - m| ≤ B / 5.9 + 1e-8 ∧ hourAngle jd lon dT u w = K * (2 * π) := by
  set x := B / 5.9 + 1e-8 with hx
  have x0 : 0 < x := by positivity
  have x1 : x ≤ 0.01 := by rw [hx]; norm_num at B1 ⊢; linarith
  have bx : B ≤ 5.9 * x - 5.9e-8 := by rw [hx]; norm_num; linarith
  have hk6 := rsK1_bounds
  have r1 := planet_hour_rate (lon := lon) era su hm (x := x) (by rw [abs_of_pos x0]; exact x1) hn
  have r2 := planet_hour_rate (lon := lon) era su hm (x := -x) (by rw [abs_neg, abs_of_pos x0]; exact x1) hn
  rw [abs_neg] at r2
  rw [abs_of_pos x0] at r1 r2
  have cont : ContinuousOn (hourAngle jd lon dT u) (Set.Icc (m + -x) (m + x)) :=
    (hourAngle_continuous jd lon dT u).continuousOn
  have ivt := intermediate_value_Icc (show m + -x ≤ m + x by linarith) cont
  have mem : (K : ℝ) * (2 * π) ∈ Set.Icc (hourAngle jd lon dT u (m + -x)) (hourAngle jd lon dT u (m + x)) := by
    rw [abs_le] at r1 r2 near
    generalize hourAngle jd lon dT u (m + -x) = p at *
    generalize hourAngle jd lon dT u (m + x) = q at *
    generalize (K : ℝ) * (2 * π) = w at *
    generalize rsK1 = κ at *
    have k1 : 6.3 * x ≤ κ * x := mul_le_mul_of_nonneg_right (by norm_num at hk6 ⊢; linarith [hk6.1]) x0.le
    clear_value x
    rw [mul_neg] at r2
    norm_num at r1 r2 bx k1
    constructor <;> linarith [r1.1, r1.2, r2.1, r2.2, near.1, near.2]
  obtain ⟨w, ⟨w0, w1⟩, hw⟩ := ivt mem
  exact ⟨w, by rw [abs_le]; constructor <;> linarith, hw⟩

/-- C109: a transit of a planet in the middle of the day is found (if the estimate is not refused), within a tenth of the
precision asked for and the time in which the sky turns by `raError`. -/
theorem planet_transit_found {p : String} (hp : p ∈ skyPlanets) {jd : ℚ} {y d : ℝ × ℝ × ℝ} {lon delta m : ℝ}
    (era : |(jd : ℝ) - 2451545| ≤ 1100000) (hs : PlanetTriple p jd y d) (l0 : -π ≤ lon) (l1 : lon ≤ π) (hd : 1e-20 ≤ delta)
    (hr : -(2 * π) ≤ y.2.1 + lon - siderealTimeGreenwich jd) (h0 : 0.11 ≤ m) (h1 : m ≤ 0.89)
    (hn : |m + deltaTDays jd| ≤ 0.88) (hm : AtMeridian p lon (deltaTDays jd) (jd + m) 0) :
    ∃ t, transit jd y delta lon = .ok (some t) ∧ |t - (jd + m)| ≤ 0.1 * delta + raError p / 5.9 + 2e-8 := by
  obtain ⟨u, hu, su, key⟩ := planet_triple_day hp ((era_millennia era).trans (by norm_num)) hs
  have I : TransitInput jd y u lon := ⟨era, hu, slow_mono su (by norm_num) (by norm_num), l0, l1⟩
  set dT := deltaTDays jd with hdT
  obtain ⟨z', s', k, e, f1⟩ := key _ (hn.trans (by norm_num))
  obtain ⟨z, s, h', hz, j, hj⟩ := hm
  rw [← add_assoc, hz] at e
  simp only [Except.ok.injEq, Prod.mk.injEq] at e
  obtain ⟨rfl, rfl, -⟩ := e
  have hj := abs_nonpos_iff.mp hj
  have near : |hourAngle jd lon dT u m - ((j - k : ℤ) : ℝ) * (2 * π)| ≤ raError p := by
    refine le_trans (le_of_eq ?_) f1
    rw [← abs_neg]
    congr 1
    unfold hourAngle
    push_cast
    linear_combination -hj
  obtain ⟨B0, B1⟩ := raError_bounds p
  obtain ⟨w, hw, cr⟩ := planet_crossing_near era su (by rw [abs_le]; norm_num at h0 h1 ⊢; constructor <;> linarith)
    (hn.trans (by norm_num)) B0 B1 near
  have hw' := abs_le.mp hw
  have hn' := abs_le.mp hn
  norm_num at hw' h0 h1 hn' B1
  obtain ⟨t, ht, hb⟩ := transit_found I hd hr ⟨j - k, cr⟩ (by norm_num; linarith) (by norm_num; linarith)
    (by rw [abs_le]; norm_num; constructor <;> linarith [hn'.1, hn'.2])
  refine ⟨t, ht, ?_⟩
  rw [abs_le] at hb ⊢
  norm_num at hb ⊢
  constructor <;> linarith [hb.1, hb.2]

/-! ### The lines of `cronus` -/

/-- The table holds places of the planets. -/
theorem table_planet {dict : List (String × RstObject)} {a : ℚ} (h : IsTable dict a) {n : String} (hn : n ∈ skyPlanets)
    (era : |(a : ℝ) - 2451545| ≤ 1100000) : PlanetTriple n a (entry a n).ra (entry a n).dec := by
  obtain ⟨⟨u, hu⟩, ⟨v, hv⟩, ⟨w, hw⟩⟩ := h.2 n (mem_bodies.mpr (.inl hn))
  obtain ⟨hk, hE⟩ := planet_known hn
  obtain ⟨y, d, p0, p1, p2, -⟩ := planet_day hk hE ((era_millennia era).trans (by norm_num))
  unfold PlanetTriple entry
  simp only
  push_cast
  rw [placeVal_of p0, placeVal_of p1, placeVal_of p2]
  exact ⟨p0, p1, p2⟩

/-- C109: the planet is in the meridian, up to `raError`, at a universal time within a ninth of a second of the time for
which its line is queued; the text of the line is early, as that of the Sun is (C105). -/
theorem cronus_planet_line {env : CronusEnv} (hr : Rounding env.fl) (hd : Reads env.rd) (l0 : -π ≤ env.gLongitude)
    (l1 : env.gLongitude ≤ π) {dict : List (String × RstObject)} {a : ℚ} (h0 : 2313120 ≤ a) (h1 : a ≤ 2456930)
    (hT : IsTable dict a) {n : String} (hp : n ∈ skyPlanets) {ut : ℚ} {x : Task} (hu : ut = dtToUt env.fl (env.rd x.jd))
    (hx : TransitLine env a n (entry a n).ra ut x) (hn : |x.jd - a + deltaTDays a| ≤ 0.999) :
    ∃ w, AtMeridian n env.gLongitude (deltaTDays a) w (raError n) ∧ |x.jd - w| ≤ 0.101 / 86400 ∧
      |ut - (w - deltaTDays a)| ≤ 0.12 / 86400 := by
  have h0' : (2313120 : ℝ) ≤ a := by exact_mod_cast h0
  have h1' : (a : ℝ) ≤ 2456930 := by exact_mod_cast h1
  have era : |(a : ℝ) - 2451545| ≤ 1100000 := by rw [abs_le]; constructor <;> linarith
  obtain ⟨w, b, k⟩ := planet_transit hp era (table_planet hT hp era) l0 l1 (by norm_num) (by norm_num) hx.1 hn
  have dT := deltaTDays_small h0 h1
  have sh := shown_early hr hd h0 h1 (t := x.jd) (by
    rw [abs_le] at hn dT ⊢; norm_num at hn dT ⊢; constructor <;> linarith [hn.1, hn.2, dT.1, dT.2])
  rw [← hu] at sh
  have b' : |x.jd - w| ≤ 0.101 / 86400 := b.trans (by norm_num)
  refine ⟨w, k, b', ?_⟩
  rw [abs_le] at sh b' ⊢
  norm_num at sh b' ⊢
  constructor <;> linarith [sh.1, sh.2, b'.1, b'.2]

/-- C109: if a day is done without an exception and a planet is in the meridian that day (not in the first or last ninth),
its line is queued, for a time which differs by at most the time in which the sky turns by `raError`. -/
theorem cronus_planet_transit_queued {env : CronusEnv} (hf : FloatLike env.fl) {start stop : ℤ} (hs : -1000 ≤ start)
    (hstop : stop ≤ 2 ^ 40) {l : List (Task × List String)} {c c' : CronusCfg} (h : CronusRun env start stop l c)
    {a : ℚ} (hj : c.cur.job = .rst a) {p : List String} (hp : cronusPass env c = .ok (c', p))
    (era : |(a : ℝ) - 2451545| ≤ 720000) (l0 : -π ≤ env.gLongitude) (l1 : env.gLongitude ≤ π) {n : String}
    (hn : n ∈ skyPlanets) {m : ℝ} (h0 : 0.11 ≤ m) (h1 : m ≤ 0.89) (hd : |m + deltaTDays a| ≤ 0.88)
    (hm : AtMeridian n env.gLongitude (deltaTDays a) (a + m) 0) :
    ∃ x ∈ c'.cur :: c'.st.queue, TransitLine env a n (entry a n).ra (dtToUt env.fl (env.rd x.jd)) x ∧
      |x.jd - (a + m)| ≤ raError n / 5.9 + 0.11 / 86400 := by
  have era' : |(a : ℝ) - 2451545| ≤ 1100000 := era.trans (by norm_num)
  obtain ⟨k', -, hT⟩ := cronus_tables hf hs hstop h
  have tr := table_planet (hT a hj).2 hn era'
  obtain ⟨u, hu, su, key⟩ := planet_triple_day hn ((era_millennia era').trans (by norm_num)) tr
  obtain ⟨z', s', k, e, f1⟩ := key _ (hd.trans (by norm_num))
  obtain ⟨z, s, h', hz, j, hj'⟩ := hm
  rw [← add_assoc, hz] at e
  simp only [Except.ok.injEq, Prod.mk.injEq] at e
  obtain ⟨rfl, rfl, -⟩ := e
  have hj' := abs_nonpos_iff.mp hj'
  have near : |hourAngle a env.gLongitude (deltaTDays a) u m - ((j - k : ℤ) : ℝ) * (2 * π)| ≤ raError n := by
    refine le_trans (le_of_eq ?_) f1
    rw [← abs_neg]
    congr 1
    unfold hourAngle
    push_cast
    linear_combination -hj'
  obtain ⟨B0, B1⟩ := raError_bounds n
  obtain ⟨w, hw, cr⟩ := planet_crossing_near era' su (by rw [abs_le]; norm_num at h0 h1 ⊢; constructor <;> linarith)
    (hd.trans (by norm_num)) B0 B1 near
  have hw' := abs_le.mp hw
  have hd' := abs_le.mp hd
  norm_num at hw' h0 h1 hd' B1
  obtain ⟨x, hx, hl, hb⟩ := cronus_crossing_queued hf hs hstop h hj hp era l0 l1 (mem_bodies.mpr (.inl hn)) (m := w)
    (by norm_num; linarith) (by norm_num; linarith) (by rw [abs_le]; norm_num; constructor <;> linarith [hd'.1, hd'.2])
    ⟨u, hu, slow_mono su (by norm_num) (by norm_num), j - k, cr⟩
  refine ⟨x, hx, hl, ?_⟩
  rw [abs_le] at hb ⊢
  norm_num at hb ⊢
  constructor <;> linarith [hb.1, hb.2]

/-! ### 2000 January 1 -/

/-- C109: on 2000 January 1 there is, for each planet, a place where it is in the meridian half a day later; the code finds
this, and its line shows a time early by the difference between dynamical and universal time. -/
theorem planet_line_2000 {n : String} (hn : n ∈ skyPlanets) : ∃ (env : CronusEnv) (x : Task) (ut : ℚ) (w : ℝ),
    Rounding env.fl ∧ Reads env.rd ∧ (∀ ut, env.utToLt ut = .ok (ut, some "UT")) ∧
    IsTable (bodies.map fun n => (n, entry 2451544.5 n)) 2451544.5 ∧
    AtMeridian n env.gLongitude (deltaTDays 2451544.5) 2451545 0 ∧
    TransitLine env 2451544.5 n (entry 2451544.5 n).ra ut x ∧ ut = dtToUt env.fl (env.rd x.jd) ∧
    |x.jd - 2451545| ≤ raError n / 5.9 + 0.11 / 86400 ∧
    AtMeridian n env.gLongitude (deltaTDays 2451544.5) w (raError n) ∧ |x.jd - w| ≤ 0.101 / 86400 ∧
    ut < w - 63 / 86400 := by
  have hp := Real.pi_gt_d6
  have hst := sidereal_2000
  norm_num at hp hst
  have h := (era_millennia era_2000).trans (by norm_num : (3.02 : ℝ) ≤ 5.89)
  have hs := table_planet table_2000 hn era_2000
  have dT := deltaT_2000
  have hd : |(0.5 : ℝ) + deltaTDays 2451544.5| ≤ 0.88 := by rw [dT, abs_le]; norm_num
  obtain ⟨u, hu, -, key⟩ := planet_triple_day hn h hs
  obtain ⟨z, s, -, e, -⟩ := key _ (hd.trans (by norm_num))
  rw [← add_assoc] at e
  set g := gmstDegrees ((2451544.5 : ℚ) + 0.5) * (π / 180) - z with hg
  set lon := toIocMod Real.two_pi_pos (-π) g with hlon
  obtain ⟨l0, l1⟩ := toIocMod_mem_Ioc Real.two_pi_pos (-π) g
  rw [← hlon] at l0 l1
  have l1' : lon ≤ π := by linarith
  have am : AtMeridian n lon (deltaTDays 2451544.5) ((2451544.5 : ℚ) + 0.5) 0 := by
    refine ⟨z, s, _, e, toIocDiv Real.two_pi_pos (-π) g, ?_⟩
    have := toIocMod_add_toIocDiv_zsmul Real.two_pi_pos (-π) g
    rw [← hlon, zsmul_eq_mul] at this
    rw [hg] at this
    refine le_of_eq (abs_eq_zero.mpr ?_)
    rw [hg]
    linear_combination -this
  obtain ⟨t, ht, hb⟩ := planet_transit_found (delta := 1 / 86400) hn era_2000 hs l0.le l1' (by norm_num)
    (by have := hu.2.1.1; push_cast; norm_num; linarith) (by norm_num) (by norm_num) hd am
  have tb : |t - 2451545| ≤ raError n / 5.9 + 0.11 / 86400 := by
    refine le_trans (le_of_eq ?_) (hb.trans ?_)
    · congr 1; push_cast; norm_num
    · norm_num; linarith
  have tb' := abs_le.mp tb
  have B1 := (raError_bounds n).2
  norm_num at tb' B1
  set env : CronusEnv := ⟨rne, fun x => (⌊x * 2 ^ 30⌋ : ℚ) / 2 ^ 30, fun ut => .ok (ut, some "UT"), .ok (), lon, 0, lon, 0⟩
    with henv
  set ut := dtToUt env.fl (env.rd t) with hut
  obtain ⟨s', hl⟩ : ∃ s, ltToStr env.fl ut (zoneStr (some "UT")) "second" = .ok s := by
    unfold ltToStr; exact ⟨_, rfl⟩
  set x : Task := ⟨t, .display .rst (padRight 23 s' ++ " " ++ n ++ " transits")⟩ with hx
  have tl : TransitLine env 2451544.5 n (entry 2451544.5 n).ra ut x :=
    ⟨ht, by show t ≠ 0; intro h0; rw [h0] at tb'; linarith [tb'.1, tb'.2], ut, some "UT", s', rfl, hl, rfl⟩
  obtain ⟨w, m, b1, b2⟩ := cronus_planet_line (env := env) rounding_rne reads_floor l0.le l1' (by norm_num) (by norm_num)
    table_2000 hn (x := x) hut tl (by
      show |t - _ + _| ≤ _
      rw [dT, abs_le]; push_cast; norm_num; constructor <;> linarith)
  refine ⟨env, x, ut, w, rounding_rne, reads_floor, fun _ => rfl, table_2000, ?_, tl, hut, tb, m, b1, ?_⟩
  · rw [show (2451545 : ℝ) = (2451544.5 : ℚ) + 0.5 by push_cast; norm_num]; exact am
  rw [dT, abs_le] at b2
  norm_num at b2 ⊢
  linarith [b2.2]

end

end Verif
