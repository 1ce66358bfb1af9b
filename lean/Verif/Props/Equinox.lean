import Verif.Lemmas.Equinox
import Verif.Props.EquinoxApprox
import Mathlib.Topology.Order.IntermediateValue
import Mathlib.Topology.MetricSpace.Lipschitz

/-!
# C48, C64: exact times of equinoxes and solstices

Real arithmetic.
-/

namespace Verif
open Real

/-! ### The apparent longitude -/

/-- C48: the longitude used by `equinox` is that of the Earth plus half a turn, plus nutation, minus
aberration, minus 0.09033", plus a correction that is less than 0.000002". -/
theorem apparent_sun_value (jd : ℝ) (h : |millennia jd| ≤ 6) :
    ∃ L e, apparentSun vsopDict jd = .ok L ∧ 0 ≤ L ∧ L < 2 * π ∧ |e| ≤ arcsec 0.000002 ∧
      Congr (2 * π) L (poisson Data.earthL (millennia jd) + π + nutationInLongitude jd -
        arcsec (20.4898 / poisson Data.earthR (millennia jd)) - arcsec 0.09033 + e) := by
  obtain ⟨-, -, -, r1, -, b1⟩ := earth6 _ _ h h
  refine ⟨_, fk3 * (cos (fkArg jd (sunApp jd)) + sin (fkArg jd (sunApp jd))) *
    tan (-poisson Data.earthB (millennia jd)), apparentSun_eq jd, (modpi2_spec _).1,
    (modpi2_spec _).2.1, ?_, ?_⟩
  · generalize poisson Data.earthB (millennia jd) = B at *
    generalize fkArg jd (sunApp jd) = u
    have tz : |tan (-B)| ≤ 0.000022 := by
      have := tan_lip (b := -B) (c := 0) (by rw [abs_neg]; norm_num at b1 ⊢; linarith) (by norm_num)
      rw [tan_zero, sub_zero, sub_zero, abs_neg] at this
      norm_num at this b1 ⊢; linarith
    have c2 : |cos u + sin u| ≤ 2 := by
      refine (abs_add_le _ _).trans ?_
      linarith [abs_cos_le_one u, abs_sin_le_one u]
    rw [abs_mul, abs_mul, fk3_eq, abs_arcsec]
    have a0 : 0 ≤ arcsec |0.03916| := by unfold arcsec; positivity
    calc _ ≤ arcsec |0.03916| * 2 * 0.000022 :=
          mul_le_mul (mul_le_mul_of_nonneg_left c2 a0) tz (abs_nonneg _) (by positivity)
      _ = arcsec (0.03916 * 2 * 0.000022) := by
          rw [abs_of_pos (by norm_num : (0 : ℝ) < 0.03916)]; unfold arcsec; ring
      _ ≤ _ := arcsec_le.mpr (by norm_num)
  · refine congr_trans (modpi2_spec _).2.2 ⟨0, ?_⟩
    unfold sunLambda fkDelta
    have r0 : 0 < poisson Data.earthR (millennia jd) := by norm_num at r1; linarith
    rw [fk2_eq]
    have e := (aberration_low_value _ r0).1
    have e2 : arcsec (-0.09033) = -arcsec 0.09033 := by unfold arcsec; ring
    generalize fkArg jd (sunApp jd) = u
    rw [sunApp, e, e2]
    push_cast; ring

/-- A time is an event of the season with angle `circ` if the apparent longitude is `circ`. -/
def IsEvent (circ x : ℝ) : Prop := apparentSun vsopDict x = .ok circ

theorem isEvent_iff {circ x : ℝ} (h0 : 0 ≤ circ) (h1 : circ < 2 * π) :
    IsEvent circ x ↔ Congr (2 * π) (sunLambda x) circ := by
  unfold IsEvent
  rw [apparentSun_eq, Except.ok.injEq]
  constructor
  · intro e; rw [← e]; exact congr_symm (modpi2_spec _).2.2
  · intro e; rw [modpi2_congr e, modpi2_of_mem h0 h1]

/-! ### Existence -/

theorem millennia_near {x y : ℝ} (hx : |millennia x| ≤ 5.9) (h : |y - x| ≤ 300) :
    |millennia y| ≤ 6 := by
  have e : millennia y = millennia x + (y - x) / 365250 := by unfold millennia; ring
  rw [e]
  refine (abs_add_le _ _).trans ?_
  rw [abs_div, abs_of_pos (by norm_num : (0 : ℝ) < 365250)]
  have : |y - x| / 365250 ≤ 0.1 := by rw [div_le_iff₀ (by norm_num)]; norm_num; linarith
  norm_num at hx this ⊢; linarith

theorem sunLambda_continuousOn (a b : ℝ) (h : ∀ x ∈ Set.Icc a b, |millennia x| ≤ 6) :
    ContinuousOn sunLambda (Set.Icc a b) := by
  have : LipschitzOnWith 1 sunLambda (Set.Icc a b) := by
    refine LipschitzOnWith.of_dist_le_mul fun x hx y hy => ?_
    have c := sun_contract (h x hx) (h y hy)
    have c2 := abs_add_le (kSunMotion * (sunLambda x - sunLambda y) - (x - y)) (x - y)
    rw [sub_add_cancel, abs_mul, abs_of_pos kSunMotion_pos] at c2
    rw [Real.dist_eq, Real.dist_eq, NNReal.coe_one, one_mul]
    have k : 2 ≤ kSunMotion := by
      rw [kSunMotion_eq, le_div_iff₀ (by positivity)]
      have := pi_small; norm_num at this; linarith
    have n := abs_nonneg (sunLambda x - sunLambda y)
    have m := abs_nonneg (x - y)
    norm_num at c c2
    nlinarith
  exact this.continuousOn

/-- There is an event where the longitude has the value `v`, if `v` is within (a little more than) half
a turn. -/
theorem event_exists (jd v : ℝ) (h : |millennia jd| ≤ 5.9) (hv : |v - sunLambda jd| ≤ π + 0.001) :
    ∃ x, |x - jd| ≤ 193 ∧ sunLambda x = v ∧ |x - jd| ≤ kSunMotion * |v - sunLambda jd| / 0.947 := by
  have hk := kSunMotion_pos
  have hj : |millennia jd| ≤ 6 := by norm_num at h ⊢; linarith
  have kpi : kSunMotion * π = 182.625 := by
    rw [kSunMotion_eq]; have := Real.pi_pos; field_simp; norm_num
  have k59 : kSunMotion ≤ 59 := by
    rw [kSunMotion_eq, div_le_iff₀ (by positivity)]
    have := Real.pi_gt_d2; norm_num at this; linarith
  have bound : ∀ x, |millennia x| ≤ 6 → sunLambda x = v →
      |x - jd| ≤ kSunMotion * |v - sunLambda jd| / 0.947 := by
    intro x hx e
    have c := sun_contract hx hj
    rw [e] at c
    have c2 := abs_sub_abs_le_abs_sub (x - jd) (kSunMotion * (v - sunLambda jd))
    rw [abs_sub_comm (x - jd), abs_mul, abs_of_pos hk] at c2
    rw [le_div_iff₀ (by norm_num)]
    norm_num at c c2 ⊢; linarith
  have le193 : kSunMotion * |v - sunLambda jd| / 0.947 ≤ 193 := by
    rw [div_le_iff₀ (by norm_num)]
    have := mul_le_mul_of_nonneg_left hv hk.le
    rw [mul_add, kpi] at this
    norm_num at this ⊢; linarith
  have near : ∀ x ∈ Set.Icc (jd - 193) (jd + 193), |millennia x| ≤ 6 := by
    intro x hx
    refine millennia_near h ?_
    rw [abs_le]; constructor <;> linarith [hx.1, hx.2]
  have lo : sunLambda (jd - 193) ≤ v := by
    have c := (abs_le.mp (sun_contract (near (jd - 193) ⟨le_rfl, by linarith⟩) hj)).2
    rw [show jd - 193 - jd = -193 by ring, abs_neg, abs_of_pos (by norm_num : (0 : ℝ) < 193)] at c
    have b := mul_le_mul_of_nonneg_left (abs_le.mp hv).1 hk.le
    rw [mul_neg, mul_add, kpi] at b
    by_contra hc
    have := mul_lt_mul_of_pos_left (not_le.mp hc) hk
    norm_num at c b; nlinarith
  have hi : v ≤ sunLambda (jd + 193) := by
    have c := (abs_le.mp (sun_contract (near (jd + 193) ⟨by linarith, le_rfl⟩) hj)).1
    rw [show jd + 193 - jd = 193 by ring, abs_of_pos (by norm_num : (0 : ℝ) < 193)] at c
    have b := mul_le_mul_of_nonneg_left (abs_le.mp hv).2 hk.le
    rw [mul_add, kpi] at b
    by_contra hc
    have := mul_lt_mul_of_pos_left (not_le.mp hc) hk
    norm_num at c b; nlinarith
  obtain ⟨x, hx, e⟩ := intermediate_value_Icc (by linarith : jd - 193 ≤ jd + 193)
    (sunLambda_continuousOn _ _ near) ⟨lo, hi⟩
  have b := bound x (near x hx) e
  exact ⟨x, b.trans le193, e, b⟩

/-- C48: two events of the same season are at least 346 days apart. -/
theorem events_apart (circ x y : ℝ) (h0 : 0 ≤ circ) (h1 : circ < 2 * π) (hx : |millennia x| ≤ 6)
    (hy : |millennia y| ≤ 6) (ex : IsEvent circ x) (ey : IsEvent circ y) (ne : x ≠ y) :
    346 ≤ |x - y| := by
  rw [isEvent_iff h0 h1] at ex ey
  obtain ⟨j, ej⟩ := ex
  obtain ⟨k, ek⟩ := ey
  have c := sun_contract hx hy
  have d : sunLambda x - sunLambda y = (j - k : ℤ) * (2 * π) := by rw [ej, ek]; push_cast; ring
  have m : kSunMotion * (2 * π) = 365.25 := by
    rw [kSunMotion_eq]; have := Real.pi_pos; field_simp; norm_num
  have e : kSunMotion * (sunLambda x - sunLambda y) = (j - k : ℤ) * 365.25 := by
    rw [d, ← m]; ring
  rw [e] at c
  have nz : j - k ≠ 0 := by
    intro hz
    rw [hz, Int.cast_zero, zero_mul, zero_sub, abs_neg] at c
    have : 0 < |x - y| := abs_pos.mpr (sub_ne_zero.mpr ne)
    norm_num at c; linarith
  have one : (1 : ℝ) ≤ |((j - k : ℤ) : ℝ)| := by exact_mod_cast Int.one_le_abs nz
  have t := abs_sub_abs_le_abs_sub (((j - k : ℤ) : ℝ) * 365.25) (x - y)
  rw [abs_mul, abs_of_pos (by norm_num : (0 : ℝ) < 365.25)] at t
  generalize |((j - k : ℤ) : ℝ) * 365.25 - (x - y)| = w at *
  norm_num at t c
  push_cast at one
  linarith

/-! ### The iteration -/

theorem diffAngle_modpi2 {c v u : ℝ} (h0 : 0 ≤ c) (h1 : c < 2 * π) (hv : Congr (2 * π) v c)
    (h : |v - u| < π) : diffAngle (modpi2 u) c = v - u := by
  obtain ⟨m0, m1, mc⟩ := modpi2_spec u
  have r := diff_angle_range (modpi2 u) c (by rw [abs_lt]; constructor <;> linarith)
  have k : Congr (2 * π) (diffAngle (modpi2 u) c) (v - u) :=
    congr_trans (diff_angle_congr _ _) (congr_sub' (congr_symm hv) mc)
  obtain ⟨n, e⟩ := k
  obtain ⟨a, b⟩ := abs_lt.mp h
  have pp := Real.pi_pos
  have : n = 0 := by
    have l : (-1 : ℝ) < n := by nlinarith
    have g : (n : ℝ) < 1 := by nlinarith
    have l' : -1 < n := by exact_mod_cast l
    have g' : n < 1 := by exact_mod_cast g
    omega
  rw [e, this]; simp

/-- One pass of the loop near an event. -/
theorem equinox_pass {circ x jd : ℝ} (h0 : 0 ≤ circ) (h1 : circ < 2 * π) (ex : IsEvent circ x)
    (hx : |millennia x| ≤ 6) (hj : |millennia jd| ≤ 6)
    (hd : diffAngle (modpi2 (sunLambda jd)) circ = sunLambda x - sunLambda jd) :
    |jd + diffAngle (modpi2 (sunLambda jd)) circ * kSunMotion - x| ≤ 0.053 * |jd - x| := by
  rw [hd]
  have c := sun_contract hj hx
  rw [show jd + (sunLambda x - sunLambda jd) * kSunMotion - x =
    -(kSunMotion * (sunLambda jd - sunLambda x) - (jd - x)) by ring, abs_neg]
  exact c

theorem diff_small {circ x jd : ℝ} (h0 : 0 ≤ circ) (h1 : circ < 2 * π) (ex : IsEvent circ x)
    (hx : |millennia x| ≤ 6) (hj : |millennia jd| ≤ 6) (hn : |jd - x| ≤ 100) :
    diffAngle (modpi2 (sunLambda jd)) circ = sunLambda x - sunLambda jd := by
  refine diffAngle_modpi2 h0 h1 ((isEvent_iff h0 h1).mp ex) ?_
  have c := sun_contract hj hx
  have c2 := abs_add_le (kSunMotion * (sunLambda jd - sunLambda x) - (jd - x)) (jd - x)
  rw [sub_add_cancel, abs_mul, abs_of_pos kSunMotion_pos] at c2
  have kpi : kSunMotion * π = 182.625 := by
    rw [kSunMotion_eq]; have := Real.pi_pos; field_simp; norm_num
  rw [abs_sub_comm]
  refine lt_of_mul_lt_mul_left ?_ kSunMotion_pos.le
  rw [kpi]
  norm_num at c c2 ⊢; linarith

/-- The loop, once close to an event. -/
theorem equinox_loop_near {circ x delta : ℝ} (h0 : 0 ≤ circ) (h1 : circ < 2 * π)
    (ex : IsEvent circ x) (hx : |millennia x| ≤ 5.95) (n : ℕ) :
    ∀ jd, |jd - x| ≤ 193 → diffAngle (modpi2 (sunLambda jd)) circ = sunLambda x - sunLambda jd →
      1.053 * 0.053 ^ n * |jd - x| < delta →
      ∃ t, equinoxLoop vsopDict circ delta (n + 1) jd = .ok t ∧ |t - x| ≤ 0.056 * delta := by
  have x6 : |millennia x| ≤ 6 := by norm_num at hx ⊢; linarith
  have near : ∀ y, |y - x| ≤ 193 → |millennia y| ≤ 6 := by
    intro y hy
    have e : millennia y = millennia x + (y - x) / 365250 := by unfold millennia; ring
    rw [e]
    refine (abs_add_le _ _).trans ?_
    rw [abs_div, abs_of_pos (by norm_num : (0 : ℝ) < 365250)]
    have : |y - x| / 365250 ≤ 0.01 := by rw [div_le_iff₀ (by norm_num)]; norm_num; linarith
    norm_num at hx this ⊢; linarith
  induction n with
  | zero =>
    intro jd hj hd hl
    have p := equinox_pass h0 h1 ex x6 (near jd hj) hd
    rw [pow_zero, mul_one] at hl
    set jd' := jd + diffAngle (modpi2 (sunLambda jd)) circ * kSunMotion with hjd'
    have s1 := abs_sub_le jd' x jd
    rw [abs_sub_comm x jd] at s1
    have s2 := abs_sub_le jd jd' x
    rw [abs_sub_comm jd jd'] at s2
    have conv : |jd' - jd| < delta := by norm_num at p hl; linarith
    refine ⟨jd', ?_, ?_⟩
    · rw [equinoxLoop, apparentSun_eq]
      change (if |jd' - jd| < delta then Except.ok jd' else _) = _
      rw [if_pos conv]
    · norm_num at p ⊢; linarith
  | succ n ih =>
    intro jd hj hd hl
    have p := equinox_pass h0 h1 ex x6 (near jd hj) hd
    set jd' := jd + diffAngle (modpi2 (sunLambda jd)) circ * kSunMotion with hjd'
    have s2 := abs_sub_le jd jd' x
    rw [abs_sub_comm jd jd'] at s2
    have e : equinoxLoop vsopDict circ delta (n + 1 + 1) jd =
        if |jd' - jd| < delta then Except.ok jd' else equinoxLoop vsopDict circ delta (n + 1) jd' := by
      conv_lhs => rw [equinoxLoop, apparentSun_eq]
      rfl
    rw [e]
    split_ifs with c
    · refine ⟨jd', rfl, ?_⟩
      have d0 := (abs_nonneg (jd' - jd)).trans_lt c
      norm_num at p ⊢; linarith
    · have small : |jd' - x| ≤ 100 := by norm_num at p ⊢; linarith
      refine ih jd' (by linarith) (diff_small h0 h1 ex x6 (near _ (by linarith)) small) ?_
      refine lt_of_le_of_lt ?_ hl
      rw [pow_succ]
      have : (0 : ℝ) < 1.053 * 0.053 ^ n := by positivity
      calc 1.053 * 0.053 ^ n * |jd' - x| ≤ 1.053 * 0.053 ^ n * (0.053 * |jd - x|) :=
            mul_le_mul_of_nonneg_left p this.le
        _ = _ := by ring

/-- The angles of the four events. -/
noncomputable def seasonAngle : List (String × ℝ) :=
  [("spring", deg 0), ("summer", deg 90), ("autumn", deg 180), ("winter", deg 270)]

theorem seasonAngle_circle {season : String} {circ : ℝ} (h : (season, circ) ∈ seasonAngle) :
    circle.lookup season = some circ ∧ 0 ≤ circ ∧ circ < 2 * π := by
  have pp := Real.pi_pos
  simp only [seasonAngle, List.mem_cons, List.not_mem_nil, or_false, Prod.mk.injEq] at h
  rcases h with ⟨rfl, rfl⟩ | ⟨rfl, rfl⟩ | ⟨rfl, rfl⟩ | ⟨rfl, rfl⟩ <;> unfold circle deg
  · refine ⟨by simp [List.lookup], by norm_num, by norm_num; positivity⟩
  · refine ⟨?_, by positivity, by linarith⟩
    simp only [List.lookup, show ("summer" == "spring") = false by decide, beq_self_eq_true]
    norm_num; ring
  · refine ⟨?_, by positivity, by linarith⟩
    simp only [List.lookup, show ("autumn" == "spring") = false by decide,
      show ("autumn" == "summer") = false by decide, beq_self_eq_true]
    norm_num; ring
  · refine ⟨?_, by positivity, by linarith⟩
    simp only [List.lookup, show ("winter" == "spring") = false by decide,
      show ("winter" == "summer") = false by decide, show ("winter" == "autumn") = false by decide,
      beq_self_eq_true]
    norm_num; ring

/-- C48: from every start within 5900 years of J2000, for every season and every precision down to
`1e-20` day, `equinox` returns a time.  It is within 0.056 times the requested precision of an
event: an instant at which the apparent longitude of the Sun is exactly the angle of the season.
The event is within 193 days of the start, and the longitude at the start differs from the one at
the event by at most half a turn. -/
theorem equinox_converges (jd : ℝ) (h : |millennia jd| ≤ 5.9) (season : String) (circ : ℝ)
    (hs : (season, circ) ∈ seasonAngle) (delta : ℝ) (hd : 1e-20 ≤ delta) :
    ∃ t x, equinox jd season delta = .ok t ∧ IsEvent circ x ∧ |t - x| ≤ 0.056 * delta ∧
      |x - jd| ≤ 193 ∧ |sunLambda x - sunLambda jd| ≤ π := by
  obtain ⟨hc, h0, h1⟩ := seasonAngle_circle hs
  obtain ⟨m0, m1, mc⟩ := modpi2_spec (sunLambda jd)
  have r := diff_angle_range (modpi2 (sunLambda jd)) circ (by rw [abs_lt]; constructor <;> linarith)
  obtain ⟨x, x1, x2, -⟩ := event_exists jd (sunLambda jd + diffAngle (modpi2 (sunLambda jd)) circ) h
    (by rw [add_sub_cancel_left, abs_le]; exact ⟨by linarith [r.1], by linarith [r.2]⟩)
  have ex : IsEvent circ x := by
    rw [isEvent_iff h0 h1, x2]
    obtain ⟨a, ea⟩ := diff_angle_congr (modpi2 (sunLambda jd)) circ
    obtain ⟨b, eb⟩ := mc
    refine ⟨a - b, ?_⟩
    rw [ea, eb]; push_cast; ring
  have x59 : |millennia x| ≤ 5.95 := by
    have e : millennia x = millennia jd + (x - jd) / 365250 := by unfold millennia; ring
    rw [e]
    refine (abs_add_le _ _).trans ?_
    rw [abs_div, abs_of_pos (by norm_num : (0 : ℝ) < 365250)]
    have : |x - jd| / 365250 ≤ 0.01 := by rw [div_le_iff₀ (by norm_num)]; norm_num; linarith
    norm_num at h this ⊢; linarith
  have dd : diffAngle (modpi2 (sunLambda jd)) circ = sunLambda x - sunLambda jd := by rw [x2]; ring
  rw [abs_sub_comm] at x1
  obtain ⟨t, ht, nt⟩ := equinox_loop_near (delta := delta) h0 h1 ex x59 19 jd x1 dd (by
    refine lt_of_lt_of_le ?_ hd
    calc (1.053 : ℝ) * 0.053 ^ 19 * |jd - x| ≤ 1.053 * 0.053 ^ 19 * 193 := by gcongr
      _ < 1e-20 := by norm_num)
  refine ⟨t, x, ?_, ex, nt, by rwa [abs_sub_comm], ?_⟩
  · unfold equinox
    rw [hc]; exact ht
  · rw [← dd, abs_le]; exact ⟨r.1.le, r.2⟩

example : |millennia 2437837.38589| ≤ 5.9 ∧ (1e-20 : ℝ) ≤ 1 / 86400 := by
  unfold millennia; rw [abs_le]; norm_num

/-- C48: an unknown season raises `KeyError`, whatever the other arguments. -/
theorem equinox_unknown_season (jd delta : ℝ) (season : String)
    (h : season ∉ ["spring", "summer", "autumn", "winter"]) :
    equinox jd season delta = .error (.KeyError season) := by
  simp only [List.mem_cons, List.not_mem_nil, or_false, not_or] at h
  obtain ⟨a, b, c, d⟩ := h
  have : circle.lookup season = none := by
    unfold circle
    simp only [List.lookup, beq_false_of_ne a, beq_false_of_ne b, beq_false_of_ne c,
      beq_false_of_ne d]
  unfold equinox
  rw [this]

/-- C48: a precision that is not positive always ends in "bailout". -/
theorem equinox_delta_nonpos (jd delta : ℝ) (hd : delta ≤ 0) (season : String)
    (h : season ∈ ["spring", "summer", "autumn", "winter"]) :
    equinox jd season delta = .error (.Error "equinox" "bailout") := by
  have l : ∀ n circ jd, equinoxLoop vsopDict circ delta n jd = .error (.Error "equinox" "bailout") := by
    intro n circ
    induction n with
    | zero => intro jd; rfl
    | succ n ih =>
      intro jd
      rw [equinoxLoop, apparentSun_eq]
      change (if _ then _ else _) = _
      rw [if_neg (not_lt.mpr (hd.trans (abs_nonneg _))), ih]
  have : ∃ circ, (season, circ) ∈ seasonAngle := by
    simp only [List.mem_cons, List.not_mem_nil, or_false] at h
    rcases h with rfl | rfl | rfl | rfl <;> exact ⟨_, by unfold seasonAngle; simp; rfl⟩
  obtain ⟨circ, hc⟩ := this
  unfold equinox
  rw [(seasonAngle_circle hc).1]
  exact l _ _ _

/-- C48: starting within 150 days of an event, that event is found. -/
theorem equinox_nearest (jd : ℝ) (h : |millennia jd| ≤ 5.9) (season : String) (circ x : ℝ)
    (hs : (season, circ) ∈ seasonAngle) (ex : IsEvent circ x) (hx : |x - jd| ≤ 150) (delta : ℝ)
    (hd : 1e-20 ≤ delta) :
    ∃ t, equinox jd season delta = .ok t ∧ |t - x| ≤ 0.056 * delta := by
  obtain ⟨t, y, ht, ey, ty, y1, -⟩ := equinox_converges jd h season circ hs delta hd
  obtain ⟨-, h0, h1⟩ := seasonAngle_circle hs
  refine ⟨t, ht, ?_⟩
  by_cases e : x = y
  · rw [e]; exact ty
  · have a := events_apart circ x y h0 h1 (millennia_near h (by linarith))
      (millennia_near h (by linarith)) ex ey e
    have := abs_sub_le x jd y
    rw [abs_sub_comm jd y] at this
    linarith

end Verif
