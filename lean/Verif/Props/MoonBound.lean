import Verif.Lemmas.MoonDayPlace
import Verif.Props.SunInterp
import Verif.Props.MoonInterp

/-!
# C104: how inaccurate the interpolation of the Moon is

C103 gives a day on which the Moon interpolated from three daily places is two minutes of arc off.  Here is a bound for
all days: for every day within 1990 years of J2000 and every time between the first and the last of the three, right
ascension and declination found by interpolation are those of the table of `cronus` for that time, up to 653 and 694
seconds of arc.  So a transit of the Moon is found within a minute of time, and the altitude of the Moon at the times of
rising and setting that the code returns is right to 23 minutes of arc.
-/

namespace Verif
open Real

/-- The three daily places of the Moon in the table of `cronus`: right ascensions `y`, declinations `d`. -/
def MoonTriple (jd : ℝ) (y d : ℝ × ℝ × ℝ) : Prop :=
  (∃ a, place (jd - 1) "Moon" = .ok (y.1, d.1, a)) ∧ (∃ a, place jd "Moon" = .ok (y.2.1, d.2.1, a)) ∧
    ∃ a, place (jd + 1) "Moon" = .ok (y.2.2, d.2.2, a)

theorem moonTriple_exists (jd : ℝ) (h : |centuries jd| ≤ 19.9) : ∃ y d, MoonTriple jd y d := by
  obtain ⟨ra, dec, A, D, k, -, -⟩ := moon_day_jet h
  obtain ⟨y0, a0, e0, -⟩ := (k (-1) (by norm_num)).1
  obtain ⟨y1, a1, e1, -⟩ := (k 0 (by norm_num)).1
  obtain ⟨y2, a2, e2, -⟩ := (k 1 (by norm_num)).1
  rw [add_zero] at e1
  exact ⟨(y0, y1, y2), (dec (-1), dec 0, dec 1), ⟨a0, by rw [sub_eq_add_neg]; exact e0⟩, ⟨a1, e1⟩, ⟨a2, e2⟩⟩

/-- A function near a slow one is slow. -/
theorem slow_near {g k : ℝ → ℝ} {s c d : ℝ} (h : Slow s c (g (-1), g 0, g 1)) (hk : ∀ n, |n| ≤ 1 → |k n - g n| ≤ d) :
    Slow (s + 2 * d) (c + 4 * d) (k (-1), k 0, k 1) := by
  have a := hk (-1) (by norm_num)
  have b := hk 0 (by norm_num)
  have f := hk 1 (by norm_num)
  unfold Slow at h ⊢
  simp only [abs_le] at *
  obtain ⟨⟨h1, h2⟩, ⟨h3, h4⟩, h5, h6⟩ := h
  refine ⟨⟨?_, ?_⟩, ⟨?_, ?_⟩, ?_, ?_⟩ <;> linarith [a.1, a.2, b.1, b.2, f.1, f.2]

/-- What the three places determine. -/
theorem moon_day {jd : ℝ} {y d : ℝ × ℝ × ℝ} (h : |centuries jd| ≤ 19.9) (hs : MoonTriple jd y d) :
    ∃ (u : ℝ × ℝ × ℝ) (ra dec : ℝ → ℝ), Reduced y u ∧ Slow 0.362 0.065 u ∧ Slow 0.167 0.075 d ∧
      ∀ n, |n| ≤ 1 → (∃ z a, place (jd + n) "Moon" = .ok (z, dec n, a) ∧ ∃ k : ℤ, z = ra n + k * (2 * π)) ∧
        |parabola u n - ra n| ≤ arcsec 653 ∧ |parabola d n - dec n| ≤ arcsec 694 := by
  obtain ⟨ra, dec, A, D, key, ⟨f1, f2, f3, jA, A1, A2, A3⟩, ⟨g1, g2, g3, jD, D1, D2, D3⟩⟩ := moon_day_jet h
  obtain ⟨y0, x0, e0, a0, b0, c0⟩ := (key (-1) (by norm_num)).1
  obtain ⟨y1, x1, e1, a1, b1, c1⟩ := (key 0 (by norm_num)).1
  obtain ⟨y2, x2, e2, a2, b2, c2⟩ := (key 1 (by norm_num)).1
  rw [add_zero] at e1
  obtain ⟨⟨w0, s0⟩, ⟨w1, s1⟩, ⟨w2, s2⟩⟩ := hs
  rw [sub_eq_add_neg, e0] at s0
  rw [e1] at s1
  rw [e2] at s2
  simp only [Except.ok.injEq, Prod.mk.injEq] at s0 s1 s2
  obtain ⟨y', y'', y'''⟩ := y
  obtain ⟨d', d'', d'''⟩ := d
  simp only at s0 s1 s2
  obtain ⟨rfl, rfl, -⟩ := s0
  obtain ⟨rfl, rfl, -⟩ := s1
  obtain ⟨rfl, rfl, -⟩ := s2
  have kA : ∀ n, |n| ≤ 1 → |ra n - A n| ≤ 3.6e-5 := fun n hn => (key n hn).2.1
  have kD : ∀ n, |n| ≤ 1 → |dec n - D n| ≤ 3.2e-5 := fun n hn => (key n hn).2.2
  have p1 := Real.pi_gt_d4
  refine ⟨(ra (-1), ra 0, ra 1), ra, dec, ⟨⟨a0, b0, c0⟩, ⟨a1, b1, c1⟩, ⟨a2, b2, c2⟩⟩,
    slow_mono (slow_near (jA.slow (fun x _ => A1 x) fun x _ => A2 x) kA) (by norm_num) (by norm_num),
    slow_mono (slow_near (jD.slow (fun x _ => D1 x) fun x _ => D2 x) kD) (by norm_num) (by norm_num),
    fun n hn => ⟨?_, ?_, ?_⟩⟩
  · obtain ⟨z, a, e, -, -, k⟩ := (key n hn).1
    exact ⟨z, a, e, k⟩
  · refine (interp_perturb kA hn (interp3_error jA (fun x _ => A3 x) hn)).trans ?_
    unfold arcsec; norm_num at p1 ⊢; linarith
  · refine (interp_perturb kD hn (interp3_error jD (fun x _ => D3 x) hn)).trans ?_
    unfold arcsec; norm_num at p1 ⊢; linarith

/-- C104: interpolation gives the place of the Moon up to 653 seconds of arc in right ascension and 694 in declination,
for all times between the first and the last of the three days. -/
theorem moon_interpolated {jd n : ℝ} {y d : ℝ × ℝ × ℝ} (h : |centuries jd| ≤ 19.9) (hs : MoonTriple jd y d)
    (hn0 : -1 < n) (hn1 : n < 1) :
    ∃ r q z s a, interpolateAngle3 n y.1 y.2.1 y.2.2 = .ok r ∧ interpolate3 (fun x => x) n d.1 d.2.1 d.2.2 = .ok q ∧
      place (jd + n) "Moon" = .ok (z, s, a) ∧ TurnNear r z (arcsec 653) ∧ |q - s| ≤ arcsec 694 := by
  obtain ⟨u, ra, dec, hr, su, sd, key⟩ := moon_day h hs
  obtain ⟨⟨z, a, e, k, hk⟩, f1, f2⟩ := key n (by rw [abs_le]; constructor <;> linarith)
  have hp := Real.pi_gt_three
  refine ⟨_, _, z, dec n, a, code_ra hr su (by norm_num; linarith) (by norm_num; linarith) hn0 hn1,
    code_dec d hn0 hn1, e, ?_, f2⟩
  obtain ⟨-, ⟨-, -, j, hj⟩, -⟩ := hr
  refine ⟨j - k, ?_⟩
  rw [hk, hj]
  refine le_trans (le_of_eq ?_) f1
  congr 1
  push_cast
  ring

theorem moon_era {jd : ℝ} (h : |centuries jd| ≤ 19.9) : |jd - 2451545| ≤ 1100000 := by
  unfold centuries at h
  rw [abs_div, abs_of_pos (by norm_num : (0 : ℝ) < 36525), div_le_iff₀ (by norm_num)] at h
  norm_num at h ⊢; linarith

/-- C104: a transit of the Moon found by the code: at a time `w` that differs from the one returned by at most a tenth of
the precision asked for and a millisecond, the Moon is in the meridian to 653 seconds of arc (44 seconds of time). -/
theorem moon_transit {jd : ℚ} {y d : ℝ × ℝ × ℝ} {lon delta t : ℝ} (h9 : |centuries jd| ≤ 19.9)
    (hs : MoonTriple jd y d) (l0 : -π ≤ lon) (l1 : lon ≤ π) (hd : 1e-20 ≤ delta) (hd1 : delta ≤ 0.001)
    (h : transit jd y delta lon = .ok (some t)) (hn : |t - jd + deltaTDays jd| ≤ 0.999) :
    ∃ w z s a, |t - w| ≤ 0.1 * delta + 1e-8 ∧ place (w + deltaTDays jd) "Moon" = .ok (z, s, a) ∧
      TurnNear (gmstDegrees w * (π / 180) - lon) z (arcsec 653) := by
  obtain ⟨u, ra, dec, hr, su, sd, key⟩ := moon_day h9 hs
  have I : TransitInput jd y u lon := ⟨moon_era h9, hr, slow_mono su (by norm_num) (by norm_num), l0, l1⟩
  obtain ⟨m, ⟨K, hK⟩, hm, -, -⟩ := transit_sound I hd h
  have near : |m + deltaTDays jd| ≤ 1 := by
    rw [abs_le] at hm hn ⊢
    norm_num at hm hn hd1
    constructor <;> linarith [hm.1, hm.2, hn.1, hn.2]
  obtain ⟨⟨z, a, e, k, hk⟩, f1, -⟩ := key _ near
  refine ⟨jd + m, z, dec (m + deltaTDays jd), a, hm, by rw [add_assoc]; exact e, K - k, ?_⟩
  unfold hourAngle at hK
  rw [hk]
  refine le_trans (le_of_eq ?_) f1
  congr 1
  push_cast
  linear_combination hK

/-- The interpolated hour angle of the Moon grows nearly uniformly. -/
theorem hour_rate_moon {jd lon dT m x : ℝ} {u : ℝ × ℝ × ℝ} (era : |jd - 2451545| ≤ 1100000) (su : Slow 0.362 0.065 u)
    (hm : |m| ≤ 1) (hx : |x| ≤ 0.01) (hn : |m + dT| ≤ 0.98) :
    |hourAngle jd lon dT u (m + x) - hourAngle jd lon dT u m - rsK1 * x| ≤ 5e-8 + 0.43 * |x| := by
  rw [abs_le] at hx hn hm
  norm_num at hx hn
  have g1 := gmst_uniform (m := m + x) era (by rw [abs_le]; norm_num; constructor <;> linarith)
  have g2 := gmst_uniform (m := m) era (by rw [abs_le]; norm_num; constructor <;> linarith)
  have p := parabola_lip (r := 1) (n := m + x + dT) (n' := m + dT) su
    (by rw [abs_le]; constructor <;> linarith) (by rw [abs_le]; constructor <;> linarith)
  rw [show m + x + dT - (m + dT) = x by ring] at p
  have e : hourAngle jd lon dT u (m + x) - hourAngle jd lon dT u m - rsK1 * x =
      ((gmstDegrees (jd + (m + x)) - gmstDegrees jd - 360.985647 * (m + x)) -
        (gmstDegrees (jd + m) - gmstDegrees jd - 360.985647 * m)) * (π / 180) -
      (parabola u (m + x + dT) - parabola u (m + dT)) := by
    unfold hourAngle
    rw [rsK1_eq]; ring
  rw [e]
  refine (abs_sub _ _).trans (add_le_add ?_ (p.trans ?_))
  · rw [abs_mul, abs_of_pos (by positivity : 0 < π / 180)]
    have t := (abs_sub (gmstDegrees (jd + (m + x)) - gmstDegrees jd - 360.985647 * (m + x))
      (gmstDegrees (jd + m) - gmstDegrees jd - 360.985647 * m)).trans (add_le_add g1 g2)
    have t2 := mul_le_mul t (show π / 180 ≤ 0.0175 by have := Real.pi_lt_d4; norm_num at this ⊢; linarith)
      (by positivity) (by norm_num)
    exact t2.trans (by norm_num)
  · exact mul_le_mul_of_nonneg_right (by norm_num) (abs_nonneg _)

/-- C104: a transit of the Moon in the middle of the day is found (if the estimate is not refused), within a tenth of the
precision asked for and 48 seconds of time. -/
theorem moon_transit_found {jd : ℚ} {y d : ℝ × ℝ × ℝ} {lon delta m z s a : ℝ} (h9 : |centuries jd| ≤ 19.9)
    (hs : MoonTriple jd y d) (l0 : -π ≤ lon) (l1 : lon ≤ π) (hd : 1e-20 ≤ delta)
    (hr : -(2 * π) ≤ y.2.1 + lon - siderealTimeGreenwich jd) (h0 : 0.11 ≤ m) (h1 : m ≤ 0.89)
    (hn : |m + deltaTDays jd| ≤ 0.88) (hz : place (jd + m + deltaTDays jd) "Moon" = .ok (z, s, a))
    (hm : Congr (2 * π) (gmstDegrees (jd + m) * (π / 180) - lon) z) :
    ∃ t, transit jd y delta lon = .ok (some t) ∧ |t - (jd + m)| ≤ 0.1 * delta + 48 / 86400 := by
  obtain ⟨u, ra, dec, hu, su, sd, key⟩ := moon_day h9 hs
  have era := moon_era h9
  have I : TransitInput jd y u lon := ⟨era, hu, slow_mono su (by norm_num) (by norm_num), l0, l1⟩
  set dT := deltaTDays jd with hdT
  have hn' : |m + dT| ≤ 1 := hn.trans (by norm_num)
  obtain ⟨⟨z', a', e, k, hk⟩, f1, -⟩ := key _ hn'
  rw [← add_assoc, hz] at e
  simp only [Except.ok.injEq, Prod.mk.injEq] at e
  obtain ⟨rfl, rfl, -⟩ := e
  obtain ⟨j, hj⟩ := hm
  have near : |hourAngle jd lon dT u m - ((k + j : ℤ) : ℝ) * (2 * π)| ≤ arcsec 653 := by
    refine le_trans (le_of_eq ?_) f1
    rw [← abs_neg]
    congr 1
    unfold hourAngle
    push_cast
    rw [hk] at hj
    linear_combination -hj
  have small : arcsec 653 ≤ 3.166e-3 := by
    unfold arcsec
    have := Real.pi_lt_d4
    norm_num at this ⊢; linarith
  have rate : ∀ x, |x| ≤ 5.55e-4 → |hourAngle jd lon dT u (m + x) - hourAngle jd lon dT u m - rsK1 * x| ≤
      5e-8 + 0.43 * |x| := by
    intro x hx
    refine hour_rate_moon era su ?_ (hx.trans (by norm_num)) ?_
    · rw [abs_le]; norm_num at h0 h1 ⊢; constructor <;> linarith
    · refine hn.trans (by norm_num)
  have hk6 := rsK1_bounds
  have r1 := rate 5.55e-4 (by norm_num [abs_of_pos])
  have r2 := rate (-5.55e-4) (by norm_num [abs_of_pos])
  rw [abs_neg] at r2
  rw [abs_of_pos (by norm_num : (0 : ℝ) < 5.55e-4)] at r1 r2
  have cont : ContinuousOn (hourAngle jd lon dT u) (Set.Icc (m + -5.55e-4) (m + 5.55e-4)) :=
    (hourAngle_continuous jd lon dT u).continuousOn
  have ivt := intermediate_value_Icc (show m + -5.55e-4 ≤ m + 5.55e-4 by norm_num) cont
  have mem : ((k + j : ℤ) : ℝ) * (2 * π) ∈
      Set.Icc (hourAngle jd lon dT u (m + -5.55e-4)) (hourAngle jd lon dT u (m + 5.55e-4)) := by
    rw [abs_le] at r1 r2 near
    generalize hourAngle jd lon dT u (m + -5.55e-4) = p at *
    generalize hourAngle jd lon dT u (m + 5.55e-4) = q at *
    generalize ((k + j : ℤ) : ℝ) * (2 * π) = w at *
    norm_num at r1 r2 small hk6
    constructor <;> linarith [r1.1, r1.2, r2.1, r2.2, near.1, near.2]
  obtain ⟨w, ⟨w0, w1⟩, hw⟩ := ivt mem
  rw [abs_le] at hn
  norm_num at w0 w1 h0 h1 hn
  obtain ⟨t, ht, hb⟩ := transit_found I hd hr ⟨k + j, hw⟩ (by norm_num; linarith) (by norm_num; linarith)
    (by rw [abs_le]; norm_num; constructor <;> linarith [hn.1, hn.2])
  refine ⟨t, ht, ?_⟩
  rw [abs_le] at hb ⊢
  norm_num at hb ⊢
  constructor <;> linarith [hb.1, hb.2]

/-- C104: at a time found by `_riseset` the Moon itself has the altitude asked for, up to 18 times the precision and
22.5 minutes of arc. -/
theorem moon_riseset {jd : ℚ} {y d : ℝ × ℝ × ℝ} {h0 delta lon lat phi t : ℝ} {mode : RsMode}
    (h9 : |centuries jd| ≤ 19.9) (hs : MoonTriple jd y d) (hT : |deltaTDays jd| ≤ 0.09) (hd : delta ≤ 0.1)
    (h : riseset jd y d h0 delta mode lon lat phi = .ok (some t)) (hn : |t - jd + deltaTDays jd| ≤ 1) :
    ∃ z s a, place (t + deltaTDays jd) "Moon" = .ok (z, s, a) ∧
      |altitude phi (gmstDegrees t * (π / 180) - lon - z) s - h0| ≤ 18 * delta + arcsec (22.5 * 60) := by
  obtain ⟨u, ra, dec, hr, su, sd, key⟩ := moon_day h9 hs
  have r := riseset_sound (moon_era h9) hr (slow_mono su (by norm_num) (by norm_num))
    (slow_mono sd (by norm_num) (by norm_num)) hT hd h
  obtain ⟨⟨z, a, e, k, hk⟩, f1, f2⟩ := key _ hn
  refine ⟨z, dec (t - jd + deltaTDays jd), a, ?_, ?_⟩
  · rw [← e]; congr 1; ring
  · have c : altitude phi (gmstDegrees t * (π / 180) - lon - z) (dec (t - jd + deltaTDays jd)) =
        altitude phi (gmstDegrees t * (π / 180) - lon - ra (t - jd + deltaTDays jd)) (dec (t - jd + deltaTDays jd)) := by
      unfold altitude
      rw [direction_congr (l' := gmstDegrees t * (π / 180) - lon - ra (t - jd + deltaTDays jd))
        (b' := dec (t - jd + deltaTDays jd)) ⟨-k, by rw [hk]; push_cast; ring⟩ ⟨0, by push_cast; ring⟩]
    rw [c]
    have e1 : gmstDegrees t * (π / 180) - lon - ra (t - jd + deltaTDays jd) -
        hourAngle jd lon (deltaTDays jd) u (t - jd) = parabola u (t - jd + deltaTDays jd) - ra (t - jd + deltaTDays jd) := by
      unfold hourAngle
      rw [show (jd : ℝ) + (t - jd) = t by ring]; ring
    have p1 := Real.pi_lt_d4
    have p2 := Real.pi_gt_d4
    have b := add_le_add f1 f2
    have l := altitude_lip_small (phi := phi) (H := gmstDegrees t * (π / 180) - lon - ra (t - jd + deltaTDays jd))
      (d := dec (t - jd + deltaTDays jd)) (H' := hourAngle jd lon (deltaTDays jd) u (t - jd))
      (d' := parabola d (t - jd + deltaTDays jd)) (by
        rw [e1, abs_sub_comm (dec _)]
        refine b.trans ?_
        unfold arcsec; norm_num at p1 ⊢; linarith)
    rw [e1, abs_sub_comm (dec _)] at l
    have s := (abs_sub_le _ _ _).trans (add_le_add l r)
    refine s.trans ?_
    have q := mul_le_mul_of_nonneg_left b (by norm_num : (0 : ℝ) ≤ 1.0001)
    have p3 : 1.0001 * (arcsec 653 + arcsec 694) + 1e-7 ≤ arcsec (22.5 * 60) := by
      unfold arcsec
      norm_num at p1 p2 ⊢
      linarith
    linarith

/-! ### The hypotheses are met -/

example : ∃ y d, MoonTriple 2451545 y d ∧ ∃ r q z s a, interpolateAngle3 0.5 y.1 y.2.1 y.2.2 = .ok r ∧
    interpolate3 (fun x => x) 0.5 d.1 d.2.1 d.2.2 = .ok q ∧
    place (2451545 + 0.5) "Moon" = .ok (z, s, a) ∧ TurnNear r z (arcsec 653) ∧ |q - s| ≤ arcsec 694 := by
  have h : |centuries 2451545| ≤ 19.9 := by unfold centuries; norm_num
  obtain ⟨y, d, hs⟩ := moonTriple_exists 2451545 h
  exact ⟨y, d, hs, moon_interpolated h hs (by norm_num) (by norm_num)⟩

theorem moon_2000 : |centuries ((2451544.5 : ℚ) : ℝ)| ≤ 19.9 := by
  unfold centuries; push_cast; rw [abs_le]; norm_num

/-- On 2000 January 1 there is a longitude at which the Moon is in the meridian at noon; the code finds it there. -/
theorem moon_transit_2000 : ∃ y d lon t w z s a, MoonTriple (2451544.5 : ℚ) y d ∧ -π ≤ lon ∧ lon ≤ π ∧
    transit 2451544.5 y 0.001 lon = .ok (some t) ∧ |t - 2451545| ≤ 0.00066 ∧ |t - w| ≤ 0.00011 ∧
    place (w + deltaTDays 2451544.5) "Moon" = .ok (z, s, a) ∧
    TurnNear (gmstDegrees w * (π / 180) - lon) z (arcsec 653) := by
  have hp := Real.pi_gt_d6
  have hst := sidereal_2000
  norm_num at hp hst
  have h := moon_2000
  obtain ⟨y, d, hs⟩ := moonTriple_exists _ h
  have dT := deltaT_2000
  have hn : |(0.5 : ℝ) + deltaTDays 2451544.5| ≤ 0.88 := by rw [dT, abs_le]; norm_num
  obtain ⟨u, ra, dec, hu, -, -, key⟩ := moon_day h hs
  obtain ⟨⟨z, a, e, -⟩, -⟩ := key _ (hn.trans (by norm_num))
  rw [← add_assoc] at e
  set g := gmstDegrees ((2451544.5 : ℚ) + 0.5) * (π / 180) - z with hg
  set lon := toIocMod Real.two_pi_pos (-π) g with hlon
  obtain ⟨l0, l1⟩ := toIocMod_mem_Ioc Real.two_pi_pos (-π) g
  rw [← hlon] at l0 l1
  have l1' : lon ≤ π := by linarith
  have cg : Congr (2 * π) (gmstDegrees ((2451544.5 : ℚ) + 0.5) * (π / 180) - lon) z := by
    refine ⟨toIocDiv Real.two_pi_pos (-π) g, ?_⟩
    have := toIocMod_add_toIocDiv_zsmul Real.two_pi_pos (-π) g
    rw [← hlon, zsmul_eq_mul] at this
    rw [hg] at this ⊢
    linear_combination -this
  obtain ⟨t, ht, hb⟩ := moon_transit_found (delta := 0.001) h hs l0.le l1' (by norm_num)
    (by have := hu.2.1.1; push_cast; norm_num; linarith) (by norm_num) (by norm_num) hn e cg
  have tb : |t - 2451545| ≤ 0.00066 := by
    refine le_trans (le_of_eq ?_) (hb.trans (by norm_num))
    congr 1; push_cast; norm_num
  obtain ⟨w, z', s', a', hw, h1, h2⟩ := moon_transit h hs l0.le l1' (by norm_num) (by norm_num) ht
    (by rw [dT, abs_le]; rw [abs_le] at tb; push_cast; norm_num at tb ⊢; constructor <;> linarith)
  exact ⟨y, d, lon, t, w, z', s', a', hs, l0.le, l1', ht, tb, hw.trans (by norm_num), h1, h2⟩

/-- The hypotheses of `moon_riseset` are met: on 2005 January 12, at some longitude on the equator, `_riseset` finds the
rising of the Moon. -/
theorem moon_rise_2005 : ∃ y d lon t z s a, MoonTriple (2453382.5 : ℚ) y d ∧
    riseset 2453382.5 y d 0 0.1 .rise lon 0 0 = .ok (some t) ∧ |t - 2453383| < 0.1 ∧
    place (t + deltaTDays 2453382.5) "Moon" = .ok (z, s, a) ∧
    |altitude 0 (gmstDegrees t * (π / 180) - lon - z) s - 0| ≤ 18 * 0.1 + arcsec (22.5 * 60) := by
  have hp := Real.pi_gt_d6
  have hp' := Real.pi_lt_d6
  norm_num at hp hp'
  have h : |centuries ((2453382.5 : ℚ) : ℝ)| ≤ 19.9 := by
    unfold centuries; push_cast; rw [abs_le]; norm_num
  obtain ⟨y0, d0, x0, a0, b0⟩ := moonU_dec
  obtain ⟨y1, d1, x1, a1, b1⟩ := moonV_dec
  obtain ⟨y2, d2, x2, a2, b2⟩ := moonW_dec
  have hs : MoonTriple (2453382.5 : ℚ) (y0, y1, y2) (d0, d1, d2) := by
    refine ⟨⟨x0, ?_⟩, ⟨x1, ?_⟩, ⟨x2, ?_⟩⟩
    · push_cast; norm_num at a0 ⊢; exact a0
    · push_cast; norm_num at a1 ⊢; exact a1
    · push_cast; norm_num at a2 ⊢; exact a2
  have hdT : |deltaTDays 2453382.5| ≤ 0.002 := by
    obtain ⟨q1, q2⟩ := deltaT_range 2453382.5 (by norm_num) (by norm_num)
    unfold deltaTDays
    have r1 : ((-10 : ℚ) : ℝ) ≤ (deltaTSeconds (fun x => x) 2453382.5 : ℚ) := by exact_mod_cast q1
    have r2 : ((deltaTSeconds (fun x => x) 2453382.5 : ℚ) : ℝ) ≤ (121 : ℚ) := by exact_mod_cast q2
    push_cast at r1 r2
    rw [abs_le]; norm_num; constructor <;> linarith
  obtain ⟨u, ra, dec, hr, su, sd, -⟩ := moon_day h hs
  set dT := deltaTDays 2453382.5 with edT
  set th := siderealTimeGreenwich ((2453382.5 : ℚ) : ℝ) with eth
  have ht : Congr (2 * π) th (gmstDegrees ((2453382.5 : ℚ) : ℝ) * (π / 180)) := (sidereal_time_spec _).2.2
  set lon := th + 3 * π / 2 - y1 with elon
  have hT := abs_le.mp hdT
  norm_num at hT
  set n := 1 / 2 + dT with en
  have hn : |n| ≤ 0.502 := by rw [abs_le]; norm_num; constructor <;> linarith
  have lu := parabola_lip su hn (n' := 0) (by norm_num)
  have ld := parabola_lip sd hn (n' := 0) (by norm_num)
  rw [sub_zero] at lu ld
  have pu : parabola u 0 = u.2.1 := by unfold parabola; ring
  have pd : parabola (d0, d1, d2) 0 = d1 := by unfold parabola; ring
  rw [pu] at lu
  rw [pd] at ld
  have lu' : |parabola u n - u.2.1| ≤ 0.2 := lu.trans ((mul_le_mul_of_nonneg_left hn (by norm_num)).trans (by norm_num))
  have ld' : |parabola (d0, d1, d2) n - d1| ≤ 0.11 := ld.trans ((mul_le_mul_of_nonneg_left hn (by norm_num)).trans (by norm_num))
  set dl := parabola (d0, d1, d2) n with edl
  have d1b : |d1| ≤ 0.4 := by
    unfold deg at b1
    rw [abs_le] at b1 ⊢
    norm_num at b1 ⊢
    constructor <;> linarith [b1.1, b1.2]
  have cd1 : 0 < cos d1 := by
    have := abs_le.mp d1b
    norm_num at this
    exact cos_pos_of_mem_Ioo ⟨by linarith, by linarith⟩
  have cdl : 0 < cos dl := by
    have q := abs_le.mp d1b
    have q' := abs_le.mp ld'
    norm_num at q q'
    exact cos_pos_of_mem_Ioo ⟨by linarith, by linarith⟩
  set eta := rsK1 / 2 - π - (parabola u n - u.2.1) with eeta
  have heta : |eta| ≤ 0.22 := by
    have k := rsK1_bounds
    have q := abs_le.mp lu'
    norm_num at k q
    rw [abs_le]; norm_num; constructor <;> linarith
  have cH : Congr (2 * π) (codeH (2453382.5 : ℚ) lon dT u (1 / 2)) (-(π / 2) + eta) := by
    obtain ⟨a, ea⟩ := ht
    obtain ⟨b, eb⟩ := hr.2.1.2.2
    simp only at eb
    refine ⟨b - a, ?_⟩
    unfold codeH
    rw [← en, eeta, elon]
    push_cast
    linear_combination eb - ea
  have sH : sin (codeH (2453382.5 : ℚ) lon dT u (1 / 2)) = -cos eta := by
    rw [sin_congr cH, neg_add_eq_sub, sin_sub_pi_div_two]
  have aH : altitude 0 (codeH (2453382.5 : ℚ) lon dT u (1 / 2)) dl = arcsin (cos dl * sin eta) := by
    rw [altitude_congr cH, altitude_eq, neg_add_eq_sub, cos_sub_pi_div_two]
    simp
  have ce : 0.97 ≤ cos eta := by
    have := one_sub_sq_div_two_le_cos (x := eta)
    have q : eta ^ 2 ≤ 0.22 ^ 2 := by rw [← sq_abs]; gcongr
    norm_num at q ⊢
    linarith
  have as : |arcsin (cos dl * sin eta)| ≤ π / 2 * (cos dl * |eta|) := by
    have e1 : |cos dl * sin eta| ≤ cos dl * |eta| := by
      rw [abs_mul, abs_of_pos cdl]; exact mul_le_mul_of_nonneg_left abs_sin_le_abs cdl.le
    have e2 : |arcsin (cos dl * sin eta)| ≤ π / 2 * |cos dl * sin eta| := by
      have r : -1 ≤ cos dl * sin eta ∧ cos dl * sin eta ≤ 1 := by
        rw [← abs_le, abs_mul]
        exact mul_le_one₀ (abs_cos_le_one _) (abs_nonneg _) (abs_sin_le_one _)
      have m := mul_abs_le_abs_sin (abs_le.mpr ⟨neg_pi_div_two_le_arcsin _, arcsin_le_pi_div_two (cos dl * sin eta)⟩)
      rw [sin_arcsin r.1 r.2] at m
      have := mul_le_mul_of_nonneg_left m (show 0 ≤ π / 2 by positivity)
      rw [← mul_assoc, show π / 2 * (2 / π) = 1 by field_simp, one_mul] at this
      exact this
    exact e2.trans (mul_le_mul_of_nonneg_left e1 (by positivity))
  have D0 : cos dl * cos 0 * -cos eta ≠ 0 := by
    rw [cos_zero, mul_one]
    exact mul_ne_zero cdl.ne' (by norm_num at ce; linarith)
  set st := (arcsin (cos dl * sin eta) - 0) / (2 * π * (cos dl * cos 0 * -cos eta)) with est
  have hst : |st| < 0.1 := by
    rw [est, sub_zero, cos_zero, mul_one, abs_div, abs_mul (2 * π), abs_mul (cos dl), abs_neg, abs_of_pos cdl,
      abs_of_pos (show 0 < cos eta by norm_num at ce; linarith), abs_of_pos (by positivity : 0 < 2 * π),
      div_lt_iff₀ (by have : 0 < cos eta := by norm_num at ce; linarith
                      positivity)]
    refine as.trans_lt ?_
    have k : π / 2 * (cos dl * |eta|) = (π * cos dl) * (|eta| / 2) := by ring
    have k' : 0.1 * (2 * π * (cos dl * cos eta)) = (π * cos dl) * (0.2 * cos eta) := by ring
    rw [k, k']
    refine mul_lt_mul_of_pos_left ?_ (by positivity)
    norm_num at heta ce ⊢
    linarith
  have run : riseset 2453382.5 (y0, y1, y2) (d0, d1, d2) 0 0.1 .rise lon 0 0 =
      .ok (some ((2453382.5 : ℚ) + (1 / 2 + st))) := by
    unfold riseset
    simp only [sin_zero, cos_zero, zero_mul, sub_zero, one_mul, zero_div]
    rw [if_neg cd1.ne', if_neg (by norm_num), if_neg (by norm_num)]
    rw [arccos_zero, ← eth]
    have e : rsEstimate .rise ((y1 + lon - th) / pi2) (π / 2) = 1 / 2 := by
      unfold rsEstimate pi2
      rw [elon]
      field_simp
      ring
    rw [e, show rsReduce (1 / 2) = .ok (1 / 2) by unfold rsReduce; norm_num]
    simp only
    rw [riseset_pass hr su (by norm_num; linarith) (by norm_num; linarith) ht
      (by rw [← edT]; linarith) (by rw [← edT]; linarith) 19]
    simp only
    rw [← edT, ← en, ← edl, sH, aH, if_neg D0, ← est, if_pos (by rw [add_sub_cancel_left]; exact hst)]
  have tb : |((2453382.5 : ℚ) : ℝ) + (1 / 2 + st) - 2453383| < 0.1 := by
    refine lt_of_eq_of_lt ?_ hst
    congr 1; push_cast; ring
  have hst' := abs_lt.mp hst
  norm_num at hst'
  obtain ⟨z, s, a, e1, e2⟩ := moon_riseset h hs (hdT.trans (by norm_num)) (by norm_num) run
    (by rw [add_sub_cancel_left, ← edT, abs_le]; constructor <;> linarith)
  exact ⟨_, _, lon, _, z, s, a, hs, run, tb, e1, e2⟩

end Verif
