import Verif.Lemmas.SunDayPlace
import Verif.Props.Transit
import Verif.Props.RiseSet
import Verif.Props.FloatLunar

/-!
# C102: interpolating the Sun from three daily places

`riseset.py` takes the places of an object at 0h of three days and interpolates.  For the Sun this is accurate: for
every day within 5900 years of J2000 and every time between the first and the last of the three, right ascension and
declination found by interpolation are those that the code finds for that time, up to 2.1 seconds of arc.  So the times
of transit, rising and setting belong to the Sun itself.
-/

namespace Verif
open Real

/-- The three daily places of the Sun in the table of `cronus`: right ascensions `y`, declinations `d`. -/
def SunTriple (jd : ℝ) (y d : ℝ × ℝ × ℝ) : Prop :=
  place (jd - 1) "Sun" = .ok (y.1, d.1, -0.0145438286569) ∧ place jd "Sun" = .ok (y.2.1, d.2.1, -0.0145438286569) ∧
    place (jd + 1) "Sun" = .ok (y.2.2, d.2.2, -0.0145438286569)

theorem sunTriple_exists (jd : ℝ) (h : |millennia jd| ≤ 5.9) : ∃ y d, SunTriple jd y d := by
  obtain ⟨ra, dec, A, D, k, -, -⟩ := sun_day_parab h
  obtain ⟨y0, e0, -⟩ := (k (-1) (by norm_num)).1
  obtain ⟨y1, e1, -⟩ := (k 0 (by norm_num)).1
  obtain ⟨y2, e2, -⟩ := (k 1 (by norm_num)).1
  rw [add_zero] at e1
  exact ⟨(y0, y1, y2), (dec (-1), dec 0, dec 1), by rw [sub_eq_add_neg]; exact e0, e1, e2⟩

/-- A function near one that is nearly a slow parabola is slow. -/
theorem slow_of_parab {g k : ℝ → ℝ} {v q e d V Q : ℝ} (h : Parab g v q e) (hv : |v| ≤ V) (hq : |q| ≤ Q)
    (he : e ≤ 2e-6) (hd : d ≤ 4e-6) (hk : ∀ n, |n| ≤ 1 → |k n - g n| ≤ d) :
    Slow (V + Q + 1e-5) (2 * Q + 2e-5) (k (-1), k 0, k 1) := by
  have a := h (-1) (by norm_num)
  have b := h 1 (by norm_num)
  have c := hk (-1) (by norm_num)
  have f := hk 0 (by norm_num)
  have i := hk 1 (by norm_num)
  rw [abs_le] at a b c f i hv hq
  norm_num at he hd
  unfold Slow
  simp only [abs_le]
  norm_num at a b ⊢
  refine ⟨⟨?_, ?_⟩, ⟨?_, ?_⟩, ?_, ?_⟩ <;> linarith

theorem slow_mono {s c s' c' : ℝ} {u : ℝ × ℝ × ℝ} (h : Slow s c u) (hs : s ≤ s') (hc : c ≤ c') : Slow s' c' u :=
  ⟨h.1.trans hs, h.2.1.trans hs, h.2.2.trans hc⟩

/-- What the three places determine: right ascension and declination of the Sun as functions of the time, close to the
parabolas. -/
theorem sun_day {jd : ℝ} {y d : ℝ × ℝ × ℝ} (h : |millennia jd| ≤ 5.9) (hs : SunTriple jd y d) :
    ∃ (u : ℝ × ℝ × ℝ) (ra dec : ℝ → ℝ), Reduced y u ∧ Slow 0.02 0.001 u ∧ Slow 0.0076 0.001 d ∧
      (|millennia jd| ≤ 3.02 → Slow 0.0075 0.001 d) ∧
      ∀ n, |n| ≤ 1 → (∃ z, place (jd + n) "Sun" = .ok (z, dec n, -0.0145438286569) ∧ ∃ k : ℤ, z = ra n + k * (2 * π)) ∧
        |parabola u n - ra n| ≤ arcsec 2.1 ∧ |parabola d n - dec n| ≤ arcsec 2.1 ∧ 0.91 ≤ cos (dec n) := by
  obtain ⟨ra, dec, A, D, key, ⟨v, q, pA, hv, hq⟩, ⟨v', q', pD, hv', hq'⟩⟩ := sun_day_parab h
  obtain ⟨y0, e0, a0, b0, c0⟩ := (key (-1) (by norm_num)).1
  obtain ⟨y1, e1, a1, b1, c1⟩ := (key 0 (by norm_num)).1
  obtain ⟨y2, e2, a2, b2, c2⟩ := (key 1 (by norm_num)).1
  rw [add_zero] at e1
  obtain ⟨s0, s1, s2⟩ := hs
  rw [sub_eq_add_neg, e0] at s0
  rw [e1] at s1
  rw [e2] at s2
  simp only [Except.ok.injEq, Prod.mk.injEq, and_true] at s0 s1 s2
  obtain ⟨y', y'', y'''⟩ := y
  obtain ⟨d', d'', d'''⟩ := d
  simp only at s0 s1 s2
  obtain ⟨rfl, rfl⟩ := s0
  obtain ⟨rfl, rfl⟩ := s1
  obtain ⟨rfl, rfl⟩ := s2
  have kA : ∀ n, |n| ≤ 1 → |ra n - A n| ≤ 1.099 * arcsec 0.672 := fun n hn => (key n hn).2.1
  have kD : ∀ n, |n| ≤ 1 → |dec n - D n| ≤ 1.0001 * arcsec 0.672 := fun n hn => (key n hn).2.2.1
  have p1 := Real.pi_gt_d4
  have p2 := Real.pi_lt_d4
  have w1 : 1.099 * arcsec 0.672 ≤ 4e-6 := by unfold arcsec; norm_num at p1 p2 ⊢; linarith
  have w2 : 1.0001 * arcsec 0.672 ≤ 4e-6 := by unfold arcsec; norm_num at p1 p2 ⊢; linarith
  obtain ⟨o0, o1⟩ := obliquity_between h
  have o2 := (cos_obliquity o0 o1).2
  have sd := fun (s : ℝ) (ho : |sin (trueObliquity (jd + 0))| ≤ s) =>
    slow_of_parab pD (hv'.trans (mul_le_mul_of_nonneg_left ho (by norm_num))) hq' (by norm_num) w2 kD
  refine ⟨(ra (-1), ra 0, ra 1), ra, dec, ⟨⟨a0, b0, c0⟩, ⟨a1, b1, c1⟩, ⟨a2, b2, c2⟩⟩,
    slow_mono (slow_of_parab pA hv hq (by norm_num) w1 kA) (by norm_num) (by norm_num),
    slow_mono (sd _ o2) (by norm_num) (by norm_num),
    fun h3 => slow_mono (sd _ (sin_obliquity h3)) (by norm_num) (by norm_num), fun n hn => ⟨?_, ?_, ?_, (key n hn).2.2.2⟩⟩
  · obtain ⟨z, e, -, -, k⟩ := (key n hn).1
    exact ⟨z, e, k⟩
  · refine (pA.perturb kA hn).trans ?_
    unfold arcsec; norm_num at p1 p2 ⊢; linarith
  · refine (pD.perturb kD hn).trans ?_
    unfold arcsec; norm_num at p1 p2 ⊢; linarith

/-- C102: interpolation gives the place of the Sun up to 2.1 seconds of arc, for all times between the first and the last
of the three days. -/
theorem sun_interpolated {jd n : ℝ} {y d : ℝ × ℝ × ℝ} (h : |millennia jd| ≤ 5.9) (hs : SunTriple jd y d)
    (hn0 : -1 < n) (hn1 : n < 1) :
    ∃ r q z s, interpolateAngle3 n y.1 y.2.1 y.2.2 = .ok r ∧ interpolate3 (fun x => x) n d.1 d.2.1 d.2.2 = .ok q ∧
      place (jd + n) "Sun" = .ok (z, s, -0.0145438286569) ∧ TurnNear r z (arcsec 2.1) ∧ |q - s| ≤ arcsec 2.1 := by
  obtain ⟨u, ra, dec, hr, su, sd, -, key⟩ := sun_day h hs
  obtain ⟨⟨z, e, k, hk⟩, f1, f2, -⟩ := key n (by rw [abs_le]; constructor <;> linarith)
  have hp := Real.pi_gt_three
  refine ⟨_, _, z, dec n, code_ra hr su (by norm_num; linarith) (by norm_num; linarith) hn0 hn1,
    code_dec d hn0 hn1, e, ?_, f2⟩
  obtain ⟨-, ⟨-, -, j, hj⟩, -⟩ := hr
  refine ⟨j - k, ?_⟩
  rw [hk, hj]
  refine le_trans (le_of_eq ?_) f1
  congr 1
  push_cast
  ring

theorem era_millennia {jd : ℝ} (h : |jd - 2451545| ≤ 1100000) : |millennia jd| ≤ 3.02 := by
  unfold millennia
  rw [abs_div, abs_of_pos (by norm_num : (0 : ℝ) < 365250), div_le_iff₀ (by norm_num)]
  norm_num; linarith

/-- C102: a transit of the Sun found by the code is a transit of the Sun: at a time `w` that differs from the one returned
by at most a tenth of the precision asked for and a millisecond, the Sun is in the meridian to 2.1 seconds of arc (a
seventh of a second of time). -/
theorem sun_transit {jd : ℚ} {y d : ℝ × ℝ × ℝ} {lon delta t : ℝ} (era : |(jd : ℝ) - 2451545| ≤ 1100000)
    (hs : SunTriple jd y d) (l0 : -π ≤ lon) (l1 : lon ≤ π) (hd : 1e-20 ≤ delta) (hd1 : delta ≤ 0.001)
    (h : transit jd y delta lon = .ok (some t)) (hn : |t - jd + deltaTDays jd| ≤ 0.999) :
    ∃ w z s, |t - w| ≤ 0.1 * delta + 1e-8 ∧ place (w + deltaTDays jd) "Sun" = .ok (z, s, -0.0145438286569) ∧
      TurnNear (gmstDegrees w * (π / 180) - lon) z (arcsec 2.1) := by
  obtain ⟨u, ra, dec, hr, su, sd, -, key⟩ := sun_day ((era_millennia era).trans (by norm_num)) hs
  have I : TransitInput jd y u lon := ⟨era, hr, slow_mono su (by norm_num) (by norm_num), l0, l1⟩
  obtain ⟨m, ⟨K, hK⟩, hm, -, -⟩ := transit_sound I hd h
  have near : |m + deltaTDays jd| ≤ 1 := by
    rw [abs_le] at hm hn ⊢
    norm_num at hm hn hd1
    constructor <;> linarith [hm.1, hm.2, hn.1, hn.2]
  obtain ⟨⟨z, e, k, hk⟩, f1, -⟩ := key _ near
  refine ⟨jd + m, z, dec (m + deltaTDays jd), hm, by rw [add_assoc]; exact e, K - k, ?_⟩
  unfold hourAngle at hK
  rw [hk]
  refine le_trans (le_of_eq ?_) f1
  congr 1
  push_cast
  linear_combination hK

/-- The interpolated hour angle grows nearly uniformly. -/
theorem hour_rate {jd lon dT m x : ℝ} {u : ℝ × ℝ × ℝ} (era : |jd - 2451545| ≤ 1100000) (su : Slow 0.02 0.001 u)
    (hm : |m| ≤ 1) (hx : |x| ≤ 0.01) (hn : |m + dT| ≤ 0.98) :
    |hourAngle jd lon dT u (m + x) - hourAngle jd lon dT u m - rsK1 * x| ≤ 5e-8 + 0.022 * |x| := by
  rw [abs_le] at hx hn hm
  norm_num at hx hn
  have g1 := gmst_uniform (m := m + x) era (by rw [abs_le]; norm_num; constructor <;> linarith)
  have g2 := gmst_uniform (m := m) era (by rw [abs_le]; norm_num; constructor <;> linarith)
  have p := parabola_lip (r := 1) (n := m + x + dT) (n' := m + dT) su
    (by rw [abs_le]; constructor <;> linarith) (by rw [abs_le]; constructor <;> linarith)
  rw [show m + x + dT - (m + dT) = x by ring] at p
  have e : hourAngle jd lon dT u (m + x) - hourAngle jd lon dT u m - rsK1 * x =
      ((gmstDegrees (jd + (m + x)) - gmstDegrees jd - 360.985647 * (m + x)) -
        (gmstDegrees (jd + m) - gmstDegrees jd - 360.985647 * m)) * (π / 180) -
      (parabola u (m + x + dT) - parabola u (m + dT)) := by
    unfold hourAngle
    rw [rsK1_eq]; ring
  rw [e]
  refine (abs_sub _ _).trans (add_le_add ?_ (p.trans ?_))
  · rw [abs_mul, abs_of_pos (by positivity : 0 < π / 180)]
    have t := (abs_sub (gmstDegrees (jd + (m + x)) - gmstDegrees jd - 360.985647 * (m + x))
      (gmstDegrees (jd + m) - gmstDegrees jd - 360.985647 * m)).trans (add_le_add g1 g2)
    have t2 := mul_le_mul t (show π / 180 ≤ 0.0175 by have := Real.pi_lt_d4; norm_num at this ⊢; linarith)
      (by positivity) (by norm_num)
    exact t2.trans (by norm_num)
  · exact mul_le_mul_of_nonneg_right (by norm_num) (abs_nonneg _)

/-- C102: a transit of the Sun in the middle of the day is found (if the estimate is not refused), within a tenth of the
precision asked for and a sixth of a second. -/
theorem sun_transit_found {jd : ℚ} {y d : ℝ × ℝ × ℝ} {lon delta m z s : ℝ} (era : |(jd : ℝ) - 2451545| ≤ 1100000)
    (hs : SunTriple jd y d) (l0 : -π ≤ lon) (l1 : lon ≤ π) (hd : 1e-20 ≤ delta)
    (hr : -(2 * π) ≤ y.2.1 + lon - siderealTimeGreenwich jd) (h0 : 0.11 ≤ m) (h1 : m ≤ 0.89)
    (hn : |m + deltaTDays jd| ≤ 0.88) (hz : place (jd + m + deltaTDays jd) "Sun" = .ok (z, s, -0.0145438286569))
    (hm : Congr (2 * π) (gmstDegrees (jd + m) * (π / 180) - lon) z) :
    ∃ t, transit jd y delta lon = .ok (some t) ∧ |t - (jd + m)| ≤ 0.1 * delta + 1.9e-6 := by
  obtain ⟨u, ra, dec, hu, su, sd, -, key⟩ := sun_day ((era_millennia era).trans (by norm_num)) hs
  have I : TransitInput jd y u lon := ⟨era, hu, slow_mono su (by norm_num) (by norm_num), l0, l1⟩
  set dT := deltaTDays jd with hdT
  have hn' : |m + dT| ≤ 1 := hn.trans (by norm_num)
  obtain ⟨⟨z', e, k, hk⟩, f1, -⟩ := key _ hn'
  rw [← add_assoc, hz] at e
  simp only [Except.ok.injEq, Prod.mk.injEq, and_true] at e
  obtain ⟨rfl, rfl⟩ := e
  obtain ⟨j, hj⟩ := hm
  have near : |hourAngle jd lon dT u m - ((k + j : ℤ) : ℝ) * (2 * π)| ≤ arcsec 2.1 := by
    refine le_trans (le_of_eq ?_) f1
    rw [← abs_neg]
    congr 1
    unfold hourAngle
    push_cast
    rw [hk] at hj
    linear_combination -hj
  have small : arcsec 2.1 ≤ 1.02e-5 := by
    unfold arcsec
    have := Real.pi_lt_d4
    norm_num at this ⊢; linarith
  have rate : ∀ x, |x| ≤ 1.8e-6 → |hourAngle jd lon dT u (m + x) - hourAngle jd lon dT u m - rsK1 * x| ≤
      5e-8 + 0.022 * |x| := by
    intro x hx
    refine hour_rate era su ?_ (hx.trans (by norm_num)) ?_
    · rw [abs_le]; norm_num at h0 h1 ⊢; constructor <;> linarith
    · refine hn.trans (by norm_num)
  have hk6 := rsK1_bounds
  have r1 := rate 1.8e-6 (by norm_num [abs_of_pos])
  have r2 := rate (-1.8e-6) (by norm_num [abs_of_pos])
  rw [abs_neg] at r2
  rw [abs_of_pos (by norm_num : (0 : ℝ) < 1.8e-6)] at r1 r2
  have cont : ContinuousOn (hourAngle jd lon dT u) (Set.Icc (m + -1.8e-6) (m + 1.8e-6)) :=
    (hourAngle_continuous jd lon dT u).continuousOn
  have ivt := intermediate_value_Icc (show m + -1.8e-6 ≤ m + 1.8e-6 by norm_num) cont
  have mem : ((k + j : ℤ) : ℝ) * (2 * π) ∈
      Set.Icc (hourAngle jd lon dT u (m + -1.8e-6)) (hourAngle jd lon dT u (m + 1.8e-6)) := by
    rw [abs_le] at r1 r2 near
    generalize hourAngle jd lon dT u (m + -1.8e-6) = p at *
    generalize hourAngle jd lon dT u (m + 1.8e-6) = q at *
    generalize ((k + j : ℤ) : ℝ) * (2 * π) = w at *
    norm_num at r1 r2 small hk6
    constructor <;> linarith [r1.1, r1.2, r2.1, r2.2, near.1, near.2]
  obtain ⟨w, ⟨w0, w1⟩, hw⟩ := ivt mem
  rw [abs_le] at hn
  norm_num at w0 w1 h0 h1 hn
  obtain ⟨t, ht, hb⟩ := transit_found I hd hr ⟨k + j, hw⟩ (by norm_num; linarith) (by norm_num; linarith)
    (by rw [abs_le]; norm_num; constructor <;> linarith [hn.1, hn.2])
  refine ⟨t, ht, ?_⟩
  rw [abs_le] at hb ⊢
  norm_num at hb ⊢
  constructor <;> linarith [hb.1, hb.2]

/-- C102: at a time found by `_riseset` the Sun itself has the altitude asked for, up to 18 times the precision and 7
seconds of arc. -/
theorem sun_riseset {jd : ℚ} {y d : ℝ × ℝ × ℝ} {h0 delta lon lat phi t : ℝ} {mode : RsMode}
    (era : |(jd : ℝ) - 2451545| ≤ 1100000) (hs : SunTriple jd y d) (hT : |deltaTDays jd| ≤ 0.09) (hd : delta ≤ 0.1)
    (h : riseset jd y d h0 delta mode lon lat phi = .ok (some t)) (hn : |t - jd + deltaTDays jd| ≤ 1) :
    ∃ z s, place (t + deltaTDays jd) "Sun" = .ok (z, s, -0.0145438286569) ∧
      |altitude phi (gmstDegrees t * (π / 180) - lon - z) s - h0| ≤ 18 * delta + arcsec 7 := by
  obtain ⟨u, ra, dec, hr, su, sd, -, key⟩ := sun_day ((era_millennia era).trans (by norm_num)) hs
  have r := riseset_sound era hr (slow_mono su (by norm_num) (by norm_num)) (slow_mono sd (by norm_num) (by norm_num))
    hT hd h
  obtain ⟨⟨z, e, k, hk⟩, f1, f2, -⟩ := key _ hn
  refine ⟨z, dec (t - jd + deltaTDays jd), ?_, ?_⟩
  · rw [← e]; congr 1; ring
  · have c : altitude phi (gmstDegrees t * (π / 180) - lon - z) (dec (t - jd + deltaTDays jd)) =
        altitude phi (gmstDegrees t * (π / 180) - lon - ra (t - jd + deltaTDays jd)) (dec (t - jd + deltaTDays jd)) := by
      unfold altitude
      rw [direction_congr (l' := gmstDegrees t * (π / 180) - lon - ra (t - jd + deltaTDays jd))
        (b' := dec (t - jd + deltaTDays jd)) ⟨-k, by rw [hk]; push_cast; ring⟩ ⟨0, by push_cast; ring⟩]
    rw [c]
    have l := altitude_lip phi (gmstDegrees t * (π / 180) - lon - ra (t - jd + deltaTDays jd))
      (dec (t - jd + deltaTDays jd)) (hourAngle jd lon (deltaTDays jd) u (t - jd)) (parabola d (t - jd + deltaTDays jd))
    have e1 : gmstDegrees t * (π / 180) - lon - ra (t - jd + deltaTDays jd) -
        hourAngle jd lon (deltaTDays jd) u (t - jd) = parabola u (t - jd + deltaTDays jd) - ra (t - jd + deltaTDays jd) := by
      unfold hourAngle
      rw [show (jd : ℝ) + (t - jd) = t by ring]; ring
    rw [e1, abs_sub_comm (dec _)] at l
    have s := (abs_sub_le _ _ _).trans (add_le_add l r)
    refine s.trans ?_
    have q := mul_le_mul_of_nonneg_left (add_le_add f1 f2) (by positivity : 0 ≤ π / 2)
    have p1 := Real.pi_lt_d4
    have p2 := Real.pi_gt_d4
    have p3 : π / 2 * (arcsec 2.1 + arcsec 2.1) + 1e-7 ≤ arcsec 7 := by
      unfold arcsec
      norm_num at p1 p2 ⊢
      nlinarith
    linarith

/-- The sine of the altitude. -/
noncomputable def sinAlt (phi H d : ℝ) : ℝ := sin phi * sin d + cos phi * cos d * cos H

theorem sinAlt_lip (phi H d H' d' : ℝ) : |sinAlt phi H d - sinAlt phi H' d'| ≤ |H - H'| + |d - d'| := by
  have e : sinAlt phi H d - sinAlt phi H' d' = cos phi * cos d * (cos H - cos H') +
      (sin phi * (sin d - sin d') + cos phi * cos H' * (cos d - cos d')) := by unfold sinAlt; ring
  rw [e]
  refine (abs_add_le _ _).trans (add_le_add ?_ (dec_change (abs_cos_le_one H')))
  rw [abs_mul, abs_mul]
  have c : |cos phi| * |cos d| ≤ 1 := mul_le_one₀ (abs_cos_le_one _) (abs_nonneg _) (abs_cos_le_one _)
  exact (mul_le_of_le_one_left (abs_nonneg _) c).trans (abs_cos_sub_le _ _)

/-- The change of the sine of the altitude in a short time. -/
theorem sinAlt_step (phi d d' : ℝ) {H H' : ℝ} (h : |H' - H| ≤ 1) :
    |sinAlt phi H' d' - sinAlt phi H d + cos d * cos phi * sin H * (H' - H)| ≤ (H' - H) ^ 2 + |d' - d| := by
  have e : sinAlt phi H' d' - sinAlt phi H d + cos d * cos phi * sin H * (H' - H) =
      cos phi * cos d * (cos H' - cos H + sin H * (H' - H)) +
      (sin phi * (sin d' - sin d) + cos phi * cos H' * (cos d' - cos d)) := by unfold sinAlt; ring
  rw [e]
  refine (abs_add_le _ _).trans (add_le_add ?_ (dec_change (abs_cos_le_one H')))
  rw [abs_mul, abs_mul]
  have c : |cos phi| * |cos d| ≤ 1 := mul_le_one₀ (abs_cos_le_one _) (abs_nonneg _) (abs_cos_le_one _)
  refine (mul_le_of_le_one_left (abs_nonneg _) c).trans ?_
  set x := H' - H with hx
  have h1 : cos H' = cos H * cos x - sin H * sin x := by rw [← cos_add, hx]; congr 1; ring
  have h2 : cos H' - cos H + sin H * x = -(cos H * (1 - cos x)) + sin H * (x - sin x) := by rw [h1]; ring
  rw [h2]
  have c1 : |1 - cos x| ≤ x ^ 2 / 2 := by
    rw [abs_of_nonneg (by linarith [cos_le_one x])]; linarith [one_sub_sq_div_two_le_cos (x := x)]
  have c2 : |x - sin x| ≤ x ^ 2 / 2 := by
    obtain ⟨x1, x2⟩ := abs_le.mp h
    rcases le_total 0 x with p | p
    · have a := Real.sin_ge_sub_cube p
      have b := Real.sin_le p
      rw [abs_of_nonneg (by linarith)]; nlinarith
    · have a := Real.sin_ge_sub_cube (x := -x) (by linarith)
      have b := Real.sin_le (x := -x) (by linarith)
      rw [sin_neg] at a b
      rw [abs_of_nonpos (by linarith)]; nlinarith
  refine (abs_add_le _ _).trans ?_
  rw [abs_neg, abs_mul, abs_mul]
  have := mul_le_of_le_one_left (abs_nonneg (1 - cos x)) (abs_cos_le_one H)
  have := mul_le_of_le_one_left (abs_nonneg (x - sin x)) (abs_sin_le_one H)
  linarith

/-- The altitude asked for lies between the altitudes 8e-6 day before and after. -/
theorem pass_between {F F1 F2 S V V' e1 e2 a1 a2 : ℝ} (near : |F - S| ≤ 2.04e-5) (v : |V - V'| ≤ 2e-4)
    (b1 : |e1 - rsK1 * 8e-6| ≤ 5e-8 + 0.022 * 8e-6) (b2 : |e2 - rsK1 * -8e-6| ≤ 5e-8 + 0.022 * 8e-6)
    (d1 : a1 ≤ 0.0085 * 8e-6) (d2 : a2 ≤ 0.0085 * 8e-6) (t1 : |F1 - F + V * e1| ≤ e1 ^ 2 + a1)
    (t2 : |F2 - F + V * e2| ≤ e2 ^ 2 + a2) :
    (0.4502 ≤ V' → F1 ≤ S ∧ S ≤ F2) ∧ (V' ≤ -0.4502 → F2 ≤ S ∧ S ≤ F1) := by
  have hk6 := rsK1_bounds
  rw [abs_le] at near v b1 b2 t1 t2
  norm_num at near v b1 b2 d1 d2 hk6
  have x1 : 5.01e-5 ≤ e1 := by norm_num; linarith
  have x2 : e2 ≤ -5.01e-5 := by norm_num; linarith
  have x3 : e1 ≤ 6e-5 := by norm_num; linarith
  have x4 : -6e-5 ≤ e2 := by norm_num; linarith
  norm_num at x1 x2 x3 x4
  have q1 : e1 ^ 2 ≤ 36e-10 := by norm_num; nlinarith
  have q2 : e2 ^ 2 ≤ 36e-10 := by norm_num; nlinarith
  norm_num at q1 q2
  constructor
  · intro h
    norm_num at h
    have y1 : 0.45 * 5.01e-5 ≤ V * e1 := mul_le_mul (by norm_num; linarith) (by norm_num; linarith) (by norm_num) (by linarith)
    have y2 : 0.45 * 5.01e-5 ≤ V * -e2 := mul_le_mul (by norm_num; linarith) (by norm_num; linarith) (by norm_num) (by linarith)
    rw [mul_neg] at y2
    generalize V * e1 = W1 at *
    generalize V * e2 = W2 at *
    norm_num at y1 y2
    constructor <;> linarith
  · intro h
    norm_num at h
    have y1 : 0.45 * 5.01e-5 ≤ -V * e1 := mul_le_mul (by norm_num; linarith) (by norm_num; linarith) (by norm_num) (by linarith)
    have y2 : 0.45 * 5.01e-5 ≤ -V * -e2 := mul_le_mul (by norm_num; linarith) (by norm_num; linarith) (by norm_num) (by linarith)
    rw [neg_mul] at y1
    rw [neg_mul_neg] at y2
    generalize V * e1 = W1 at *
    generalize V * e2 = W2 at *
    norm_num at y1 y2
    constructor <;> linarith

/-- C102: a rising or setting of the Sun with a vertical speed of at least 0.4502 of the equatorial one is found (if the
estimate is not refused), within about half of the precision asked for and 0.7 second. -/
theorem sun_riseset_found {jd : ℚ} {y d : ℝ × ℝ × ℝ} {lon phi h0 delta z r s : ℝ} {mode : RsMode}
    (era : |(jd : ℝ) - 2451545| ≤ 1100000) (hs : SunTriple jd y d) (hc : 0 < cos phi) (ha : |h0| ≤ 0.1)
    (hd : 1e-7 ≤ delta) (z0 : 0.051 ≤ z) (z1 : z ≤ 0.949) (hn : |z + deltaTDays jd| ≤ 0.969)
    (hz : place (jd + z + deltaTDays jd) "Sun" = .ok (r, s, -0.0145438286569))
    (ev : altitude phi (gmstDegrees (jd + z) * (π / 180) - lon - r) s = h0)
    (st : 0.4502 ≤ |cos s * cos phi * sin (gmstDegrees (jd + z) * (π / 180) - lon - r)|)
    (hm : mode = .rise ∧ sin (gmstDegrees (jd + z) * (π / 180) - lon - r) < 0 ∨
      mode = .set ∧ 0 < sin (gmstDegrees (jd + z) * (π / 180) - lon - r)) :
    riseset jd y d h0 delta mode lon phi phi = .error (.Error "riseset" "m is out of range") ∨
    ∃ t, riseset jd y d h0 delta mode lon phi phi = .ok (some t) ∧ |t - (jd + z)| ≤ 0.52 * delta + 8.1e-6 := by
  obtain ⟨u, ra, dec, hu, su, -, sd, key⟩ := sun_day ((era_millennia era).trans (by norm_num)) hs
  have sd := sd (era_millennia era)
  have ph := Real.pi_gt_three
  set dT := deltaTDays jd with hdT
  have cd1 : 0 < cos d.2.1 := by
    obtain ⟨⟨z', e, -⟩, -, -, c9⟩ := key 0 (by norm_num)
    rw [add_zero, hs.2.1] at e
    simp only [Except.ok.injEq, Prod.mk.injEq, and_true] at e
    rw [e.2]
    norm_num at c9; linarith
  have I : RiseInput jd y u d phi h0 := ⟨era, hu, su, sd, hc, cd1, ha⟩
  obtain ⟨⟨z', e, k, hk⟩, f1, f2, -⟩ := key _ (hn.trans (by norm_num))
  rw [← add_assoc, hz] at e
  simp only [Except.ok.injEq, Prod.mk.injEq, and_true] at e
  obtain ⟨rfl, rfl⟩ := e
  -- the hour angle of the Sun without whole turns
  set HS := gmstDegrees (jd + z) * (π / 180) - lon - ra (z + dT) with hHS
  have eH : gmstDegrees (jd + z) * (π / 180) - lon - r = HS + ((-k : ℤ) : ℝ) * (2 * π) := by
    rw [hHS, hk]; push_cast; ring
  rw [eH, Real.sin_add_int_mul_two_pi] at st hm
  rw [eH, altitude_eq, Real.cos_add_int_mul_two_pi] at ev
  generalize dec (z + dT) = s at *
  have q21 : arcsec 2.1 ≤ 1.02e-5 := by
    unfold arcsec
    have := Real.pi_lt_d4
    norm_num at this ⊢; linarith
  set H := hourAngle jd lon dT u with hH
  set D : ℝ → ℝ := fun m => parabola d (m + dT) with hD
  have n1 : |H z - HS| ≤ 1.02e-5 := by
    refine le_trans (le_of_eq ?_) (f1.trans q21)
    rw [← abs_neg]; congr 1
    rw [hH, hHS]; unfold hourAngle; ring
  have n2 : |D z - s| ≤ 1.02e-5 := f2.trans q21
  have evF : sin h0 = sinAlt phi HS s := by
    rw [← ev, Real.sin_arcsin (horizon_z_range _ _ _).1 (horizon_z_range _ _ _).2]; rfl
  have near : |sinAlt phi (H z) (D z) - sin h0| ≤ 2.04e-5 := by
    rw [evF]
    refine (sinAlt_lip _ _ _ _ _).trans ((add_le_add n1 n2).trans (by norm_num))
  -- the vertical speed
  have zz : |z| ≤ 1 := by rw [abs_le]; norm_num at z0 z1; constructor <;> linarith
  have rate : ∀ x, |x| ≤ 8e-6 → |H (z + x) - H z - rsK1 * x| ≤ 5e-8 + 0.022 * |x| := fun x hx =>
    hour_rate era su zz (hx.trans (by norm_num)) (hn.trans (by norm_num))
  have rated : ∀ x, |x| ≤ 8e-6 → |D (z + x) - D z| ≤ 0.0085 * |x| := by
    intro x hx
    have := parabola_lip (r := 1) (n := z + x + dT) (n' := z + dT) sd
      (by rw [abs_le] at hn hx ⊢; norm_num at hn hx; constructor <;> linarith) (hn.trans (by norm_num))
    rw [show z + x + dT - (z + dT) = x by ring] at this
    exact this.trans (mul_le_mul_of_nonneg_right (by norm_num) (abs_nonneg _))
  have hk6 := rsK1_bounds
  have steep : ∀ {A B a b : ℝ}, |A - B| ≤ 1e-4 → |a - b| ≤ 1e-4 →
      |cos a * cos phi * sin A - cos b * cos phi * sin B| ≤ 2e-4 := by
    intro A B a b h1 h2
    have e : cos a * cos phi * sin A - cos b * cos phi * sin B =
        cos phi * (cos a * (sin A - sin B) + sin B * (cos a - cos b)) := by ring
    rw [e, abs_mul]
    refine (mul_le_of_le_one_left (abs_nonneg _) (abs_cos_le_one _)).trans ((abs_add_le _ _).trans ?_)
    rw [abs_mul, abs_mul]
    have i1 := (mul_le_of_le_one_left (abs_nonneg (sin A - sin B)) (abs_cos_le_one a)).trans (abs_sin_sub_le A B)
    have i2 := (mul_le_of_le_one_left (abs_nonneg (cos a - cos b)) (abs_sin_le_one B)).trans (abs_cos_sub_le a b)
    norm_num at h1 h2 ⊢; linarith
  have cont : Continuous fun m => sinAlt phi (H m) (D m) := by
    have c1 : Continuous H := hourAngle_continuous _ _ _ _
    have c2 : Continuous D := (parabola_continuous d).comp (continuous_id.add continuous_const)
    unfold sinAlt
    fun_prop
  -- steps to both sides
  have b1 := rate 8e-6 (by norm_num [abs_of_pos])
  have b2 := rate (-8e-6) (by norm_num [abs_of_pos])
  have d1 := rated 8e-6 (by norm_num [abs_of_pos])
  have d2 := rated (-8e-6) (by norm_num [abs_of_pos])
  rw [abs_neg] at b2 d2
  rw [abs_of_pos (by norm_num : (0 : ℝ) < 8e-6)] at b1 b2 d1 d2
  have v0 : |cos (D z) * cos phi * sin (H z) - cos s * cos phi * sin HS| ≤ 2e-4 :=
    steep (n1.trans (by norm_num)) (n2.trans (by norm_num))
  have close : ∀ x, |x| ≤ 8e-6 → |H (z + x) - H z| ≤ 6e-5 := by
    intro x hx
    have h := rate x hx
    have h2 : |rsK1 * x| ≤ 6.301 * 8e-6 := by
      rw [abs_mul, abs_of_pos (by linarith [hk6.1])]
      exact mul_le_mul hk6.2.le hx (abs_nonneg _) (by norm_num)
    have h3 := abs_add_le (H (z + x) - H z - rsK1 * x) (rsK1 * x)
    rw [sub_add_cancel] at h3
    generalize |rsK1 * x| = w' at *
    generalize |x| = w at *
    norm_num at hx h h2 ⊢; linarith
  have event : ∃ w, |w - z| ≤ 8e-6 ∧ sinAlt phi (H w) (D w) = sin h0 := by
    have t1 := sinAlt_step phi (D z) (D (z + 8e-6)) ((close 8e-6 (by norm_num [abs_of_pos])).trans (by norm_num))
    have t2 := sinAlt_step phi (D z) (D (z + -8e-6)) ((close (-8e-6) (by norm_num [abs_of_pos])).trans (by norm_num))
    obtain ⟨j1, j2⟩ := pass_between near v0 b1 b2 d1 d2 t1 t2
    have fin : ∀ w ∈ Set.Icc (z + -8e-6) (z + 8e-6), |w - z| ≤ 8e-6 := by
      rintro w ⟨w0, w1⟩
      rw [abs_le]; constructor <;> linarith
    rcases le_abs.mp st with sg | sg
    · obtain ⟨w, hw, hh⟩ := intermediate_value_Icc' (show z + -8e-6 ≤ z + 8e-6 by norm_num) cont.continuousOn (j1 sg)
      exact ⟨w, fin w hw, hh⟩
    · obtain ⟨w, hw, hh⟩ := intermediate_value_Icc (show z + -8e-6 ≤ z + 8e-6 by norm_num) cont.continuousOn
        (j2 (le_neg_of_le_neg sg))
      exact ⟨w, fin w hw, hh⟩
  obtain ⟨w, hw, hev⟩ := event
  have cw := close (w - z) hw
  have dw := rated (w - z) hw
  rw [show z + (w - z) = w by ring] at cw dw
  have nw1 : |H w - HS| ≤ 1e-4 := by
    refine (abs_sub_le _ (H z) _).trans ((add_le_add cw n1).trans (by norm_num))
  have nw2 : |D w - s| ≤ 1e-4 := by
    refine (abs_sub_le _ (D z) _).trans ((add_le_add (dw.trans (mul_le_mul_of_nonneg_left hw (by norm_num))) n2).trans
      (by norm_num))
  have vw := abs_le.mp (steep nw1 nw2)
  have sw := abs_le.mp ((abs_sin_sub_le (H w) HS).trans nw1)
  have sS : 0.4502 ≤ |sin HS| := by
    refine st.trans ?_
    rw [abs_mul, abs_mul]
    exact mul_le_of_le_one_left (abs_nonneg _)
      (mul_le_one₀ (abs_cos_le_one _) (abs_nonneg _) (abs_cos_le_one _))
  have hw' := abs_le.mp hw
  have hn' := abs_le.mp hn
  have hh0 := abs_le.mp ha
  norm_num at hw' hn' hh0 z0 z1
  have found := riseset_found (lon := lon) (delta := delta) (mode := mode) (z := w) I hd
    (by norm_num; linarith) (by norm_num; linarith)
    (by rw [abs_le]; norm_num; constructor <;> linarith) (by
      rw [altitude_eq]
      change arcsin (sinAlt phi (H w) (D w)) = h0
      rw [hev, Real.arcsin_sin (by linarith) (by linarith)]) (by
      change 0.45 ≤ |cos (D w) * cos phi * sin (H w)|
      generalize cos (D w) * cos phi * sin (H w) = V at *
      generalize cos s * cos phi * sin HS = V' at *
      rw [le_abs] at st ⊢
      norm_num at st vw ⊢
      rcases st with q | q
      · left; linarith
      · right; linarith) (by
      change mode = .rise ∧ sin (H w) < 0 ∨ mode = .set ∧ 0 < sin (H w)
      rw [le_abs] at sS
      norm_num at sS sw
      rcases hm with ⟨m1, m2⟩ | ⟨m1, m2⟩
      · left
        refine ⟨m1, ?_⟩
        rcases sS with q | q <;> linarith
      · right
        refine ⟨m1, ?_⟩
        rcases sS with q | q <;> linarith)
  rcases found with f | ⟨t, ht, hb⟩
  · exact .inl f
  · refine .inr ⟨t, ht, ?_⟩
    rw [abs_le] at hb ⊢
    norm_num at hb ⊢
    constructor <;> linarith

/-! ### The hypotheses are met -/

theorem era_2000 : |((2451544.5 : ℚ) : ℝ) - 2451545| ≤ 1100000 := by rw [abs_le]; push_cast; norm_num

example : ∃ y d, SunTriple 2451545 y d ∧ ∃ r q z s, interpolateAngle3 0.5 y.1 y.2.1 y.2.2 = .ok r ∧
    interpolate3 (fun x => x) 0.5 d.1 d.2.1 d.2.2 = .ok q ∧
    place (2451545 + 0.5) "Sun" = .ok (z, s, -0.0145438286569) ∧ TurnNear r z (arcsec 2.1) ∧ |q - s| ≤ arcsec 2.1 := by
  have h : |millennia 2451545| ≤ 5.9 := by unfold millennia; norm_num
  obtain ⟨y, d, hs⟩ := sunTriple_exists 2451545 h
  exact ⟨y, d, hs, sun_interpolated h hs (by norm_num) (by norm_num)⟩

/-- On 2000 January 1 there is a longitude at which the Sun is in the meridian at noon; the code finds it there. -/
theorem sun_transit_2000 : ∃ y d lon t w z s, SunTriple (2451544.5 : ℚ) y d ∧ -π ≤ lon ∧ lon ≤ π ∧
    transit 2451544.5 y 0.001 lon = .ok (some t) ∧ |t - 2451545| ≤ 0.00011 ∧ |t - w| ≤ 0.00011 ∧
    place (w + deltaTDays 2451544.5) "Sun" = .ok (z, s, -0.0145438286569) ∧
    TurnNear (gmstDegrees w * (π / 180) - lon) z (arcsec 2.1) := by
  have hp := Real.pi_gt_d6
  have hst := sidereal_2000
  norm_num at hp hst
  have h := (era_millennia era_2000).trans (by norm_num : (3.02 : ℝ) ≤ 5.9)
  obtain ⟨y, d, hs⟩ := sunTriple_exists _ h
  have dT := deltaT_2000
  have hn : |(0.5 : ℝ) + deltaTDays 2451544.5| ≤ 0.88 := by rw [dT, abs_le]; norm_num
  obtain ⟨u, ra, dec, hu, -, -, -, key⟩ := sun_day h hs
  obtain ⟨⟨z, e, -⟩, -⟩ := key _ (hn.trans (by norm_num))
  rw [← add_assoc] at e
  set g := gmstDegrees ((2451544.5 : ℚ) + 0.5) * (π / 180) - z with hg
  set lon := toIocMod Real.two_pi_pos (-π) g with hlon
  obtain ⟨l0, l1⟩ := toIocMod_mem_Ioc Real.two_pi_pos (-π) g
  rw [← hlon] at l0 l1
  have l1' : lon ≤ π := by linarith
  have cg : Congr (2 * π) (gmstDegrees ((2451544.5 : ℚ) + 0.5) * (π / 180) - lon) z := by
    refine ⟨toIocDiv Real.two_pi_pos (-π) g, ?_⟩
    have := toIocMod_add_toIocDiv_zsmul Real.two_pi_pos (-π) g
    rw [← hlon, zsmul_eq_mul] at this
    rw [hg] at this ⊢
    linear_combination -this
  obtain ⟨t, ht, hb⟩ := sun_transit_found (delta := 0.001) era_2000 hs l0.le l1' (by norm_num)
    (by have := hu.2.1.1; push_cast; norm_num; linarith) (by norm_num) (by norm_num) hn e cg
  have tb : |t - 2451545| ≤ 0.00011 := by
    refine le_trans (le_of_eq ?_) (hb.trans (by norm_num))
    congr 1; push_cast; norm_num
  obtain ⟨w, z', s', hw, h1, h2⟩ := sun_transit era_2000 hs l0.le l1' (by norm_num) (by norm_num) ht
    (by rw [dT, abs_le]; rw [abs_le] at tb; push_cast; norm_num at tb ⊢; constructor <;> linarith)
  exact ⟨y, d, lon, t, w, z', s', hs, l0.le, l1', ht, tb, hw.trans (by norm_num), h1, h2⟩

/-- On 2000 January 1 there is a longitude at which the Sun rises at noon, seen from the equator; the code finds it there. -/
theorem sun_rise_2000 : ∃ y d lon t z s, SunTriple (2451544.5 : ℚ) y d ∧
    riseset 2451544.5 y d 0 0.001 .rise lon 0 0 = .ok (some t) ∧ |t - 2451545| ≤ 0.00053 ∧
    place (t + deltaTDays 2451544.5) "Sun" = .ok (z, s, -0.0145438286569) ∧
    |altitude 0 (gmstDegrees t * (π / 180) - lon - z) s| ≤ 0.0181 := by
  have hp := Real.pi_gt_d6
  have hp' := Real.pi_lt_d6
  norm_num at hp hp'
  have h := (era_millennia era_2000).trans (by norm_num : (3.02 : ℝ) ≤ 5.9)
  obtain ⟨y, d, hs⟩ := sunTriple_exists _ h
  have dT := deltaT_2000
  have hn : |(0.5 : ℝ) + deltaTDays 2451544.5| ≤ 0.969 := by rw [dT, abs_le]; norm_num
  obtain ⟨u, ra, dec, hu, -, -, -, key⟩ := sun_day h hs
  obtain ⟨⟨z, e, -⟩, -, -, c9⟩ := key _ (hn.trans (by norm_num))
  rw [← add_assoc] at e
  set a := y.2.1 - siderealTimeGreenwich (2451544.5 : ℚ) with ha
  set g := gmstDegrees ((2451544.5 : ℚ) + 0.5) * (π / 180) - z + π / 2 with hg
  -- the turn for which the estimate is not refused
  set b := toIocMod Real.two_pi_pos (-π) (g + a) with hb
  obtain ⟨l0, l1⟩ := toIocMod_mem_Ioc Real.two_pi_pos (-π) (g + a)
  rw [← hb] at l0 l1
  set k := toIocDiv Real.two_pi_pos (-π) (g + a) with hk
  have eb := toIocMod_add_toIocDiv_zsmul Real.two_pi_pos (-π) (g + a)
  rw [← hb, ← hk, zsmul_eq_mul] at eb
  set lon := b - a with hlon
  have eH : gmstDegrees ((2451544.5 : ℚ) + 0.5) * (π / 180) - lon - z = -(π / 2) + (k : ℝ) * (2 * π) := by
    rw [hlon]; linear_combination -eb - hg
  have sH : sin (gmstDegrees ((2451544.5 : ℚ) + 0.5) * (π / 180) - lon - z) = -1 := by
    rw [eH, Real.sin_add_int_mul_two_pi, sin_neg, sin_pi_div_two]
  have cH : cos (gmstDegrees ((2451544.5 : ℚ) + 0.5) * (π / 180) - lon - z) = 0 := by
    rw [eH, Real.cos_add_int_mul_two_pi, cos_neg, cos_pi_div_two]
  rcases sun_riseset_found (delta := 0.001) (phi := 0) (h0 := 0) (mode := .rise) era_2000 hs (by simp) (by norm_num)
    (by norm_num) (by norm_num) (by norm_num) hn e (by rw [altitude_eq, cH]; simp)
    (by rw [sH, cos_zero]; norm_num at c9 ⊢; rw [abs_of_pos (by linarith)]; linarith)
    (.inl ⟨rfl, by rw [sH]; norm_num⟩) with f | ⟨t, ht, hb⟩
  · exfalso
    have cd : 0 < cos d.2.1 := by
      obtain ⟨⟨z', e', -⟩, -, -, c0⟩ := key 0 (by norm_num)
      rw [add_zero, hs.2.1] at e'
      simp only [Except.ok.injEq, Prod.mk.injEq, and_true] at e'
      rw [e'.2]
      norm_num at c0; linarith
    obtain ⟨w, w0, w1, hw, hiff⟩ := riseset_refused_iff (jd := 2451544.5) (y := y) (d := d) (h0 := 0)
      (delta := 0.001) (lon := lon) (lat := 0) (phi := 0) (H := π / 2) (mode := .rise) (by simp) cd
      (by rw [altitude_eq, cos_pi_div_two]; simp)
    have := hiff.mp f
    simp only [if_true] at this
    have q : y.2.1 + lon - siderealTimeGreenwich (2451544.5 : ℚ) = b := by rw [hlon, ha]; ring
    rw [q] at this
    rcases this with h | h <;> linarith
  · have tb : |t - 2451545| ≤ 0.00053 := by
      refine le_trans (le_of_eq ?_) (hb.trans (by norm_num))
      congr 1; push_cast; norm_num
    obtain ⟨z', s', h1, h2⟩ := sun_riseset era_2000 hs (by rw [dT]; norm_num) (by norm_num) ht
      (by rw [dT, abs_le]; rw [abs_le] at tb; push_cast; norm_num at tb ⊢; constructor <;> linarith)
    refine ⟨y, d, lon, t, z', s', hs, ht, tb, h1, ?_⟩
    rw [sub_zero] at h2
    refine h2.trans ?_
    unfold arcsec
    norm_num; linarith

end Verif
