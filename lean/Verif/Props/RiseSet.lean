import Verif.Lemmas.Altitude
import Verif.Props.Transit

/-!
# C51, C53: `riseset.rise`, `riseset.settime`, `riseset._riseset`; C65: `moon_rst_altitude`
-/

namespace Verif
open Real

/-! ### C53: times returned by `_riseset` -/

/-- What is known when the loop returns a time. -/
theorem riseset_loop_some {jd : ℚ} {th dT h0 delta lon lat phi t s c : ℝ} {y u d : ℝ × ℝ × ℝ}
    (hr : Reduced y u) (hs : Slow s c u) (s1 : s < π) (c1 : c < π)
    (ht : Congr (2 * π) th (gmstDegrees jd * (π / 180))) :
    ∀ (k : ℕ) (m : ℝ), risesetLoop jd th dT y d h0 delta lon lat phi k m = .ok (some t) →
      ∃ m, -1 < m + dT ∧ m + dT < 1 ∧ |t - (jd + m)| < delta ∧
        |altitude phi (codeH jd lon dT u m) (parabola d (m + dT)) - h0| ≤ 2 * π * |t - (jd + m)| := by
  intro k
  induction k with
  | zero => intro m h; simp [risesetLoop] at h
  | succ k ih =>
    intro m h
    by_cases hn : -1 < m + dT ∧ m + dT < 1
    · rw [riseset_pass hr hs s1 c1 ht hn.1 hn.2 k] at h
      simp only at h
      set D := cos (parabola d (m + dT)) * cos lat * sin (codeH jd lon dT u m) with hD
      set F := altitude phi (codeH jd lon dT u m) (parabola d (m + dT)) - h0 with hF
      split_ifs at h with h1 h2 h3
      · cases h
      · simp only [Except.ok.injEq, Option.some.injEq] at h
        subst h
        have e : (jd : ℝ) + (m + F / (2 * π * D)) - (jd + m) = m + F / (2 * π * D) - m := by ring
        refine ⟨m, hn.1, hn.2, by rw [e]; exact h3, ?_⟩
        rw [e, add_sub_cancel_left, abs_div, abs_mul, abs_of_pos (by positivity : (0 : ℝ) < 2 * π)]
        have D1 : |D| ≤ 1 := by
          rw [hD, abs_mul, abs_mul]
          exact mul_le_one₀ (mul_le_one₀ (abs_cos_le_one _) (abs_nonneg _) (abs_cos_le_one _)) (abs_nonneg _)
            (abs_sin_le_one _)
        have D0 : 0 < |D| := abs_pos.mpr h1
        rw [← hF, show 2 * π * (|F| / (2 * π * |D|)) = |F| / |D| by field_simp]
        rw [le_div_iff₀ D0]
        nlinarith [abs_nonneg F]
      · exact ih _ h
    · unfold risesetLoop at h
      simp only [bind, Except.bind] at h
      rw [if_pos (by tauto)] at h
      cases h

/-- C53: at a time that is returned, for rising as for setting, the object has the altitude asked for, for an
observer at the latitude `globals.latitude` (`phi`), up to 18 times the precision; `lat` and `phi` may differ, because
the parameter `latitude` has its default value from the time of import. -/
theorem riseset_sound {jd : ℚ} {y u d : ℝ × ℝ × ℝ} {h0 delta lon lat phi t : ℝ} {mode : RsMode}
    (era : |(jd : ℝ) - 2451545| ≤ 1100000) (hr : Reduced y u) (hs : Slow 0.4 0.1 u) (hsd : Slow 0.2 0.1 d)
    (hT : |deltaTDays jd| ≤ 0.09) (hd : delta ≤ 0.1)
    (h : riseset jd y d h0 delta mode lon lat phi = .ok (some t)) :
    |altitude phi (hourAngle jd lon (deltaTDays jd) u (t - jd)) (parabola d (t - jd + deltaTDays jd)) - h0| ≤
      18 * delta + 1e-7 := by
  have hp := Real.pi_gt_d4
  have hp' := Real.pi_lt_d4
  norm_num at hp hp'
  have hpi := pi_pos
  unfold riseset at h
  simp only at h
  have key : ∃ m, risesetLoop jd (siderealTimeGreenwich jd) (deltaTDays jd) y d h0 delta lon lat phi 20 m =
      .ok (some t) := by
    split_ifs at h
    · cases h
    · cases h
    · cases h
    · split at h
      · cases h
      · exact ⟨_, h⟩
  obtain ⟨m₀, hm₀⟩ := key
  obtain ⟨m, n0, n1, hl, hb⟩ := riseset_loop_some hr hs (by norm_num; linarith) (by norm_num; linarith)
    (sidereal_time_spec jd).2.2 _ _ hm₀
  set dT := deltaTDays jd
  set m' := t - jd with hm'
  have e1 : t - (jd + m) = m' - m := by rw [hm']; ring
  rw [e1] at hl hb
  have hT' := abs_le.mp hT
  have hl' := abs_lt.mp hl
  norm_num at hT' hd
  have k := rsK1_bounds
  norm_num at k
  have a1 : |m' + dT| ≤ 1.1 := by rw [abs_le]; norm_num; constructor <;> linarith
  have a2 : |m + dT| ≤ 1.1 := by rw [abs_le]; norm_num; constructor <;> linarith
  have cd := codeH_diff (lon := lon) era hs (z := m') (m := m) (dT := dT) (r := 1.1)
    (by rw [abs_le]; norm_num; constructor <;> linarith) a2 a1
  have dd := parabola_lip hsd a2 a1
  rw [show m + dT - (m' + dT) = m - m' by ring] at dd
  rw [abs_sub_comm m m'] at cd dd
  have lip := altitude_lip phi (hourAngle jd lon dT u m') (parabola d (m' + dT)) (codeH jd lon dT u m)
    (parabola d (m + dT))
  have x0 := abs_nonneg (m' - m)
  have hH : |hourAngle jd lon dT u m' - codeH jd lon dT u m| ≤ 6.811 * |m' - m| + 2.3e-8 := by
    rw [abs_sub_comm]
    have : codeH jd lon dT u m - hourAngle jd lon dT u m' =
        (codeH jd lon dT u m - hourAngle jd lon dT u m' - rsK1 * (m - m')) + rsK1 * (m - m') := by ring
    rw [this]
    refine (abs_add_le _ _).trans ?_
    rw [abs_mul rsK1, abs_of_pos (by linarith : 0 < rsK1), abs_sub_comm m m']
    have : rsK1 * |m' - m| ≤ 6.301 * |m' - m| := mul_le_mul_of_nonneg_right (by norm_num; linarith) x0
    norm_num at cd this ⊢
    linarith
  rw [abs_sub_comm] at dd
  have hsum : |hourAngle jd lon dT u m' - codeH jd lon dT u m| + |parabola d (m' + dT) - parabola d (m + dT)| ≤
      7.121 * |m' - m| + 2.3e-8 := by
    norm_num at hH dd ⊢
    linarith
  have l2 := lip.trans (mul_le_mul (show π / 2 ≤ 1.5708 by norm_num; linarith) hsum
    (by positivity) (by norm_num))
  have t1 := abs_add_le (altitude phi (hourAngle jd lon dT u m') (parabola d (m' + dT)) -
    altitude phi (codeH jd lon dT u m) (parabola d (m + dT)))
    (altitude phi (codeH jd lon dT u m) (parabola d (m + dT)) - h0)
  rw [sub_add_sub_cancel] at t1
  refine t1.trans ?_
  have : 2 * π * |m' - m| ≤ 6.2832 * |m' - m| := mul_le_mul_of_nonneg_right (by norm_num; linarith) x0
  norm_num at l2 this ⊢
  linarith

/-! ### C53: objects that do not rise or set -/

/-- C53: for an object that is below the altitude `h0` all day, at its declination at 0h, the result is `None`. -/
theorem riseset_never_rises {jd : ℚ} {y d : ℝ × ℝ × ℝ} {h0 delta lon lat phi : ℝ} {mode : RsMode}
    (hl : 0 < cos lat) (hd : 0 < cos d.2.1) (h1 : h0 ≤ π / 2) (h : ∀ H, altitude lat H d.2.1 < h0) :
    riseset jd y d h0 delta mode lon lat phi = .ok none := by
  unfold riseset
  simp only
  rw [if_neg (by positivity)]
  have a := h 0
  have s := Real.sin_lt_sin_of_lt_of_le_pi_div_two (Real.neg_pi_div_two_le_arcsin _) h1 a
  have e := sin_altitude lat 0 d.2.1
  unfold altitude at e s
  rw [e, cos_zero, mul_one] at s
  have q : (1 : ℝ) < (sin h0 - sin lat * sin d.2.1) / (cos lat * cos d.2.1) := by
    rw [lt_div_iff₀ (by positivity)]; linarith
  rw [if_neg (by linarith), if_pos q]

/-- C53: likewise for one that stays above. -/
theorem riseset_circumpolar {jd : ℚ} {y d : ℝ × ℝ × ℝ} {h0 delta lon lat phi : ℝ} {mode : RsMode}
    (hl : 0 < cos lat) (hd : 0 < cos d.2.1) (h1 : -(π / 2) ≤ h0) (h : ∀ H, h0 < altitude lat H d.2.1) :
    riseset jd y d h0 delta mode lon lat phi = .ok none := by
  unfold riseset
  simp only
  rw [if_neg (by positivity)]
  have a := h π
  have s := Real.sin_lt_sin_of_lt_of_le_pi_div_two h1 (Real.arcsin_le_pi_div_two _) a
  have e := sin_altitude lat π d.2.1
  unfold altitude at e s
  rw [e, cos_pi] at s
  have q : (sin h0 - sin lat * sin d.2.1) / (cos lat * cos d.2.1) < -1 := by
    rw [div_lt_iff₀ (by positivity)]; linarith
  rw [if_pos q]

/-- C53: in all other cases, that is if the object passes the altitude `h0` at some hour angle, the outcome is the one
of the first estimate and of the loop. -/
theorem riseset_passes {jd : ℚ} {y d : ℝ × ℝ × ℝ} {h0 delta lon lat phi H : ℝ} {mode : RsMode}
    (hl : 0 < cos lat) (hd : 0 < cos d.2.1) (h : altitude lat H d.2.1 = h0) :
    ∃ w, 0 ≤ w ∧ w ≤ π ∧ altitude lat w d.2.1 = h0 ∧
    riseset jd y d h0 delta mode lon lat phi =
      match rsReduce ((y.2.1 + lon - siderealTimeGreenwich jd + (if mode = .rise then -w else w)) / pi2) with
      | .error e => .error e
      | .ok m => risesetLoop jd (siderealTimeGreenwich jd) (deltaTDays jd) y d h0 delta lon lat phi 20 m := by
  have e := sin_altitude lat H d.2.1
  rw [h] at e
  have q : (sin h0 - sin lat * sin d.2.1) / (cos lat * cos d.2.1) = cos H := by
    rw [e]; field_simp; ring
  refine ⟨arccos (cos H), arccos_nonneg _, arccos_le_pi _, ?_, ?_⟩
  · rw [← h]
    unfold altitude toHorizon direction
    simp only
    rw [Real.cos_arccos (neg_one_le_cos H) (cos_le_one H)]
  · unfold riseset
    simp only
    rw [if_neg (by positivity), q, if_neg (by linarith [neg_one_le_cos H]), if_neg (by linarith [cos_le_one H])]
    cases mode with
    | rise => simp only [if_true, rsEstimate]; rw [← sub_div]; rfl
    | set => simp only [reduceCtorEq, if_false, rsEstimate]; rw [← add_div]; rfl

theorem risesetLoop_not_refused {jd : ℚ} {y d : ℝ × ℝ × ℝ} {th dT h0 delta lon lat phi : ℝ} :
    ∀ (k : ℕ) (m : ℝ), risesetLoop jd th dT y d h0 delta lon lat phi k m ≠
      .error (.Error "riseset" "m is out of range") := by
  intro k
  induction k with
  | zero => intro m h; simp [risesetLoop] at h
  | succ k ih =>
    intro m h
    unfold risesetLoop at h
    simp only [bind, Except.bind] at h
    by_cases hn : -1 < m + dT ∧ m + dT < 1
    · rw [if_neg (by tauto)] at h
      unfold interpolateAngle3 interpolate3 at h
      rw [if_neg (by tauto), if_neg (by tauto)] at h
      simp only at h
      split_ifs at h with h1 h2 hlt
      · simp at h
      · exact ih _ h
    · rw [if_pos (by tauto)] at h
      cases h

/-- C53: the first estimate is refused exactly if it is more than one day away from the day in question. -/
theorem riseset_refused_iff {jd : ℚ} {y d : ℝ × ℝ × ℝ} {h0 delta lon lat phi H : ℝ} {mode : RsMode}
    (hl : 0 < cos lat) (hd : 0 < cos d.2.1) (h : altitude lat H d.2.1 = h0) :
    ∃ w, 0 ≤ w ∧ w ≤ π ∧ altitude lat w d.2.1 = h0 ∧
    (riseset jd y d h0 delta mode lon lat phi = .error (.Error "riseset" "m is out of range") ↔
      y.2.1 + lon - siderealTimeGreenwich jd + (if mode = .rise then -w else w) < -(2 * π) ∨
      2 * (2 * π) < y.2.1 + lon - siderealTimeGreenwich jd + (if mode = .rise then -w else w)) := by
  obtain ⟨w, w0, w1, e, he⟩ := riseset_passes (jd := jd) (y := y) (delta := delta) (lon := lon) (phi := phi)
    (mode := mode) hl hd h
  refine ⟨w, w0, w1, e, ?_⟩
  rw [he]
  generalize y.2.1 + lon - siderealTimeGreenwich jd + (if mode = .rise then -w else w) = x
  have hp := pi_pos
  rcases rsReduce_cases (x / pi2) with ⟨e, h⟩ | ⟨⟨m, e⟩, h, h'⟩
  · rw [e]
    simp only [true_iff]
    unfold pi2 at h
    rw [div_lt_iff₀ (by positivity), lt_div_iff₀ (by positivity)] at h
    rcases h with h | h
    · left; linarith
    · right; linarith
  · rw [e]
    unfold pi2 at h h'
    rw [le_div_iff₀ (by positivity)] at h
    rw [div_le_iff₀ (by positivity)] at h'
    constructor
    · intro hc
      exact absurd hc (risesetLoop_not_refused _ _)
    · rintro (hc | hc)
      · linarith
      · linarith

/-! ### C53: risings and settings are found -/

/-- Inputs of the motion of the Sun or slower (a star), for an observer between the poles. -/
structure RiseInput (jd : ℚ) (y u d : ℝ × ℝ × ℝ) (phi h0 : ℝ) : Prop where
  era : |(jd : ℝ) - 2451545| ≤ 1100000
  red : Reduced y u
  slow : Slow 0.02 0.001 u
  slowd : Slow 0.0075 0.001 d
  lat : 0 < cos phi
  dec : 0 < cos d.2.1
  alt : |h0| ≤ 0.1

theorem hour_angle_east {H : ℝ} (h : sin H < 0) : Congr (2 * π) H (-arccos (cos H)) := by
  have e : cos (arccos (cos H)) = cos H := Real.cos_arccos (neg_one_le_cos H) (cos_le_one H)
  have s0 : 0 ≤ sin (arccos (cos H)) := sin_nonneg_of_nonneg_of_le_pi (arccos_nonneg _) (arccos_le_pi _)
  obtain ⟨k, hk | hk⟩ := Real.cos_eq_cos_iff.mp e
  · exfalso
    have : sin H = sin (arccos (cos H)) := by
      conv_lhs => rw [hk]
      rw [show 2 * (k : ℝ) * π + arccos (cos H) = arccos (cos H) + k * (2 * π) by ring, Real.sin_add_int_mul_two_pi]
    linarith
  · exact ⟨k, by conv_lhs => rw [hk]
                 ring⟩

theorem hour_angle_west {H : ℝ} (h : 0 < sin H) : Congr (2 * π) H (arccos (cos H)) := by
  have := hour_angle_east (H := -H) (by rw [sin_neg]; linarith)
  rw [cos_neg] at this
  obtain ⟨k, hk⟩ := this
  exact ⟨-k, by push_cast; linarith⟩

/-- The hour angle of the first estimate. -/
theorem estimate_near {phi d1 dz Hz h0 : ℝ} (hc : 0 < cos phi) (hd : 0 < cos d1)
    (e : altitude phi Hz dz = h0) (hdd : |d1 - dz| ≤ 0.0089)
    (st : 0.45 ≤ |cos dz * cos phi * sin Hz|) :
    0.44 ≤ cos phi * cos d1 ∧ |(sin h0 - sin phi * sin d1) / (cos phi * cos d1)| ≤ 0.92 ∧
    |arccos ((sin h0 - sin phi * sin d1) / (cos phi * cos d1)) - arccos (cos Hz)| ≤ 0.064 := by
  have hp := Real.pi_lt_d4
  have hpi := pi_pos
  norm_num at hp
  set A := cos phi * cos d1 with hA
  have A0 : 0 < A := by positivity
  have A1 : A ≤ 1 := mul_le_one₀ (cos_le_one _) hd.le (cos_le_one _)
  set q := (sin h0 - sin phi * sin d1) / A with hq
  have es := sin_altitude phi Hz dz
  rw [e] at es
  have E : |A * (q - cos Hz)| ≤ 0.0089 := by
    have : A * (q - cos Hz) = sin phi * (sin dz - sin d1) + cos phi * cos Hz * (cos dz - cos d1) := by
      rw [hq, mul_sub, mul_div_cancel₀ _ A0.ne', es, hA]; ring
    rw [this]
    refine (dec_change (abs_cos_le_one Hz)).trans ?_
    rw [abs_sub_comm]; exact hdd
  have As : 0.4411 ≤ A * |sin Hz| := by
    have : |cos dz * cos phi * sin Hz - A * sin Hz| ≤ 0.0089 := by
      have : cos dz * cos phi * sin Hz - A * sin Hz = cos phi * sin Hz * (cos dz - cos d1) := by rw [hA]; ring
      rw [this, abs_mul, abs_mul]
      have c : |cos dz - cos d1| ≤ 0.0089 := (abs_cos_sub_cos_le dz d1).trans (by rw [abs_sub_comm]; exact hdd)
      have : |cos phi| * |sin Hz| ≤ 1 := mul_le_one₀ (abs_cos_le_one _) (abs_nonneg _) (abs_sin_le_one _)
      calc _ ≤ 1 * |cos dz - cos d1| := mul_le_mul_of_nonneg_right this (abs_nonneg _)
        _ ≤ _ := by rw [one_mul]; exact c
    have t := abs_sub_abs_le_abs_sub (cos dz * cos phi * sin Hz) (A * sin Hz)
    rw [abs_mul A, abs_of_pos A0] at t
    generalize cos dz * cos phi * sin Hz = Q at *
    norm_num at this st ⊢
    linarith
  have s1 := abs_sin_le_one Hz
  have s0 := abs_nonneg (sin Hz)
  have sc := sin_sq_add_cos_sq Hz
  rw [← sq_abs (sin Hz)] at sc
  have qr' : |q| ≤ 0.92 := by
    have c1 : |cos Hz| ≤ 1 := abs_cos_le_one Hz
    have k : A * |sin Hz| ^ 2 / 2 ≤ A * (1 - |cos Hz|) := by
      have : |sin Hz| ^ 2 / 2 ≤ 1 - |cos Hz| := by
        rw [← sq_abs (cos Hz)] at sc
        nlinarith [abs_nonneg (cos Hz)]
      have := mul_le_mul_of_nonneg_left this A0.le
      linarith
    have k2 : (A * |sin Hz|) ^ 2 ≤ A * |sin Hz| ^ 2 := by
      rw [mul_pow]; nlinarith [mul_nonneg A0.le (sq_nonneg |sin Hz|)]
    have k3 : (0.4411 : ℝ) ^ 2 ≤ (A * |sin Hz|) ^ 2 := pow_le_pow_left₀ (by norm_num) As 2
    have k4 : |A * q| ≤ A * |cos Hz| + 0.0089 := by
      have := abs_add_le (A * (q - cos Hz)) (A * cos Hz)
      rw [show A * (q - cos Hz) + A * cos Hz = A * q by ring, abs_mul A (cos Hz), abs_of_pos A0] at this
      linarith
    rw [abs_mul, abs_of_pos A0] at k4
    by_contra hcon
    rw [not_le] at hcon
    have := mul_lt_mul_of_pos_left hcon A0
    norm_num at k3 k4 this
    linarith
  obtain ⟨q0, q1⟩ := abs_le.mp (qr'.trans (by norm_num : (0.92 : ℝ) ≤ 1))
  have Alow : 0.44 ≤ A := by
    have : A * |sin Hz| ≤ A * 1 := mul_le_mul_of_nonneg_left s1 A0.le
    norm_num at As ⊢
    linarith
  refine ⟨Alow, qr', ?_⟩
  set w := arccos q with hw
  set x := arccos (cos Hz) with hx
  have w0 := arccos_nonneg q
  have w1 := arccos_le_pi q
  have x0 := arccos_nonneg (cos Hz)
  have x1 := arccos_le_pi (cos Hz)
  rw [← hw] at w0 w1
  rw [← hx] at x0 x1
  have cw : cos w = q := Real.cos_arccos q0 q1
  have cx : cos x = cos Hz := Real.cos_arccos (neg_one_le_cos Hz) (cos_le_one Hz)
  have sx0 : 0 ≤ sin x := sin_nonneg_of_nonneg_of_le_pi x0 x1
  have sw0 : 0 ≤ sin w := sin_nonneg_of_nonneg_of_le_pi w0 w1
  have sx : sin x = |sin Hz| := by
    have := sin_sq_add_cos_sq x
    rw [cx] at this
    exact (sq_eq_sq₀ sx0 s0).mp (by linarith)
  have mid0 : 0 ≤ sin ((w + x) / 2) := sin_nonneg_of_nonneg_of_le_pi (by linarith) (by linarith)
  have mid : sin x ≤ 2 * sin ((w + x) / 2) := by
    have a : sin w + sin x = 2 * sin ((w + x) / 2) * cos ((w - x) / 2) := by
      have e1 : w = (w + x) / 2 + (w - x) / 2 := by ring
      have e2 : x = (w + x) / 2 - (w - x) / 2 := by ring
      have a1 := sin_add ((w + x) / 2) ((w - x) / 2)
      have a2 := sin_sub ((w + x) / 2) ((w - x) / 2)
      rw [← e1] at a1
      rw [← e2] at a2
      linarith
    have b : 2 * sin ((w + x) / 2) * cos ((w - x) / 2) ≤ 2 * sin ((w + x) / 2) :=
      mul_le_of_le_one_right (by linarith) (cos_le_one _)
    linarith
  have cd := Real.cos_sub_cos w x
  rw [cw, cx] at cd
  have half : |w - x| / π ≤ |sin ((w - x) / 2)| := by
    have ha : 0 ≤ |w - x| / 2 := by positivity
    have hb : |w - x| / 2 ≤ π / 2 := by
      have : |w - x| ≤ π := by rw [abs_le]; constructor <;> linarith
      linarith
    have := mul_le_sin ha hb
    have e1 : |sin ((w - x) / 2)| = sin (|w - x| / 2) := by
      rcases le_total 0 (w - x) with hs | hs
      · rw [abs_of_nonneg hs] at hb ⊢
        exact abs_of_nonneg (sin_nonneg_of_nonneg_of_le_pi (by linarith) (by linarith))
      · rw [abs_of_nonpos hs] at hb ⊢
        rw [show -(w - x) / 2 = -((w - x) / 2) by ring, sin_neg]
        refine abs_of_nonpos (sin_nonpos_of_nonpos_of_neg_pi_le (by linarith) (by linarith))
    rw [e1]
    refine le_trans (le_of_eq ?_) this
    field_simp
  have prod : |q - cos Hz| = 2 * sin ((w + x) / 2) * |sin ((w - x) / 2)| := by
    rw [cd, abs_mul, abs_mul, abs_of_nonneg mid0]; norm_num
  rw [abs_mul, abs_of_pos A0, prod] at E
  have f1 : A * (|sin Hz| * (|w - x| / π)) ≤ A * (2 * sin ((w + x) / 2) * |sin ((w - x) / 2)|) := by
    refine mul_le_mul_of_nonneg_left ?_ A0.le
    rw [← sx]
    exact mul_le_mul mid half (by positivity) (by linarith)
  have f2 : 0.4411 * (|w - x| / π) ≤ A * |sin Hz| * (|w - x| / π) :=
    mul_le_mul_of_nonneg_right As (by positivity)
  have f3 : 0.4411 * (|w - x| / π) ≤ 0.0089 := by
    refine f2.trans (le_trans (le_of_eq ?_) (f1.trans E)); ring
  have f4 : |w - x| / π * π = |w - x| := div_mul_cancel₀ _ hpi.ne'
  norm_num at f3 ⊢
  nlinarith [abs_nonneg (w - x)]

/-- C53: if an object moving not faster than the Sun passes the altitude `h0` at the time `z` of the day, rising (setting)
with a vertical speed of at least 0.45 of the equatorial one, and the first estimate is not refused, then the time returned
for mode "rise" ("set") is this `z`, up to about half of the precision. -/
theorem riseset_found {jd : ℚ} {y u d : ℝ × ℝ × ℝ} {lon phi h0 delta z : ℝ} {mode : RsMode}
    (I : RiseInput jd y u d phi h0) (hd : 1e-7 ≤ delta) (z0 : 0.05 ≤ z) (z1 : z ≤ 0.95)
    (hn : |z + deltaTDays jd| ≤ 0.97)
    (ev : altitude phi (hourAngle jd lon (deltaTDays jd) u z) (parabola d (z + deltaTDays jd)) = h0)
    (st : 0.45 ≤ |cos (parabola d (z + deltaTDays jd)) * cos phi * sin (hourAngle jd lon (deltaTDays jd) u z)|)
    (hm : mode = .rise ∧ sin (hourAngle jd lon (deltaTDays jd) u z) < 0 ∨
      mode = .set ∧ 0 < sin (hourAngle jd lon (deltaTDays jd) u z)) :
    riseset jd y d h0 delta mode lon phi phi = .error (.Error "riseset" "m is out of range") ∨
    ∃ t, riseset jd y d h0 delta mode lon phi phi = .ok (some t) ∧ |t - (jd + z)| ≤ 0.52 * delta + 2e-8 := by
  have hp := Real.pi_gt_d4
  have hpi := pi_pos
  have hk := rsK1_bounds
  have hk2 := rsK1_eq
  norm_num at hp hk z0 z1
  set dT := deltaTDays jd with hdT
  have nz : |z + dT| ≤ 1.1 := hn.trans (by norm_num)
  have pd := parabola_near I.slowd nz
  have pu := parabola_near I.slow nz
  obtain ⟨-, qr, hw⟩ := estimate_near I.lat I.dec ev (by rw [abs_sub_comm]; exact pd.trans (by norm_num)) st
  obtain ⟨q0, q1⟩ := abs_le.mp (qr.trans (by norm_num : (0.92 : ℝ) ≤ 1))
  have ht := (sidereal_time_spec jd).2.2
  have S : RiseState jd y u d lon phi h0 (siderealTimeGreenwich jd) dT z :=
    ⟨I.era, I.red, I.slow, I.slowd, ht, ev, I.alt, st, by rw [abs_le]; norm_num; constructor <;> linarith, hn⟩
  have cd := codeH_diff (lon := lon) (m := z) I.era I.slow (S.z1.trans (by norm_num)) nz nz
  rw [sub_self, mul_zero, sub_zero, abs_zero, mul_zero, zero_add] at cd
  set w := arccos ((sin h0 - sin phi * sin d.2.1) / (cos phi * cos d.2.1)) with hwd
  set x := arccos (cos (hourAngle jd lon dT u z)) with hxd
  unfold riseset
  simp only
  rw [if_neg (mul_pos I.lat I.dec).ne', if_neg (by linarith), if_neg (by linarith), ← hwd]
  -- the sign of the hour angle
  obtain ⟨sg, hsg, hH, hmu⟩ : ∃ sg : ℝ, (sg = 1 ∨ sg = -1) ∧
      Congr (2 * π) (hourAngle jd lon dT u z) (sg * x) ∧
      rsEstimate mode ((y.2.1 + lon - siderealTimeGreenwich jd) / pi2) w =
      (y.2.1 + lon - siderealTimeGreenwich jd + sg * w) / pi2 := by
    rcases hm with ⟨rfl, hs⟩ | ⟨rfl, hs⟩
    · refine ⟨-1, .inr rfl, ?_, by unfold rsEstimate; ring⟩
      have := hour_angle_east hs
      rwa [neg_one_mul]
    · refine ⟨1, .inl rfl, ?_, by unfold rsEstimate; ring⟩
      have := hour_angle_west hs
      rwa [one_mul]
  rw [hmu]
  cases hr : rsReduce ((y.2.1 + lon - siderealTimeGreenwich jd + sg * w) / pi2) with
  | error e =>
    left
    rcases rsReduce_cases ((y.2.1 + lon - siderealTimeGreenwich jd + sg * w) / pi2) with ⟨h, -⟩ | ⟨⟨_, h⟩, -⟩
    · rw [hr] at h; cases h; rfl
    · rw [hr] at h; cases h
  | ok mu =>
    right
    simp only
    obtain ⟨m0, m1, j, ej⟩ := rsReduce_ok hr
    -- the estimate is near the event
    obtain ⟨a, ea⟩ := ht
    obtain ⟨b, eb⟩ := I.red.2.1.2.2
    obtain ⟨c, ec⟩ := hH
    set L : ℤ := j + b - a - c with hL
    have main : 2 * π * (mu - z) = -(parabola u (z + dT) - u.2.1) + (rsK1 - 2 * π) * z + sg * (w - x) -
        (codeH jd lon dT u z - hourAngle jd lon dT u z) + 2 * π * L := by
      have ej' : 2 * π * mu = y.2.1 + lon - siderealTimeGreenwich jd + sg * w + 2 * π * j := by
        rw [ej]; unfold pi2; field_simp
      have ecd : codeH jd lon dT u z = gmstDegrees jd * (π / 180) + rsK1 * z - lon - parabola u (z + dT) := rfl
      rw [hL]
      push_cast
      linear_combination ej' - ea + eb + ecd - ec
    have b1 : |sg * (w - x)| ≤ 0.064 := by
      rcases hsg with rfl | rfl
      · rw [one_mul]; exact hw
      · rw [neg_one_mul, abs_neg]; exact hw
    have r0 : 0 ≤ (rsK1 - 2 * π) * z := mul_nonneg (by rw [hk2]; norm_num; linarith) (by linarith)
    have r1 : (rsK1 - 2 * π) * z ≤ (rsK1 - 2 * π) * 1 :=
      mul_le_mul_of_nonneg_left (by linarith) (by rw [hk2]; norm_num; linarith)
    rw [abs_le] at pu b1 cd
    norm_num at pu b1 cd
    have L0 : L = 0 := by
      have l1 : (L : ℝ) < 1 := by
        by_contra hc
        rw [not_lt] at hc
        have : 2 * π * 1 ≤ 2 * π * L := mul_le_mul_of_nonneg_left hc (by linarith)
        have : 2 * π * (mu - z) ≤ 2 * π * (95 / 100) := mul_le_mul_of_nonneg_left (by linarith) (by linarith)
        linarith
      have l2 : (-1 : ℝ) < L := by
        by_contra hc
        rw [not_lt] at hc
        have : 2 * π * L ≤ 2 * π * (-1) := mul_le_mul_of_nonneg_left hc (by linarith)
        have : 2 * π * -(95 / 100) ≤ 2 * π * (mu - z) := mul_le_mul_of_nonneg_left (by linarith) (by linarith)
        linarith
      have l1' : L < 1 := by exact_mod_cast l1
      have l2' : -1 < L := by exact_mod_cast l2
      omega
    rw [L0] at main
    push_cast at main
    have near : |mu - z| ≤ 0.02 := by
      rw [abs_le]
      norm_num
      constructor
      · by_contra hc
        rw [not_le] at hc
        have : 2 * π * (mu - z) ≤ 2 * π * -(1 / 50) := mul_le_mul_of_nonneg_left (by linarith) (by linarith)
        linarith
      · by_contra hc
        rw [not_le] at hc
        have : 2 * π * (1 / 50) ≤ 2 * π * (mu - z) := mul_le_mul_of_nonneg_left (by linarith) (by linarith)
        linarith
    obtain ⟨t, ht, hb⟩ := S.loop delta 19 mu 0.02 (by norm_num) (near.trans (by norm_num)) le_rfl
      (lt_of_lt_of_le (by norm_num) hd)
    exact ⟨t, ht, hb⟩

/-- C53: with a precision that is not positive no time is ever returned. -/
theorem riseset_delta_nonpos {jd : ℚ} {y d : ℝ × ℝ × ℝ} {h0 delta lon lat phi : ℝ} {mode : RsMode} (hd : delta ≤ 0)
    (t : ℝ) : riseset jd y d h0 delta mode lon lat phi ≠ .ok (some t) := by
  have key : ∀ (k : ℕ) (m : ℝ), risesetLoop jd (siderealTimeGreenwich jd) (deltaTDays jd) y d h0 delta lon lat phi k m ≠
      .ok (some t) := by
    intro k
    induction k with
    | zero => intro m h; simp [risesetLoop] at h
    | succ k ih =>
      intro m h
      unfold risesetLoop at h
      simp only [bind, Except.bind] at h
      by_cases hn : -1 < m + deltaTDays jd ∧ m + deltaTDays jd < 1
      · rw [if_neg (by tauto)] at h
        unfold interpolateAngle3 interpolate3 at h
        rw [if_neg (by tauto), if_neg (by tauto)] at h
        simp only at h
        split_ifs at h with h1 h2 hlt
        · cases h
        · exact absurd (lt_of_le_of_lt (abs_nonneg _) hlt) (by linarith)
        · exact ih _ h
      · rw [if_pos (by tauto)] at h
        cases h
  intro h
  unfold riseset at h
  simp only at h
  split_ifs at h
  · cases h
  · cases h
  · cases h
  · split at h
    · cases h
    · exact key _ _ h

/-! ### A star of the equator seen from the equator -/

theorem altitude_equator (H : ℝ) : altitude 0 H 0 = arcsin (cos H) := by
  rw [altitude_eq]; simp

theorem parabola_const (r n : ℝ) : parabola (r, r, r) n = r := by unfold parabola; ring

theorem star_riseInput {jd : ℚ} {r : ℝ} (era : |(jd : ℝ) - 2451545| ≤ 1100000) (r0 : 0 ≤ r) (r1 : r < 2 * π) :
    RiseInput jd (r, r, r) (r, r, r) (0, 0, 0) 0 0 := by
  refine ⟨era, ?_, ?_, ?_, by simp, by simp, by norm_num⟩
  · have : 0 ≤ r ∧ r < 2 * π ∧ ∃ k : ℤ, r = r + k * (2 * π) := ⟨r0, r1, 0, by simp⟩
    exact ⟨this, this, this⟩
  · unfold Slow; norm_num; rw [show r - 2 * r + r = 0 by ring]; norm_num
  · unfold Slow; norm_num

/-- It rises a quarter of a turn before it is in the meridian. -/
theorem star_rises {jd lon dT r a b : ℝ} (K : ℤ) (hab : a ≤ b)
    (ha : gmstDegrees (jd + a) * (π / 180) - lon - r ≤ K * (2 * π) - π / 2)
    (hb : K * (2 * π) - π / 2 ≤ gmstDegrees (jd + b) * (π / 180) - lon - r) :
    ∃ m, a ≤ m ∧ m ≤ b ∧ altitude 0 (hourAngle jd lon dT (r, r, r) m) (parabola (0, 0, 0) (m + dT)) = 0 ∧
      cos (parabola (0, 0, 0) (m + dT)) * cos 0 * sin (hourAngle jd lon dT (r, r, r) m) = -1 := by
  obtain ⟨m, hm, h⟩ := intermediate_value_Icc hab (hourAngle_continuous jd lon dT (r, r, r)).continuousOn
    (show (K * (2 * π) - π / 2 : ℝ) ∈ Set.Icc _ _ by
      unfold hourAngle; rw [parabola_const, parabola_const]; exact ⟨ha, hb⟩)
  have e : hourAngle jd lon dT (r, r, r) m = -(π / 2) + K * (2 * π) := by rw [h]; ring
  refine ⟨m, hm.1, hm.2, ?_, ?_⟩
  · rw [parabola_const, altitude_equator, e, Real.cos_add_int_mul_two_pi, cos_neg, cos_pi_div_two, arcsin_zero]
  · rw [parabola_const, e, Real.sin_add_int_mul_two_pi, sin_neg, sin_pi_div_two]; simp

/-- The hypotheses of `riseset_found` are met: on 2000 January 1 a star of the equator at right ascension 5 rises at
longitude and latitude 0 between 0.2 and 0.3 day, and the code finds it. -/
theorem riseset_star : ∃ t m, 0.2 ≤ m ∧ m ≤ 0.3 ∧
    altitude 0 (hourAngle (2451544.5 : ℚ) 0 (deltaTDays 2451544.5) (5, 5, 5) m)
      (parabola (0, 0, 0) (m + deltaTDays 2451544.5)) = 0 ∧
    riseset 2451544.5 (5, 5, 5) (0, 0, 0) 0 0.001 .rise 0 0 0 = .ok (some t) ∧
    |t - ((2451544.5 : ℚ) + m)| ≤ 0.00053 := by
  have hp := Real.pi_gt_d6
  have hp' := Real.pi_lt_d6
  have hs := sidereal_2000
  norm_num at hp hp' hs
  obtain ⟨m, m0, m1, ev, st⟩ := star_rises (jd := ((2451544.5 : ℚ) : ℝ)) (lon := 0) (r := 5) (a := 0.2)
    (b := 0.3) (dT := deltaTDays 2451544.5) 0 (by norm_num)
    (by unfold gmstDegrees; push_cast; norm_num; linarith)
    (by unfold gmstDegrees; push_cast; norm_num; linarith)
  norm_num at m0 m1
  have sgn : sin (hourAngle (2451544.5 : ℚ) 0 (deltaTDays 2451544.5) (5, 5, 5) m) < 0 := by
    rw [parabola_const, cos_zero] at st; linarith
  rcases riseset_found (delta := 0.001) (mode := .rise) (lon := 0)
    (star_riseInput (jd := 2451544.5) (r := 5) (by rw [abs_le]; push_cast; norm_num) (by norm_num) (by linarith))
    (by norm_num) (z := m) (by norm_num; linarith) (by norm_num; linarith)
    (by rw [deltaT_2000, abs_le]; norm_num; constructor <;> linarith) ev
    (by rw [st]; norm_num) (.inl ⟨rfl, sgn⟩) with h | ⟨t, h, hb⟩
  · exfalso
    obtain ⟨w, w0, w1, hw, hiff⟩ := riseset_refused_iff (jd := 2451544.5) (y := (5, 5, 5)) (d := (0, 0, 0)) (h0 := 0)
      (delta := 0.001) (lon := 0) (lat := 0) (phi := 0) (H := π / 2) (mode := .rise) (by simp) (by simp)
      (by rw [altitude_equator, cos_pi_div_two, arcsin_zero])
    have := hiff.mp h
    simp only [if_true] at this
    rcases this with h | h <;> linarith
  · exact ⟨t, m, by norm_num; linarith, by norm_num; linarith, ev, h, hb.trans (by norm_num)⟩

/-- C53, a defect: the first estimate can be more than a day off, and then a rising is refused with an exception.  On 2000
July 1 a star of the equator at right ascension 0 rises at Greenwich longitude (latitude 0) shortly before the end of the
day, and the code raises. -/
theorem riseset_refuses (delta : ℝ) : RiseInput 2451726.5 (0, 0, 0) (0, 0, 0) (0, 0, 0) 0 0 ∧
    (∃ m, 0.9 ≤ m ∧ m ≤ 1 ∧ altitude 0 (hourAngle (2451726.5 : ℚ) 0 (deltaTDays 2451726.5) (0, 0, 0) m)
      (parabola (0, 0, 0) (m + deltaTDays 2451726.5)) = 0 ∧ cos (parabola (0, 0, 0) (m + deltaTDays 2451726.5)) * cos 0 *
      sin (hourAngle (2451726.5 : ℚ) 0 (deltaTDays 2451726.5) (0, 0, 0) m) = -1) ∧
    riseset 2451726.5 (0, 0, 0) (0, 0, 0) 0 delta .rise 0 0 0 = .error (.Error "riseset" "m is out of range") := by
  have hp := Real.pi_gt_d6
  have hp' := Real.pi_lt_d6
  norm_num at hp hp'
  refine ⟨star_riseInput (by rw [abs_le]; push_cast; norm_num) (by norm_num) (by linarith),
    star_rises 184 (by norm_num) ?_ ?_, ?_⟩
  · unfold gmstDegrees
    push_cast
    norm_num
    linarith
  · unfold gmstDegrees
    push_cast
    norm_num
    linarith
  · obtain ⟨w, w0, w1, hw, hiff⟩ := riseset_refused_iff (jd := 2451726.5) (y := (0, 0, 0)) (d := (0, 0, 0)) (h0 := 0)
      (delta := delta) (lon := 0) (lat := 0) (phi := 0) (H := π / 2) (mode := .rise) (by simp) (by simp)
      (by rw [altitude_equator, cos_pi_div_two, arcsin_zero])
    have ew : w = π / 2 := by
      rw [altitude_equator, arcsin_eq_zero_iff] at hw
      refine Real.injOn_cos ⟨w0, w1⟩ ⟨by linarith, by linarith⟩ ?_
      rw [hw, cos_pi_div_two]
    refine hiff.mpr (.inl ?_)
    simp only [if_true]
    rw [ew]
    have := sidereal_2000_july
    norm_num at this ⊢
    linarith

/-! ### C51 -/

/-- C51, a defect: `rise` and `settime` never return a time, ... -/
theorem rise_returns_none {jd : ℚ} {y d : ℝ × ℝ × ℝ} {h0 delta lon lat phi : ℝ} {r : Option ℝ}
    (h : rise jd y d h0 delta lon lat phi = .ok r) : r = none := by
  unfold rise at h
  cases hr : riseset jd y d h0 delta .rise lon lat phi with
  | error e => rw [hr] at h; cases h
  | ok v => rw [hr] at h; cases h; rfl

theorem settime_returns_none {jd : ℚ} {y d : ℝ × ℝ × ℝ} {h0 delta lon lat phi : ℝ} {r : Option ℝ}
    (h : settime jd y d h0 delta lon lat phi = .ok r) : r = none := by
  unfold settime at h
  cases hr : riseset jd y d h0 delta .set lon lat phi with
  | error e => rw [hr] at h; cases h
  | ok v => rw [hr] at h; cases h; rfl

/-- C51: ... not even if the event exists and has been computed. -/
theorem rise_discards : ∃ (t m : ℝ), 0.2 ≤ m ∧ m ≤ 0.3 ∧
    altitude 0 (hourAngle (2451544.5 : ℚ) 0 (deltaTDays 2451544.5) (5, 5, 5) m)
      (parabola (0, 0, 0) (m + deltaTDays 2451544.5)) = 0 ∧
    |t - ((2451544.5 : ℚ) + m)| ≤ 0.00053 ∧
    riseset 2451544.5 (5, 5, 5) (0, 0, 0) 0 0.001 .rise 0 0 0 = .ok (some t) ∧
    rise 2451544.5 (5, 5, 5) (0, 0, 0) 0 0.001 0 0 0 = .ok none := by
  obtain ⟨t, m, m0, m1, ev, h, hb⟩ := riseset_star
  refine ⟨t, m, m0, m1, ev, hb, h, ?_⟩
  unfold rise
  rw [h]
  rfl

/-! ### C65: the standard altitude of the Moon -/

/-- C65: beyond the surface of the Earth the altitude decreases with the distance. -/
theorem moon_altitude_antitone {r s : ℝ} (hr : 6378.1363 ≤ r) (hs : r < s) : moonRstAltitude s < moonRstAltitude r := by
  unfold moonRstAltitude earthEquRadius
  norm_num at hr
  have r0 : 0 < r := by linarith
  have s0 : 0 < s := by linarith
  have l : (6378.1363 : ℝ) / s < 6378.1363 / r := div_lt_div_of_pos_left (by norm_num) r0 hs
  have h0 : -1 ≤ (6378.1363 : ℝ) / s := by
    have : 0 < (6378.1363 : ℝ) / s := by positivity
    linarith
  have h1 : (6378.1363 : ℝ) / r ≤ 1 := by rw [div_le_one r0]; norm_num; linarith
  have := Real.arcsin_lt_arcsin h0 l h1
  norm_num at this ⊢
  linarith

/-- C65: for the distances of the Moon it is between 0.06 and 0.21 degree; the Moon is then geometrically above the horizon
when its upper limb appears. -/
theorem moon_altitude_range {r : ℝ} (h0 : 356000 ≤ r) (h1 : r ≤ 407000) :
    0.06 ≤ moonRstAltitude r * (180 / π) ∧ moonRstAltitude r * (180 / π) ≤ 0.21 := by
  have hp := Real.pi_gt_d6
  have hp' := Real.pi_lt_d6
  norm_num at hp hp'
  have r0 : 0 < r := by linarith
  have x0 : 0.01567 ≤ earthEquRadius / r := by
    unfold earthEquRadius
    rw [le_div_iff₀ r0]; norm_num; linarith
  have x1 : earthEquRadius / r ≤ 0.01792 := by
    unfold earthEquRadius
    rw [div_le_iff₀ r0]; norm_num; linarith
  set x := earthEquRadius / r
  norm_num at x0 x1
  have a0 : x ≤ arcsin x := by
    have h := Real.sin_le (Real.arcsin_nonneg.mpr (by linarith : 0 ≤ x))
    rwa [Real.sin_arcsin (by linarith) (by linarith)] at h
  have a1 : arcsin x ≤ 1.001 * x := by
    have h : x ≤ sin (1.001 * x) := by
      have := Real.sin_ge_sub_cube (x := 1.001 * x) (by positivity)
      refine le_trans ?_ this
      have q : x ^ 2 ≤ 0.0004 := by norm_num; nlinarith
      have : (1.001 * x) ^ 3 / 6 = 1.003003001 / 6 * x ^ 2 * x := by norm_num; ring
      rw [this]
      have : 1.003003001 / 6 * x ^ 2 * x ≤ 1.003003001 / 6 * 0.0004 * x :=
        mul_le_mul_of_nonneg_right (mul_le_mul_of_nonneg_left q (by norm_num)) (by linarith)
      refine le_trans ?_ (sub_le_sub_left this _)
      norm_num
      linarith
    have h2 := Real.monotone_arcsin h
    refine h2.trans (le_of_eq (Real.arcsin_sin ?_ ?_)) <;> norm_num <;> linarith
  unfold moonRstAltitude standardRstAltitude
  rw [show earthEquRadius / r = x from rfl]
  have c : 180 / π = 180 * π⁻¹ := by ring
  constructor
  · rw [mul_div_assoc', le_div_iff₀ pi_pos]
    norm_num at a0 a1 ⊢
    linarith
  · rw [mul_div_assoc', div_le_iff₀ pi_pos]
    norm_num at a0 a1 ⊢
    linarith

end Verif
