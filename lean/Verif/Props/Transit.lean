import Verif.Lemmas.RiseSet
import Verif.Props.DeltaT

/-!
# C52: `riseset.transit`
-/

namespace Verif
open Real

/-- Reasonable inputs: three right ascensions `y` in `[0, 2π)`, the reductions of a sequence `u` with
steps of at most 0.4 (23 degrees a day; the Moon makes up to 17), a longitude in `[-π, π]`, and a day
within 3000 years of J2000. -/
structure TransitInput (jd : ℚ) (y u : ℝ × ℝ × ℝ) (lon : ℝ) : Prop where
  era : |(jd : ℝ) - 2451545| ≤ 1100000
  red : Reduced y u
  slow : Slow 0.4 0.1 u
  lon0 : -π ≤ lon
  lon1 : lon ≤ π

theorem TransitInput.estimate {jd : ℚ} {y u : ℝ × ℝ × ℝ} {lon mu : ℝ}
    (h : rsReduce ((y.2.1 + lon - siderealTimeGreenwich jd) / pi2) = .ok mu) :
    Congr (2 * π) (siderealTimeGreenwich jd) (y.2.1 + lon - 2 * π * mu) := by
  obtain ⟨-, -, j, e⟩ := rsReduce_ok h
  refine ⟨j, ?_⟩
  have hp := pi_pos
  rw [e]
  unfold pi2
  field_simp
  ring

theorem pow_small {delta e : ℝ} (hd : 1e-20 ≤ delta) (he : e ≤ 0.1) (he0 : 0 ≤ e) :
    1.1 * 0.086 ^ 19 * e < delta := by
  have : (1.1 : ℝ) * 0.086 ^ 19 * e ≤ 1.1 * 0.086 ^ 19 * 0.1 :=
    mul_le_mul_of_nonneg_left he (by norm_num)
  refine lt_of_le_of_lt this (lt_of_lt_of_le (by norm_num) hd)

/-- C52: the estimate is refused exactly if right ascension plus (west) longitude is more than a turn
below sidereal time. -/
theorem transit_refused_iff {jd : ℚ} {y u : ℝ × ℝ × ℝ} {lon delta : ℝ} (I : TransitInput jd y u lon) :
    transit jd y delta lon = .error (.Error "riseset" "m is out of range") ↔
      y.2.1 + lon - siderealTimeGreenwich jd < -(2 * π) := by
  have hp := pi_pos
  have hs := sidereal_time_spec jd
  have hl := I.lon1
  have hy := I.red.2.1
  unfold transit
  simp only
  rcases rsReduce_cases ((y.2.1 + lon - siderealTimeGreenwich jd) / pi2) with ⟨e, h⟩ | ⟨⟨m, e⟩, h, -⟩
  · rw [e]
    simp only [true_iff]
    unfold pi2 at h
    rcases h with h | h
    · rw [div_lt_iff₀ (by positivity)] at h
      linarith
    · rw [lt_div_iff₀ (by positivity)] at h
      linarith [hy.2.1, hs.1]
  · rw [e]
    unfold pi2 at h
    rw [le_div_iff₀ (by positivity)] at h
    constructor
    · intro hc
      exfalso
      simp only at hc
      -- the loop never raises this error
      have key : ∀ (k : ℕ) (m : ℝ), transitLoop jd (siderealTimeGreenwich jd) (deltaTDays jd) y delta lon k m ≠
          .error (.Error "riseset" "m is out of range") := by
        intro k
        induction k with
        | zero => intro m h; simp [transitLoop] at h
        | succ k ih =>
          intro m h
          unfold transitLoop at h
          simp only [bind, Except.bind] at h
          by_cases hn : -1 < m + deltaTDays jd ∧ m + deltaTDays jd < 1
          · rw [if_neg (by tauto)] at h
            unfold interpolateAngle3 at h
            rw [if_neg (by tauto)] at h
            simp only at h
            split_ifs at h
            exact ih _ h
          · rw [if_pos (by tauto)] at h
            cases h
      exact key _ _ hc
    · intro hc
      linarith

/-- C52: a time that is returned is the time of a transit, within a tenth of the requested precision (and
a millisecond, because the code takes the growth of sidereal time to be uniform); it belongs to the day
in question up to a tenth of a day. -/
theorem transit_sound {jd : ℚ} {y u : ℝ × ℝ × ℝ} {lon delta t : ℝ} (I : TransitInput jd y u lon)
    (hd : 1e-20 ≤ delta) (h : transit jd y delta lon = .ok (some t)) :
    ∃ m, InMeridian jd lon (deltaTDays jd) u m ∧ |t - (jd + m)| ≤ 0.1 * delta + 1e-8 ∧
      -0.11 ≤ m ∧ m ≤ 1.11 := by
  unfold transit at h
  simp only at h
  cases hm : rsReduce ((y.2.1 + lon - siderealTimeGreenwich jd) / pi2) with
  | error e => rw [hm] at h; cases h
  | ok mu =>
    rw [hm] at h
    simp only at h
    obtain ⟨m0, m1, -⟩ := rsReduce_ok hm
    have ht := TransitInput.estimate (u := u) hm
    by_cases hn : -1 < mu + deltaTDays jd ∧ mu + deltaTDays jd < 1
    · obtain ⟨z, z1, z2⟩ := localH_root (y := y) I.slow m0 m1 (dT := deltaTDays jd)
        (by rw [abs_le]; norm_num; constructor <;> linarith)
      have z1' := abs_le.mp z1
      norm_num at z1'
      have S : TransitState y u lon (siderealTimeGreenwich jd) (deltaTDays jd) mu z :=
        ⟨I.red, I.slow, I.lon0, I.lon1, ht, z1, m0, m1, z2, by rw [abs_le]; norm_num; constructor <;> linarith⟩
      rcases S.loop jd delta 19 mu 0.1 (by rw [abs_sub_comm]; exact z1) le_rfl
        (pow_small hd le_rfl (by norm_num)) with ⟨e, -⟩ | ⟨t', e, ht'⟩
      · rw [e] at h; cases h
      · rw [e] at h
        cases h
        obtain ⟨K, hK⟩ := hourAngle_localH (dT := deltaTDays jd) I.era I.red (sidereal_time_spec jd).2.2 ht
        obtain ⟨w, w1, w2⟩ := true_near I.slow (fun m hm => (hK m hm).trans (by norm_num))
          (by rw [abs_le]; norm_num; constructor <;> linarith)
          (by rw [abs_le]; norm_num; constructor <;> linarith) z2
        have w1' := abs_le.mp w1
        norm_num at w1'
        refine ⟨w, ⟨K, w2⟩, ?_, by norm_num; linarith, by norm_num; linarith⟩
        have : t - (jd + w) = (t - (jd + z)) + (z - w) := by ring
        rw [this]
        refine (abs_add_le _ _).trans (add_le_add ht' ?_)
        rw [abs_sub_comm]; exact w1
    · unfold transitLoop at h
      simp only [bind, Except.bind] at h
      rw [if_pos (by tauto)] at h
      cases h

/-- C52: a transit between a tenth and nine tenths of the day is found (if the estimate is not refused,
and unless the difference between dynamical and universal time brings it near the end of the next or
previous day). -/
theorem transit_found {jd : ℚ} {y u : ℝ × ℝ × ℝ} {lon delta m : ℝ} (I : TransitInput jd y u lon)
    (hd : 1e-20 ≤ delta) (hr : -(2 * π) ≤ y.2.1 + lon - siderealTimeGreenwich jd)
    (hm : InMeridian jd lon (deltaTDays jd) u m) (h0 : 0.1 ≤ m) (h1 : m ≤ 0.9)
    (hn : |m + deltaTDays jd| ≤ 0.89) :
    ∃ t, transit jd y delta lon = .ok (some t) ∧ |t - (jd + m)| ≤ 0.1 * delta + 1e-8 := by
  have hp := Real.pi_gt_d4
  have hp' := Real.pi_lt_d4
  have hk := rsK1_bounds
  norm_num at h0 h1 hp hp' hk
  have hn' := abs_le.mp hn
  norm_num at hn'
  rcases rsReduce_cases ((y.2.1 + lon - siderealTimeGreenwich jd) / pi2) with ⟨-, hc⟩ | ⟨⟨mu, hmu⟩, -, -⟩
  · exfalso
    unfold pi2 at hc
    rcases hc with hc | hc
    · rw [div_lt_iff₀ (by positivity)] at hc
      linarith
    · rw [lt_div_iff₀ (by positivity)] at hc
      linarith [I.red.2.1.2.1, (sidereal_time_spec jd).1, I.lon1]
  · obtain ⟨m0, m1, -⟩ := rsReduce_ok hmu
    have ht := TransitInput.estimate (u := u) hmu
    obtain ⟨K, hK⟩ := hourAngle_localH (dT := deltaTDays jd) I.era I.red (sidereal_time_spec jd).2.2 ht
    obtain ⟨k, ek⟩ := hm
    have P := parabola_near I.slow (n := m + deltaTDays jd) (hn.trans (by norm_num))
    have L : localH y u (deltaTDays jd) mu m = rsK1 * m - 2 * π * mu -
        (parabola u (m + deltaTDays jd) - u.2.1) := by
      unfold localH codeRa; ring
    have q := hK m (by rw [abs_le]; norm_num; constructor <;> linarith)
    have q' := q
    rw [ek, L, abs_le] at q
    rw [abs_le] at P
    norm_num at P q
    have r0 : 0 ≤ (rsK1 - 2 * π) * m := mul_nonneg (by linarith) (by linarith)
    have r1 : (rsK1 - 2 * π) * m ≤ (rsK1 - 2 * π) * 1 := mul_le_mul_of_nonneg_left (by linarith) (by linarith)
    have kK : k = K := by
      have k1 : (k : ℝ) - K < 1 := by
        by_contra hc
        rw [not_lt] at hc
        have : 2 * π * 1 ≤ 2 * π * (k - K) := mul_le_mul_of_nonneg_left hc (by linarith)
        have : 2 * π * (m - mu) ≤ 2 * π * (9 / 10) := mul_le_mul_of_nonneg_left (by linarith) (by linarith)
        linarith
      have k2 : -1 < (k : ℝ) - K := by
        by_contra hc
        rw [not_lt] at hc
        have : 2 * π * (k - K) ≤ 2 * π * (-1) := mul_le_mul_of_nonneg_left hc (by linarith)
        have : 2 * π * -(9 / 10) ≤ 2 * π * (m - mu) := mul_le_mul_of_nonneg_left (by linarith) (by linarith)
        linarith
      have k1' : k - K < 1 := by exact_mod_cast k1
      have k2' : -1 < k - K := by exact_mod_cast k2
      omega
    rw [kK] at ek q
    obtain ⟨z, z1, z2⟩ := code_near I.slow (fun m hm => (hK m hm).trans (by norm_num)) (by rw [abs_le]; norm_num; constructor <;> linarith)
      (by rw [abs_le]; norm_num; constructor <;> linarith) ek
    have z1' := abs_le.mp z1
    norm_num at z1'
    have near : |m - mu| ≤ 0.09 := by
      rw [abs_le]
      norm_num
      constructor
      · by_contra hc
        rw [not_le] at hc
        have : 2 * π * (m - mu) ≤ 2 * π * -(9 / 100) := mul_le_mul_of_nonneg_left (by linarith) (by linarith)
        linarith
      · by_contra hc
        rw [not_le] at hc
        have : 2 * π * (mu + 9 / 100) ≤ 2 * π * m := mul_le_mul_of_nonneg_left (by linarith) (by linarith)
        linarith
    rw [abs_le] at near
    norm_num at near
    have zmu : |z - mu| ≤ 0.1 := by rw [abs_le]; norm_num; constructor <;> linarith
    have S : TransitState y u lon (siderealTimeGreenwich jd) (deltaTDays jd) mu z :=
      ⟨I.red, I.slow, I.lon0, I.lon1, ht, zmu, m0, m1, z2, by rw [abs_le]; norm_num; constructor <;> linarith⟩
    unfold transit
    simp only
    rw [hmu]
    simp only
    rcases S.loop jd delta 19 mu 0.1 (by rw [abs_sub_comm]; exact zmu) le_rfl
      (pow_small hd le_rfl (by norm_num)) with ⟨-, e⟩ | ⟨t', e, ht'⟩
    · exfalso
      rw [le_abs] at e
      norm_num at e
      rcases e with e | e <;> linarith
    · refine ⟨t', e, ?_⟩
      have : t' - (jd + m) = (t' - (jd + z)) + (z - m) := by ring
      rw [this]
      exact (abs_add_le _ _).trans (add_le_add ht' z1)

/-- C52: if the estimate is not refused, and dynamical and universal time differ by less than 0.09 day,
the outcome is a time or `None`, never "bailout"; `None` means that there is a transit in the last
quarter of the day or shortly after its end. -/
theorem transit_none {jd : ℚ} {y u : ℝ × ℝ × ℝ} {lon delta : ℝ} (I : TransitInput jd y u lon)
    (hd : 1e-20 ≤ delta) (hr : -(2 * π) ≤ y.2.1 + lon - siderealTimeGreenwich jd)
    (hT : |deltaTDays jd| ≤ 0.09) :
    (∃ t, transit jd y delta lon = .ok (some t)) ∨ transit jd y delta lon = .ok none ∧
      ∃ m, InMeridian jd lon (deltaTDays jd) u m ∧ 0.79 ≤ m ∧ m ≤ 1.11 := by
  have hp := pi_pos
  have hT' := abs_le.mp hT
  norm_num at hT'
  rcases rsReduce_cases ((y.2.1 + lon - siderealTimeGreenwich jd) / pi2) with ⟨-, hc⟩ | ⟨⟨mu, hmu⟩, -, -⟩
  · exfalso
    unfold pi2 at hc
    rcases hc with hc | hc
    · rw [div_lt_iff₀ (by positivity)] at hc
      linarith
    · rw [lt_div_iff₀ (by positivity)] at hc
      linarith [I.red.2.1.2.1, (sidereal_time_spec jd).1, I.lon1]
  · obtain ⟨m0, m1, -⟩ := rsReduce_ok hmu
    have ht := TransitInput.estimate (u := u) hmu
    obtain ⟨K, hK⟩ := hourAngle_localH (dT := deltaTDays jd) I.era I.red (sidereal_time_spec jd).2.2 ht
    obtain ⟨z, z1, z2⟩ := localH_root (y := y) I.slow m0 m1 (dT := deltaTDays jd)
      (by rw [abs_le]; norm_num; constructor <;> linarith)
    have z1' := abs_le.mp z1
    norm_num at z1'
    have S : TransitState y u lon (siderealTimeGreenwich jd) (deltaTDays jd) mu z :=
      ⟨I.red, I.slow, I.lon0, I.lon1, ht, z1, m0, m1, z2, by rw [abs_le]; norm_num; constructor <;> linarith⟩
    unfold transit
    simp only
    rw [hmu]
    simp only
    rcases S.loop jd delta 19 mu 0.1 (by rw [abs_sub_comm]; exact z1) le_rfl
      (pow_small hd le_rfl (by norm_num)) with ⟨e, hz⟩ | ⟨t', e, -⟩
    · right
      refine ⟨e, ?_⟩
      obtain ⟨w, w1, w2⟩ := true_near I.slow (fun m hm => (hK m hm).trans (by norm_num))
        (by rw [abs_le]; norm_num; constructor <;> linarith)
        (by rw [abs_le]; norm_num; constructor <;> linarith) z2
      have w1' := abs_le.mp w1
      norm_num at w1'
      refine ⟨w, ⟨K, w2⟩, ?_, by norm_num; linarith⟩
      rw [le_abs] at hz
      norm_num at hz ⊢
      rcases hz with hz | hz <;> linarith
    · left; exact ⟨t', e⟩

/-- C52: with a precision that is not positive no time is ever returned. -/
theorem transit_delta_nonpos {jd : ℚ} {y : ℝ × ℝ × ℝ} {lon delta : ℝ} (hd : delta ≤ 0) (t : ℝ) :
    transit jd y delta lon ≠ .ok (some t) := by
  have key : ∀ (k : ℕ) (m : ℝ), transitLoop jd (siderealTimeGreenwich jd) (deltaTDays jd) y delta lon k m ≠
      .ok (some t) := by
    intro k
    induction k with
    | zero => intro m h; simp [transitLoop] at h
    | succ k ih =>
      intro m h
      unfold transitLoop at h
      simp only [bind, Except.bind] at h
      by_cases hn : -1 < m + deltaTDays jd ∧ m + deltaTDays jd < 1
      · rw [if_neg (by tauto)] at h
        unfold interpolateAngle3 at h
        rw [if_neg (by tauto)] at h
        simp only at h
        split_ifs at h with hlt
        · exact absurd (lt_of_le_of_lt (abs_nonneg _) hlt) (by linarith)
        · exact ih _ h
      · rw [if_pos (by tauto)] at h
        cases h
  intro h
  unfold transit at h
  simp only at h
  cases hm : rsReduce ((y.2.1 + lon - siderealTimeGreenwich jd) / pi2) with
  | error e => rw [hm] at h; cases h
  | ok mu => rw [hm] at h; exact key _ _ h

/-! ### 2000 January 1, 0h UT -/

theorem deltaT_2000 : deltaTDays 2451544.5 = 63.8285 / 86400 := by
  have h : tbl[975]? = some ((2451544.5 : ℚ), (63.8285 : ℚ)) := by
    unfold tbl deltaTTable
    rw [List.getElem?_map, show Data.deltaTRaw[975]? = some (9806178, 638285) by decide +kernel]
    simp only [Option.map_some, Option.some.injEq, Prod.mk.injEq]
    norm_num
  have e := deltaT_at_entry 975 _ h (by norm_num)
  simp only at e
  unfold deltaTDays
  rw [e]
  push_cast
  norm_num

theorem sidereal_2000 : 1.7447 ≤ siderealTimeGreenwich ((2451544.5 : ℚ) : ℝ) ∧
    siderealTimeGreenwich ((2451544.5 : ℚ) : ℝ) ≤ 1.7448 := by
  obtain ⟨h0, h1, h2⟩ := sidereal_time_spec ((2451544.5 : ℚ) : ℝ)
  have hp := Real.pi_gt_d6
  have hp' := Real.pi_lt_d6
  have e : 99.9677 ≤ gmstDegrees ((2451544.5 : ℚ) : ℝ) ∧ gmstDegrees ((2451544.5 : ℚ) : ℝ) ≤ 99.9678 := by
    unfold gmstDegrees; push_cast; norm_num
  generalize gmstDegrees ((2451544.5 : ℚ) : ℝ) = g at *
  norm_num at hp hp' e
  have b0 : 999677 / 10000 * (π / 180) ≤ g * (π / 180) := mul_le_mul_of_nonneg_right e.1 (by positivity)
  have b1 : g * (π / 180) ≤ 499839 / 5000 * (π / 180) := mul_le_mul_of_nonneg_right e.2 (by positivity)
  have e2 : siderealTimeGreenwich ((2451544.5 : ℚ) : ℝ) = g * (π / 180) :=
    congr_unique pi2_pos h2 ⟨0, by simp⟩ h0 h1 (by linarith) (by unfold pi2; linarith)
  rw [e2]
  norm_num
  constructor <;> linarith

theorem sidereal_2000_july : 4.87 ≤ siderealTimeGreenwich ((2451726.5 : ℚ) : ℝ) := by
  have hp := Real.pi_gt_d6
  have hp' := Real.pi_lt_d6
  norm_num at hp hp'
  obtain ⟨h0, h1, k, h2⟩ := sidereal_time_spec ((2451726.5 : ℚ) : ℝ)
  have e : 279.35 ≤ gmstDegrees ((2451726.5 : ℚ) : ℝ) - 182 * 360 ∧
      gmstDegrees ((2451726.5 : ℚ) : ℝ) - 182 * 360 ≤ 279.36 := by
    unfold gmstDegrees; push_cast; norm_num
  generalize gmstDegrees ((2451726.5 : ℚ) : ℝ) = g at *
  norm_num at e
  have b0 : (279.3 + 182 * 360) * (π / 180) ≤ g * (π / 180) :=
    mul_le_mul_of_nonneg_right (by norm_num; linarith) (by positivity)
  have b1 : g * (π / 180) ≤ (280 + 182 * 360) * (π / 180) :=
    mul_le_mul_of_nonneg_right (by linarith) (by positivity)
  norm_num at b0
  have e2 : siderealTimeGreenwich ((2451726.5 : ℚ) : ℝ) = g * (π / 180) - 182 * (2 * π) :=
    congr_unique pi2_pos ⟨k, h2⟩ ⟨-182, by unfold pi2; push_cast; ring⟩ h0 h1 (by linarith)
      (by unfold pi2; linarith)
  rw [e2]
  norm_num
  linarith

/-- A fixed star passes the meridian between two times, if the hour angle passes a multiple of a turn. -/
theorem star_transit {jd lon dT r a b : ℝ} (K : ℤ) (hab : a ≤ b)
    (ha : gmstDegrees (jd + a) * (π / 180) - lon - r ≤ K * (2 * π))
    (hb : K * (2 * π) ≤ gmstDegrees (jd + b) * (π / 180) - lon - r) :
    ∃ m, InMeridian jd lon dT (r, r, r) m ∧ a ≤ m ∧ m ≤ b := by
  have e : ∀ n, parabola (r, r, r) n = r := fun n => by unfold parabola; ring
  obtain ⟨m, hm, h⟩ := intermediate_value_Icc hab (hourAngle_continuous jd lon dT (r, r, r)).continuousOn
    (show (K * (2 * π) : ℝ) ∈ Set.Icc _ _ by
      unfold hourAngle; rw [e, e]; exact ⟨ha, hb⟩)
  exact ⟨m, ⟨K, h⟩, hm.1, hm.2⟩

theorem star_input {jd : ℚ} {lon r : ℝ} (era : |(jd : ℝ) - 2451545| ≤ 1100000) (r0 : 0 ≤ r) (r1 : r < 2 * π)
    (l0 : -π ≤ lon) (l1 : lon ≤ π) : TransitInput jd (r, r, r) (r, r, r) lon := by
  refine ⟨era, ?_, ?_, l0, l1⟩
  · have : 0 ≤ r ∧ r < 2 * π ∧ ∃ k : ℤ, r = r + k * (2 * π) := ⟨r0, r1, 0, by simp⟩
    exact ⟨this, this, this⟩
  · unfold Slow; norm_num; rw [show r - 2 * r + r = 0 by ring]; norm_num

/-- C52, a defect: the code drops a transit at the end of the day.  On 2000 January 1 the star at right
ascension 1.742 is in the meridian of Greenwich between 0.99 and 1 day, and the code answers `None`. -/
theorem transit_dropped (delta : ℝ) : TransitInput 2451544.5 (1.742, 1.742, 1.742) (1.742, 1.742, 1.742) 0 ∧
    (∃ m, InMeridian (2451544.5 : ℚ) 0 (deltaTDays 2451544.5) (1.742, 1.742, 1.742) m ∧ 0.99 ≤ m ∧ m ≤ 1) ∧
    transit 2451544.5 (1.742, 1.742, 1.742) delta 0 = .ok none := by
  have hp := Real.pi_gt_d6
  have hp' := Real.pi_lt_d6
  have hs := sidereal_2000
  norm_num at hp hp'
  refine ⟨star_input ?_ ?_ ?_ ?_ ?_, star_transit 1 (by norm_num) ?_ ?_, ?_⟩
  · rw [abs_le]; push_cast; norm_num
  · norm_num
  · norm_num; linarith
  · linarith
  · linarith
  · unfold gmstDegrees
    push_cast
    norm_num
    linarith
  · unfold gmstDegrees
    push_cast
    norm_num
    linarith
  · unfold transit
    simp only
    generalize siderealTimeGreenwich ((2451544.5 : ℚ) : ℝ) = th at *
    norm_num at hs
    have neg : (1.742 + 0 - th) / pi2 < 0 := by
      refine div_neg_of_neg_of_pos ?_ pi2_pos
      norm_num; linarith
    have lo : -(5e-4) ≤ (1.742 + 0 - th) / pi2 := by
      unfold pi2
      rw [le_div_iff₀ (by positivity)]
      norm_num; linarith
    have e : rsReduce ((1.742 + 0 - th) / pi2) = .ok ((1.742 + 0 - th) / pi2 + 1) := by
      unfold rsReduce
      simp only
      rw [if_pos neg, if_neg]
      rw [not_not]
      norm_num at lo ⊢
      constructor <;> linarith
    rw [e]
    simp only
    unfold transitLoop
    rw [if_pos]
    rw [deltaT_2000, not_and_or]
    right
    norm_num at lo ⊢
    linarith

/-- C52, a defect: for an observer far in the east the code can refuse reasonable input.  On 2000 July 1
(longitude 172 degrees east) a star at right ascension 0 is in the meridian in the evening, but the first
estimate is two days off instead of one, and the code raises. -/
theorem transit_refuses (delta : ℝ) : TransitInput 2451726.5 (0, 0, 0) (0, 0, 0) (-3) ∧
    (∃ m, InMeridian (2451726.5 : ℚ) (-3) (deltaTDays 2451726.5) (0, 0, 0) m ∧ 0.7 ≤ m ∧ m ≤ 0.8) ∧
    transit 2451726.5 (0, 0, 0) delta (-3) = .error (.Error "riseset" "m is out of range") := by
  have hp := Real.pi_gt_d6
  have hp' := Real.pi_lt_d6
  norm_num at hp hp'
  have I : TransitInput 2451726.5 (0, 0, 0) (0, 0, 0) (-3) := by
    refine star_input ?_ ?_ ?_ ?_ ?_
    · rw [abs_le]; push_cast; norm_num
    · norm_num
    · linarith
    · linarith
    · linarith
  refine ⟨I, star_transit 184 (by norm_num) ?_ ?_, ?_⟩
  · unfold gmstDegrees
    push_cast
    norm_num
    linarith
  · unfold gmstDegrees
    push_cast
    norm_num
    linarith
  · rw [transit_refused_iff I]
    have := sidereal_2000_july
    norm_num at this ⊢
    linarith

/-- The hypotheses of `transit_found` are met: on 2000 January 1 the star at right ascension 5 is in the
meridian of longitude 0.5 west between 0.5 and 0.7 day. -/
example : ∃ t m, InMeridian (2451544.5 : ℚ) 0.5 (deltaTDays 2451544.5) (5, 5, 5) m ∧ 0.5 ≤ m ∧ m ≤ 0.7 ∧
    transit 2451544.5 (5, 5, 5) 0.001 0.5 = .ok (some t) ∧ |t - ((2451544.5 : ℚ) + m)| ≤ 0.000101 := by
  have hp := Real.pi_gt_d6
  have hp' := Real.pi_lt_d6
  have hs := sidereal_2000
  norm_num at hp hp' hs
  obtain ⟨m, hm, m0, m1⟩ := star_transit (jd := ((2451544.5 : ℚ) : ℝ)) (lon := 0.5) (r := 5) (a := 0.5)
    (b := 0.7) (dT := deltaTDays 2451544.5) 0 (by norm_num)
    (by unfold gmstDegrees; push_cast; norm_num; linarith)
    (by unfold gmstDegrees; push_cast; norm_num; linarith)
  have I : TransitInput 2451544.5 (5, 5, 5) (5, 5, 5) 0.5 :=
    star_input (by rw [abs_le]; push_cast; norm_num) (by norm_num) (by linarith) (by norm_num; linarith)
      (by norm_num; linarith)
  norm_num at m0 m1
  obtain ⟨t, ht, h⟩ := transit_found (delta := 0.001) I (by norm_num)
    (by norm_num; linarith) hm (by norm_num; linarith) (by norm_num; linarith)
    (by rw [deltaT_2000, abs_le]; norm_num; constructor <;> linarith)
  exact ⟨t, m, hm, by norm_num; linarith, by norm_num; linarith, ht, h.trans (by norm_num)⟩

end Verif
