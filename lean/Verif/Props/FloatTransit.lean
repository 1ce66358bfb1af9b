import Verif.Lemmas.FloatTransit
import Verif.Props.Transit

/-!
# C83, C84: sidereal time and `riseset.transit` in binary64
-/

namespace Verif
open Real

/-- C83: `sidereal_time_greenwich` as computed with floats is an angle between 0 and (the float) `2π`, and
within 3000 years of J2000 it agrees with the formula up to 7.5e-9 radians (a tenth of a millisecond of
time) and whole turns. -/
theorem sidereal_float {fl : ℚ → ℚ} (hf : FloatLike fl) {jd : ℚ} (h : |(jd : ℝ) - 2451545| ≤ 1100000) :
    0 ≤ siderealF fl jd ∧ siderealF fl jd ≤ pi2F ∧
      ∃ k : ℤ, |(siderealF fl jd : ℝ) - (gmstDegrees jd * (π / 180) + k * (2 * π))| ≤ 7.5e-9 :=
  ⟨(modpi2F_range hf _).1, (modpi2F_range hf _).2, siderealF_near hf h⟩

theorem siderealF_range {fl : ℚ → ℚ} (hf : FloatLike fl) (jd : ℚ) : 0 ≤ siderealF fl jd ∧ siderealF fl jd ≤ pi2F :=
  modpi2F_range hf _

/-- Beside `sidereal_float`: at 2000 January 1, 0h UT, sidereal time is between 1.7447 and 1.7448. -/
theorem siderealF_2000 {fl : ℚ → ℚ} (hf : FloatLike fl) :
    1.7447 ≤ (siderealF fl 2451544.5 : ℝ) ∧ (siderealF fl 2451544.5 : ℝ) ≤ 1.7448 := by
  obtain ⟨h0, h1, k, h2⟩ := sidereal_float hf (jd := 2451544.5) (by rw [abs_le]; push_cast; norm_num)
  have hp := Real.pi_gt_d6
  have hp' := Real.pi_lt_d6
  have e : 99.96773 ≤ gmstDegrees ((2451544.5 : ℚ) : ℝ) ∧ gmstDegrees ((2451544.5 : ℚ) : ℝ) ≤ 99.9678 := by
    unfold gmstDegrees; push_cast; norm_num
  have t0 : (0 : ℝ) ≤ siderealF fl 2451544.5 := by exact_mod_cast h0
  have t1 : (siderealF fl 2451544.5 : ℝ) ≤ 6.2832 :=
    (by exact_mod_cast h1 : (siderealF fl 2451544.5 : ℝ) ≤ pi2F).trans (by unfold pi2F; norm_num)
  generalize gmstDegrees ((2451544.5 : ℚ) : ℝ) = g at *
  generalize (siderealF fl 2451544.5 : ℝ) = t at *
  norm_num at hp hp' e t1
  have b0 : 9996773 / 100000 * (π / 180) ≤ g * (π / 180) := mul_le_mul_of_nonneg_right e.1 (by positivity)
  have b1 : g * (π / 180) ≤ 499839 / 5000 * (π / 180) := mul_le_mul_of_nonneg_right e.2 (by positivity)
  rw [abs_le] at h2
  norm_num at h2
  have hk : k = 0 := by
    have k1 : (k : ℝ) < 1 := by
      by_contra hc
      rw [not_lt] at hc
      have : 1 * (2 * π) ≤ k * (2 * π) := mul_le_mul_of_nonneg_right hc (by positivity)
      linarith
    have k2 : (-1 : ℝ) < k := by
      by_contra hc
      rw [not_lt] at hc
      have : k * (2 * π) ≤ -1 * (2 * π) := mul_le_mul_of_nonneg_right hc (by positivity)
      linarith
    have k1' : k < 1 := by exact_mod_cast k1
    have k2' : -1 < k := by exact_mod_cast k2
    omega
  rw [hk] at h2
  norm_num at h2 ⊢
  constructor <;> linarith

/-! ### `transit` -/

theorem pow_smallF {delta : ℚ} (hd : 1e-13 ≤ (delta : ℝ)) : 1.1 * (0.086 ^ 19 * 0.1 + 3e-14) < (delta : ℝ) :=
  lt_of_lt_of_le (by norm_num) hd

theorem add_float_near {fl : ℚ → ℚ} (hf : FloatLike fl) {jd m : ℚ} {z : ℝ} (hj : |(jd : ℝ) - 2451545| ≤ 1100000)
    (hm : |(m : ℝ)| ≤ 2) : |(fl (jd + m) : ℝ) - (jd + z)| ≤ |(m : ℝ) - z| + 4.1e-10 := by
  have r := hf.errR (jd + m)
  rw [uuR, wwR] at r
  push_cast at r
  have b : |(jd : ℝ) + m| ≤ 3551550 := by
    rw [abs_le] at hj hm ⊢
    constructor <;> linarith
  have e : (fl (jd + m) : ℝ) - (jd + z) = ((fl (jd + m) : ℝ) - (jd + m)) + (m - z) := by ring
  rw [e]
  refine (abs_add_le _ _).trans ?_
  norm_num at r ⊢
  linarith

theorem fl_in_range {fl : ℚ → ℚ} (hf : FloatLike fl) {x : ℚ} (h : -1 < fl x ∧ fl x < 1) : |(x : ℝ)| ≤ 1.0001 := by
  have h1 : fl 1 = 1 := by have := hf.int (n := 1) (by norm_num); exact_mod_cast this
  have h2 : fl (-1) = -1 := by have := hf.int (n := -1) (by norm_num); exact_mod_cast this
  have a : x < 1 := by
    by_contra hc
    have := hf.mono (not_lt.mp hc)
    rw [h1] at this
    linarith [h.2]
  have b : -1 < x := by
    by_contra hc
    have := hf.mono (not_lt.mp hc)
    rw [h2] at this
    linarith [h.1]
  have a' : (x : ℝ) < 1 := by exact_mod_cast a
  have b' : (-1 : ℝ) < x := by exact_mod_cast b
  rw [abs_le]
  norm_num
  constructor <;> linarith

theorem lonB {jd : ℚ} {y u : ℝ × ℝ × ℝ} {lon : ℝ} (I : TransitInput jd y u lon) : |lon| ≤ π :=
  abs_le.mpr ⟨I.lon0, I.lon1⟩

/-- C84: a time returned by `transit` as computed with floats is the time of a transit, within a tenth of
the requested precision and a millisecond.  `dT` is the difference between dynamical and universal time in
days: any number within 1e-9 of what the code computes. -/
theorem transit_float_sound {fl : ℚ → ℚ} (hf : FloatLike fl) {jd : ℚ} {y : ℚ × ℚ × ℚ} {u : ℝ × ℝ × ℝ}
    {lon delta t : ℚ} {dT : ℝ} (I : TransitInput jd (castT y) u lon) (hd : 1e-13 ≤ (delta : ℝ))
    (hT : |(deltaTDaysF fl jd : ℝ) - dT| ≤ 1e-9) (h : transitF fl jd y delta lon = .ok (some t)) :
    ∃ m, InMeridian jd lon dT u m ∧ |(t : ℝ) - (jd + m)| ≤ 0.1 * delta + 1.1e-8 ∧ -0.11 ≤ m ∧ m ≤ 1.11 := by
  unfold transitF at h
  simp only at h
  have rg := siderealF_range hf jd
  have nT := siderealF_near hf I.era
  generalize siderealF fl jd = TH at *
  generalize deltaTDaysF fl jd = dTF at *
  rcases estimateF hf (a := y.2.1) (lon := lon) I.red.2.1.1 I.red.2.1.2.1 (lonB I) rg with ⟨e, -⟩ | ⟨mu, e, m0, m1, -, ht⟩
  · rw [e] at h; cases h
  · rw [e] at h
    simp only at h
    have m0' : (0 : ℝ) ≤ mu := by exact_mod_cast m0
    have m1' : (mu : ℝ) ≤ 1 := by exact_mod_cast m1
    by_cases hn : -1 < fl (mu + dTF) ∧ fl (mu + dTF) < 1
    · have hb := fl_in_range hf hn
      push_cast at hb
      have hb' := abs_le.mp hb
      norm_num at hb'
      obtain ⟨z, z1, z2⟩ := localH_root (y := castT y) I.slow m0' m1' (dT := dTF) (hb.trans (by norm_num))
      have z1' := abs_le.mp z1
      norm_num at z1'
      have S : TransitStateF y u lon TH dTF mu z :=
        ⟨I.red, I.slow, lonB I, ht, rg, z1, m0', m1', z2, by rw [abs_le]; norm_num; constructor <;> linarith⟩
      rcases S.loop hf jd delta 19 mu 0.1 (by rw [abs_sub_comm]; exact z1.trans (by norm_num)) le_rfl (by norm_num)
        (pow_smallF hd) with ⟨e, -⟩ | ⟨m', e, hm', hm2⟩
      · rw [e] at h; cases h
      · rw [e] at h
        cases h
        obtain ⟨K, hK⟩ := hourAngle_localH_float (y := castT y) (dT := dTF) I.era I.red I.slow nT ht hT
          (by rw [abs_le]; norm_num; constructor <;> linarith)
        obtain ⟨w, w1, w2⟩ := true_near I.slow hK
          (by rw [abs_le]; norm_num; constructor <;> linarith)
          (by rw [abs_le]; norm_num; constructor <;> linarith) z2
        have w1' := abs_le.mp w1
        norm_num at w1'
        refine ⟨w, ⟨K, w2⟩, ?_, by norm_num; linarith, by norm_num; linarith⟩
        have a := add_float_near hf (jd := jd) (m := m') (z := z) I.era
          (by rw [abs_le] at hm2 ⊢; norm_num at hm2 ⊢; constructor <;> linarith)
        rw [abs_le] at a
        rw [abs_le]
        norm_num at a hm' ⊢
        constructor <;> linarith
    · unfold transitLoopF at h
      simp only [bind, Except.bind] at h
      rw [if_pos (by tauto)] at h
      cases h

/-- A transit in the middle of the day belongs to the first estimate. -/
theorem estimate_of_transit {jd lon dT dT' mu m : ℝ} {y u : ℝ × ℝ × ℝ} {k K : ℤ} (hs : Slow 0.4 0.1 u)
    (hK : ∀ m, |m| ≤ 1.2 → |hourAngle jd lon dT' u m - localH y u dT mu m - K * (2 * π)| ≤ 5e-8)
    (m0 : 0 ≤ mu) (m1 : mu ≤ 1) (h0 : 0.1 ≤ m) (h1 : m ≤ 0.9) (hn : |m + dT| ≤ 0.89)
    (ek : hourAngle jd lon dT' u m = k * (2 * π)) : k = K ∧ |m - mu| ≤ 0.09 := by
  have hp := Real.pi_gt_d4
  have hp' := Real.pi_lt_d4
  have hk := rsK1_bounds
  norm_num at h0 h1 hp hp' hk
  have P := parabola_near hs (n := m + dT) (hn.trans (by norm_num))
  have L : localH y u dT mu m = rsK1 * m - 2 * π * mu - (parabola u (m + dT) - u.2.1) := by
    unfold localH codeRa; ring
  have q := hK m (by rw [abs_le]; norm_num; constructor <;> linarith)
  rw [ek, L, abs_le] at q
  rw [abs_le] at P
  norm_num at P q
  have r0 : 0 ≤ (rsK1 - 2 * π) * m := mul_nonneg (by linarith) (by linarith)
  have r1 : (rsK1 - 2 * π) * m ≤ (rsK1 - 2 * π) * 1 := mul_le_mul_of_nonneg_left (by linarith) (by linarith)
  have kK : k = K := by
    have k1 : (k : ℝ) - K < 1 := by
      by_contra hc
      rw [not_lt] at hc
      have : 2 * π * 1 ≤ 2 * π * (k - K) := mul_le_mul_of_nonneg_left hc (by linarith)
      have : 2 * π * (m - mu) ≤ 2 * π * (9 / 10) := mul_le_mul_of_nonneg_left (by linarith) (by linarith)
      linarith
    have k2 : -1 < (k : ℝ) - K := by
      by_contra hc
      rw [not_lt] at hc
      have : 2 * π * (k - K) ≤ 2 * π * (-1) := mul_le_mul_of_nonneg_left hc (by linarith)
      have : 2 * π * -(9 / 10) ≤ 2 * π * (m - mu) := mul_le_mul_of_nonneg_left (by linarith) (by linarith)
      linarith
    have k1' : k - K < 1 := by exact_mod_cast k1
    have k2' : -1 < k - K := by exact_mod_cast k2
    omega
  refine ⟨kK, ?_⟩
  rw [kK] at q
  rw [abs_le]
  norm_num
  constructor
  · by_contra hc
    rw [not_le] at hc
    have : 2 * π * (m - mu) ≤ 2 * π * -(9 / 100) := mul_le_mul_of_nonneg_left (by linarith) (by linarith)
    linarith
  · by_contra hc
    rw [not_le] at hc
    have : 2 * π * (mu + 9 / 100) ≤ 2 * π * m := mul_le_mul_of_nonneg_left (by linarith) (by linarith)
    linarith

/-- C84: a transit between a tenth and nine tenths of the day is found by the code as computed with floats,
if right ascension plus (west) longitude is not negative (otherwise the estimate may be refused, see
`transit_float_refuses`), and unless the difference between dynamical and universal time brings it near the
end of the next or previous day. -/
theorem transit_float_found {fl : ℚ → ℚ} (hf : FloatLike fl) {jd : ℚ} {y : ℚ × ℚ × ℚ} {u : ℝ × ℝ × ℝ}
    {lon delta : ℚ} {dT m : ℝ} (I : TransitInput jd (castT y) u lon) (hd : 1e-13 ≤ (delta : ℝ))
    (hT : |(deltaTDaysF fl jd : ℝ) - dT| ≤ 1e-9) (hr : 0 ≤ y.2.1 + lon)
    (hm : InMeridian jd lon dT u m) (h0 : 0.1 ≤ m) (h1 : m ≤ 0.9) (hn : |m + dT| ≤ 0.88) :
    ∃ t : ℚ, transitF fl jd y delta lon = .ok (some t) ∧ |(t : ℝ) - (jd + m)| ≤ 0.1 * delta + 1.1e-8 := by
  unfold transitF
  simp only
  have rg := siderealF_range hf jd
  have nT := siderealF_near hf I.era
  generalize siderealF fl jd = TH at *
  generalize deltaTDaysF fl jd = dTF at *
  rcases estimateF hf (a := y.2.1) (lon := lon) I.red.2.1.1 I.red.2.1.2.1 (lonB I) rg with ⟨-, -, e⟩ | ⟨mu, e, m0, m1, -, ht⟩
  · exfalso
    linarith
  · rw [e]
    simp only
    have m0' : (0 : ℝ) ≤ mu := by exact_mod_cast m0
    have m1' : (mu : ℝ) ≤ 1 := by exact_mod_cast m1
    have hT' := abs_le.mp hT
    have hn' := abs_le.mp hn
    norm_num at hT' hn' h0 h1
    have hn2 : |m + (dTF : ℝ)| ≤ 0.89 := by rw [abs_le]; norm_num; constructor <;> linarith
    obtain ⟨K, hK⟩ := hourAngle_localH_float (y := castT y) (dT := dTF) I.era I.red I.slow nT ht hT
      (by rw [abs_le]; norm_num; constructor <;> linarith)
    obtain ⟨k, ek⟩ := hm
    obtain ⟨kK, near⟩ := estimate_of_transit I.slow hK m0' m1' (by norm_num; linarith) (by norm_num; linarith) hn2 ek
    rw [kK] at ek
    obtain ⟨z, z1, z2⟩ := code_near I.slow hK (by rw [abs_le]; norm_num; constructor <;> linarith)
      (hn2.trans (by norm_num)) ek
    have z1' := abs_le.mp z1
    rw [abs_le] at near
    norm_num at z1' near
    have zmu : |z - mu| ≤ 0.1 := by rw [abs_le]; norm_num; constructor <;> linarith
    have S : TransitStateF y u lon TH dTF mu z :=
      ⟨I.red, I.slow, lonB I, ht, rg, zmu, m0', m1', z2, by rw [abs_le]; norm_num; constructor <;> linarith⟩
    rcases S.loop hf jd delta 19 mu 0.1 (by rw [abs_sub_comm]; exact zmu.trans (by norm_num)) le_rfl (by norm_num)
      (pow_smallF hd) with ⟨-, e⟩ | ⟨m', e, hm', hm2⟩
    · exfalso
      rw [le_abs] at e
      norm_num at e
      rcases e with e | e <;> linarith
    · refine ⟨_, e, ?_⟩
      have a := add_float_near hf (jd := jd) (m := m') (z := z) I.era
        (by rw [abs_le] at hm2 ⊢; norm_num at hm2 ⊢; constructor <;> linarith)
      rw [abs_le] at a
      rw [abs_le]
      norm_num at a hm' ⊢
      constructor <;> linarith

/-- C84: the code as computed with floats never ends with "bailout": it refuses the estimate (only if right
ascension plus longitude is negative), returns a time, or returns `None`; `None` means that there is a
transit in the last quarter of the day or shortly after its end. -/
theorem transit_float_outcome {fl : ℚ → ℚ} (hf : FloatLike fl) {jd : ℚ} {y : ℚ × ℚ × ℚ} {u : ℝ × ℝ × ℝ}
    {lon delta : ℚ} {dT : ℝ} (I : TransitInput jd (castT y) u lon) (hd : 1e-13 ≤ (delta : ℝ))
    (hT : |(deltaTDaysF fl jd : ℝ) - dT| ≤ 1e-9) (hT2 : |dT| ≤ 0.09) :
    (transitF fl jd y delta lon = .error (.Error "riseset" "m is out of range") ∧ y.2.1 + lon < 0) ∨
    (∃ t, transitF fl jd y delta lon = .ok (some t)) ∨
    transitF fl jd y delta lon = .ok none ∧ ∃ m, InMeridian jd lon dT u m ∧ 0.79 ≤ m ∧ m ≤ 1.11 := by
  unfold transitF
  simp only
  have rg := siderealF_range hf jd
  have nT := siderealF_near hf I.era
  generalize siderealF fl jd = TH at *
  generalize deltaTDaysF fl jd = dTF at *
  rcases estimateF hf (a := y.2.1) (lon := lon) I.red.2.1.1 I.red.2.1.2.1 (lonB I) rg with ⟨e, -, h⟩ | ⟨mu, e, m0, m1, -, ht⟩
  · left
    rw [e]
    exact ⟨rfl, h⟩
  · right
    rw [e]
    simp only
    have m0' : (0 : ℝ) ≤ mu := by exact_mod_cast m0
    have m1' : (mu : ℝ) ≤ 1 := by exact_mod_cast m1
    have hT' := abs_le.mp hT
    have hT2' := abs_le.mp hT2
    norm_num at hT' hT2'
    obtain ⟨z, z1, z2⟩ := localH_root (y := castT y) I.slow m0' m1' (dT := dTF)
      (by rw [abs_le]; norm_num; constructor <;> linarith)
    have z1' := abs_le.mp z1
    norm_num at z1'
    have S : TransitStateF y u lon TH dTF mu z :=
      ⟨I.red, I.slow, lonB I, ht, rg, z1, m0', m1', z2, by rw [abs_le]; norm_num; constructor <;> linarith⟩
    rcases S.loop hf jd delta 19 mu 0.1 (by rw [abs_sub_comm]; exact z1.trans (by norm_num)) le_rfl (by norm_num)
      (pow_smallF hd) with ⟨e, hz⟩ | ⟨m', e, -, -⟩
    · right
      refine ⟨e, ?_⟩
      obtain ⟨K, hK⟩ := hourAngle_localH_float (y := castT y) (dT := dTF) I.era I.red I.slow nT ht hT
        (by rw [abs_le]; norm_num; constructor <;> linarith)
      obtain ⟨w, w1, w2⟩ := true_near I.slow hK
        (by rw [abs_le]; norm_num; constructor <;> linarith)
        (by rw [abs_le]; norm_num; constructor <;> linarith) z2
      have w1' := abs_le.mp w1
      norm_num at w1'
      refine ⟨w, ⟨K, w2⟩, ?_, by norm_num; linarith⟩
      rw [le_abs] at hz
      norm_num at hz ⊢
      rcases hz with hz | hz <;> linarith
    · left; exact ⟨_, e⟩

/-! ### The difference between dynamical and universal time -/

/-- C84: the difference in days as computed with floats is right up to `1e-15`, from 1621 to 2014. -/
theorem deltaTDaysF_near {fl : ℚ → ℚ} (h : Rounding fl) {jd : ℚ} (hF : IsF64 jd) (h0 : 2313118.5 ≤ jd)
    (h1 : jd ≤ 2456932.25) : |(deltaTDaysF fl jd : ℝ) - deltaTDays jd| ≤ 1e-15 := by
  have hf := h.floatLike
  have a := deltaT_float h jd hF h0 h1
  have b := deltaT_range jd h0 h1
  unfold deltaTDaysF deltaTDays
  generalize deltaTSeconds fl jd = x at *
  generalize deltaTSeconds (fun x => x) jd = w at *
  have r := hf.errR (x / 86400)
  rw [uuR, wwR] at r
  have a' : |(x : ℝ) - w| ≤ 1e-11 := by
    have : |((x - w : ℚ) : ℝ)| ≤ ((1e-11 : ℚ) : ℝ) := by rw [← Rat.cast_abs]; exact_mod_cast a
    push_cast at this
    exact this
  have b0 : (-10 : ℝ) ≤ w := by exact_mod_cast b.1
  have b1 : (w : ℝ) ≤ 121 := by exact_mod_cast b.2
  push_cast at r
  rw [abs_le] at a'
  norm_num at a'
  have c : |(x : ℝ) / 86400| ≤ 0.01 := by
    rw [abs_le]; norm_num; constructor <;> linarith
  rw [abs_le] at r
  rw [abs_le]
  norm_num at r c ⊢
  constructor <;> linarith

/-- C84, from 1621 to 2014: a time returned by `transit` as computed with floats. -/
theorem transit_float_sound_table {fl : ℚ → ℚ} (h : Rounding fl) {jd : ℚ} {y : ℚ × ℚ × ℚ} {u : ℝ × ℝ × ℝ}
    {lon delta t : ℚ} (hF : IsF64 jd) (h0 : 2313118.5 ≤ jd) (h1 : jd ≤ 2456932.25)
    (I : TransitInput jd (castT y) u lon) (hd : 1e-13 ≤ (delta : ℝ))
    (e : transitF fl jd y delta lon = .ok (some t)) :
    ∃ m, InMeridian jd lon (deltaTDays jd) u m ∧ |(t : ℝ) - (jd + m)| ≤ 0.1 * delta + 1.1e-8 ∧ -0.11 ≤ m ∧ m ≤ 1.11 :=
  transit_float_sound h.floatLike I hd ((deltaTDaysF_near h hF h0 h1).trans (by norm_num)) e

/-- C84, from 1621 to 2014: a transit in the middle of the day is found. -/
theorem transit_float_found_table {fl : ℚ → ℚ} (h : Rounding fl) {jd : ℚ} {y : ℚ × ℚ × ℚ} {u : ℝ × ℝ × ℝ}
    {lon delta : ℚ} {m : ℝ} (hF : IsF64 jd) (h0 : 2313118.5 ≤ jd) (h1 : jd ≤ 2456932.25)
    (I : TransitInput jd (castT y) u lon) (hd : 1e-13 ≤ (delta : ℝ)) (hr : 0 ≤ y.2.1 + lon)
    (hm : InMeridian jd lon (deltaTDays jd) u m) (m0 : 0.1 ≤ m) (m1 : m ≤ 0.87) :
    ∃ t : ℚ, transitF fl jd y delta lon = .ok (some t) ∧ |(t : ℝ) - (jd + m)| ≤ 0.1 * delta + 1.1e-8 := by
  refine transit_float_found h.floatLike I hd ((deltaTDaysF_near h hF h0 h1).trans (by norm_num)) hr hm m0
    (m1.trans (by norm_num)) ?_
  have b := deltaT_range jd h0 h1
  have b0 : (-10 : ℝ) ≤ deltaTSeconds (fun x => x) jd := by exact_mod_cast b.1
  have b1 : (deltaTSeconds (fun x => x) jd : ℝ) ≤ 121 := by exact_mod_cast b.2
  unfold deltaTDays
  rw [abs_le]
  norm_num at m0 m1 ⊢
  constructor <;> linarith

/-- The hypotheses are met: on 2000 January 1 the star at right ascension 5 is in the meridian of longitude
0.5 west between 0.5 and 0.7 day, and the code finds it. -/
example {fl : ℚ → ℚ} (h : Rounding fl) : ∃ (t : ℚ) (m : ℝ),
    InMeridian (2451544.5 : ℚ) (0.5 : ℚ) (deltaTDays 2451544.5) (5, 5, 5) m ∧
    0.5 ≤ m ∧ m ≤ 0.7 ∧ transitF fl 2451544.5 (5, 5, 5) 0.001 0.5 = .ok (some t) ∧
    |(t : ℝ) - ((2451544.5 : ℚ) + m)| ≤ 0.000101 := by
  have hp := Real.pi_gt_d6
  have hp' := Real.pi_lt_d6
  norm_num at hp hp'
  obtain ⟨m, hm, m0, m1⟩ := star_transit (jd := ((2451544.5 : ℚ) : ℝ)) (lon := (0.5 : ℚ)) (r := 5) (a := 0.5)
    (b := 0.7) (dT := deltaTDays 2451544.5) 0 (by norm_num)
    (by unfold gmstDegrees; push_cast; norm_num; linarith)
    (by unfold gmstDegrees; push_cast; norm_num; linarith)
  have I : TransitInput 2451544.5 (castT (5, 5, 5)) (5, 5, 5) (0.5 : ℚ) := by
    have := star_input (jd := 2451544.5) (lon := (0.5 : ℚ)) (r := 5) (by rw [abs_le]; push_cast; norm_num)
      (by norm_num) (by linarith) (by push_cast; norm_num; linarith) (by push_cast; norm_num; linarith)
    unfold castT
    push_cast
    exact this
  norm_num at m0 m1
  obtain ⟨t, ht, h⟩ := transit_float_found_table h (jd := 2451544.5) (delta := 0.001)
    ⟨4903089, -1, by norm_num, by norm_num, by norm_num⟩ (by norm_num) (by norm_num) I (by push_cast; norm_num) (by norm_num) hm
    (by norm_num; linarith) (by norm_num; linarith)
  refine ⟨t, m, hm, by norm_num; linarith, by norm_num; linarith, ht, h.trans ?_⟩
  push_cast
  norm_num

/-- C84, a defect that remains with floats: on 2000 July 1, for an observer at longitude 172 degrees east,
the code refuses the star at right ascension 0, which is in the meridian in the evening. -/
theorem transit_float_refuses {fl : ℚ → ℚ} (hf : FloatLike fl) (delta : ℚ) :
    TransitInput 2451726.5 (castT (0, 0, 0)) (0, 0, 0) (-3 : ℚ) ∧
    (∃ m, InMeridian (2451726.5 : ℚ) (-3) (deltaTDays 2451726.5) (0, 0, 0) m ∧ 0.7 ≤ m ∧ m ≤ 0.8) ∧
    transitF fl 2451726.5 (0, 0, 0) delta (-3) = .error (.Error "riseset" "m is out of range") := by
  obtain ⟨I, hm, -⟩ := transit_refuses 1
  have I' : TransitInput 2451726.5 (castT (0, 0, 0)) (0, 0, 0) (-3 : ℚ) := by
    unfold castT
    push_cast
    exact I
  refine ⟨I', hm, ?_⟩
  have hp := Real.pi_gt_d6
  have hp' := Real.pi_lt_d6
  norm_num at hp hp'
  have rg := siderealF_range hf 2451726.5
  obtain ⟨k, h2⟩ := siderealF_near hf I'.era
  unfold transitF
  simp only
  have t0 : (0 : ℝ) ≤ siderealF fl 2451726.5 := by exact_mod_cast rg.1
  have t1 : (siderealF fl 2451726.5 : ℝ) ≤ 6.2832 :=
    (by exact_mod_cast rg.2 : (siderealF fl 2451726.5 : ℝ) ≤ pi2F).trans (by unfold pi2F; norm_num)
  generalize siderealF fl 2451726.5 = TH at *
  have e : 279.35 ≤ gmstDegrees ((2451726.5 : ℚ) : ℝ) - 182 * 360 ∧
      gmstDegrees ((2451726.5 : ℚ) : ℝ) - 182 * 360 ≤ 279.36 := by
    unfold gmstDegrees; push_cast; norm_num
  generalize gmstDegrees ((2451726.5 : ℚ) : ℝ) = g at *
  norm_num at e t1
  have b0 : (279.3 + 182 * 360) * (π / 180) ≤ g * (π / 180) :=
    mul_le_mul_of_nonneg_right (by norm_num; linarith) (by positivity)
  have b1 : g * (π / 180) ≤ (280 + 182 * 360) * (π / 180) :=
    mul_le_mul_of_nonneg_right (by linarith) (by positivity)
  unfold Near at h2
  rw [abs_le] at h2
  norm_num at h2 b0 b1
  have hk : k = -182 := by
    have k1 : (k : ℝ) < -181 := by
      by_contra hc
      rw [not_lt] at hc
      have : -181 * (2 * π) ≤ k * (2 * π) := mul_le_mul_of_nonneg_right hc (by positivity)
      linarith
    have k2 : (-183 : ℝ) < k := by
      by_contra hc
      rw [not_lt] at hc
      have : k * (2 * π) ≤ -183 * (2 * π) := mul_le_mul_of_nonneg_right hc (by positivity)
      linarith
    have k1' : k < -181 := by exact_mod_cast k1
    have k2' : -183 < k := by exact_mod_cast k2
    omega
  rw [hk] at h2
  norm_num at h2
  rcases estimateF hf (a := 0) (lon := -3) (by norm_num) (by push_cast; linarith) (lonB I') rg with
    ⟨e, -⟩ | ⟨mu, -, -, -, h, -⟩
  · rw [e]
  · exfalso
    push_cast at h
    norm_num at h
    linarith

/-- C84, a defect that remains with floats: on 2000 January 1 the star at right ascension 1.7421875 is in the
meridian of Greenwich between 0.99 and 1 day, and the code answers `None`. -/
theorem transit_float_dropped {fl : ℚ → ℚ} (hr : Rounding fl) (delta : ℚ) :
    TransitInput 2451544.5 (castT (1.7421875, 1.7421875, 1.7421875)) (1.7421875, 1.7421875, 1.7421875) (0 : ℚ) ∧
    (∃ m, InMeridian (2451544.5 : ℚ) 0 (deltaTDays 2451544.5) (1.7421875, 1.7421875, 1.7421875) m ∧ 0.99 ≤ m ∧ m ≤ 1) ∧
    transitF fl 2451544.5 (1.7421875, 1.7421875, 1.7421875) delta 0 = .ok none := by
  have hf := hr.floatLike
  have hp := Real.pi_gt_d6
  have hp' := Real.pi_lt_d6
  norm_num at hp hp'
  have I' : TransitInput 2451544.5 (castT (1.7421875, 1.7421875, 1.7421875)) (1.7421875, 1.7421875, 1.7421875) (0 : ℚ) := by
    have I := star_input (jd := 2451544.5) (lon := 0) (r := 1.7421875) (by rw [abs_le]; push_cast; norm_num)
      (by norm_num) (by norm_num; linarith) (by linarith) (by linarith)
    unfold castT
    push_cast
    exact I
  refine ⟨I', star_transit 1 (by norm_num) (by unfold gmstDegrees; push_cast; norm_num; linarith)
    (by unfold gmstDegrees; push_cast; norm_num; linarith), ?_⟩
  have rg := siderealF_range hf 2451544.5
  have hs := siderealF_2000 hf
  have hT := deltaTDaysF_near hr (jd := 2451544.5)
    ⟨4903089, -1, by norm_num, by norm_num, by norm_num⟩ (by norm_num) (by norm_num)
  rw [deltaT_2000, abs_le] at hT
  unfold transitF
  simp only
  generalize siderealF fl 2451544.5 = TH at *
  generalize deltaTDaysF fl 2451544.5 = dT at *
  rcases estimateF hf (a := 1.7421875) (lon := 0) (by norm_num) (by push_cast; norm_num; linarith) (lonB I') rg with
    ⟨-, e, -⟩ | ⟨mu, e, m0, m1, -, k, hk⟩
  · exfalso
    push_cast at e
    norm_num at e hs
    linarith
  · rw [e]
    simp only
    unfold transitLoopF
    simp only [bind, Except.bind]
    rw [if_pos]
    rw [not_and_or]
    right
    have m0' : (0 : ℝ) ≤ mu := by exact_mod_cast m0
    have m1' : (mu : ℝ) ≤ 1 := by exact_mod_cast m1
    unfold Near at hk
    rw [abs_le] at hk
    push_cast at hk
    norm_num at hk hs hT
    have x0 : 2 * π * mu ≤ 2 * π * 1 := mul_le_mul_of_nonneg_left m1' (by positivity)
    have x1 : 0 ≤ 2 * π * mu := by positivity
    have hk1 : k = 1 := by
      have k1 : (k : ℝ) < 2 := by
        by_contra hc
        rw [not_lt] at hc
        have : 2 * (2 * π) ≤ k * (2 * π) := mul_le_mul_of_nonneg_right hc (by positivity)
        linarith
      have k2 : (0 : ℝ) < k := by
        by_contra hc
        rw [not_lt] at hc
        have : k * (2 * π) ≤ 0 * (2 * π) := mul_le_mul_of_nonneg_right hc (by positivity)
        linarith
      have k1' : k < 2 := by exact_mod_cast k1
      have k2' : 0 < k := by exact_mod_cast k2
      omega
    rw [hk1] at hk
    norm_num at hk
    have big : 0.9995 ≤ (mu : ℝ) := by
      by_contra hc
      rw [not_le] at hc
      have : 2 * π * mu ≤ 2 * π * 0.9995 := mul_le_mul_of_nonneg_left hc.le (by positivity)
      norm_num at this
      linarith
    have one : 1 ≤ mu + dT := by
      have : (1 : ℝ) ≤ mu + dT := by norm_num at big; linarith
      exact_mod_cast this
    have := hf.mono one
    rw [show fl 1 = 1 by have := hf.int (n := 1) (by norm_num); exact_mod_cast this] at this
    exact not_lt.mpr this

end Verif
