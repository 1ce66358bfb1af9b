import Verif.Props.FloatRiseSet
import Verif.Props.FloatDeltaT

/-!
# C84, C85: transit, rising and setting in binary64 with the computed Delta T, at all times of the era

The theorems of `FloatTransit` and `FloatRiseSet` assume that the Delta T of the code is near a number `dT`; here it is the
value of the formula in exact arithmetic, by C96.
-/

namespace Verif
open Real

variable {fl : ℚ → ℚ}

/-- The Delta T of the code, in days. -/
theorem deltaTDaysF_near_all (h : Rounding fl) {jd : ℚ} (hF : IsF64 jd) (h0 : 32 ≤ jd) (h1 : jd < 5373484.5) :
    |(deltaTDaysF fl jd : ℝ) - deltaTDays jd| ≤ 1e-13 := by
  obtain ⟨b, e⟩ := deltaT_float_all h jd hF h0 h1
  have r := h.floatLike.err (deltaTSeconds fl jd / 86400)
  have b' : |deltaTSeconds fl jd| ≤ 602001 := by
    have := abs_sub_abs_le_abs_sub (deltaTSeconds fl jd) (deltaTSeconds (fun x => x) jd)
    norm_num at e this ⊢
    linarith
  have k : |deltaTDaysF fl jd - deltaTSeconds (fun x => x) jd / 86400| ≤ 1e-13 := by
    unfold deltaTDaysF
    have t := abs_sub_le (fl (deltaTSeconds fl jd / 86400)) (deltaTSeconds fl jd / 86400) (deltaTSeconds (fun x => x) jd / 86400)
    rw [← sub_div, abs_div (_ - _), abs_of_pos (by norm_num : (0 : ℚ) < 86400)] at t
    rw [abs_div, abs_of_pos (by norm_num : (0 : ℚ) < 86400)] at r
    have w : (1 : ℚ) / 2 ^ 1074 ≤ 1 / 2 ^ 60 :=
      one_div_le_one_div_of_le (by positivity) (pow_le_pow_right₀ (by norm_num) (by norm_num))
    generalize (1 : ℚ) / 2 ^ 1074 = w' at *
    norm_num at *
    linarith
  unfold deltaTDays
  have := (Rat.cast_le (K := ℝ)).2 k
  push_cast at this
  norm_num at this ⊢
  exact this

theorem era_range {jd : ℚ} (h : |(jd : ℝ) - 2451545| ≤ 1100000) : 32 ≤ jd ∧ jd < 5373484.5 := by
  obtain ⟨a, b⟩ := abs_le.1 h
  constructor
  · have : (32 : ℝ) ≤ jd := by linarith
    exact_mod_cast this
  · have : (jd : ℝ) < ((5373484.5 : ℚ) : ℝ) := by push_cast; linarith
    exact_mod_cast this

/-- C84, within 3000 years of J2000: a time returned is that of a transit. -/
theorem transit_float_sound_all (h : Rounding fl) {jd : ℚ} {y : ℚ × ℚ × ℚ} {u : ℝ × ℝ × ℝ} {lon delta t : ℚ} (hF : IsF64 jd)
    (I : TransitInput jd (castT y) u lon) (hd : 1e-13 ≤ (delta : ℝ)) (e : transitF fl jd y delta lon = .ok (some t)) :
    ∃ m, InMeridian jd lon (deltaTDays jd) u m ∧ |(t : ℝ) - (jd + m)| ≤ 0.1 * delta + 1.1e-8 ∧ -0.11 ≤ m ∧ m ≤ 1.11 :=
  transit_float_sound h.floatLike I hd
    ((deltaTDaysF_near_all h hF (era_range I.era).1 (era_range I.era).2).trans (by norm_num)) e

/-- C84, within 3000 years of J2000: a transit in the middle of the day is found. -/
theorem transit_float_found_all (h : Rounding fl) {jd : ℚ} {y : ℚ × ℚ × ℚ} {u : ℝ × ℝ × ℝ} {lon delta : ℚ} {m : ℝ}
    (hF : IsF64 jd) (I : TransitInput jd (castT y) u lon) (hd : 1e-13 ≤ (delta : ℝ)) (hr : 0 ≤ y.2.1 + lon)
    (hm : InMeridian jd lon (deltaTDays jd) u m) (m0 : 0.1 ≤ m) (m1 : m ≤ 0.9) (hn : |m + deltaTDays jd| ≤ 0.88) :
    ∃ t : ℚ, transitF fl jd y delta lon = .ok (some t) ∧ |(t : ℝ) - (jd + m)| ≤ 0.1 * delta + 1.1e-8 :=
  transit_float_found h.floatLike I hd
    ((deltaTDaysF_near_all h hF (era_range I.era).1 (era_range I.era).2).trans (by norm_num)) hr hm m0 m1 hn

/-- C85, within 3000 years of J2000: a rising or setting is found, unless the first estimate is refused. -/
theorem riseset_float_found_all (hr : Rounding fl) {lib : RiseLib} {N : ℕ} (hl : lib.Good fl N) {jd : ℚ}
    {y d : ℚ × ℚ × ℚ} {u : ℝ × ℝ × ℝ} {lon phi h0 delta : ℚ} {z : ℝ} {mode : RsMode} (hF : IsF64 jd)
    (I : RiseInput jd (castT y) u (castT d) phi h0) (hlon : |(lon : ℝ)| ≤ π) (hdec : |(d.2.1 : ℝ)| ≤ 2)
    (hd : 1e-7 ≤ (delta : ℝ)) (z0 : 0.05 ≤ z) (z1 : z ≤ 0.95) (hn : |z + deltaTDays jd| ≤ 0.97)
    (ev : altitude phi (hourAngle jd lon (deltaTDays jd) u z) (parabola (castT d) (z + deltaTDays jd)) = h0)
    (st : 0.45 ≤ |cos (parabola (castT d) (z + deltaTDays jd)) * cos (phi : ℝ) * sin (hourAngle jd lon (deltaTDays jd) u z)|)
    (hm : mode = .rise ∧ sin (hourAngle jd lon (deltaTDays jd) u z) < 0 ∨
      mode = .set ∧ 0 < sin (hourAngle jd lon (deltaTDays jd) u z)) :
    (risesetF fl lib jd y d h0 delta mode lon phi phi = .error (.Error "riseset" "m is out of range") ∧
      (mode = .rise ∧ (y.2.1 : ℝ) + lon ≤ π + 1e-12 ∨
       mode = .set ∧ ((y.2.1 : ℝ) + lon ≤ 1e-12 ∨ 3 * π - 1e-12 ≤ y.2.1 + lon))) ∨
    ∃ t, risesetF fl lib jd y d h0 delta mode lon phi phi = .ok (some t) ∧
      |(t : ℝ) - (jd + z)| ≤ 0.52 * delta + 2.1e-8 :=
  riseset_float_found hr.floatLike hl I hlon hdec hd
    ((deltaTDaysF_near_all hr hF (era_range I.era).1 (era_range I.era).2).trans (by norm_num)) z0 z1 hn ev st hm

/-- C85, within 3000 years of J2000: at a time returned the body has the altitude asked for. -/
theorem riseset_float_sound_all (hr : Rounding fl) {lib : RiseLib} {N : ℕ} (hl : lib.Good fl N) {jd : ℚ}
    {y d : ℚ × ℚ × ℚ} {u : ℝ × ℝ × ℝ} {lon lat phi h0 delta t : ℚ} {mode : RsMode} (hF : IsF64 jd)
    (era : |(jd : ℝ) - 2451545| ≤ 1100000) (hy : Reduced (castT y) u) (hs : Slow 0.4 0.1 u) (hsd : Slow 0.2 0.1 (castT d))
    (hdec : |(d.2.1 : ℝ)| ≤ 2) (hlon : |(lon : ℝ)| ≤ π) (hh : |(h0 : ℝ)| ≤ 0.5) (hd : (delta : ℝ) ≤ 0.09)
    (hT : |deltaTDays jd| ≤ 0.09) (h : risesetF fl lib jd y d h0 delta mode lon lat phi = .ok (some t)) :
    |altitude phi (hourAngle jd lon (deltaTDays jd) u (t - jd)) (parabola (castT d) (t - jd + deltaTDays jd)) - h0| ≤
      18 * delta + 1e-7 :=
  riseset_float_sound hr.floatLike hl era hy hs hsd hdec hlon hh hd
    ((deltaTDaysF_near_all hr hF (era_range era).1 (era_range era).2).trans (by norm_num)) hT h

/-- The hypotheses are met far from the table of Delta T: in the year 1000, on January 1, the star at right ascension 5 is in the
meridian of longitude 0.5 west between 0.5 and 0.7 day, and the code finds it. -/
example (h : Rounding fl) : ∃ (t : ℚ) (m : ℝ), InMeridian (2086302.5 : ℚ) (0.5 : ℚ) (deltaTDays 2086302.5) (5, 5, 5) m ∧
    0.5 ≤ m ∧ m ≤ 0.7 ∧ transitF fl 2086302.5 (5, 5, 5) 0.001 0.5 = .ok (some t) ∧
    |(t : ℝ) - ((2086302.5 : ℚ) + m)| ≤ 0.000101 := by
  have hp := Real.pi_gt_d20
  have hp' := Real.pi_lt_d20
  norm_num at hp hp'
  obtain ⟨m, hm, m0, m1⟩ := star_transit (jd := ((2086302.5 : ℚ) : ℝ)) (lon := (0.5 : ℚ)) (r := 5) (a := 0.5)
    (b := 0.7) (dT := deltaTDays 2086302.5) (-366242) (by norm_num)
    (by unfold gmstDegrees; push_cast; norm_num; linarith)
    (by unfold gmstDegrees; push_cast; norm_num; linarith)
  have I : TransitInput 2086302.5 (castT (5, 5, 5)) (5, 5, 5) (0.5 : ℚ) := by
    have := star_input (jd := 2086302.5) (lon := (0.5 : ℚ)) (r := 5) (by rw [abs_le]; push_cast; norm_num)
      (by norm_num) (by linarith) (by push_cast; norm_num; linarith) (by push_cast; norm_num; linarith)
    unfold castT
    push_cast
    exact this
  have dT : |deltaTDays 2086302.5| ≤ 0.03 := by
    have : |deltaTSeconds (fun x => x) 2086302.5| ≤ 2592 := by decide +kernel
    unfold deltaTDays
    have := (Rat.cast_le (K := ℝ)).2 this
    push_cast at this
    rw [abs_div, abs_of_pos (by norm_num : (0 : ℝ) < 86400), div_le_iff₀ (by norm_num)]
    norm_num at this ⊢
    exact this
  norm_num at m0 m1
  obtain ⟨t, ht, h⟩ := transit_float_found_all h (jd := 2086302.5) (delta := 0.001)
    ⟨4172605, -1, by norm_num, by norm_num, by norm_num⟩ I (by push_cast; norm_num) (by norm_num) hm
    (by norm_num; linarith) (by norm_num; linarith) (by
      rw [abs_le] at dT ⊢
      norm_num at dT ⊢
      constructor <;> linarith [dT.1, dT.2])
  refine ⟨t, m, hm, by norm_num; linarith, by norm_num; linarith, ht, h.trans ?_⟩
  push_cast
  norm_num

end Verif
