import Verif.Props.Arrays
import Verif.Props.CalToJd
import Verif.Props.DayOfYear
import Verif.Props.Easter
import Verif.Props.FracMonthAll
import Verif.Props.FracYear
import Verif.Props.JdToCal
import Verif.Props.LocalTime
import Verif.Props.TimeOfDay

/-! Concrete cases of the calendar theorems: each hypothesis is met by a date somebody would enter,
with `rne`, rounding to nearest and ties to even, as the rounding of every operation. -/

namespace Verif

open Spec

theorem rne_like : FloatLike rne := rounding_rne.floatLike

private theorem not_exceptional_2024 (m : ℤ) : ¬ Exceptional true 2024 m := by
  rintro ⟨_, c, h⟩; omega

private theorem leap_2024 : jdn true 2024 2 29 = 2460370 := by
  rw [jdn, daysToYear_true]; decide

private theorem last_julian : jdn false 1582 10 4 = 2299160 := by
  rw [jdn, daysToYear_false]; decide

private theorem exceptional_feb : Exceptional true (-99) 2 := ⟨rfl, -100, by norm_num⟩

/-! ### C01: the leap day of 2024 -/

example : calToJd rne [.int 2024] [.int 2] [((29 : ℤ) : ℚ)] true = .ok (.scalar (2460369 + 1 / 2)) := by
  rw [cal_to_jd_gregorian_positive rne_like 2024 2 29 (by norm_num) (by norm_num) (by decide)]
  simp only [jd0, leap_2024]; norm_num

example : calToJd rne [.int 1582] [.int 10] [((4 : ℤ) : ℚ)] false = .ok (.scalar (2299159 + 1 / 2)) := by
  rw [cal_to_jd_julian rne_like 1582 10 4 (by norm_num) (by norm_num) (by decide)]
  simp only [jd0, last_julian]; norm_num

/-- The defect of C01 at a date: 28 February -99 is counted one day late. -/
example : calToJd rne [.int (-99)] [.int 2] [((28 : ℤ) : ℚ)] true =
    .ok (.scalar (jd0 true (-99) 2 28 + 1)) :=
  (cal_to_jd_counts_days rne_like true (-99) 2 28 (by norm_num) (by norm_num) (by decide)).2 exceptional_feb

example : ∃ r, calToJd rne [.int 2024] [.int 2] [12 + 1 / 3] true = .ok (.scalar r) ∧
    |r - (jd0 true 2024 2 1 + (12 + 1 / 3 - 1) + excess true 2024 2)| ≤
      3 * (368 * (|((2024 : ℤ) : ℚ)| + 4717) + 3000) / 2 ^ 52 := by
  have e : monthLen true 2024 2 = 29 := by decide
  simpa using cal_to_jd_error rne_like true 2024 2 (12 + 1 / 3) (by norm_num) (by norm_num) (by norm_num)
    (by norm_num) (by norm_num) (by rw [e]; norm_num)

example : ∃ r, calToJd rne [.int 2024] [.int 2] [12 + 1 / 3] true = .ok (.scalar r) ∧
    jd0 true 2024 2 ⌊(12 + 1 / 3 : ℚ)⌋ + excess true 2024 2 ≤ r ∧
    r ≤ jd0 true 2024 2 ⌊(12 + 1 / 3 : ℚ)⌋ + excess true 2024 2 + 1 := by
  have e : monthLen true 2024 2 = 29 := by decide
  exact cal_to_jd_within_day rne_like true 2024 2 (12 + 1 / 3) (by norm_num) (by norm_num) (by norm_num)
    (by norm_num) (by norm_num) (by rw [e]; norm_num)

/-! ### C02: what is refused -/

example : ∃ r, calToJd rne [.int 2024] [.int 2] [29] true = .ok r :=
  (cal_to_jd_accepts_iff rne_like true 2024 2 29).2 ⟨by norm_num, by norm_num, by norm_num, by norm_num, by
    have : monthLen true 2024 2 = 29 := by decide
    rw [this]; norm_num⟩

example : ¬ ∃ r, calToJd rne [.int 2023] [.int 2] [29] true = .ok r := by
  rw [cal_to_jd_accepts_iff rne_like true 2023 2 29]
  have : monthLen true 2023 2 = 28 := by decide
  rw [this]; norm_num

example : calToJd rne [.int 2023] [.int 2] [29] true = .error (.ValueError (dayMsg 28)) := by
  have e : monthLen true 2023 2 = 28 := by decide
  have := cal_to_jd_message rne_like true 2023 2 29 (by norm_num) (by norm_num) (by norm_num) (by norm_num)
    (by norm_num) (by rw [e]; norm_num)
  rwa [e] at this

/-- Noon of the last day of a month is refused. -/
example : ¬ ∃ r, calToJd rne [.int 2023] [.int 12] [(monthLen true 2023 12 : ℚ) + 1 / 2] true = .ok r :=
  cal_to_jd_refuses_last_day_fraction rne_like true 2023 12 (1 / 2) (by norm_num)

example : calToJd rne [.flt (4047 / 2)] [.int 3] [1] true =
    .error (.ValueError "Year must be integer. Use frac_yr_to_jd instead.") :=
  cal_to_jd_refuses_fractional_year rne_like true (4047 / 2) ⟨4047, -1, by norm_num, by norm_num, by norm_num⟩
    (by norm_num) (fun n h => by
      have : (4047 : ℤ) = 2 * n := by have : (4047 : ℚ) = 2 * n := by linarith
                                      exact_mod_cast this
      omega) (by norm_num) _ _

example : calToJd rne [.int 2023] [.flt (7 / 2)] [1] true =
    .error (.ValueError "Month must be integer. Use yr_frac_mon_to_jd instead.") :=
  cal_to_jd_refuses_fractional_month rne_like true 2023 (by norm_num) (7 / 2)
    ⟨7, -1, by norm_num, by norm_num, by norm_num⟩ (by norm_num) (fun n h => by
      have : (7 : ℤ) = 2 * n := by have : (7 : ℚ) = 2 * n := by linarith
                                   exact_mod_cast this
      omega) (by norm_num) _

example : ∃ r, calToJd rne [.flt (-1 / 2)] [.int 1] [1] true = .ok r :=
  cal_to_jd_accepts_negative_fractional_year rne_like true (-1 / 2) (by norm_num) (by norm_num)

/-! ### C03, C04: from Julian Day to date and back -/

example : jdToCal rne [2460369 + 1 / 2] true = (.scalar 2024, .scalar 2, .scalar 29) := by
  obtain ⟨jd, h, h'⟩ := jd_to_cal_cal_to_jd rne_like true 2024 2 29 (by norm_num) (by norm_num) (by decide)
    (not_exceptional_2024 2) (by decide)
  rw [cal_to_jd_gregorian_positive rne_like 2024 2 29 (by norm_num) (by norm_num) (by decide)] at h
  have e : jd = 2460369 + 1 / 2 := by
    have := (Out.scalar.inj (Except.ok.inj h)).symm
    rw [jd0, leap_2024] at this
    rw [this]; norm_num
  rw [← e, h']; norm_num

/-- 1 March 300 comes back as 29 February 300, a day the calendar does not have. -/
example : ∃ jd, calToJd rne [.int 300] [.int 3] [((1 : ℤ) : ℚ)] true = .ok (.scalar jd) ∧
    jdToCal rne [jd] true = (.scalar 300, .scalar 2, .scalar 29) ∧ ¬ Valid true 300 2 29 :=
  jd_to_cal_cal_to_jd_bad rne_like true 300 3 1 (by norm_num) (by decide) (by rintro ⟨_, c, h⟩; omega)

/-- 27 February -99 comes back as 28 February. -/
example : ∃ jd, calToJd rne [.int (-99)] [.int 2] [((27 : ℤ) : ℚ)] true = .ok (.scalar jd) ∧
    jdToCal rne [jd] true = (.scalar (-99), .scalar 2, .scalar 28) := by
  have e : next true (-99) 2 27 = (-99, 2, 28) := by decide
  have := jd_to_cal_cal_to_jd_exceptional rne_like true (-99) 2 27 (by norm_num) (by decide) exceptional_feb
  rw [e] at this; simpa using this

example : ∃ y m d f, Valid true y m d ∧ 0 ≤ f ∧ f < 1 ∧ (2460370 + 1 / 4 : ℚ) = jd0 true y m d + f ∧
    jdToCal rne [2460370 + 1 / 4] true = (.scalar y, .scalar m, .scalar (d + f)) ∧
    (d < monthLen true y m ∨ f = 0 → calToJd rne [.int y] [.int m] [d + f] true = .ok (.scalar (2460370 + 1 / 4))) ∧
    (d = monthLen true y m → f ≠ 0 → ∃ msg, calToJd rne [.int y] [.int m] [d + f] true = .error (.ValueError msg)) :=
  cal_to_jd_jd_to_cal_modern rne_like true (2460370 + 1 / 4) ⟨9841481, -2, by norm_num, by norm_num, by norm_num⟩
    (by norm_num) (by norm_num)

/-! ### C05: order -/

example : ∃ r r', calToJd rne [.int 1999] [.int 12] [((31 : ℤ) : ℚ)] true = .ok (.scalar r) ∧
    calToJd rne [.int 2000] [.int 1] [((1 : ℤ) : ℚ)] true = .ok (.scalar r') ∧ r < r' :=
  cal_to_jd_strictMono rne_like true 1999 12 31 2000 1 1 (by norm_num) (by norm_num) (by norm_num) (by norm_num)
    (by decide) (by decide) (Or.inl (by norm_num)) (by rintro ⟨_, c, h⟩; omega)

example : ∃ r, calToJd rne [.int 2023] [.int 12] [((31 : ℤ) : ℚ)] true = .ok (.scalar r) ∧
    calToJd rne [.int 2024] [.int 1] [((1 : ℤ) : ℚ)] true = .ok (.scalar (r + 1)) := by
  have e : next true 2023 12 31 = (2024, 1, 1) := by decide
  have := cal_to_jd_next_day rne_like true 2023 12 31 (by norm_num) (by norm_num) (by decide) (by
    rw [e]; constructor <;> rintro ⟨_, c, h⟩ <;> omega)
  rwa [e] at this

/-! ### C06: arrays -/

example : ∃ r, calToJd rne [.int 1987] [.int 4, .int 6] [10, 19] true = .ok r := by
  rw [cal_to_jd_array_accepts rne true _ _ _ 2 (by norm_num) ⟨by simp, by simp⟩]
  intro i hi
  obtain rfl | rfl : i = 0 ∨ i = 1 := by omega
  · exact ⟨_, _, _, _, rfl, rfl, rfl, (cal_to_jd_gregorian_positive rne_like 1987 4 10 (by norm_num) (by norm_num)
      (by decide) :)⟩
  · exact ⟨_, _, _, _, rfl, rfl, rfl, (cal_to_jd_gregorian_positive rne_like 1987 6 19 (by norm_num) (by norm_num)
      (by decide) :)⟩

/-! ### C08, C09, C10: day of the year and day of the week -/

example : calToDayOfYear rne [.int 2024] [.int 12] [.int 31] true = .ok (.scalar 366) := by
  rw [cal_to_day_of_year_eq rne_like true 2024 12 31 (by decide)]; decide

example : dayOfYearToCal rne [.int 2024] [.int 60] true = .ok (.scalar 2, .scalar 29) := by
  obtain ⟨m, d, e, hv, hd, hu⟩ := day_of_year_to_cal_spec rne_like true 2024 60 (by norm_num) (by decide)
  obtain ⟨rfl, rfl⟩ := hu 2 29 (by decide) (by decide)
  exact e

/-- 29 February 2024 was a Thursday. -/
example : jdToDayOfWeek rne [((2460370 : ℤ) : ℚ) - 1 / 2] = .scalar 4 :=
  jd_to_day_of_week_midnight rne_like 2460370 (by norm_num) (by norm_num)

example : jdToDayOfWeek rne [2460370 + 1 / 4] = .scalar 4 := by
  rw [jd_to_day_of_week_binary64 rne_like (2460370 + 1 / 4) ⟨9841481, -2, by norm_num, by norm_num, by norm_num⟩
    21 (by norm_num) (by norm_num) (by norm_num) (by norm_num)]
  have : ⌊(2460370 + 1 / 4 + 1 / 2 : ℚ)⌋ = 2460370 := by rw [Int.floor_eq_iff]; norm_num
  rw [this]; rfl

/-! ### C11, C12: Easter of 2024 -/

example {m d : ℤ} (h : IsEaster true 2024 m d) : m = 3 ∧ d = 31 := by
  obtain ⟨m', d', e, h'⟩ := easter_spec true 2024
  have := e.symm.trans easter_2024.1
  simp only [Prod.mk.injEq, Out.scalar.injEq] at this
  obtain ⟨rfl, rfl⟩ := this
  exact isEaster_unique true 2024 _ _ _ _ h h'

/-! ### C15, C16: fractional years and months -/

example : fracYrToJd (fun x => x) [.flt (2024 + 1 / 2)] true = .ok (.scalar (jd0 true 2024 1 1 + 183)) := by
  have := frac_yr_to_jd_exact 2024 (1 / 2) true (by norm_num) (by norm_num) (by norm_num) (by norm_num)
  have e : yearLen true 2024 = 366 := by decide
  rw [e] at this
  have e2 : ((366 : ℤ) : ℚ) * (1 / 2) = 183 := by norm_num
  rw [e2] at this
  exact_mod_cast this

example : ∃ a b, fracYrToJd rne [.flt 2000] true = .ok (.scalar a) ∧
    fracYrToJd rne [.flt (2000 + 1 / 4)] true = .ok (.scalar b) ∧ a ≤ b :=
  frac_yr_to_jd_mono rne_like _ _ true true (rne_like.fix _ ⟨0, 0, by norm_num, by norm_num, by norm_num⟩)
    (rne_like.fix _ ⟨1, -2, by norm_num, by norm_num, by
      have : ⌊(2000 + 1 / 4 : ℚ)⌋ = 2000 := by rw [Int.floor_eq_iff]; norm_num
      rw [this]; norm_num⟩) (by norm_num) (by norm_num) (by norm_num)

/-- The middle of February 2024. -/
example : yrFracMonToJd rne [2024] [((2 : ℤ) : ℚ) + 1 / 2] true =
    .ok (.scalar (rne (jd0 true 2024 2 1 + rne (monthLen true 2024 2 * (1 / 2))))) :=
  yr_frac_mon_to_jd_float rne_like 2024 2 (1 / 2) true (by norm_num) (by norm_num) (by norm_num) (by norm_num)
    (by norm_num) (by norm_num) (rne_like.fix _ ⟨1, -1, by norm_num, by norm_num, by norm_num⟩)

example : ∃ msg, yrFracMonToJd rne [2024] [13] true = .error (.ValueError msg) :=
  yr_frac_mon_to_jd_refuses rne 2024 13 true (Or.inr le_rfl)

/-! ### C17, C19, C20: the time of day -/

example : ∃ hr mn sec : ℤ, fdayToHms rne (hmsToFday1 rne (23 : ℤ) (59 : ℤ) (59 : ℤ)) = (hr, (mn : ℚ), sec) ∧
    0 ≤ hr ∧ hr ≤ 23 ∧ 0 ≤ mn ∧ mn ≤ 59 ∧ 0 ≤ sec ∧ sec ≤ 59 ∧
    (3600 * hr + 60 * mn + sec = 3600 * 23 + 60 * 59 + 59 ∨ 3600 * hr + 60 * mn + sec = 3600 * 23 + 60 * 59 + 59 - 1) :=
  hms_round_trip_float (Or.inl rounding_rne) 23 59 59 (by norm_num) (by norm_num) (by norm_num) (by norm_num)
    (by norm_num) (by norm_num)

example : ∃ r, calToJde rne [.int 2024] [.int 2] [((29 : ℤ) : ℚ)] [17] [30] [59 / 2] true = .ok (.scalar r) ∧
    |r - (jd0 true 2024 2 29 + 17 / 24 + 30 / 1440 + 59 / 2 / 86400)| ≤ (|jd0 true 2024 2 29| + 16) / 2 ^ 52 :=
  cal_to_jde_error rne_like true 2024 2 29 17 30 (59 / 2) (by norm_num) (by norm_num) (by decide)
    (not_exceptional_2024 2) (by norm_num) (by norm_num) (by norm_num)

/-- Half past noon of the leap day of 2024, to the minute, in exact arithmetic. -/
example : ltToStr (fun x => x) (2460370 + 1 / 48) "EST" "minute" = .ok "2024-02-29 12:30.0 EST" := by
  obtain ⟨y, m, d, hr, mn, sec, hv, hj, h1, h2, m1, m2, s1, s2, ht, hs⟩ :=
    lt_to_str_exact (2460370 + 1 / 48) (by norm_num) (by norm_num)
  have e : ⌊(2460370 + 1 / 48 + 1 / 2 : ℚ)⌋ = 2460370 := by rw [Int.floor_eq_iff]; norm_num
  have e2 : Int.fract (2460370 + 1 / 48 + 1 / 2 : ℚ) = 25 / 48 := by
    rw [Int.fract, e]; norm_num
  have e3 : ⌊(25 / 48 * 86400 : ℚ)⌋ = 45000 := by rw [Int.floor_eq_iff]; norm_num
  rw [e] at hj; rw [e2, e3] at ht
  obtain ⟨y0, m0, d0, _, _, hu⟩ := jd_to_cal_total true 2460370 (by norm_num)
  have a := hu y m d hv hj
  have b := hu 2024 2 29 (by decide) leap_2024
  rw [← b] at a
  simp only [Prod.mk.injEq] at a
  obtain ⟨rfl, rfl, rfl⟩ := a
  obtain rfl : hr = 12 := by omega
  obtain rfl : mn = 30 := by omega
  obtain rfl : sec = 0 := by omega
  rw [hs (by decide)]
  decide +kernel

end Verif
