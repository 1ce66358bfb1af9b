import Verif.Props.CalToJd
import Verif.Lemmas.AddHalf

/-!
# C08, C09, C10: day of the year and day of the week
-/

namespace Verif
open Spec

/-! ### C08 -/

theorem calToDayOfYear1_eq {fl : ℚ → ℚ} (h : FloatLike fl) (g : Bool) (y m d : ℤ)
    (h1 : 1 ≤ m) (h2 : m ≤ 12) : calToDayOfYear1 fl y m d g = dayOfYear g y m d := by
  have a1 : trunc (fl ((275 * m : ℤ) / 9)) = 275 * m / 9 := by
    have := h.trunc_div_nat (a := 275 * m) (b := 9) (by omega) (by omega) (by norm_num)
    simpa using this
  have a2 : trunc (fl ((m + 9 : ℤ) / 12)) = (m + 9) / 12 := by
    have := h.trunc_div_nat (a := m + 9) (b := 12) (by omega) (by omega) (by norm_num)
    simpa using this
  unfold calToDayOfYear1
  simp only [a1, a2, isLeapYear1_eq]
  rw [dayOfYear_eq g y m d h1 (by omega)]
  unfold leapDay
  by_cases hl : IsLeap g y
  · rw [if_pos (decide_eq_true hl), if_pos hl]
    interval_cases m <;> norm_num <;> ring
  · rw [if_neg (by simpa using hl), if_neg hl]
    interval_cases m <;> norm_num <;> ring

/-- C08: `cal_to_day_of_year` is the number of days of the preceding months plus the day. -/
theorem cal_to_day_of_year_eq {fl : ℚ → ℚ} (h : FloatLike fl) (g : Bool) (y m d : ℤ)
    (hv : Valid g y m d) :
    calToDayOfYear fl [.int y] [.int m] [.int d] g = .ok (.scalar (dayOfYear g y m d)) := by
  simp [calToDayOfYear, bcast3, bdim, stretch, scalarIfOne, Num.toInt,
    calToDayOfYear1_eq h g y m d hv.1 hv.2.1]

/-- C08: it lies between 1 and the length of the year. -/
theorem cal_to_day_of_year_range {fl : ℚ → ℚ} (h : FloatLike fl) (g : Bool) (y m d : ℤ)
    (hv : Valid g y m d) :
    ∃ n, calToDayOfYear fl [.int y] [.int m] [.int d] g = .ok (.scalar n) ∧ 1 ≤ n ∧
      n ≤ if IsLeap g y then 366 else 365 :=
  ⟨_, cal_to_day_of_year_eq h g y m d hv, (dayOfYear_bounds hv).1, (dayOfYear_bounds hv).2⟩

/-- C08: it is the difference of the Julian Days of the date and of 1 January, plus one, wherever
`cal_to_jd` counts both correctly or both one too large. -/
theorem cal_to_day_of_year_cal_to_jd {fl : ℚ → ℚ} (h : FloatLike fl) (g : Bool) (y m d : ℤ)
    (hy1 : -4715 ≤ y) (hy2 : y < 2 ^ 31) (hv : Valid g y m d)
    (hx : Exceptional g y m ↔ Exceptional g y 1) :
    ∃ (n : ℤ) (a b : ℚ), calToDayOfYear fl [.int y] [.int m] [.int d] g = .ok (.scalar n) ∧
      calToJd fl [.int y] [.int m] [(d : ℚ)] g = .ok (.scalar a) ∧
      calToJd fl [.int y] [.int 1] [((1 : ℤ) : ℚ)] g = .ok (.scalar b) ∧ (n : ℚ) = a - b + 1 := by
  have hv1 : Valid g y 1 1 := by
    have := monthLen_ge g y 1; refine ⟨?_, ?_, ?_, ?_⟩ <;> omega
  refine ⟨_, _, _, cal_to_day_of_year_eq h g y m d hv,
    cal_to_jd_whole_day h g y m d (by omega) hy2 hv,
    cal_to_jd_whole_day h g y 1 1 (by omega) hy2 hv1, ?_⟩
  have e : (excess g y m : ℤ) = excess g y 1 := by
    have e1 := excess_eq g y m hy1
    have e2 := excess_eq g y 1 hy1
    by_cases hm : Exceptional g y m
    · rw [e1.1 hm, e2.1 (hx.mp hm)]
    · rw [e1.2 hm, e2.2 (mt hx.mpr hm)]
  rw [e]
  unfold jd0 jdn
  rw [dayOfYear_1]
  push_cast; ring

example : Valid true 2024 2 29 ∧ (Exceptional true 2024 2 ↔ Exceptional true 2024 1) := by
  refine ⟨by decide, ?_⟩
  constructor <;> rintro ⟨_, c, h1, h2, h3, h4⟩ <;> omega

/-! ### C09 -/

/-- The month formula on whole day numbers: the float computation agrees with integer division,
since the exact value is never closer than 1/550 to an integer. -/
theorem month_formula {fl : ℚ → ℚ} (h : FloatLike fl) (K N : ℤ) (h0 : 0 ≤ K + N)
    (h1 : K + N ≤ 1000) :
    trunc (fl (fl (fl (9 * fl ((K : ℚ) + N)) / 275) + fl (98 / 100))) =
      (18 * (K + N) + 539) / 550 := by
  have e1 : fl ((K : ℚ) + N) = ((K + N : ℤ) : ℚ) := by
    rw [← Int.cast_add]; exact h.int (by rw [abs_le]; omega)
  have e2 : fl (9 * ((K + N : ℤ) : ℚ)) = ((9 * (K + N) : ℤ) : ℚ) := by
    rw [show (9 : ℚ) * ((K + N : ℤ) : ℚ) = ((9 * (K + N) : ℤ) : ℚ) by push_cast; ring]
    exact h.int (by rw [abs_le]; omega)
  rw [e1, e2]
  set t := K + N
  have t0 : (0 : ℚ) ≤ t := by exact_mod_cast h0
  have t1 : (t : ℚ) ≤ 1000 := by exact_mod_cast h1
  have b1 : |((9 * t : ℤ) : ℚ) / 275| ≤ 64 := by
    push_cast; rw [abs_le]; constructor <;> linarith
  have b2 : |(98 / 100 : ℚ)| ≤ 1 := by norm_num [abs_le]
  have l1 := h.lo (by norm_num) b1
  have u1 := h.hi (by norm_num) b1
  have l2 := h.lo (by norm_num) b2
  have u2 := h.hi (by norm_num) b2
  set a := fl (((9 * t : ℤ) : ℚ) / 275)
  set b := fl (98 / 100)
  push_cast at l1 u1
  norm_num at l1 u1 l2 u2
  have b3 : |a + b| ≤ 128 := by rw [abs_le]; constructor <;> linarith
  have l3 := h.lo (by norm_num) b3
  have u3 := h.hi (by norm_num) b3
  norm_num at l3 u3
  set q := (18 * t + 539) / 550 with hq
  have hq1 : 550 * q + 1 ≤ 18 * t + 539 := by omega
  have hq2 : 18 * t + 539 ≤ 550 * q + 549 := by omega
  have hq1' : (550 * q + 1 : ℚ) ≤ 18 * t + 539 := by exact_mod_cast hq1
  have hq2' : (18 * t + 539 : ℚ) ≤ 550 * q + 549 := by exact_mod_cast hq2
  apply trunc_eq
  · linarith
  · linarith
  · linarith

theorem dayOfYearToCal1_eq {fl : ℚ → ℚ} (h : FloatLike fl) (g : Bool) (y n : ℤ)
    (h1 : 1 ≤ n) (h2 : n ≤ yearLen g y) :
    ∃ m d, dayOfYearToCal1 fl y n g = (m, d) ∧ Valid g y m d ∧ dayOfYear g y m d = n := by
  set K : ℤ := if IsLeap g y then 1 else 2 with hK
  have hKc : (IsLeap g y ∧ K = 1) ∨ (¬ IsLeap g y ∧ K = 2) := by
    by_cases hl : IsLeap g y
    · exact .inl ⟨hl, if_pos hl⟩
    · exact .inr ⟨hl, if_neg hl⟩
  have hyl : yearLen g y = 367 - K := by
    rcases hKc with ⟨hl, e⟩ | ⟨hl, e⟩ <;> rw [e] <;> simp [yearLen, hl]
  have hKq : (if isLeapYear1 y g then (1 : ℚ) else 2) = (K : ℚ) := by
    rw [isLeapYear1_eq]
    rcases hKc with ⟨hl, e⟩ | ⟨hl, e⟩ <;> rw [e] <;> simp [hl]
  have hKb : K = 1 ∨ K = 2 := by rcases hKc with ⟨_, e⟩ | ⟨_, e⟩ <;> simp [e]
  have hm := month_formula h K n (by omega) (by omega)
  set mon : ℤ := if n < 32 then 1 else (18 * (K + n) + 539) / 550 with hmon
  have hmb : 1 ≤ mon ∧ mon ≤ 12 := by
    rw [hmon]; split_ifs <;> omega
  have a1 : trunc (fl ((275 * mon : ℤ) / 9)) = 275 * mon / 9 := by
    have := h.trunc_div_nat (a := 275 * mon) (b := 9) (by omega) (by omega) (by norm_num)
    simpa using this
  have a2 : trunc (fl ((mon + 9 : ℤ) / 12)) = (mon + 9) / 12 := by
    have := h.trunc_div_nat (a := mon + 9) (b := 12) (by omega) (by omega) (by norm_num)
    simpa using this
  have hval : dayOfYearToCal1 fl y n g =
      (mon, n - 275 * mon / 9 + K * ((mon + 9) / 12) + 30) := by
    unfold dayOfYearToCal1
    simp only [hKq, hm]
    have hc : ((n : ℚ) < 32) ↔ n < 32 := by exact_mod_cast Iff.rfl
    simp only [hc, ← hmon, a1, a2]
    have hp : 0 ≤ (mon + 9) / 12 ∧ (mon + 9) / 12 ≤ 1 := by omega
    have hkp : 0 ≤ K * ((mon + 9) / 12) ∧ K * ((mon + 9) / 12) ≤ 2 := by
      rcases hKb with e | e <;> rw [e] <;> omega
    have f1 : fl ((n : ℚ) - ((275 * mon / 9 : ℤ) : ℚ)) = ((n - 275 * mon / 9 : ℤ) : ℚ) := by
      rw [← Int.cast_sub]; exact h.int (by rw [abs_le]; omega)
    have f2 : fl ((K : ℚ) * (((mon + 9) / 12 : ℤ) : ℚ)) = ((K * ((mon + 9) / 12) : ℤ) : ℚ) := by
      rw [← Int.cast_mul]; exact h.int (by rw [abs_le]; omega)
    rw [f1, f2]
    have f3 : fl (((n - 275 * mon / 9 : ℤ) : ℚ) + ((K * ((mon + 9) / 12) : ℤ) : ℚ)) =
        ((n - 275 * mon / 9 + K * ((mon + 9) / 12) : ℤ) : ℚ) := by
      rw [← Int.cast_add]; exact h.int (by rw [abs_le]; omega)
    rw [f3]
    have f4 : fl (((n - 275 * mon / 9 + K * ((mon + 9) / 12) : ℤ) : ℚ) + 30) =
        ((n - 275 * mon / 9 + K * ((mon + 9) / 12) + 30 : ℤ) : ℚ) := by
      rw [show ((n - 275 * mon / 9 + K * ((mon + 9) / 12) : ℤ) : ℚ) + 30 =
        ((n - 275 * mon / 9 + K * ((mon + 9) / 12) + 30 : ℤ) : ℚ) by push_cast; ring]
      exact h.int (by rw [abs_le]; omega)
    rw [f4, trunc_intCast]
  refine ⟨_, _, hval, ?_, ?_⟩
  · refine ⟨hmb.1, hmb.2, ?_⟩
    rw [monthLen_eq]
    unfold leapDay
    obtain ⟨m1, m2⟩ := hmb
    rw [hyl] at h2
    clear_value mon
    rcases hKc with ⟨hl, e⟩ | ⟨hl, e⟩ <;> rw [e] at hmon h2 ⊢ <;> simp only [hl, if_true, if_false] <;>
      split_ifs at hmon <;> interval_cases mon <;> norm_num <;> omega
  · rw [dayOfYear_eq g y mon _ hmb.1 (by omega)]
    unfold leapDay
    obtain ⟨m1, m2⟩ := hmb
    rw [hyl] at h2
    clear_value mon
    rcases hKc with ⟨hl, e⟩ | ⟨hl, e⟩ <;> rw [e] at hmon h2 ⊢ <;> simp only [hl, if_true, if_false] <;>
      split_ifs at hmon <;> interval_cases mon <;> norm_num <;> omega

/-- Day numbers determine the date within a year. -/
theorem dayOfYear_inj {g : Bool} {y m d m' d' : ℤ} (h : Valid g y m d) (h' : Valid g y m' d')
    (e : dayOfYear g y m d = dayOfYear g y m' d') : m = m' ∧ d = d' := by
  have : jdn g y m d = jdn g y m' d' := by unfold jdn; rw [e]
  exact (jdn_inj h h' this).2

/-- C09: for every day number of the year, `day_of_year_to_cal` returns a valid month and day with
that day number; there is only one. -/
theorem day_of_year_to_cal_spec {fl : ℚ → ℚ} (h : FloatLike fl) (g : Bool) (y n : ℤ)
    (h1 : 1 ≤ n) (h2 : n ≤ if IsLeap g y then 366 else 365) :
    ∃ m d, dayOfYearToCal fl [.int y] [.int n] g = .ok (.scalar m, .scalar d) ∧
      Valid g y m d ∧ dayOfYear g y m d = n ∧
      ∀ m' d', Valid g y m' d' → dayOfYear g y m' d' = n → m' = m ∧ d' = d := by
  obtain ⟨m, d, e, hv, hn⟩ := dayOfYearToCal1_eq h g y n h1 h2
  refine ⟨m, d, ?_, hv, hn, fun m' d' hv' hn' => dayOfYear_inj hv' hv (hn'.trans hn.symm)⟩
  simp [dayOfYearToCal, bcast2, bdim, stretch, scalarIfOne, Num.toInt, Num.val, e]

/-- C09: `day_of_year_to_cal` inverts `cal_to_day_of_year` on valid dates ... -/
theorem day_of_year_round_trip {fl : ℚ → ℚ} (h : FloatLike fl) (g : Bool) (y m d : ℤ)
    (hv : Valid g y m d) :
    ∃ n, calToDayOfYear fl [.int y] [.int m] [.int d] g = .ok (.scalar n) ∧
      dayOfYearToCal fl [.int y] [.int n] g = .ok (.scalar m, .scalar d) := by
  refine ⟨_, cal_to_day_of_year_eq h g y m d hv, ?_⟩
  obtain ⟨m', d', e, -, -, hu⟩ := day_of_year_to_cal_spec h g y _ (dayOfYear_bounds hv).1
    (dayOfYear_bounds hv).2
  obtain ⟨rfl, rfl⟩ := hu m d hv rfl
  exact e

/-- C09: ... and conversely on day numbers of the year. -/
theorem day_of_year_round_trip' {fl : ℚ → ℚ} (h : FloatLike fl) (g : Bool) (y n : ℤ)
    (h1 : 1 ≤ n) (h2 : n ≤ if IsLeap g y then 366 else 365) :
    ∃ m d, dayOfYearToCal fl [.int y] [.int n] g = .ok (.scalar m, .scalar d) ∧
      calToDayOfYear fl [.int y] [.int m] [.int d] g = .ok (.scalar n) := by
  obtain ⟨m, d, e, hv, hn, -⟩ := day_of_year_to_cal_spec h g y n h1 h2
  exact ⟨m, d, e, by rw [cal_to_day_of_year_eq h g y m d hv, hn]⟩

/-- C09, fractional day numbers are not supported: late on 28 February of a common year the
result is "0 March". -/
theorem day_of_year_to_cal_fraction :
    dayOfYearToCal (fun x => x) [.int 2023] [.flt (599 / 10)] true = .ok (.scalar 3, .scalar 0) := by
  have e : isLeapYear1 2023 true = false := by decide
  simp only [dayOfYearToCal, bcast2, bdim, stretch, scalarIfOne, Num.toInt, Num.val,
    dayOfYearToCal1, List.length_cons, List.length_nil, if_true, List.replicate, List.zip_cons_cons,
    List.zip_nil_right, List.map_cons, List.map_nil, e]
  norm_num [trunc]

example : (366 : ℤ) ≤ if IsLeap true 2024 then 366 else 365 := by decide

/-! ### C10 -/

/-- C10: the weekday (0 = Sunday) of the civil day containing `jd`: the integer `⌊jd + 1/2⌋ + 1`
modulo 7, whenever `jd` is not within a rounding error of the following midnight. -/
theorem jd_to_day_of_week_eq {fl : ℚ → ℚ} (h : FloatLike fl) (jd : ℚ) (h0 : -1 / 2 ≤ jd)
    (h1 : jd ≤ 2 ^ 50) (hm : Int.fract (jd + 1 / 2) < 1 - (jd + 3 / 2) / 2 ^ 52) :
    jdToDayOfWeek fl [jd] = .scalar ((⌊jd + 1 / 2⌋ + 1) % 7) := by
  have hf := Int.self_sub_floor (jd + 1 / 2)
  have f1 := Int.floor_le (jd + 1 / 2)
  have f0 : 0 ≤ ⌊jd + 1 / 2⌋ := Int.floor_nonneg.mpr (by linarith)
  have f0q : (0 : ℚ) ≤ ⌊jd + 1 / 2⌋ := by exact_mod_cast f0
  have f2 : ⌊jd + 1 / 2⌋ + 1 ≤ 2 ^ 53 := by
    have : (⌊jd + 1 / 2⌋ : ℚ) ≤ (2 ^ 51 : ℤ) := by push_cast; linarith
    have : ⌊jd + 1 / 2⌋ ≤ 2 ^ 51 := by exact_mod_cast this
    omega
  have hu := h.hi (x := jd + 3 / 2) (B := jd + 3 / 2) (by linarith)
    (by rw [abs_of_nonneg (by linarith)])
  have hl := h.int_le (n := ⌊jd + 1 / 2⌋ + 1) (x := jd + 3 / 2) (by rw [abs_le]; omega)
    (by push_cast; linarith)
  push_cast at hl
  have : trunc (fl (jd + 3 / 2)) = ⌊jd + 1 / 2⌋ + 1 := by
    apply trunc_eq
    · linarith
    · push_cast; exact hl
    · push_cast; linarith
  simp [jdToDayOfWeek, scalarIfOne, jdToDayOfWeek1, this]

/-- C10 in exact arithmetic, without exceptions. -/
theorem jd_to_day_of_week_exact (jd : ℚ) (h0 : -1 / 2 ≤ jd) :
    jdToDayOfWeek (fun x => x) [jd] = .scalar ((⌊jd + 1 / 2⌋ + 1) % 7) := by
  have : jd + 3 / 2 = jd + 1 / 2 + 1 := by ring
  simp only [jdToDayOfWeek, scalarIfOne, jdToDayOfWeek1, List.map_cons, List.map_nil]
  rw [trunc_of_nonneg (by linarith), this, Int.floor_add_one]

/-- C10 in binary64: no exception when `jd` and `jd + 3/2` are in the same binade, in particular
for all Julian Days from 2097152 (1029) to 4194302.5 (6771). -/
theorem jd_to_day_of_week_binary64 {fl : ℚ → ℚ} (h : FloatLike fl) (jd : ℚ) (hF : IsF64 jd)
    (k : ℕ) (hk : 1 ≤ k) (hk2 : k ≤ 51) (h0 : 2 ^ k ≤ jd) (h1 : jd + 3 / 2 ≤ 2 ^ (k + 1)) :
    jdToDayOfWeek fl [jd] = .scalar ((⌊jd + 1 / 2⌋ + 1) % 7) := by
  have hp : (0 : ℚ) < 2 ^ k := by positivity
  have i1 := isF64_add_half hF k hk2 h0 (by linarith)
  have i2 := isF64_add_half i1 k hk2 (by linarith) (by linarith)
  have i3 := isF64_add_half i2 k hk2 (by linarith) (by linarith)
  have e : jd + 1 / 2 + 1 / 2 + 1 / 2 = jd + 3 / 2 := by ring
  rw [e] at i3
  rw [← jd_to_day_of_week_exact jd (by linarith)]
  simp only [jdToDayOfWeek, scalarIfOne, jdToDayOfWeek1, List.map_cons, List.map_nil, h.fix _ i3]

/-- C10: the weekday of a civil date at 0h, for both calendars, starting from Monday,
1 January -4712 (Julian calendar). -/
theorem jd_to_day_of_week_midnight {fl : ℚ → ℚ} (h : FloatLike fl) (n : ℤ) (h0 : 0 ≤ n)
    (h1 : n ≤ 2 ^ 50) : jdToDayOfWeek fl [(n : ℚ) - 1 / 2] = .scalar ((n + 1) % 7) := by
  have hq : (n : ℚ) ≤ 2 ^ 50 := by exact_mod_cast h1
  have hq0 : (0 : ℚ) ≤ n := by exact_mod_cast h0
  have e : (n : ℚ) - 1 / 2 + 1 / 2 = n := by ring
  rw [jd_to_day_of_week_eq h _ (by linarith) (by linarith)]
  · rw [e, Int.floor_intCast]
  · rw [e, Int.fract_intCast]; linarith

/-- C10: always a number from 0 to 6, whatever the argument. -/
theorem jd_to_day_of_week_range (fl : ℚ → ℚ) (jd : ℚ) :
    ∃ w, jdToDayOfWeek fl [jd] = .scalar w ∧ 0 ≤ w ∧ w ≤ 6 := by
  refine ⟨_, rfl, ?_, ?_⟩
  · exact Int.emod_nonneg _ (by norm_num)
  · have := Int.emod_lt_of_pos (trunc (fl (jd + 3 / 2))) (show (0 : ℤ) < 7 by norm_num)
    exact Int.lt_add_one_iff.mp this

/-- C10: consecutive calendar days have consecutive weekdays (modulo 7), and after seven days the
weekday repeats. -/
theorem jd_to_day_of_week_next {fl : ℚ → ℚ} (h : FloatLike fl) (g : Bool) (y m d : ℤ)
    (hv : Valid g y m d) (h0 : 0 ≤ jdn g y m d) (h1 : jdn g y m d ≤ 2 ^ 49) :
    ∃ w, jdToDayOfWeek fl [jd0 g y m d] = .scalar w ∧
      jdToDayOfWeek fl [jd0 g (next g y m d).1 (next g y m d).2.1 (next g y m d).2.2] =
        .scalar ((w + 1) % 7) ∧
      jdToDayOfWeek fl [jd0 g y m d + 7] = .scalar w := by
  have e := jdn_next g y m d hv
  refine ⟨_, jd_to_day_of_week_midnight h _ h0 (by omega), ?_, ?_⟩
  · unfold jd0
    rw [jd_to_day_of_week_midnight h _ (by omega) (by omega), e]
    congr 1; omega
  · have : jd0 g y m d + 7 = ((jdn g y m d + 7 : ℤ) : ℚ) - 1 / 2 := by
      unfold jd0; push_cast; ring
    rw [this, jd_to_day_of_week_midnight h _ (by omega) (by omega)]
    congr 1; omega

/-- C10: 1 January 2000 was a Saturday. -/
theorem jd_to_day_of_week_j2000 {fl : ℚ → ℚ} (h : FloatLike fl) :
    jdToDayOfWeek fl [jd0 true 2000 1 1] = .scalar 6 := by
  have e : jdn true 2000 1 1 = 2451545 := by
    have := j2000; unfold jd0 at this
    have : (jdn true 2000 1 1 : ℚ) = (2451545 : ℤ) := by push_cast; linarith
    exact_mod_cast this
  unfold jd0
  rw [jd_to_day_of_week_midnight h _ (by omega) (by omega), e]
  rfl

end Verif
