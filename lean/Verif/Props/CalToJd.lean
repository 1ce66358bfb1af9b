import Verif.Lemmas.CalToJd
import Mathlib.Tactic.LinearCombination

/-!
# C01, C02, C05, C07: `cal_to_jd` and `is_leap_year`

All theorems hold for every `FloatLike fl`: exact arithmetic and every IEEE binary64 rounding
(`Rounding.floatLike`).
-/

namespace Verif
open Spec

/-! ### C07 -/

/-- C07: `is_leap_year` is the leap year rule, for every integer year of either sign. -/
theorem is_leap_year_iff (g : Bool) (y : ℤ) :
    isLeapYear [.int y] g = .scalar (decide (IsLeap g y)) := by
  have e : ∀ n : ℤ, (Int.tmod y n = 0 ↔ n ∣ y) := fun n => Int.dvd_iff_tmod_eq_zero.symm
  have h400 : (400 : ℤ) ∣ y → (100 : ℤ) ∣ y := fun h => Dvd.dvd.trans (by norm_num) h
  simp only [isLeapYear, List.map_cons, List.map_nil, scalarIfOne, Num.toInt]
  congr 1
  cases g
  · rw [Bool.eq_iff_iff]; simp [isLeapYear1, IsLeap, e]
  · rw [Bool.eq_iff_iff]; simp [isLeapYear1, IsLeap, e]
    try tauto

example : isLeapYear [.int (-100)] true = .scalar false ∧ isLeapYear [.int (-400)] true = .scalar true
    ∧ isLeapYear [.int (-100)] false = .scalar true := by
  simp only [is_leap_year_iff]; decide

theorem isLeapYear1_eq (g : Bool) (y : ℤ) : isLeapYear1 y g = decide (IsLeap g y) := by
  have := is_leap_year_iff g y
  simpa [isLeapYear, scalarIfOne, Num.toInt] using this

/-! ### Evaluation of the scalar call -/

theorem checkInt_int {fl : ℚ → ℚ} (h : FloatLike fl) (n : ℤ) (msg : String) :
    checkInt fl [.int n] msg = if n < 2 ^ 31 then .ok () else .error (.ValueError msg) := by
  have hb : n - Int.bmod n (2 ^ 32) ≤ 0 ∧ n < 2 ^ 31 ∨ 1 ≤ n - Int.bmod n (2 ^ 32) ∧ 2 ^ 31 ≤ n := by
    unfold Int.bmod; norm_num; split_ifs <;> omega
  have hc : (n : ℚ) - (Int.bmod n (2 ^ 32) : ℤ) = ((n - Int.bmod n (2 ^ 32) : ℤ) : ℚ) := by
    push_cast; ring
  have key : (0 < fl ((n : ℚ) - (Int.bmod n (2 ^ 32) : ℤ))) ↔ ¬ n < 2 ^ 31 := by
    rw [hc]
    rcases hb with ⟨h1, h2⟩ | ⟨h1, h2⟩
    · have : fl ((n - Int.bmod n (2 ^ 32) : ℤ) : ℚ) ≤ (0 : ℤ) :=
        h.le_int (by norm_num) (by exact_mod_cast h1)
      rw [Int.cast_zero] at this
      simp only [h2, not_true_eq_false, iff_false, not_lt]
      exact this
    · have : ((1 : ℤ) : ℚ) ≤ fl ((n - Int.bmod n (2 ^ 32) : ℤ) : ℚ) :=
        h.int_le (by norm_num) (by exact_mod_cast h1)
      rw [Int.cast_one] at this
      simp only [not_lt.mpr h2, not_false_eq_true, iff_true]
      linarith
  unfold checkInt
  by_cases hn : n < 2 ^ 31
  · rw [if_pos hn, if_neg]
    simpa [Num.val, Num.toI32, -not_lt] using mt key.mp (not_not.mpr hn)
  · rw [if_neg hn, if_pos]
    simpa [Num.val, Num.toI32] using key.mpr hn

/-- The text of the refusal of a day beyond the end of the month. -/
def dayMsg (len : ℤ) : String :=
  if len = 28 then "Day must be from 1 to 28" else if len = 29 then "Day must be from 1 to 29"
  else if len = 30 then "Day must be from 1 to 30" else "Day must be from 1 to 31"

/-- The scalar call in terms of the specification: exactly the dates of the calendar are
accepted (for years below `2^31`), each refusal with its own message. -/
theorem calToJd_scalar {fl : ℚ → ℚ} (h : FloatLike fl) (g : Bool) (y m : ℤ) (d : ℚ) :
    calToJd fl [.int y] [.int m] [d] g =
      if y < 2 ^ 31 then
        if m < 2 ^ 31 then
          if 1 ≤ m ∧ m ≤ 12 then
            if 1 ≤ d ∧ d ≤ 31 then
              if d ≤ monthLen g y m then .ok (.scalar (calToJdCore fl y m d g))
              else .error (.ValueError (dayMsg (monthLen g y m)))
            else .error (.ValueError "Day must be from 1 to 31")
          else .error (.ValueError "Month must be from 1 to 12")
        else .error (.ValueError "Month must be integer. Use yr_frac_mon_to_jd instead.")
      else .error (.ValueError "Year must be integer. Use frac_yr_to_jd instead.") := by
  have q12 : ((m : ℚ) > 12 ↔ m > 12) := by norm_cast
  have q1 : ((m : ℚ) < 1 ↔ m < 1) := by norm_cast
  have q2 : ((m : ℚ) = 2 ↔ m = 2) := by norm_cast
  have q4 : ((m : ℚ) = 4 ↔ m = 4) := by norm_cast
  have q6 : ((m : ℚ) = 6 ↔ m = 6) := by norm_cast
  have q9 : ((m : ℚ) = 9 ↔ m = 9) := by norm_cast
  have q11 : ((m : ℚ) = 11 ↔ m = 11) := by norm_cast
  unfold calToJd
  rw [checkInt_int h, checkInt_int h]
  by_cases hy : y < 2 ^ 31
  swap
  · simp only [hy, if_false]
  by_cases hm : m < 2 ^ 31
  swap
  · simp only [hy, hm, if_true, if_false]
  simp only [hy, hm, if_true]
  by_cases hmr : 1 ≤ m ∧ m ≤ 12
  swap
  · rw [if_pos, if_neg hmr]
    simp only [List.any_cons, List.any_nil, Num.val, Bool.or_false, Bool.or_eq_true,
      decide_eq_true_eq, q12, q1]
    omega
  rw [if_neg]
  swap
  · simp only [List.any_cons, List.any_nil, Num.val, Bool.or_false, Bool.or_eq_true,
      decide_eq_true_eq, q12, q1]
    omega
  rw [if_pos hmr]
  by_cases hdr : 1 ≤ d ∧ d ≤ 31
  swap
  · rw [if_pos, if_neg hdr]
    simp only [List.any_cons, List.any_nil, Bool.or_false, Bool.or_eq_true, decide_eq_true_eq]
    by_contra hc
    push Not at hc
    exact hdr ⟨hc.2, hc.1⟩
  rw [if_neg]
  swap
  · simp only [List.any_cons, List.any_nil, Bool.or_false, Bool.or_eq_true, decide_eq_true_eq]
    push Not
    exact ⟨hdr.2, hdr.1⟩
  rw [if_pos hdr]
  simp only [bcast3, bdim, List.length_cons, List.length_nil, if_true, stretch,
    List.replicate_one, List.zip_cons_cons, List.zip_nil_left, List.any_cons, List.any_nil, Num.val,
    Num.toInt, Bool.or_false, isLeapYear1_eq, List.map_cons, List.map_nil, scalarIfOne,
    Bool.or_eq_true, Bool.and_eq_true, decide_eq_true_eq, q2, q4, q6, q9, q11, zero_add,
    Bool.not_eq_true', decide_eq_false_iff_not]
  unfold monthLen
  by_cases h30 : m = 4 ∨ m = 6 ∨ m = 9 ∨ m = 11
  · have hm2 : m ≠ 2 := by omega
    simp only [h30, hm2, if_true, and_false, if_false]
    have e : (m = 9 ∧ d > 30 ∨ m = 4 ∧ d > 30 ∨ m = 6 ∧ d > 30 ∨ m = 11 ∧ d > 30) ↔ d > 30 := by
      constructor
      · rintro (⟨_, h⟩ | ⟨_, h⟩ | ⟨_, h⟩ | ⟨_, h⟩) <;> exact h
      · intro h
        rcases h30 with rfl | rfl | rfl | rfl
        · exact .inr (.inl ⟨rfl, h⟩)
        · exact .inr (.inr (.inl ⟨rfl, h⟩))
        · exact .inl ⟨rfl, h⟩
        · exact .inr (.inr (.inr ⟨rfl, h⟩))
    simp only [e]
    by_cases hd : d ≤ 30
    · rw [if_neg (not_lt.mpr hd), if_pos (by exact_mod_cast hd)]
    · rw [if_pos (not_le.mp hd), if_neg (by exact_mod_cast hd)]
      simp [dayMsg]
  · have e : ¬ (m = 9 ∧ d > 30 ∨ m = 4 ∧ d > 30 ∨ m = 6 ∧ d > 30 ∨ m = 11 ∧ d > 30) := by
      rintro (⟨h, _⟩ | ⟨h, _⟩ | ⟨h, _⟩ | ⟨h, _⟩) <;> exact h30 (by omega)
    simp only [h30, e, if_false]
    by_cases h2 : m = 2
    · simp only [h2, and_true, if_true]
      by_cases hl : IsLeap g y
      · simp only [hl, true_and, if_true, not_true_eq_false, false_and, if_false]
        by_cases hd : d ≤ 29
        · rw [if_neg (not_lt.mpr hd), if_pos (by exact_mod_cast hd)]
        · rw [if_pos (not_le.mp hd), if_neg (by exact_mod_cast hd)]
          simp [dayMsg]
      · simp only [hl, false_and, not_false_eq_true, true_and, if_false]
        by_cases hd : d ≤ 28
        · rw [if_neg (not_lt.mpr hd), if_pos (by exact_mod_cast hd)]
        · rw [if_pos (not_le.mp hd), if_neg (by exact_mod_cast hd)]
          simp [dayMsg]
    · simp only [h2, and_false, if_false]
      rw [if_pos]
      exact_mod_cast hdr.2

/-! ### C02 -/

/-- C02: with an integer year and month, `cal_to_jd` returns a value exactly for the days of the
chosen calendar (and only for years below `2^31`); the day may be fractional. -/
theorem cal_to_jd_accepts_iff {fl : ℚ → ℚ} (h : FloatLike fl) (g : Bool) (y m : ℤ) (d : ℚ) :
    (∃ r, calToJd fl [.int y] [.int m] [d] g = .ok r) ↔
      y < 2 ^ 31 ∧ 1 ≤ m ∧ m ≤ 12 ∧ 1 ≤ d ∧ d ≤ monthLen g y m := by
  have hl : ((monthLen g y m : ℤ) : ℚ) ≤ 31 := by exact_mod_cast monthLen_le g y m
  rw [calToJd_scalar h]
  constructor
  · rintro ⟨r, hr⟩
    split_ifs at hr with a b c e f
    exact ⟨a, c.1, c.2, e.1, f⟩
  · rintro ⟨h1, h2, h3, h4, h5⟩
    rw [if_pos h1, if_pos (by omega), if_pos ⟨h2, h3⟩, if_pos ⟨h4, by linarith⟩, if_pos h5]
    exact ⟨_, rfl⟩

/-- C02: every refusal is a `ValueError`. -/
theorem cal_to_jd_refuses_valueError {fl : ℚ → ℚ} (h : FloatLike fl) (g : Bool) (y m : ℤ) (d : ℚ)
    (e : PyErr) (he : calToJd fl [.int y] [.int m] [d] g = .error e) :
    ∃ msg, e = .ValueError msg := by
  rw [calToJd_scalar h] at he
  split_ifs at he <;> simp at he <;> exact ⟨_, he.symm⟩

/-- C02: a day between 1 and 31 that the month does not have is refused naming the true length of
the month. -/
theorem cal_to_jd_message {fl : ℚ → ℚ} (h : FloatLike fl) (g : Bool) (y m : ℤ) (d : ℚ)
    (hy : y < 2 ^ 31) (h1 : 1 ≤ m) (h2 : m ≤ 12) (hd : 1 ≤ d) (hd2 : d ≤ 31)
    (hd3 : (monthLen g y m : ℚ) < d) :
    calToJd fl [.int y] [.int m] [d] g =
      .error (.ValueError (dayMsg (monthLen g y m))) := by
  rw [calToJd_scalar h, if_pos hy, if_pos (by omega), if_pos ⟨h1, h2⟩, if_pos ⟨hd, hd2⟩,
    if_neg (not_le.mpr hd3)]

/-- C02, a consequence users trip over: an instant after 0h of the last day of a month is always
refused. -/
theorem cal_to_jd_refuses_last_day_fraction {fl : ℚ → ℚ} (h : FloatLike fl) (g : Bool) (y m : ℤ)
    (f : ℚ) (hf : 0 < f) :
    ¬ ∃ r, calToJd fl [.int y] [.int m] [(monthLen g y m : ℚ) + f] g = .ok r := by
  rw [cal_to_jd_accepts_iff h]
  rintro ⟨_, _, _, _, h⟩
  linarith

/-- C02: the truncation of `x` is below a positive non-integer `x`. -/
theorem frac_pos {x : ℚ} (hx : 0 < x) (hn : ∀ n : ℤ, x ≠ n) : 0 < x - trunc x := by
  rw [trunc_of_nonneg hx.le]
  have := Int.floor_le x
  rcases this.lt_or_eq with h | h
  · linarith
  · exact absurd h.symm (hn _)

/-- A positive difference of a binary64 number and its integer part stays positive when rounded. -/
theorem FloatLike.pos_of_frac {fl : ℚ → ℚ} (h : FloatLike fl) {x : ℚ} (hF : IsF64 x)
    (n : ℤ) (hx : 0 < x - n) : 0 < fl (x - n) := by
  obtain ⟨m, e, hm, he, rfl⟩ := hF
  -- both are multiples of 2^-1074
  have hp : (0 : ℚ) < 2 ^ (-1074 : ℤ) := zpos _
  obtain ⟨k, hk⟩ := Int.eq_ofNat_of_zero_le (show 0 ≤ e + 1074 by omega)
  have e1 : (m : ℚ) * 2 ^ e - n = ((m * 2 ^ k - n * 2 ^ 1074 : ℤ) : ℚ) * 2 ^ (-1074 : ℤ) := by
    have : (2 : ℚ) ^ e = 2 ^ k * 2 ^ (-1074 : ℤ) := by
      rw [← zpow_natCast, ← zpow_add₀ (by norm_num)]; congr 1; omega
    rw [this]
    push_cast
    rw [sub_mul, mul_assoc, mul_assoc]
    congr 1
    rw [zpow_neg]; norm_cast; field_simp
  rw [e1] at hx ⊢
  have h1 : (0 : ℚ) < ((m * 2 ^ k - n * 2 ^ 1074 : ℤ) : ℚ) := (pos_iff_pos_of_mul_pos hx).mpr hp
  have h2 : (1 : ℤ) ≤ m * 2 ^ k - n * 2 ^ 1074 := by
    have : (0 : ℤ) < m * 2 ^ k - n * 2 ^ 1074 := by exact_mod_cast h1
    omega
  have h3 : (2 : ℚ) ^ (-1074 : ℤ) ≤ ((m * 2 ^ k - n * 2 ^ 1074 : ℤ) : ℚ) * 2 ^ (-1074 : ℤ) := by
    have : (1 : ℚ) ≤ ((m * 2 ^ k - n * 2 ^ 1074 : ℤ) : ℚ) := by exact_mod_cast h2
    nlinarith
  have h4 := h.mono h3
  rw [h.fix _ ⟨1, -1074, by norm_num, le_rfl, by simp⟩] at h4
  exact hp.trans_le h4

/-- C02: a positive fractional year is refused, whatever the month and day, with the advice to
use `frac_yr_to_jd`. -/
theorem cal_to_jd_refuses_fractional_year {fl : ℚ → ℚ} (h : FloatLike fl) (g : Bool) (y : ℚ)
    (hF : IsF64 y) (h0 : 0 < y) (hn : ∀ n : ℤ, y ≠ n) (hy : y < 2 ^ 31) (ms : List Num)
    (ds : List ℚ) :
    calToJd fl [.flt y] ms ds g =
      .error (.ValueError "Year must be integer. Use frac_yr_to_jd instead.") := by
  have hr : -2 ^ 31 ≤ trunc y ∧ trunc y < 2 ^ 31 := by
    rw [trunc_of_nonneg h0.le]
    constructor
    · have : 0 ≤ ⌊y⌋ := Int.floor_nonneg.mpr h0.le
      omega
    · rw [Int.floor_lt]; exact_mod_cast hy
  have : fl (y - trunc y) > 0 := h.pos_of_frac hF _ (frac_pos h0 hn)
  have hc : checkInt fl [.flt y] "Year must be integer. Use frac_yr_to_jd instead." =
      .error (.ValueError "Year must be integer. Use frac_yr_to_jd instead.") := by
    unfold checkInt
    rw [if_pos]
    simp only [List.any_cons, List.any_nil, Bool.or_false, decide_eq_true_eq, Num.val, Num.toI32]
    simp only [hr, and_self, if_true]; exact decide_eq_true this
  unfold calToJd
  rw [hc]

/-- C02: a fractional month is refused likewise. -/
theorem cal_to_jd_refuses_fractional_month {fl : ℚ → ℚ} (h : FloatLike fl) (g : Bool) (y : ℤ)
    (hy : y < 2 ^ 31) (m : ℚ) (hF : IsF64 m) (h0 : 0 < m) (hn : ∀ n : ℤ, m ≠ n) (hm : m < 2 ^ 31)
    (ds : List ℚ) :
    calToJd fl [.int y] [.flt m] ds g =
      .error (.ValueError "Month must be integer. Use yr_frac_mon_to_jd instead.") := by
  have hr : -2 ^ 31 ≤ trunc m ∧ trunc m < 2 ^ 31 := by
    rw [trunc_of_nonneg h0.le]
    constructor
    · have : 0 ≤ ⌊m⌋ := Int.floor_nonneg.mpr h0.le
      omega
    · rw [Int.floor_lt]; exact_mod_cast hm
  have : fl (m - trunc m) > 0 := h.pos_of_frac hF _ (frac_pos h0 hn)
  unfold calToJd
  rw [checkInt_int h, if_pos hy]
  have hc : checkInt fl [.flt m] "Month must be integer. Use yr_frac_mon_to_jd instead." =
      .error (.ValueError "Month must be integer. Use yr_frac_mon_to_jd instead.") := by
    unfold checkInt
    rw [if_pos]
    simp only [List.any_cons, List.any_nil, Bool.or_false, decide_eq_true_eq, Num.val, Num.toI32]
    simp only [hr, and_self, if_true]; exact decide_eq_true this
  rw [hc]

/-- C02, defect: a negative fractional year is *not* refused: 1 January of every "year" between
`-2^31` and 0, whole or not, is accepted. -/
theorem cal_to_jd_accepts_negative_fractional_year {fl : ℚ → ℚ} (h : FloatLike fl) (g : Bool)
    (y : ℚ) (hy : y < 0) (hy2 : -2 ^ 31 ≤ y) :
    ∃ r, calToJd fl [.flt y] [.int 1] [1] g = .ok r := by
  have t0 : y ≤ trunc y ∧ -2 ^ 31 ≤ trunc y ∧ trunc y < 2 ^ 31 := by
    unfold trunc
    rw [if_neg (not_le.mpr hy)]
    refine ⟨Int.le_ceil y, ?_, ?_⟩
    · have : (-2 ^ 31 - 1 : ℤ) < ⌈y⌉ := by rw [Int.lt_ceil]; push_cast; linarith
      omega
    · have : ⌈y⌉ ≤ 0 := Int.ceil_le.mpr (by exact_mod_cast hy.le)
      omega
  have h0 : fl (y - trunc y) ≤ 0 := by
    have : fl (y - trunc y) ≤ (0 : ℤ) := h.le_int (by norm_num) (by push_cast; linarith [t0.1])
    simpa using this
  have c1 : ∀ msg, checkInt fl [.flt y] msg = .ok () := by
    intro msg
    unfold checkInt
    rw [if_neg]
    simp only [List.any_cons, List.any_nil, Bool.or_false, Num.val, Num.toI32]
    simp only [t0.2, and_self, if_true]
    rw [decide_eq_true_eq]
    exact not_lt.mpr h0
  unfold calToJd
  rw [c1, checkInt_int h, if_pos (by norm_num)]
  simp [Num.val, bcast3, bdim, stretch]

/-! ### C01 -/

/-- The Gregorian dates at which the code is one day off: from 1 March of a negative century year
not divisible by 400 to the end of the following February. -/
def Exceptional (g : Bool) (y m : ℤ) : Prop :=
  g = true ∧ ∃ c : ℤ, c < 0 ∧ 100 ∣ c ∧ ¬ 400 ∣ c ∧ ((y = c ∧ 3 ≤ m) ∨ (y = c + 1 ∧ m ≤ 2))

theorem excess_eq (g : Bool) (y m : ℤ) (hy : -4715 ≤ y) :
    (Exceptional g y m → excess g y m = 1) ∧ (¬ Exceptional g y m → excess g y m = 0) := by
  have hs : shiftYear y m = if m ≤ 2 then y - 1 else y := rfl
  have key : Exceptional g y m ↔ g = true ∧ shiftYear y m < 0 ∧ shiftYear y m % 100 = 0 ∧
      shiftYear y m % 400 ≠ 0 := by
    unfold Exceptional
    refine and_congr_right fun _ => ?_
    constructor
    · rintro ⟨c, h1, h2, h3, h4⟩
      have : shiftYear y m = c := by rw [hs]; split_ifs <;> omega
      rw [this]; omega
    · intro h
      refine ⟨shiftYear y m, h.1, by omega, by omega, ?_⟩
      rw [hs] at h ⊢
      split_ifs at * <;> omega
  have hn : ¬ (shiftYear y m < -4716 ∧ shiftYear y m % 4 ≠ 0) := by
    rw [hs]; split_ifs <;> omega
  unfold excess
  rw [if_neg hn, key]
  constructor
  · intro h; rw [if_pos h]; rfl
  · intro h; rw [if_neg h]; rfl

theorem abs_yearTerm (y m : ℤ) : |yearTerm y m| ≤ 366 * (|y| + 4717) := by
  rw [yearTerm_eq]
  unfold shiftYear
  rcases abs_cases y with ⟨h, _⟩ | ⟨h, _⟩ <;> rw [h, abs_le] <;> constructor <;> split_ifs <;> omega

theorem abs_corrB (g : Bool) (y m : ℤ) : |corrB g y m| ≤ |y| + 4 := by
  unfold corrB
  cases g
  · simp; positivity
  · rw [if_pos rfl, tdiv_century]
    unfold shiftYear
    rcases abs_cases y with ⟨h, _⟩ | ⟨h, _⟩ <;> rw [h, abs_le] <;> constructor <;>
      split_ifs <;> omega

/-- The last three float operations on a dyadic day are exact when everything fits in 53 bits. -/
theorem calToJdCore_dyadic {fl : ℚ → ℚ} (h : FloatLike fl) (g : Bool) (y m : ℤ) (k : ℤ) (s : ℕ)
    (hs : 1 ≤ s) (hs2 : s ≤ 40) (hy31 : |y| ≤ 2 ^ 31)
    (hy : (368 * (|y| + 4717) + 3000) * 2 ^ s ≤ 2 ^ 53) (h1 : 1 ≤ m) (h2 : m ≤ 12)
    (hk : |k| ≤ 32 * 2 ^ s) :
    calToJdCore fl y m ((k : ℚ) / 2 ^ s) g =
      (Spec.jdn g y m 0 : ℚ) + k / 2 ^ s + excess g y m - 1 / 2 := by
  have h2s : (2 : ℤ) ≤ 2 ^ s := by
    calc (2 : ℤ) = 2 ^ 1 := by norm_num
      _ ≤ 2 ^ s := pow_le_pow_right₀ (by norm_num) hs
  have hs1 : (2 : ℤ) ^ s = 2 * 2 ^ (s - 1) := by
    rw [← pow_succ']; congr 1; omega
  have hsq : (2 : ℚ) ^ s = 2 * 2 ^ (s - 1) := by exact_mod_cast hs1
  have hp : (0 : ℚ) < 2 ^ s := by positivity
  have hy40 : |y| ≤ 2 ^ 40 := hy31.trans (by norm_num)
  rw [calToJdCore_eq h g y m _ hy40 h1 h2]
  have f := formula_eq g y m 0 h1 h2
  have a1 := abs_le.mp (abs_yearTerm y m)
  have a2 := abs_le.mp (abs_corrB g y m)
  have a3 := monTerm_le m h1 h2
  have a4 := abs_le.mp hk
  have hyn := abs_nonneg y
  generalize yearTerm y m = Y at *
  generalize monTerm m = M at *
  generalize corrB g y m = B at *
  generalize |y| = Z at *
  set T : ℤ := 2 ^ s with hT
  have e1 : ((Y + M : ℤ) : ℚ) + (k : ℚ) / 2 ^ s = (((Y + M) * T + k : ℤ) : ℚ) / 2 ^ s := by
    rw [hT]; push_cast; field_simp
  rw [e1, h.dyadic s (by omega) (by rw [abs_le]; constructor <;> nlinarith)]
  have e2 : (((Y + M) * T + k : ℤ) : ℚ) / 2 ^ s + (B : ℤ) = (((Y + M + B) * T + k : ℤ) : ℚ) / 2 ^ s := by
    rw [hT]; push_cast; field_simp; ring
  rw [e2, h.dyadic s (by omega) (by rw [abs_le]; constructor <;> nlinarith)]
  have e3 : (((Y + M + B) * T + k : ℤ) : ℚ) / 2 ^ s - 3049 / 2 =
      (((Y + M + B) * T + k - 3049 * 2 ^ (s - 1) : ℤ) : ℚ) / 2 ^ s := by
    push_cast; rw [hsq]; field_simp
  have hs1' : T = 2 * 2 ^ (s - 1) := hs1
  rw [e3, h.dyadic s (by omega) (by rw [abs_le]; constructor <;> nlinarith), ← e3]
  have fq : ((Y : ℚ) + M + 0 + B - 1524) = (jdn g y m 0 : ℚ) + excess g y m := by exact_mod_cast f
  rw [hT]; push_cast
  field_simp
  linear_combination (2 * 2 ^ s) * fq

theorem jdn_add (g : Bool) (y m d : ℤ) : jdn g y m d = jdn g y m 0 + d := by
  unfold jdn dayOfYear; ring

/-- C01, general form: the value returned for a whole day, for every year of the int32 range. -/
theorem cal_to_jd_whole_day {fl : ℚ → ℚ} (h : FloatLike fl) (g : Bool) (y m d : ℤ)
    (hy1 : -2 ^ 31 ≤ y) (hy2 : y < 2 ^ 31) (hv : Valid g y m d) :
    calToJd fl [.int y] [.int m] [(d : ℚ)] g = .ok (.scalar (jd0 g y m d + excess g y m)) := by
  obtain ⟨h1, h2, h3, h4⟩ := hv
  have hl := monthLen_le g y m
  have h4' : (d : ℚ) ≤ monthLen g y m := by exact_mod_cast h4
  have h5 : (d : ℚ) ≤ 31 := by exact_mod_cast h4.trans hl
  rw [calToJd_scalar h, if_pos hy2, if_pos (by omega), if_pos ⟨h1, h2⟩,
    if_pos ⟨by exact_mod_cast h3, h5⟩, if_pos h4']
  have ha : |y| ≤ 2 ^ 31 := by rw [abs_le]; omega
  have := calToJdCore_dyadic h g y m (d * 2) 1 le_rfl (by norm_num) ha (by omega) h1 h2
    (by rw [abs_le]; omega)
  have e : ((d * 2 : ℤ) : ℚ) / 2 ^ 1 = d := by push_cast; ring
  rw [e] at this
  rw [this, jd0, jdn_add g y m d]
  congr 2
  push_cast
  ring

/-- C01: from year -4715 to the int32 limit, `cal_to_jd` of a whole day returns the day count of
the specification (see `reform` for its anchoring), except at the `Exceptional` Gregorian dates
where it is exactly one day too large. -/
theorem cal_to_jd_counts_days {fl : ℚ → ℚ} (h : FloatLike fl) (g : Bool) (y m d : ℤ)
    (hy1 : -4715 ≤ y) (hy2 : y < 2 ^ 31) (hv : Valid g y m d) :
    (¬ Exceptional g y m → calToJd fl [.int y] [.int m] [(d : ℚ)] g = .ok (.scalar (jd0 g y m d))) ∧
    (Exceptional g y m →
      calToJd fl [.int y] [.int m] [(d : ℚ)] g = .ok (.scalar (jd0 g y m d + 1))) := by
  have e := excess_eq g y m hy1
  rw [cal_to_jd_whole_day h g y m d (by omega) hy2 hv]
  constructor
  · intro hx; rw [e.2 hx]; simp
  · intro hx; rw [e.1 hx]; simp

/-- C01: the Julian calendar is right from -4715 on. -/
theorem cal_to_jd_julian {fl : ℚ → ℚ} (h : FloatLike fl) (y m d : ℤ)
    (hy1 : -4715 ≤ y) (hy2 : y < 2 ^ 31) (hv : Valid false y m d) :
    calToJd fl [.int y] [.int m] [(d : ℚ)] false = .ok (.scalar (jd0 false y m d)) :=
  (cal_to_jd_counts_days h false y m d hy1 hy2 hv).1 (by simp [Exceptional])

/-- C01: the Gregorian calendar is right in all positive years. -/
theorem cal_to_jd_gregorian_positive {fl : ℚ → ℚ} (h : FloatLike fl) (y m d : ℤ)
    (hy1 : 0 ≤ y) (hy2 : y < 2 ^ 31) (hv : Valid true y m d) :
    calToJd fl [.int y] [.int m] [(d : ℚ)] true = .ok (.scalar (jd0 true y m d)) := by
  refine (cal_to_jd_counts_days h true y m d (by omega) hy2 hv).1 ?_
  rintro ⟨_, c, h1, h2, h3, h4⟩
  omega

/-- The two day counts of the specification are tied together by the reform: 15 October 1582
(Gregorian) is the day after 4 October 1582 (Julian); and 1 January -4712 Julian is day 0. -/
theorem reform : jdn true 1582 10 15 = jdn false 1582 10 4 + 1 ∧ jdn false (-4712) 1 1 = 0 := by
  unfold jdn epoch
  rw [daysToYear_false, daysToYear_true, daysToYear_false, dayOfYear_eq _ _ _ _ (by norm_num) (by norm_num),
    dayOfYear_eq _ _ _ _ (by norm_num) (by norm_num), dayOfYear_eq _ _ _ _ (by norm_num) (by norm_num),
    leapDay_false, leapDay_true]
  decide

/-- The famous reference: 2000 January 1.5 is JD 2451545. -/
theorem j2000 : jd0 true 2000 1 1 + 1 / 2 = 2451545 := by
  unfold jd0 jdn epoch
  rw [daysToYear_true, dayOfYear_1]
  norm_num

example : Valid true (-99) 2 28 ∧ Exceptional true (-99) 2 ∧ ¬ Exceptional true (-99) 3 ∧
    ¬ Exceptional true 2024 2 ∧ Valid true 2024 2 29 := by
  refine ⟨by decide, ⟨rfl, -100, by norm_num⟩, ?_, ?_, by decide⟩
  · rintro ⟨_, c, h⟩; omega
  · rintro ⟨_, c, h⟩; omega

/-- What the acceptance check lets through. -/
theorem calToJd_ok {fl : ℚ → ℚ} (h : FloatLike fl) (g : Bool) (y m : ℤ) (d : ℚ)
    (hy2 : y < 2 ^ 31) (h1 : 1 ≤ m) (h2 : m ≤ 12) (hd1 : 1 ≤ d) (hd2 : d ≤ monthLen g y m) :
    calToJd fl [.int y] [.int m] [d] g = .ok (.scalar (calToJdCore fl y m d g)) := by
  have hl : ((monthLen g y m : ℤ) : ℚ) ≤ 31 := by exact_mod_cast monthLen_le g y m
  rw [calToJd_scalar h, if_pos hy2, if_pos (by omega), if_pos ⟨h1, h2⟩, if_pos ⟨hd1, by linarith⟩,
    if_pos hd2]

/-- C01, fractional days: for a day number with at most `s` binary places, as long as the Julian
Day still fits into 53 bits, the result is the exact sum. -/
theorem cal_to_jd_dyadic_day {fl : ℚ → ℚ} (h : FloatLike fl) (g : Bool) (y m k : ℤ) (s : ℕ)
    (hs : 1 ≤ s) (hs2 : s ≤ 40) (hy1 : -2 ^ 31 ≤ y) (hy2 : y < 2 ^ 31)
    (hy : (368 * (|y| + 4717) + 3000) * 2 ^ s ≤ 2 ^ 53)
    (h1 : 1 ≤ m) (h2 : m ≤ 12) (hk1 : 1 ≤ (k : ℚ) / 2 ^ s)
    (hk2 : (k : ℚ) / 2 ^ s ≤ monthLen g y m) :
    calToJd fl [.int y] [.int m] [(k : ℚ) / 2 ^ s] g =
      .ok (.scalar (jd0 g y m 1 + ((k : ℚ) / 2 ^ s - 1) + excess g y m)) := by
  have hl : ((monthLen g y m : ℤ) : ℚ) ≤ 31 := by exact_mod_cast monthLen_le g y m
  have hp : (0 : ℚ) < 2 ^ s := by positivity
  have b1 : (k : ℚ) ≤ 31 * 2 ^ s := by
    have := hk2.trans hl; rwa [div_le_iff₀ hp] at this
  have b2 : (2 : ℚ) ^ s ≤ k := by rwa [le_div_iff₀ hp, one_mul] at hk1
  have b1' : k ≤ 31 * 2 ^ s := by exact_mod_cast b1
  have b2' : 2 ^ s ≤ k := by exact_mod_cast b2
  have hp' : (0 : ℤ) < 2 ^ s := by positivity
  rw [calToJd_ok h g y m _ hy2 h1 h2 hk1 hk2, calToJdCore_dyadic h g y m k s hs hs2
    (by rw [abs_le]; omega) hy h1 h2 (by rw [abs_le]; constructor <;> linarith)]
  rw [jd0, jdn_add g y m 1]
  congr 2
  push_cast
  ring

example : (368 * (|(2024 : ℤ)| + 4717) + 3000) * 2 ^ 31 ≤ 2 ^ 53 ∧
    (1 : ℚ) ≤ ((5 * 2 ^ 31 + 1 : ℤ) : ℚ) / 2 ^ 31 ∧
    ((5 * 2 ^ 31 + 1 : ℤ) : ℚ) / 2 ^ 31 ≤ monthLen true 2024 2 := by
  refine ⟨by norm_num, by norm_num, ?_⟩
  have : monthLen true 2024 2 = 29 := by decide
  rw [this]; norm_num

/-- The day argument is used monotonically. -/
theorem calToJdCore_mono {fl : ℚ → ℚ} (h : FloatLike fl) (g : Bool) (y m : ℤ)
    (hy : |y| ≤ 2 ^ 40) (h1 : 1 ≤ m) (h2 : m ≤ 12) {d d' : ℚ} (hd : d ≤ d') :
    calToJdCore fl y m d g ≤ calToJdCore fl y m d' g := by
  rw [calToJdCore_eq h g y m d hy h1 h2, calToJdCore_eq h g y m d' hy h1 h2]
  exact h.mono (by gcongr; exact h.mono (by gcongr; exact h.mono (by gcongr)))

/-- C01, fractional days, unconditionally: the result for an accepted instant of day `⌊d⌋` lies
between the (exact) results for 0h of that day and 0h of the following one. -/
theorem cal_to_jd_within_day {fl : ℚ → ℚ} (h : FloatLike fl) (g : Bool) (y m : ℤ) (d : ℚ)
    (hy1 : -2 ^ 31 ≤ y) (hy2 : y < 2 ^ 31) (h1 : 1 ≤ m) (h2 : m ≤ 12)
    (hd1 : 1 ≤ d) (hd2 : d ≤ monthLen g y m) :
    ∃ r, calToJd fl [.int y] [.int m] [d] g = .ok (.scalar r) ∧
      jd0 g y m ⌊d⌋ + excess g y m ≤ r ∧ r ≤ jd0 g y m ⌊d⌋ + excess g y m + 1 := by
  have hl : ((monthLen g y m : ℤ) : ℚ) ≤ 31 := by exact_mod_cast monthLen_le g y m
  have hf1 : (1 : ℤ) ≤ ⌊d⌋ := Int.le_floor.mpr (by exact_mod_cast hd1)
  have hf2 : ⌊d⌋ ≤ 31 := by
    have : (⌊d⌋ : ℚ) ≤ 31 := (Int.floor_le d).trans (hd2.trans hl)
    exact_mod_cast this
  have hy : |y| ≤ 2 ^ 31 := by rw [abs_le]; omega
  have core : ∀ n : ℤ, 1 ≤ n → n ≤ 32 →
      calToJdCore fl y m n g = jd0 g y m n + excess g y m := by
    intro n hn1 hn2
    have := calToJdCore_dyadic h g y m (n * 2) 1 le_rfl (by norm_num) hy (by omega) h1 h2
      (by rw [abs_le]; omega)
    have e : ((n * 2 : ℤ) : ℚ) / 2 ^ 1 = n := by push_cast; ring
    rw [e] at this
    rw [this, jd0, jdn_add g y m n]
    push_cast; ring
  refine ⟨_, calToJd_ok h g y m d hy2 h1 h2 hd1 hd2, ?_, ?_⟩
  · rw [← core _ hf1 (by omega)]
    exact calToJdCore_mono h g y m (hy.trans (by norm_num)) h1 h2 (Int.floor_le d)
  · have e : jd0 g y m ⌊d⌋ + excess g y m + 1 = jd0 g y m (⌊d⌋ + 1) + excess g y m := by
      rw [jd0, jd0, jdn_add g y m ⌊d⌋, jdn_add g y m (⌊d⌋ + 1)]; push_cast; ring
    rw [e, ← core _ (by omega) (by omega)]
    refine calToJdCore_mono h g y m (hy.trans (by norm_num)) h1 h2 ?_
    push_cast
    exact (Int.lt_floor_add_one d).le

/-- C01, fractional days: float error of the result. -/
theorem cal_to_jd_error {fl : ℚ → ℚ} (h : FloatLike fl) (g : Bool) (y m : ℤ) (d : ℚ)
    (hy1 : -2 ^ 31 ≤ y) (hy2 : y < 2 ^ 31) (h1 : 1 ≤ m) (h2 : m ≤ 12)
    (hd1 : 1 ≤ d) (hd2 : d ≤ monthLen g y m) :
    ∃ r, calToJd fl [.int y] [.int m] [d] g = .ok (.scalar r) ∧
      |r - (jd0 g y m 1 + (d - 1) + excess g y m)| ≤
        3 * (368 * (|y| + 4717) + 3000) / 2 ^ 52 := by
  have hl : ((monthLen g y m : ℤ) : ℚ) ≤ 31 := by exact_mod_cast monthLen_le g y m
  have hy : |y| ≤ 2 ^ 31 := by rw [abs_le]; omega
  refine ⟨_, calToJd_ok h g y m d hy2 h1 h2 hd1 hd2, ?_⟩
  rw [calToJdCore_eq h g y m _ (hy.trans (by norm_num)) h1 h2]
  have f := formula_eq g y m 1 h1 h2
  have a1 := abs_le.mp (abs_yearTerm y m)
  have a2 := abs_le.mp (abs_corrB g y m)
  have a3 := monTerm_le m h1 h2
  have hyn := abs_nonneg y
  have hyq : (0:ℚ) ≤ |(y : ℚ)| := abs_nonneg _
  have hyQ : |(y : ℚ)| ≤ 2 ^ 31 := by exact_mod_cast hy
  have fq : ((yearTerm y m : ℚ) + monTerm m + 1 + corrB g y m - 1524)
    = (jdn g y m 1 : ℚ) + excess g y m := by exact_mod_cast f
  have q1 : -(366 * (|(y:ℚ)| + 4717)) ≤ (yearTerm y m : ℚ) := by exact_mod_cast a1.1
  have q2 : (yearTerm y m : ℚ) ≤ 366 * (|(y:ℚ)| + 4717) := by exact_mod_cast a1.2
  have q3 : -(|(y:ℚ)| + 4) ≤ (corrB g y m : ℚ) := by exact_mod_cast a2.1
  have q4 : (corrB g y m : ℚ) ≤ |(y:ℚ)| + 4 := by exact_mod_cast a2.2
  have q5 : (122 : ℚ) ≤ monTerm m := by exact_mod_cast a3.1
  have q6 : (monTerm m : ℚ) ≤ 459 := by exact_mod_cast a3.2
  rw [jd0]
  push_cast at *
  generalize |(y : ℚ)| = Z at *
  generalize (yearTerm y m : ℚ) = Y at *
  generalize (monTerm m : ℚ) = M at *
  generalize (corrB g y m : ℚ) = B at *
  set U : ℚ := 368 * (Z + 4717) + 3000 with hU
  have hU1 : 1 ≤ U := by rw [hU]; linarith
  have x1 : |Y + M + d| ≤ U - 2000 - Z := by rw [abs_le]; constructor <;> linarith
  have r1 := abs_le.mp (h.err_le (B := U) hU1 (x1.trans (by linarith)))
  have hs : U / 2 ^ 52 ≤ 100 := by
    rw [hU, div_le_iff₀ (by norm_num)]; linarith
  have x1' := abs_le.mp x1
  have x2 : |fl (Y + M + d) + B| ≤ U - 1700 := by rw [abs_le]; constructor <;> linarith
  have r2 := abs_le.mp (h.err_le (B := U) hU1 (x2.trans (by linarith)))
  have x2' := abs_le.mp x2
  have x3 : |fl (fl (Y + M + d) + B) - 3049 / 2| ≤ U := by rw [abs_le]; constructor <;> linarith
  have r3 := abs_le.mp (h.err_le (B := U) hU1 x3)
  have e3 : 3 * U / 2 ^ 52 = U / 2 ^ 52 + U / 2 ^ 52 + U / 2 ^ 52 := by ring
  rw [e3, abs_le]
  constructor <;> linarith

/-- C01, exact arithmetic: the fraction of the day is added exactly. -/
theorem cal_to_jd_exact (g : Bool) (y m : ℤ) (d : ℚ)
    (hy1 : -2 ^ 31 ≤ y) (hy2 : y < 2 ^ 31) (h1 : 1 ≤ m) (h2 : m ≤ 12)
    (hd1 : 1 ≤ d) (hd2 : d ≤ monthLen g y m) :
    calToJd (fun x => x) [.int y] [.int m] [d] g =
      .ok (.scalar (jd0 g y m 1 + (d - 1) + excess g y m)) := by
  have hy : |y| ≤ 2 ^ 40 := by rw [abs_le]; omega
  rw [calToJd_ok FloatLike.id g y m d hy2 h1 h2 hd1 hd2,
    calToJdCore_eq FloatLike.id g y m _ hy h1 h2]
  have f := formula_eq g y m 1 h1 h2
  have fq : ((yearTerm y m : ℚ) + monTerm m + 1 + corrB g y m - 1524)
    = (jdn g y m 1 : ℚ) + excess g y m := by exact_mod_cast f
  rw [jd0]
  congr 2
  push_cast
  linarith

/-! ### C05 -/

/-- C05: outside the exceptional dates, a later date has a strictly larger Julian Day. -/
theorem cal_to_jd_strictMono {fl : ℚ → ℚ} (h : FloatLike fl) (g : Bool) (y m d y' m' d' : ℤ)
    (hy1 : -4715 ≤ y) (hy2 : y < 2 ^ 31) (hy1' : -4715 ≤ y') (hy2' : y' < 2 ^ 31)
    (hv : Valid g y m d) (hv' : Valid g y' m' d') (hb : Before (y, m, d) (y', m', d'))
    (hx : Exceptional g y m → Exceptional g y' m') :
    ∃ r r', calToJd fl [.int y] [.int m] [(d : ℚ)] g = .ok (.scalar r) ∧
      calToJd fl [.int y'] [.int m'] [(d' : ℚ)] g = .ok (.scalar r') ∧ r < r' := by
  refine ⟨_, _, cal_to_jd_whole_day h g y m d (by omega) hy2 hv,
    cal_to_jd_whole_day h g y' m' d' (by omega) hy2' hv', ?_⟩
  have hlt : (jdn g y m d : ℚ) < jdn g y' m' d' := by exact_mod_cast jdn_strictMono hv hv' hb
  have e := excess_eq g y m hy1
  have e' := excess_eq g y' m' hy1'
  unfold jd0
  by_cases hE : Exceptional g y m
  · rw [e.1 hE, e'.1 (hx hE)]; linarith
  · rw [e.2 hE]
    by_cases hE' : Exceptional g y' m'
    · rw [e'.1 hE']; push_cast; linarith
    · rw [e'.2 hE']; linarith

/-- C05: in any case a later date never has a smaller Julian Day. -/
theorem cal_to_jd_mono {fl : ℚ → ℚ} (h : FloatLike fl) (g : Bool) (y m d y' m' d' : ℤ)
    (hy1 : -4715 ≤ y) (hy2 : y < 2 ^ 31) (hy1' : -4715 ≤ y') (hy2' : y' < 2 ^ 31)
    (hv : Valid g y m d) (hv' : Valid g y' m' d') (hb : Before (y, m, d) (y', m', d')) :
    ∃ r r', calToJd fl [.int y] [.int m] [(d : ℚ)] g = .ok (.scalar r) ∧
      calToJd fl [.int y'] [.int m'] [(d' : ℚ)] g = .ok (.scalar r') ∧ r ≤ r' := by
  refine ⟨_, _, cal_to_jd_whole_day h g y m d (by omega) hy2 hv,
    cal_to_jd_whole_day h g y' m' d' (by omega) hy2' hv', ?_⟩
  have hlt : (jdn g y m d : ℚ) + 1 ≤ jdn g y' m' d' := by
    exact_mod_cast jdn_strictMono hv hv' hb
  have e := excess_eq g y m hy1
  have e' := excess_eq g y' m' hy1'
  unfold jd0
  by_cases hE : Exceptional g y m <;> by_cases hE' : Exceptional g y' m'
  · rw [e.1 hE, e'.1 hE']; push_cast; linarith
  · rw [e.1 hE, e'.2 hE']; push_cast; linarith
  · rw [e.2 hE, e'.1 hE']; push_cast; linarith
  · rw [e.2 hE, e'.2 hE']; push_cast; linarith

/-- C05: the next calendar day is exactly one day later, unless the day is the first or last of an
exceptional period. -/
theorem cal_to_jd_next_day {fl : ℚ → ℚ} (h : FloatLike fl) (g : Bool) (y m d : ℤ)
    (hy1 : -4715 ≤ y) (hy2 : y < 2 ^ 31 - 1) (hv : Valid g y m d)
    (hx : Exceptional g y m ↔ Exceptional g (next g y m d).1 (next g y m d).2.1) :
    ∃ r, calToJd fl [.int y] [.int m] [(d : ℚ)] g = .ok (.scalar r) ∧
      calToJd fl [.int (next g y m d).1] [.int (next g y m d).2.1] [((next g y m d).2.2 : ℚ)] g =
        .ok (.scalar (r + 1)) := by
  have hn : y ≤ (next g y m d).1 ∧ (next g y m d).1 ≤ y + 1 := by
    unfold next; split_ifs <;> simp
  refine ⟨_, cal_to_jd_whole_day h g y m d (by omega) (by omega) hv, ?_⟩
  rw [cal_to_jd_whole_day h g _ _ _ (by omega) (by omega) (next_valid g y m d hv)]
  have e := excess_eq g y m hy1
  have e' := excess_eq g (next g y m d).1 (next g y m d).2.1 (by omega)
  have ee : excess g (next g y m d).1 (next g y m d).2.1 = excess g y m := by
    by_cases hE : Exceptional g y m
    · rw [e.1 hE, e'.1 (hx.mp hE)]
    · rw [e.2 hE, e'.2 (mt hx.mpr hE)]
  rw [ee, jd0, jd0, jdn_next g y m d hv]
  congr 2
  push_cast
  ring

example : Valid true 2023 12 31 ∧ (Exceptional true 2023 12 ↔
    Exceptional true (next true 2023 12 31).1 (next true 2023 12 31).2.1) := by
  refine ⟨by decide, ?_⟩
  have : next true 2023 12 31 = (2024, 1, 1) := by decide
  rw [this]
  constructor <;> rintro ⟨_, c, h⟩ <;> exact absurd h (by simp; omega)

/-- C05, defect: the code gives the same Julian Day to 28 February and 1 March of -99 (Gregorian), -/
theorem cal_to_jd_not_injective {fl : ℚ → ℚ} (h : FloatLike fl) :
    calToJd fl [.int (-99)] [.int 2] [((28 : ℤ) : ℚ)] true =
      calToJd fl [.int (-99)] [.int 3] [((1 : ℤ) : ℚ)] true := by
  rw [cal_to_jd_whole_day h _ _ _ _ (by norm_num) (by norm_num) (by decide),
    cal_to_jd_whole_day h _ _ _ _ (by norm_num) (by norm_num) (by decide)]
  have e1 : excess true (-99) 2 = 1 := by decide
  have e2 : excess true (-99) 3 = 0 := by decide
  have hn := jdn_next true (-99) 2 28 (by decide)
  have hh : next true (-99) 2 28 = (-99, 3, 1) := by decide
  rw [hh] at hn
  simp only at hn
  have : jd0 true (-99) 2 28 + (excess true (-99) 2 : ℤ) =
      jd0 true (-99) 3 1 + (excess true (-99) 3 : ℤ) := by
    rw [e1, e2, jd0, jd0, hn]
    push_cast; ring
  rw [this]

end Verif
