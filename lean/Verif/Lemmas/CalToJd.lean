import Verif.Lemmas.Float
import Verif.Lemmas.SpecCalendar
import Verif.Model.Calendar
import Mathlib.Tactic.IntervalCases

namespace Verif

namespace FloatLike
variable {fl : ℚ → ℚ} (h : FloatLike fl)
include h

/-- Error bound for arguments of known size. -/
theorem err_le {x B : ℚ} (hB : 1 ≤ B) (hx : |x| ≤ B) : |fl x - x| ≤ B / 2 ^ 52 := by
  have h1 := h.err x
  have h2 : (1 : ℚ) / 2 ^ 1074 ≤ 1 / 2 ^ 53 :=
    one_div_le_one_div_of_le (by positivity) (pow_le_pow_right₀ (by norm_num) (by norm_num))
  have h3 : |x| / 2 ^ 53 ≤ B / 2 ^ 53 := by gcongr
  have h4 : (1 : ℚ) / 2 ^ 53 ≤ B / 2 ^ 53 := by gcongr
  have h5 : B / 2 ^ 52 = B / 2 ^ 53 + B / 2 ^ 53 := by ring
  linarith

theorem lo {x B : ℚ} (hB : 1 ≤ B) (hx : |x| ≤ B) : x - B / 2 ^ 52 ≤ fl x := by
  have := abs_le.mp (h.err_le hB hx); linarith [this.1]

theorem hi {x B : ℚ} (hB : 1 ≤ B) (hx : |x| ≤ B) : fl x ≤ x + B / 2 ^ 52 := by
  have := abs_le.mp (h.err_le hB hx); linarith [this.2]

theorem int_ge {n : ℤ} (h1 : -2 ^ 53 ≤ n) (h2 : n ≤ 2 ^ 53) : fl n = n :=
  h.int (abs_le.mpr ⟨h1, h2⟩)

/-- Truncated float quotient of a non-negative integer by a positive integer: exact as long as
the numerator is below `2^44`, because the quotient stays away from the next integer. -/
theorem trunc_div_nat {a : ℤ} {b : ℕ} (ha : 0 ≤ a) (ha2 : a ≤ 2 ^ 50) (hb : 0 < b) :
    trunc (fl ((a : ℚ) / b)) = a / b := by
  have hb' : (0 : ℚ) < b := by exact_mod_cast hb
  have hbz : (0 : ℤ) < b := by exact_mod_cast hb
  have e := Int.emod_add_mul_ediv a b
  have r0 := Int.emod_nonneg a hbz.ne'
  have r1 := Int.emod_lt_of_pos a hbz
  have q0 : 0 ≤ a / (b : ℤ) := Int.ediv_nonneg ha hbz.le
  have qle : a / (b : ℤ) ≤ a := Int.ediv_le_self _ ha
  have hx0 : (0 : ℚ) ≤ a / b := div_nonneg (by exact_mod_cast ha) hb'.le
  have eq : (a : ℚ) = ((a % b : ℤ) : ℚ) + b * ((a / b : ℤ) : ℚ) := by exact_mod_cast e.symm
  apply trunc_eq (h.nonneg hx0)
  · apply h.int_le
    · rw [abs_of_nonneg q0]; omega
    · rw [le_div_iff₀ hb', eq]
      have : (0 : ℚ) ≤ ((a % b : ℤ) : ℚ) := by exact_mod_cast r0
      linarith
  · -- a/b ≤ q + 1 - 1/b
    have h1 : ((a % b : ℤ) : ℚ) ≤ b - 1 := by
      have : (a % b : ℤ) ≤ b - 1 := by omega
      exact_mod_cast this
    have h2 : (a : ℚ) / b ≤ ((a / b : ℤ) : ℚ) + 1 - 1 / b := by
      rw [div_le_iff₀ hb', eq]; field_simp; linarith
    have h3 := h.err ((a : ℚ) / b)
    rw [abs_of_nonneg hx0] at h3
    have h4 := (abs_le.mp h3).2
    have h5 : (a : ℚ) / b / 2 ^ 53 ≤ 1 / b / 2 ^ 3 := by
      have : (a : ℚ) ≤ 2 ^ 50 := by exact_mod_cast ha2
      rw [div_div, div_div, div_le_div_iff₀ (by positivity) (by positivity)]
      nlinarith
    have : (a : ℚ) / b < ((a / b : ℤ) : ℚ) + 1 := by
      have : (0 : ℚ) < 1 / b := by positivity
      linarith
    by_cases hbig : (b : ℚ) ≤ 2 ^ 60
    · have h6 : (1 : ℚ) / 2 ^ 1074 ≤ 1 / b / 2 ^ 3 := by
        rw [div_div]
        apply one_div_le_one_div_of_le (by positivity)
        calc (b : ℚ) * 2 ^ 3 ≤ 2 ^ 60 * 2 ^ 3 := by gcongr
          _ = 2 ^ 63 := by norm_num
          _ ≤ 2 ^ 1074 := pow_le_pow_right₀ (by norm_num) (by norm_num)
      have : (0 : ℚ) < 1 / b := by positivity
      linarith
    · -- quotient is tiny
      have h7 : (a : ℚ) / b ≤ 1 / 2 := by
        rw [div_le_iff₀ hb']
        have : (a : ℚ) ≤ 2 ^ 50 := by exact_mod_cast ha2
        linarith
      have h8 := h.mono h7
      have h9 : fl (1 / 2) = 1 / 2 := by
        have := h.dyadic (n := 1) 1 (by norm_num) (by norm_num); simpa using this
      have : (0 : ℚ) ≤ ((a / b : ℤ) : ℚ) := by exact_mod_cast q0
      linarith

/-- The mirrored rounding `x ↦ -fl (-x)`. -/
theorem mirror : FloatLike (fun x => -fl (-x)) where
  fix y hy := by rw [h.fix _ hy.neg, neg_neg]
  mono x y hxy := by have := h.mono (neg_le_neg hxy); simpa using this
  err x := by
    have := h.err (-x)
    rw [abs_neg] at this
    rw [← abs_neg]; convert this using 2; ring

/-- Truncated float quotient, any sign: NumPy's `(a / b).astype(np.int64)` is truncated integer
division. -/
theorem trunc_tdiv {a : ℤ} {b : ℕ} (ha : |a| ≤ 2 ^ 50) (hb : 0 < b) :
    trunc (fl ((a : ℚ) / b)) = Int.tdiv a b := by
  rcases le_total 0 a with h0 | h0
  · rw [abs_of_nonneg h0] at ha
    rw [h.trunc_div_nat h0 ha hb, Int.tdiv_eq_ediv_of_nonneg h0]
  · have e : (a : ℚ) / b = -(((-a : ℤ) : ℚ) / b) := by push_cast; ring
    rw [abs_of_nonpos h0] at ha
    have := h.mirror.trunc_div_nat (a := -a) (by omega) ha hb
    rw [trunc_neg] at this
    rw [e]
    have h2 : Int.tdiv a b = -((-a) / b) := by
      rw [← Int.tdiv_eq_ediv_of_nonneg (by omega), Int.neg_tdiv, neg_neg]
    omega
end FloatLike

/-- Negative centuries that the code mishandles: `year` (shifted so that it starts in March) is
negative, a multiple of 100 and not of 400. -/
theorem tdiv_century (y : ℤ) : 2 - Int.tdiv y 100 + Int.tdiv (Int.tdiv y 100) 4 =
    2 - y / 100 + y / 400 + if y < 0 ∧ y % 100 = 0 ∧ y % 400 ≠ 0 then 1 else 0 := by
  rcases le_or_gt 0 y with h | h
  · rw [Int.tdiv_eq_ediv_of_nonneg h, Int.tdiv_eq_ediv_of_nonneg (by omega)]
    split_ifs <;> omega
  · have e1 : Int.tdiv y 100 = -((-y) / 100) := by
      rw [← Int.tdiv_eq_ediv_of_nonneg (by omega), Int.neg_tdiv, neg_neg]
    have e2 : Int.tdiv (-((-y) / 100)) 4 = -((-y) / 100 / 4) := by
      rw [Int.neg_tdiv, Int.tdiv_eq_ediv_of_nonneg (by omega)]
    rw [e1, e2]
    split_ifs <;> omega

theorem tdiv_four (n : ℤ) : Int.tdiv (1461 * n) 4 =
    1461 * n / 4 + if n < 0 ∧ n % 4 ≠ 0 then 1 else 0 := by
  rcases le_or_gt 0 n with h | h
  · rw [Int.tdiv_eq_ediv_of_nonneg (by omega)]
    split_ifs <;> omega
  · have e1 : Int.tdiv (1461 * n) 4 = -((-(1461 * n)) / 4) := by
      rw [← Int.tdiv_eq_ediv_of_nonneg (by omega), Int.neg_tdiv, neg_neg]
    have e2 : (-(1461 * n)) / 4 = -365 * n + (-n) / 4 := by omega
    have e3 : 1461 * n / 4 = 365 * n + n / 4 := by omega
    rw [e1, e2, e3]
    split_ifs <;> omega

/-- The year with January and February counted to the preceding year. -/
def shiftYear (y m : ℤ) : ℤ := if m ≤ 2 then y - 1 else y

/-- By how many days `cal_to_jd` is too large (for integer dates). -/
def excess (g : Bool) (y m : ℤ) : ℤ :=
  (if g = true ∧ shiftYear y m < 0 ∧ shiftYear y m % 100 = 0 ∧ shiftYear y m % 400 ≠ 0 then 1
    else 0) + (if shiftYear y m < -4716 ∧ shiftYear y m % 4 ≠ 0 then 1 else 0)

/-- `(365.25 * (year + 4716)).astype(np.int64)` for the shifted year. -/
def yearTerm (y m : ℤ) : ℤ := Int.tdiv (1461 * (shiftYear y m + 4716)) 4

/-- `(30.6001 * (mon + 1)).astype(np.int64)` for the shifted month. -/
def monTerm (m : ℤ) : ℤ := 306001 * ((if m ≤ 2 then m + 12 else m) + 1) / 10000

/-- The Gregorian correction `B`. -/
def corrB (g : Bool) (y m : ℤ) : ℤ :=
  if g then 2 - Int.tdiv (shiftYear y m) 100 + Int.tdiv (Int.tdiv (shiftYear y m) 100) 4 else 0

/-- Indicator of divisibility. -/
def ind (n y : ℤ) : ℤ := if y % n = 0 then 1 else 0

theorem div4_aux (y : ℤ) : (y + 4715) / 4 = y / 4 + 1179 - ind 4 y := by
  unfold ind; split_ifs <;> omega

theorem div100_aux (y : ℤ) : (y + 4799) / 100 = y / 100 + 48 - ind 100 y := by
  unfold ind; split_ifs <;> omega

theorem div400_aux (y : ℤ) : (y + 4799) / 400 = y / 400 + 12 - ind 400 y := by
  unfold ind; split_ifs <;> omega

theorem leapDay_false (y : ℤ) : Spec.leapDay false y = ind 4 y := by
  unfold Spec.leapDay Spec.IsLeap ind
  simp only [Bool.false_eq_true, false_imp_iff, and_true, Int.dvd_iff_emod_eq_zero]

theorem leapDay_true (y : ℤ) : Spec.leapDay true y = ind 4 y - ind 100 y + ind 400 y := by
  unfold Spec.leapDay Spec.IsLeap ind
  simp only [true_imp_iff, Int.dvd_iff_emod_eq_zero]
  split_ifs <;> omega

theorem yearTerm_eq (y m : ℤ) : yearTerm y m = 365 * (shiftYear y m + 4716) + shiftYear y m / 4
    + 1179 + if shiftYear y m < -4716 ∧ shiftYear y m % 4 ≠ 0 then 1 else 0 := by
  unfold yearTerm
  rw [tdiv_four]
  have : 1461 * (shiftYear y m + 4716) / 4 = 365 * (shiftYear y m + 4716) + shiftYear y m / 4
    + 1179 := by omega
  rw [this]
  split_ifs <;> omega

/-- The closed formula agrees with day counting up to `excess`. -/
theorem formula_eq (g : Bool) (y m d : ℤ) (h1 : 1 ≤ m) (h2 : m ≤ 12) :
    yearTerm y m + monTerm m + d + corrB g y m - 1524 = Spec.jdn g y m d + excess g y m := by
  unfold Spec.jdn Spec.epoch excess corrB
  rw [Spec.dayOfYear_eq g y m d h1 (by omega), yearTerm_eq, tdiv_century]
  cases g
  · rw [Spec.daysToYear_false, leapDay_false]
    simp only [Bool.false_eq_true, if_false, false_and]
    generalize (if shiftYear y m < -4716 ∧ shiftYear y m % 4 ≠ 0 then (1:ℤ) else 0) = ex
    unfold monTerm shiftYear
    rcases le_or_gt m 2 with hm | hm
    · have e1 : (y + 4715) / 4 = (y - 1) / 4 + 1179 := by omega
      rw [e1]
      interval_cases m <;> norm_num <;> omega
    · rw [div4_aux]
      interval_cases m <;> norm_num <;> omega
  · rw [Spec.daysToYear_true, leapDay_true]
    simp only [if_true, true_and]
    generalize (if shiftYear y m < -4716 ∧ shiftYear y m % 4 ≠ 0 then (1:ℤ) else 0) = ex
    generalize (if shiftYear y m < 0 ∧ shiftYear y m % 100 = 0 ∧ shiftYear y m % 400 ≠ 0
      then (1:ℤ) else 0) = ex2
    unfold monTerm shiftYear
    rcases le_or_gt m 2 with hm | hm
    · have e1 : (y + 4715) / 4 = (y - 1) / 4 + 1179 := by omega
      have e2 : (y + 4799) / 100 = (y - 1) / 100 + 48 := by omega
      have e3 : (y + 4799) / 400 = (y - 1) / 400 + 12 := by omega
      rw [e1, e2, e3]
      simp only [if_pos hm]
      generalize (y - 1) / 100 = a
      generalize (y - 1) / 400 = b
      generalize (y - 1) / 4 = c
      interval_cases m <;> norm_num <;> omega
    · rw [div4_aux, div100_aux, div400_aux]
      simp only [if_neg (not_le.mpr hm)]
      generalize y / 100 = a
      generalize y / 400 = b
      generalize y / 4 = c
      interval_cases m <;> norm_num <;> omega

theorem monTerm_le (m : ℤ) (h1 : 1 ≤ m) (h2 : m ≤ 12) : 122 ≤ monTerm m ∧ monTerm m ≤ 459 := by
  unfold monTerm; interval_cases m <;> norm_num

/-- The arithmetic of `cal_to_jd` up to the last three float operations. -/
theorem calToJdCore_eq {fl : ℚ → ℚ} (h : FloatLike fl) (g : Bool) (y m : ℤ) (d : ℚ)
    (hy : |y| ≤ 2 ^ 40) (h1 : 1 ≤ m) (h2 : m ≤ 12) :
    calToJdCore fl y m d g =
      fl (fl (fl (((yearTerm y m + monTerm m : ℤ) : ℚ) + d) + corrB g y m) - 3049 / 2) := by
  obtain ⟨hy1, hy2⟩ := abs_le.mp hy
  have s1 : -2 ^ 40 - 1 ≤ shiftYear y m ∧ shiftYear y m ≤ 2 ^ 40 := by
    unfold shiftYear; split_ifs <;> omega
  have hyear : (if (m : ℚ) ≤ 2 then (fl ((y : ℚ) - 1), fl ((m : ℚ) + 12)) else ((y : ℚ), (m : ℚ)))
      = ((shiftYear y m : ℚ), (((if m ≤ 2 then m + 12 else m : ℤ)) : ℚ)) := by
    unfold shiftYear
    by_cases hm : m ≤ 2
    · have hm' : (m : ℚ) ≤ 2 := by exact_mod_cast hm
      rw [if_pos hm', if_pos hm, if_pos hm]
      have a := h.int_ge (n := y - 1) (by omega) (by omega)
      have b := h.int_ge (n := m + 12) (by omega) (by omega)
      push_cast at a b ⊢
      rw [a, b]
    · have hm' : ¬ (m : ℚ) ≤ 2 := by exact_mod_cast hm
      rw [if_neg hm', if_neg hm, if_neg hm]
  unfold calToJdCore
  rw [hyear]
  have hA : trunc (fl ((shiftYear y m : ℚ) / 100)) = Int.tdiv (shiftYear y m) 100 := by
    have := h.trunc_tdiv (a := shiftYear y m) (b := 100) (by rw [abs_le]; omega) (by norm_num)
    simpa using this
  have hA4 : trunc (fl ((Int.tdiv (shiftYear y m) 100 : ℤ) / 4)) =
      Int.tdiv (Int.tdiv (shiftYear y m) 100) 4 := by
    have hb : |Int.tdiv (shiftYear y m) 100| ≤ 2 ^ 50 := by
      have := Int.natAbs_tdiv_le_natAbs (shiftYear y m) 100
      rw [abs_le]; omega
    have := h.trunc_tdiv (a := Int.tdiv (shiftYear y m) 100) (b := 4) hb (by norm_num)
    simpa using this
  have hq : fl (1461 / 4) = 1461 / 4 := by
    have := h.dyadic (n := 1461) 2 (by norm_num) (by norm_num)
    norm_num at this ⊢; exact this
  have h4716 : fl ((shiftYear y m : ℚ) + 4716) = ((shiftYear y m + 4716 : ℤ) : ℚ) := by
    have := h.int_ge (n := shiftYear y m + 4716) (by omega) (by omega)
    push_cast at this ⊢; exact this
  have ht1 : trunc (fl (fl (1461 / 4) * fl ((shiftYear y m : ℚ) + 4716))) = yearTerm y m := by
    rw [hq, h4716]
    have e : (1461 / 4 : ℚ) * ((shiftYear y m + 4716 : ℤ) : ℚ)
        = ((1461 * (shiftYear y m + 4716) : ℤ) : ℚ) / 2 ^ 2 := by push_cast; ring
    rw [e, h.dyadic 2 (by norm_num) (by rw [abs_le]; omega)]
    have := trunc_div (1461 * (shiftYear y m + 4716)) 4 (by norm_num)
    unfold yearTerm
    norm_num at this ⊢; exact this
  have hr : |fl (306001 / 10000) - 306001 / 10000| ≤ 1 / 10 ^ 9 := by
    refine (h.err_le (B := 31) (by norm_num) (by norm_num [abs_of_pos])).trans (by norm_num)
  have hr' := abs_le.mp hr
  have ht2 : trunc (fl (fl (306001 / 10000) * fl (((if m ≤ 2 then m + 12 else m : ℤ) : ℚ) + 1)))
      = monTerm m := by
    set M : ℤ := if m ≤ 2 then m + 12 else m with hM
    have hM1 : 3 ≤ M := by rw [hM]; split_ifs <;> omega
    have hM2 : M ≤ 14 := by rw [hM]; split_ifs <;> omega
    have hf := h.int_ge (n := M + 1) (by omega) (by omega)
    push_cast at hf
    rw [hf]
    unfold monTerm
    rw [← hM]
    have b1 : (306001 / 10000 : ℚ) * (M + 1) - 1 / 10 ^ 7 ≤ fl (306001 / 10000) * (M + 1) := by
      have : (0:ℚ) ≤ (M:ℚ) + 1 := by exact_mod_cast (by omega : (0:ℤ) ≤ M + 1)
      have : (M:ℚ) + 1 ≤ 15 := by exact_mod_cast (by omega : M + 1 ≤ 15)
      nlinarith
    have b2 : fl (306001 / 10000) * (M + 1) ≤ (306001 / 10000 : ℚ) * (M + 1) + 1 / 10 ^ 7 := by
      have : (0:ℚ) ≤ (M:ℚ) + 1 := by exact_mod_cast (by omega : (0:ℤ) ≤ M + 1)
      have : (M:ℚ) + 1 ≤ 15 := by exact_mod_cast (by omega : M + 1 ≤ 15)
      nlinarith
    have hb : |fl (306001 / 10000) * ((M:ℚ) + 1)| ≤ 1000 := by
      have : (0:ℚ) ≤ (M:ℚ) + 1 := by exact_mod_cast (by omega : (0:ℤ) ≤ M + 1)
      have : (M:ℚ) + 1 ≤ 15 := by exact_mod_cast (by omega : M + 1 ≤ 15)
      rw [abs_le]; constructor <;> nlinarith
    have c1 := h.lo (B := 1000) (by norm_num) hb
    have c2 := h.hi (B := 1000) (by norm_num) hb
    clear hM
    interval_cases M <;> norm_num at * <;> apply trunc_eq <;> norm_num <;> linarith
  simp only [hA, hA4, ht1, ht2]
  cases g <;> simp [corrB]

end Verif
