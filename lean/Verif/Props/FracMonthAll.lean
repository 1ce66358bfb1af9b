import Verif.Props.FracYear

/-!
# C16 for the years before Christ

`yr_frac_mon_to_jd` inherits the exceptional dates of `cal_to_jd` (C01).
-/

namespace Verif
open Spec

/-- A negative century year that is not a leap year of the Gregorian calendar. -/
def BadCentury (y : ℤ) : Prop := y < 0 ∧ 100 ∣ y ∧ ¬ 400 ∣ y

instance (y : ℤ) : Decidable (BadCentury y) := by unfold BadCentury; infer_instance

theorem excess_bad (y m : ℤ) (hy : -4715 ≤ y) :
    excess true y m = if (BadCentury y ∧ 3 ≤ m) ∨ (BadCentury (y - 1) ∧ m ≤ 2) then 1 else 0 := by
  have e := excess_eq true y m hy
  unfold BadCentury
  split_ifs with hc
  · refine e.1 ⟨rfl, ?_⟩
    rcases hc with ⟨⟨a, b, c⟩, d⟩ | ⟨⟨a, b, c⟩, d⟩
    · exact ⟨y, a, b, c, .inl ⟨rfl, d⟩⟩
    · exact ⟨y - 1, a, b, c, .inr ⟨by omega, d⟩⟩
  · refine e.2 ?_
    rintro ⟨-, c, c1, c2, c3, c4⟩
    apply hc
    rcases c4 with ⟨rfl, d⟩ | ⟨rfl, d⟩
    · exact .inl ⟨⟨c1, c2, c3⟩, d⟩
    · exact .inr ⟨⟨by omega, by rwa [add_sub_cancel_right], by rwa [add_sub_cancel_right]⟩, d⟩

theorem first_of_month {fl : ℚ → ℚ} (h : FloatLike fl) (y m : ℤ) (hy1 : -4712 ≤ y) (hy2 : y < 2 ^ 31)
    (h1 : 1 ≤ m) (h2 : m ≤ 12) :
    calToJd fl [.int y] [.int m] [1] true = .ok (.scalar (jd0 true y m 1 + excess true y m)) := by
  have := cal_to_jd_whole_day h true y m 1 (by omega) hy2
    ⟨h1, h2, le_rfl, by have := monthLen_ge true y m; omega⟩
  rwa [Int.cast_one] at this

/-- C16: for every year from -4712 on, every month and every fraction in any arithmetic: `yr_frac_mon_to_jd` is the
first of the month plus the fraction of the length of the month, but a day too large from March of a negative century
year that is not a leap year to the following February; the February of such a year is counted with 29 days and the
February after it with 27. -/
theorem yr_frac_mon_to_jd_all_years {fl : ℚ → ℚ} (h : FloatLike fl) (y m : ℤ) (f : ℚ) (g : Bool)
    (hy : -4712 ≤ y) (hy2 : y < 2 ^ 31 - 1) (h1 : 1 ≤ m) (h2 : m ≤ 12) (hf : 0 < f) (hf1 : f < 1)
    (hF : fl f = f) :
    yrFracMonToJd fl [y] [(m : ℚ) + f] g =
      .ok (.scalar (fl (jd0 true y m 1 +
        (if (BadCentury y ∧ 3 ≤ m) ∨ (BadCentury (y - 1) ∧ m ≤ 2) then 1 else 0) +
        fl ((monthLen true y m + (if BadCentury y ∧ m = 2 then 1 else 0) -
          (if BadCentury (y - 1) ∧ m = 2 then 1 else 0)) * f)))) := by
  have hm : (1 : ℚ) ≤ m := by exact_mod_cast h1
  have hfloor : ⌊(m : ℚ) + f⌋ = m := by
    rw [Int.floor_eq_iff]; constructor <;> linarith
  have hi : (Num.flt ((m : ℚ) + f)).toI32 = m := by
    show (if -2 ^ 31 ≤ trunc ((m : ℚ) + f) ∧ trunc ((m : ℚ) + f) < 2 ^ 31 then trunc ((m : ℚ) + f) else -2 ^ 31) = m
    rw [trunc_of_nonneg (by linarith), hfloor, if_pos (by omega)]
  have c0 := first_of_month h y m hy (by omega) h1 h2
  have c1 := first_of_month h (if m + 1 = 13 then y + 1 else y) (if m + 1 = 13 then 1 else m + 1)
    (by split_ifs <;> omega) (by split_ifs <;> omega) (by split_ifs <;> omega) (by split_ifs <;> omega)
  have e := jd0_nextMonth true y m h1 h2
  have e' : jd0 true (if m + 1 = 13 then y + 1 else y)
      (if m + 1 = 13 then 1 else m + 1) 1 = jd0 true y m 1 + monthLen true y m := by
    rw [← e]; split_ifs <;> rfl
  rw [e'] at c1
  have d : excess true (if m + 1 = 13 then y + 1 else y) (if m + 1 = 13 then 1 else m + 1) - excess true y m =
      (if BadCentury y ∧ m = 2 then 1 else 0) - (if BadCentury (y - 1) ∧ m = 2 then 1 else 0) := by
    by_cases h13 : m + 1 = 13
    · rw [if_pos h13, if_pos h13, excess_bad _ _ (by omega), excess_bad _ _ (by omega), add_sub_cancel_right]
      have : m = 12 := by omega
      subst this
      simp
    · rw [if_neg h13, if_neg h13, excess_bad _ _ (by omega), excess_bad _ _ (by omega)]
      have nb : ¬ (BadCentury y ∧ BadCentury (y - 1)) := by unfold BadCentury; omega
      by_cases b1 : BadCentury y <;> by_cases b2 : BadCentury (y - 1)
      · exact absurd ⟨b1, b2⟩ nb
      all_goals simp only [b1, b2, true_and, false_and, or_false, false_or, if_false]
      all_goals split_ifs <;> omega
  have ml1 := monthLen_ge true y m
  have ml2 := monthLen_le true y m
  have q : fl (jd0 true y m 1 + monthLen true y m +
        (excess true (if m + 1 = 13 then y + 1 else y) (if m + 1 = 13 then 1 else m + 1) : ℤ) -
        (jd0 true y m 1 + (excess true y m : ℤ))) =
      (monthLen true y m : ℚ) + (if BadCentury y ∧ m = 2 then 1 else 0) -
          (if BadCentury (y - 1) ∧ m = 2 then 1 else 0) := by
    have d' := congrArg (Int.cast (R := ℚ)) d
    push_cast at d'
    have k : jd0 true y m 1 + monthLen true y m +
        (excess true (if m + 1 = 13 then y + 1 else y) (if m + 1 = 13 then 1 else m + 1) : ℤ) -
        (jd0 true y m 1 + (excess true y m : ℤ)) = ((monthLen true y m + (if BadCentury y ∧ m = 2 then 1 else 0) -
          (if BadCentury (y - 1) ∧ m = 2 then 1 else 0) : ℤ) : ℚ) := by
      push_cast; linarith
    rw [k, h.int (by rw [abs_le]; split_ifs <;> omega)]
    push_cast; rfl
  unfold yrFracMonToJd
  have hb : bcast2 [y] [(m : ℚ) + f] = .ok [(y, (m : ℚ) + f)] := by simp [bcast2, bdim, stretch]
  rw [hb]
  simp only [List.map_cons, List.map_nil, hi, add_sub_cancel_left, hF, hf, decide_true, gt_iff_lt,
    List.any_cons, List.any_nil, Bool.or_false, List.zipWith_cons_cons, List.zipWith_nil_right, List.zip_cons_cons,
    List.zip_nil_right, List.filter_cons, List.filter_nil, if_true, c0, c1, Out.toList, subArr, mulArr, addArr, maskAssign,
    List.replicate, List.length_cons, List.length_nil, q, scalarIfOne]
  rw [excess_bad y m (by omega)]
  push_cast
  rfl

/-- C16: the middle of February -100 comes out half a day late, that of February -99 half a day early relative to a
first of the month that is already a day late. -/
theorem february_of_bad_century :
    yrFracMonToJd (fun x => x) [-100] [2 + 1 / 2] true = .ok (.scalar (jd0 true (-100) 2 1 + 29 / 2)) ∧
    yrFracMonToJd (fun x => x) [-99] [2 + 1 / 2] true = .ok (.scalar (jd0 true (-99) 2 1 + 1 + 27 / 2)) ∧
    monthLen true (-100) 2 = 28 ∧ monthLen true (-99) 2 = 28 := by
  have a := yr_frac_mon_to_jd_all_years FloatLike.id (-100) 2 (1 / 2) true (by norm_num) (by norm_num) (by norm_num)
    (by norm_num) (by norm_num) (by norm_num) rfl
  have b := yr_frac_mon_to_jd_all_years FloatLike.id (-99) 2 (1 / 2) true (by norm_num) (by norm_num) (by norm_num)
    (by norm_num) (by norm_num) (by norm_num) rfl
  have l1 : monthLen true (-100) 2 = 28 := by decide
  have l2 : monthLen true (-99) 2 = 28 := by decide
  have b1 : BadCentury (-100) := by decide
  have b2 : ¬ BadCentury (-101) := by decide
  have b3 : ¬ BadCentury (-99) := by decide
  norm_num [l1, b1, b2] at a
  norm_num [l2, b1, b3] at b
  refine ⟨?_, ?_, l1, l2⟩
  · rw [← a]; norm_num
  · rw [← b]; norm_num

end Verif
