import Verif.Spec.Calendar
import Mathlib.Tactic.Linarith
import Mathlib.Tactic.Ring
import Mathlib.Tactic.NormNum
import Mathlib.Algebra.Order.BigOperators.Group.Finset
import Mathlib.Tactic.IntervalCases
import Mathlib.Algebra.Order.Interval.Finset.SuccPred

namespace Verif.Spec

theorem daysToYear_succ (g : Bool) (y : ℤ) :
    daysToYear g (y + 1) = daysToYear g y + yearLen g y := by
  unfold daysToYear
  rcases le_or_gt (-4712) y with h | h
  · have e1 : Finset.Ico (-4712) (y + 1) = insert y (Finset.Ico (-4712) y) := by
      ext; simp; omega
    have e2 : Finset.Ico y (-4712) = ∅ := by ext; simp; omega
    have e3 : Finset.Ico (y + 1) (-4712) = ∅ := by ext; simp; omega
    rw [e1, e2, e3, Finset.sum_insert (by simp)]; simp; ring
  · have e1 : Finset.Ico y (-4712) = insert y (Finset.Ico (y + 1) (-4712)) := by
      ext; simp; omega
    have e2 : Finset.Ico (-4712) y = ∅ := by ext; simp; omega
    have e3 : Finset.Ico (-4712) (y + 1) = ∅ := by ext; simp; omega
    rw [e1, e2, e3, Finset.sum_insert (by simp)]; simp

theorem daysToYear_zero (g : Bool) : daysToYear g (-4712) = 0 := by simp [daysToYear]

theorem yearLen_false (y : ℤ) : yearLen false y = if y % 4 = 0 then 366 else 365 := by
  unfold yearLen IsLeap
  simp only [Bool.false_eq_true, false_imp_iff, and_true, Int.dvd_iff_emod_eq_zero]

theorem yearLen_true (y : ℤ) : yearLen true y =
    if y % 4 = 0 ∧ (y % 100 = 0 → y % 400 = 0) then 366 else 365 := by
  unfold yearLen IsLeap
  simp only [true_imp_iff, Int.dvd_iff_emod_eq_zero]

theorem ediv_step (k c n : ℤ) (hn : 0 < n) :
    (k + 1 + c) / n = (k + c) / n + if (k + c + 1) % n = 0 then 1 else 0 := by
  have a1 := Int.emod_add_mul_ediv (k + c + 1) n
  have a2 := Int.emod_add_mul_ediv (k + c) n
  have b1 := Int.emod_nonneg (k + c + 1) hn.ne'
  have b2 := Int.emod_nonneg (k + c) hn.ne'
  have c1 := Int.emod_lt_of_pos (k + c + 1) hn
  have c2 := Int.emod_lt_of_pos (k + c) hn
  rw [show k + 1 + c = k + c + 1 by ring]
  split_ifs with h
  · have : n * ((k + c + 1) / n - (k + c) / n) = (k + c) % n + 1 := by rw [mul_sub]; omega
    have h3 : 0 < (k + c + 1) / n - (k + c) / n := by
      by_contra hc; have := mul_nonpos_of_nonneg_of_nonpos hn.le (not_lt.mp hc); omega
    have h4 : (k + c + 1) / n - (k + c) / n < 2 := by
      by_contra hc
      have := mul_le_mul_of_nonneg_left (not_lt.mp hc) hn.le; omega
    omega
  · have : n * ((k + c + 1) / n - (k + c) / n) = (k + c) % n + 1 - (k + c + 1) % n := by
      rw [mul_sub]; omega
    have h3 : -1 < (k + c + 1) / n - (k + c) / n := by
      by_contra hc
      have := mul_le_mul_of_nonneg_left (not_lt.mp hc) hn.le; omega
    have h4 : (k + c + 1) / n - (k + c) / n < 1 := by
      by_contra hc
      have := mul_le_mul_of_nonneg_left (not_lt.mp hc) hn.le; omega
    omega

theorem step_false (k : ℤ) : 365 * (k + 1 + 4712) + (k + 1 + 4715) / 4 =
    365 * (k + 4712) + (k + 4715) / 4 + yearLen false k := by
  rw [yearLen_false, ediv_step k 4715 4 (by norm_num)]
  split_ifs <;> omega

theorem step_true (k : ℤ) :
    365 * (k + 1 + 4712) + (k + 1 + 4715) / 4 - (k + 1 + 4799) / 100 + (k + 1 + 4799) / 400 =
    365 * (k + 4712) + (k + 4715) / 4 - (k + 4799) / 100 + (k + 4799) / 400 + yearLen true k := by
  rw [yearLen_true, ediv_step k 4715 4 (by norm_num), ediv_step k 4799 100 (by norm_num),
    ediv_step k 4799 400 (by norm_num)]
  split_ifs <;> omega

theorem daysToYear_false (y : ℤ) : daysToYear false y = 365 * (y + 4712) + (y + 4715) / 4 := by
  refine Int.inductionOn' y (-4712) ?_ ?_ ?_
  · rw [daysToYear_zero]; norm_num
  · intro k _ ih
    rw [daysToYear_succ, ih, step_false]
  · intro k _ ih
    have h1 := daysToYear_succ false (k - 1)
    have h2 := step_false (k - 1)
    rw [sub_add_cancel] at h1 h2
    linarith

theorem daysToYear_true (y : ℤ) : daysToYear true y =
    365 * (y + 4712) + (y + 4715) / 4 - (y + 4799) / 100 + (y + 4799) / 400 := by
  refine Int.inductionOn' y (-4712) ?_ ?_ ?_
  · rw [daysToYear_zero]; norm_num
  · intro k _ ih
    rw [daysToYear_succ, ih, step_true]
  · intro k _ ih
    have h1 := daysToYear_succ true (k - 1)
    have h2 := step_true (k - 1)
    rw [sub_add_cancel] at h1 h2
    linarith

theorem sum_Ico_succ (f : ℤ → ℤ) {m : ℤ} (h : 1 ≤ m) :
    ∑ k ∈ Finset.Ico 1 (m + 1), f k = (∑ k ∈ Finset.Ico 1 m, f k) + f m := by
  have e1 : Finset.Ico 1 (m + 1) = insert m (Finset.Ico 1 m) := by ext; simp; omega
  rw [e1, Finset.sum_insert (by simp)]; ring

/-- Leap day contribution. -/
def leapDay (g : Bool) (y : ℤ) : ℤ := if IsLeap g y then 1 else 0

theorem yearLen_eq (g : Bool) (y : ℤ) : yearLen g y = 365 + leapDay g y := by
  unfold yearLen leapDay; split_ifs <;> norm_num

theorem monthLen_eq (g : Bool) (y m : ℤ) : monthLen g y m =
    if m = 4 ∨ m = 6 ∨ m = 9 ∨ m = 11 then 30
    else if m = 2 then 28 + leapDay g y else 31 := by
  unfold monthLen leapDay; split_ifs <;> norm_num

theorem leapDay_cases (g : Bool) (y : ℤ) : leapDay g y = 0 ∨ leapDay g y = 1 := by
  unfold leapDay; split_ifs <;> simp

/-- The cumulative month table. -/
theorem dayOfYear_eq (g : Bool) (y m d : ℤ) (h1 : 1 ≤ m) (h2 : m ≤ 13) : dayOfYear g y m d =
    (if m = 1 then 0 else if m = 2 then 31 else
      (if m = 3 then 59 else if m = 4 then 90 else if m = 5 then 120 else if m = 6 then 151
       else if m = 7 then 181 else if m = 8 then 212 else if m = 9 then 243 else if m = 10 then 273
       else if m = 11 then 304 else if m = 12 then 334 else 365) + leapDay g y) + d := by
  unfold dayOfYear
  congr 1
  have b : ∑ k ∈ Finset.Ico 1 (1:ℤ), monthLen g y k = 0 := by simp
  have s := fun {m : ℤ} (h : 1 ≤ m) => sum_Ico_succ (monthLen g y) h
  have s2 := s (m := 1) (by norm_num)
  have s3 := s (m := 2) (by norm_num)
  have s4 := s (m := 3) (by norm_num)
  have s5 := s (m := 4) (by norm_num)
  have s6 := s (m := 5) (by norm_num)
  have s7 := s (m := 6) (by norm_num)
  have s8 := s (m := 7) (by norm_num)
  have s9 := s (m := 8) (by norm_num)
  have s10 := s (m := 9) (by norm_num)
  have s11 := s (m := 10) (by norm_num)
  have s12 := s (m := 11) (by norm_num)
  have s13 := s (m := 12) (by norm_num)
  simp only [monthLen_eq] at *
  norm_num at *
  interval_cases m <;> norm_num at * <;> linarith

theorem dayOfYear_month_succ (g : Bool) (y m d : ℤ) (h1 : 1 ≤ m) :
    dayOfYear g y (m + 1) d = dayOfYear g y m d + monthLen g y m := by
  unfold dayOfYear; rw [sum_Ico_succ _ h1]; ring

theorem dayOfYear_13 (g : Bool) (y d : ℤ) : dayOfYear g y 13 d = yearLen g y + d := by
  rw [dayOfYear_eq g y 13 d (by norm_num) (by norm_num), yearLen_eq]; norm_num

theorem dayOfYear_1 (g : Bool) (y d : ℤ) : dayOfYear g y 1 d = d := by
  unfold dayOfYear; simp

/-- The specification's next day has the next Julian Day Number. -/
theorem jdn_next (g : Bool) (y m d : ℤ) (h : Valid g y m d) :
    jdn g (next g y m d).1 (next g y m d).2.1 (next g y m d).2.2 = jdn g y m d + 1 := by
  obtain ⟨h1, h2, h3, h4⟩ := h
  unfold next
  split_ifs with a b
  · simp only [jdn, dayOfYear]; ring
  · simp only [jdn, dayOfYear_month_succ g y m _ h1]
    simp only [dayOfYear]; omega
  · have : m = 12 := by omega
    subst this
    have e := dayOfYear_13 g y 1
    rw [show (13:ℤ) = 12 + 1 by norm_num, dayOfYear_month_succ g y 12 _ (by norm_num)] at e
    simp only [jdn, dayOfYear_1, daysToYear_succ]
    simp only [dayOfYear] at *; omega

theorem monthLen_ge (g : Bool) (y m : ℤ) : 28 ≤ monthLen g y m := by
  unfold monthLen; split_ifs <;> norm_num

theorem monthLen_le (g : Bool) (y m : ℤ) : monthLen g y m ≤ 31 := by
  unfold monthLen; split_ifs <;> norm_num

theorem next_valid (g : Bool) (y m d : ℤ) (h : Valid g y m d) :
    Valid g (next g y m d).1 (next g y m d).2.1 (next g y m d).2.2 := by
  obtain ⟨h1, h2, h3, h4⟩ := h
  have := monthLen_ge g y (m + 1)
  have := monthLen_ge g (y + 1) 1
  unfold next
  split_ifs with a b <;> refine ⟨?_, ?_, ?_, ?_⟩ <;> simp only <;> omega

/-- Every day number from 1 January of year `y0` on belongs to a valid date. -/
theorem exists_date (g : Bool) (y0 : ℤ) (n : ℕ) : ∃ y m d, Valid g y m d ∧ y0 ≤ y ∧
    jdn g y m d = jdn g y0 1 1 + n := by
  induction n with
  | zero => exact ⟨y0, 1, 1, by have := monthLen_ge g y0 1; refine ⟨?_, ?_, ?_, ?_⟩ <;> omega,
      le_rfl, by simp⟩
  | succ n ih =>
    obtain ⟨y, m, d, hv, hy, e⟩ := ih
    refine ⟨_, _, _, next_valid g y m d hv, ?_, ?_⟩
    · unfold next; split_ifs <;> simp only <;> omega
    · rw [jdn_next g y m d hv, e]; push_cast; ring

theorem daysToYear_mono {g : Bool} {y y' : ℤ} (h : y < y') :
    daysToYear g y + yearLen g y ≤ daysToYear g y' := by
  have : ∀ k : ℕ, daysToYear g y + yearLen g y ≤ daysToYear g (y + 1 + k) := by
    intro k
    induction k with
    | zero => simp [daysToYear_succ]
    | succ k ih =>
      have e : y + 1 + ((k + 1 : ℕ) : ℤ) = (y + 1 + k) + 1 := by push_cast; ring
      rw [e, daysToYear_succ]
      have : 0 ≤ yearLen g (y + 1 + k) := by unfold yearLen; split_ifs <;> norm_num
      omega
  have := this (y' - y - 1).toNat
  rwa [show y + 1 + ((y' - y - 1).toNat : ℤ) = y' by omega] at this

theorem dayOfYear_mono {g : Bool} {y m m' d : ℤ} (h1 : 1 ≤ m) (h : m < m') :
    dayOfYear g y m d + monthLen g y m ≤ dayOfYear g y m' d := by
  have : ∀ k : ℕ, dayOfYear g y m d + monthLen g y m ≤ dayOfYear g y (m + 1 + k) d := by
    intro k
    induction k with
    | zero => simp [dayOfYear_month_succ g y m d h1]
    | succ k ih =>
      have e : m + 1 + ((k + 1 : ℕ) : ℤ) = (m + 1 + k) + 1 := by push_cast; ring
      rw [e, dayOfYear_month_succ g y _ d (by omega)]
      have := monthLen_ge g y (m + 1 + k)
      omega
  have := this (m' - m - 1).toNat
  rwa [show m + 1 + ((m' - m - 1).toNat : ℤ) = m' by omega] at this

theorem dayOfYear_bounds {g : Bool} {y m d : ℤ} (h : Valid g y m d) :
    1 ≤ dayOfYear g y m d ∧ dayOfYear g y m d ≤ yearLen g y := by
  obtain ⟨h1, h2, h3, h4⟩ := h
  constructor
  · have : 0 ≤ ∑ k ∈ Finset.Ico 1 m, monthLen g y k :=
      Finset.sum_nonneg fun i _ => by have := monthLen_ge g y i; omega
    unfold dayOfYear; omega
  · have a := dayOfYear_mono (g := g) (y := y) (d := 0) h1 (show m < 13 by omega)
    rw [dayOfYear_13] at a
    have : dayOfYear g y m d = dayOfYear g y m 0 + d := by unfold dayOfYear; ring
    omega

/-- The specification's day count is strictly increasing in the date. -/
theorem jdn_strictMono {g : Bool} {y m d y' m' d' : ℤ} (h : Valid g y m d) (h' : Valid g y' m' d')
    (hb : Before (y, m, d) (y', m', d')) : jdn g y m d < jdn g y' m' d' := by
  have b1 := dayOfYear_bounds h
  have b2 := dayOfYear_bounds h'
  unfold jdn
  simp only [Before] at hb
  rcases hb with hy | ⟨rfl, hm | ⟨rfl, hd⟩⟩
  · have := daysToYear_mono (g := g) hy; omega
  · have a := dayOfYear_mono (g := g) (y := y) (d := 0) h.1 hm
    have e1 : dayOfYear g y m d = dayOfYear g y m 0 + d := by unfold dayOfYear; ring
    have e2 : dayOfYear g y m' d' = dayOfYear g y m' 0 + d' := by unfold dayOfYear; ring
    have := h.2.2.2; have := h'.2.2.1
    omega
  · unfold dayOfYear; omega

theorem jdn_inj {g : Bool} {y m d y' m' d' : ℤ} (h : Valid g y m d) (h' : Valid g y' m' d')
    (e : jdn g y m d = jdn g y' m' d') : y = y' ∧ m = m' ∧ d = d' := by
  have a := fun hb => jdn_strictMono (g := g) h h' hb
  have b := fun hb => jdn_strictMono (g := g) h' h hb
  simp only [Before] at a b
  by_contra hc
  have : (y < y' ∨ (y = y' ∧ (m < m' ∨ (m = m' ∧ d < d')))) ∨
    (y' < y ∨ (y' = y ∧ (m' < m ∨ (m' = m ∧ d' < d)))) := by omega
  rcases this with hh | hh
  · have := a hh; omega
  · have := b hh; omega

end Verif.Spec
