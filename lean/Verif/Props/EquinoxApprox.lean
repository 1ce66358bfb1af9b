import Verif.Model.Equinox
import Verif.Lemmas.SpecCalendar
import Verif.Lemmas.Nutation
import Mathlib.Tactic.IntervalCases

/-!
# C47, C63: approximate times of equinoxes and solstices

Real arithmetic.
-/

namespace Verif
open Real Verif.Spec

/-! ### The polynomial part, exactly -/

/-- `10 ^ 17` times the value of the polynomial of a season. -/
def apN (season : String) (y : ℤ) : ℤ :=
  let p := if y ≤ 1000 then (y, Data.approx1000) else (y - 2000, Data.approx3000)
  match p.2.lookup season with
  | some [a, b, c, d, e] =>
    a * 10 ^ 12 + b * 10 ^ 9 * p.1 + c * 10 ^ 6 * p.1 ^ 2 + d * 10 ^ 3 * p.1 ^ 3 + e * p.1 ^ 4
  | _ => 0

theorem equinoxPoly_eq (y : ℤ) (h : -1000 ≤ y) (season : String) (hs : season ∈ seasonNames) :
    equinoxPoly y season = .ok ((apN season y : ℝ) / 10 ^ 17) := by
  have key : ∀ (a b c d e z : ℤ), polyR ([a, b, c, d, e].map fun (x : ℤ) => (x : ℝ) / 100000)
      ((z : ℝ) / 1000) = ((a * 10 ^ 12 + b * 10 ^ 9 * z + c * 10 ^ 6 * z ^ 2 + d * 10 ^ 3 * z ^ 3 +
        e * z ^ 4 : ℤ) : ℝ) / 10 ^ 17 := by
    intro a b c d e z
    simp only [List.map_cons, List.map_nil, polyR, horner]
    push_cast; ring
  have e2 : ((y : ℝ) - 2000) / 1000 = ((y - 2000 : ℤ) : ℝ) / 1000 := by push_cast; ring
  unfold equinoxPoly apN
  simp only [seasonNames, List.mem_cons, List.not_mem_nil, or_false] at hs
  by_cases c : y ≤ 1000
  · rw [if_pos ⟨h, c⟩, if_pos c]
    rcases hs with rfl | rfl | rfl | rfl <;>
      simp only [Data.approx1000, List.lookup, show ("summer" == "spring") = false by decide,
        show ("autumn" == "spring") = false by decide, show ("autumn" == "summer") = false by decide,
        show ("winter" == "spring") = false by decide, show ("winter" == "summer") = false by decide,
        show ("winter" == "autumn") = false by decide, beq_self_eq_true, key]
  · rw [if_neg (by tauto), if_neg c, e2]
    rcases hs with rfl | rfl | rfl | rfl <;>
      simp only [Data.approx3000, List.lookup, show ("summer" == "spring") = false by decide,
        show ("autumn" == "spring") = false by decide, show ("autumn" == "summer") = false by decide,
        show ("winter" == "spring") = false by decide, show ("winter" == "summer") = false by decide,
        show ("winter" == "autumn") = false by decide, beq_self_eq_true, key]

/-! ### The periodic correction -/

theorem sum_cos_abs {α : Type} (l : List α) (k : α → ℤ) (g : α → ℝ) (hg : ∀ r, |g r| ≤ 1) :
    |(l.map fun r => (k r : ℝ) * g r).sum| ≤ ((l.map fun r => (k r).natAbs).sum : ℕ) := by
  induction l with
  | nil => simp
  | cons r l ih =>
    simp only [List.map_cons, List.sum_cons, Nat.cast_add]
    refine (abs_add_le _ _).trans (add_le_add ?_ ih)
    rw [abs_mul, Nat.cast_natAbs, Int.cast_abs]
    exact mul_le_of_le_one_right (abs_nonneg _) (hg r)

theorem equinoxCorrection_abs (jd : ℝ) : |equinoxCorrection jd| ≤ 0.0205 := by
  unfold equinoxCorrection
  simp only
  have h := sum_cos_abs Data.equinoxTerms (fun r => r.1)
    (fun r => cos (dToR (r.2.1 / 1000) + dToR (r.2.2 / 1000) * jcent jd)) fun r => abs_cos_le_one _
  have n : (Data.equinoxTerms.map fun r => r.1.natAbs).sum = 1978 := by decide +kernel
  rw [n] at h
  generalize (Data.equinoxTerms.map fun r =>
    (r.1 : ℝ) * cos (dToR (r.2.1 / 1000) + dToR (r.2.2 / 1000) * jcent jd)).sum = s at h ⊢
  generalize dToR (35999.373 * jcent jd - 2.47) = W
  have d : 0.967 ≤ 1 + 0.0334 * cos W + 0.0007 * cos (2 * W) := by
    rw [cos_two_mul]
    have := neg_one_le_cos W
    norm_num
    nlinarith [sq_nonneg (cos W + 1)]
  generalize 1 + 0.0334 * cos W + 0.0007 * cos (2 * W) = q at d ⊢
  have q0 : 0 < q := by norm_num at d; linarith
  rw [abs_div, abs_of_pos q0, div_le_iff₀ q0, abs_mul, abs_of_pos (by norm_num : (0 : ℝ) < 0.00001)]
  norm_num at d h ⊢
  linarith

theorem equinoxApprox_near (y : ℤ) (h : -1000 ≤ y ∧ y ≤ 3000) (season : String)
    (hs : season ∈ seasonNames) : ∃ v, equinoxApprox seasonNames y season = .ok v ∧
      |v - (apN season y : ℝ) / 10 ^ 17| ≤ 0.0205 := by
  have r : (-1000 : ℚ) ≤ y ∧ (y : ℚ) ≤ 3000 := by exact_mod_cast h
  have t : trunc (y : ℚ) = y := by unfold trunc; split_ifs <;> simp
  refine ⟨(apN season y : ℝ) / 10 ^ 17 + equinoxCorrection ((apN season y : ℝ) / 10 ^ 17), ?_, ?_⟩
  · unfold equinoxApprox
    rw [if_neg (not_not.mpr r), if_neg (not_not.mpr hs), t, equinoxPoly_eq y h.1 season hs]
    rfl
  · rw [add_sub_cancel_left]; exact equinoxCorrection_abs _

/-! ### C47 -/

/-- C47: a year outside -1000..3000 is refused, whatever the season. -/
theorem equinox_approx_out_of_range (names : List String) (yr : ℚ) (season : String)
    (h : yr < -1000 ∨ 3000 < yr) :
    equinoxApprox names yr season = .error (.Error "equinox" "year is out of range") := by
  unfold equinoxApprox
  rw [if_pos]
  rintro ⟨a, b⟩
  rcases h with h | h <;> linarith

/-- C47: an unknown season is refused. -/
theorem equinox_approx_unknown_season (yr : ℚ) (season : String) (h : -1000 ≤ yr ∧ yr ≤ 3000)
    (hs : season ∉ ["spring", "summer", "autumn", "winter"]) :
    equinoxApprox seasonNames yr season = .error (.Error "equinox" ("unknown season =" ++ season)) := by
  unfold equinoxApprox
  rw [if_neg (not_not.mpr h), if_pos (show season ∉ seasonNames from hs)]

/-- C47: a fractional year stands for the integer part, also for negative years. -/
theorem equinox_approx_fractional (yr : ℚ) (season : String) (h : -1000 ≤ yr ∧ yr ≤ 3000) :
    equinoxApprox seasonNames yr season = equinoxApprox seasonNames (trunc yr : ℤ) season := by
  have t : trunc ((trunc yr : ℤ) : ℚ) = trunc yr := by
    generalize trunc yr = z
    unfold trunc; split_ifs <;> simp
  have r : -1000 ≤ ((trunc yr : ℤ) : ℚ) ∧ ((trunc yr : ℤ) : ℚ) ≤ 3000 := by
    unfold trunc
    split_ifs with c
    · have : (0 : ℤ) ≤ ⌊yr⌋ := Int.floor_nonneg.mpr c
      have : (0 : ℚ) ≤ ⌊yr⌋ := by exact_mod_cast this
      exact ⟨by linarith, (Int.floor_le yr).trans h.2⟩
    · have : ⌈yr⌉ ≤ (0 : ℤ) := Int.ceil_le.mpr (by push_cast; linarith)
      have : (⌈yr⌉ : ℚ) ≤ 0 := by exact_mod_cast this
      exact ⟨h.1.trans (Int.le_ceil yr), by linarith⟩
  unfold equinoxApprox
  rw [if_neg (not_not.mpr h), if_neg (not_not.mpr r), t]

/-- A check of all years from `-1000` to `3000`. -/
def allYears (p : ℤ → Bool) : Bool := (List.range 4001).all fun n => p (n - 1000)

theorem allYears_spec {p : ℤ → Bool} (h : allYears p = true) (y : ℤ) (hy : -1000 ≤ y ∧ y ≤ 3000) :
    p y = true := by
  unfold allYears at h
  rw [List.all_eq_true] at h
  have := h (y + 1000).toNat (List.mem_range.mpr (by omega))
  rwa [show (((y + 1000).toNat : ℕ) : ℤ) - 1000 = y by omega] at this

/-- `lo` and `hi` bound the difference `b - a`, all in units of `1e-3` day except `a`, `b`. -/
def within (lo hi a b : ℤ) : Bool := decide (lo * 10 ^ 14 ≤ b - a) && decide (b - a ≤ hi * 10 ^ 14)

theorem within_spec {lo hi a b : ℤ} (h : within lo hi a b = true) {x y : ℝ}
    (hx : |x - (a : ℝ) / 10 ^ 17| ≤ 0.0205) (hy : |y - (b : ℝ) / 10 ^ 17| ≤ 0.0205) :
    (lo : ℝ) / 1000 - 0.041 ≤ y - x ∧ y - x ≤ hi / 1000 + 0.041 := by
  unfold within at h
  rw [Bool.and_eq_true, decide_eq_true_eq, decide_eq_true_eq] at h
  have h1 : (lo : ℝ) * 10 ^ 14 ≤ b - a := by exact_mod_cast h.1
  have h2 : (b : ℝ) - a ≤ hi * 10 ^ 14 := by exact_mod_cast h.2
  obtain ⟨x1, x2⟩ := abs_le.mp hx
  obtain ⟨y1, y2⟩ := abs_le.mp hy
  have e1 : (lo : ℝ) / 1000 ≤ (b : ℝ) / 10 ^ 17 - (a : ℝ) / 10 ^ 17 := by
    rw [← sub_div, div_le_div_iff₀ (by norm_num) (by norm_num)]; linarith
  have e2 : (b : ℝ) / 10 ^ 17 - (a : ℝ) / 10 ^ 17 ≤ hi / 1000 := by
    rw [← sub_div, div_le_div_iff₀ (by norm_num) (by norm_num)]; linarith
  norm_num at x1 x2 y1 y2 ⊢
  constructor <;> linarith

theorem seasons_check : allYears (fun y =>
    within 91970 94260 (apN "spring" y) (apN "summer" y) &&
    within 91630 93920 (apN "summer" y) (apN "autumn" y) &&
    within 88420 90610 (apN "autumn" y) (apN "winter" y) &&
    (y == 3000 || within 88740 90940 (apN "winter" y) (apN "spring" (y + 1)))) = true := by
  decide +kernel

/-- C47: in every year from -1000 to 3000 spring, summer, autumn, winter and the next spring follow
one another at intervals of 88 to 95 days. -/
theorem equinox_approx_order (y : ℤ) (h : -1000 ≤ y ∧ y ≤ 3000) :
    ∃ spring summer autumn winter : ℝ,
      equinoxApprox seasonNames y "spring" = .ok spring ∧
      equinoxApprox seasonNames y "summer" = .ok summer ∧
      equinoxApprox seasonNames y "autumn" = .ok autumn ∧
      equinoxApprox seasonNames y "winter" = .ok winter ∧
      (91.9 < summer - spring ∧ summer - spring < 94.4) ∧
      (91.5 < autumn - summer ∧ autumn - summer < 94) ∧
      (88.3 < winter - autumn ∧ winter - autumn < 90.7) ∧
      (y < 3000 → ∃ spring', equinoxApprox seasonNames (y + 1 : ℤ) "spring" = .ok spring' ∧
        88.6 < spring' - winter ∧ spring' - winter < 91) := by
  have c := allYears_spec seasons_check y h
  simp only [Bool.and_eq_true, Bool.or_eq_true, beq_iff_eq] at c
  obtain ⟨⟨⟨c1, c2⟩, c3⟩, c4⟩ := c
  obtain ⟨a, ha, na⟩ := equinoxApprox_near y h "spring" (by decide)
  obtain ⟨b, hb, nb⟩ := equinoxApprox_near y h "summer" (by decide)
  obtain ⟨d, hd, nd⟩ := equinoxApprox_near y h "autumn" (by decide)
  obtain ⟨e, he, ne⟩ := equinoxApprox_near y h "winter" (by decide)
  refine ⟨a, b, d, e, ha, hb, hd, he, ?_, ?_, ?_, ?_⟩
  · obtain ⟨l, u⟩ := within_spec c1 na nb
    norm_num at l u ⊢; constructor <;> linarith
  · obtain ⟨l, u⟩ := within_spec c2 nb nd
    norm_num at l u ⊢; constructor <;> linarith
  · obtain ⟨l, u⟩ := within_spec c3 nd ne
    norm_num at l u ⊢; constructor <;> linarith
  · intro hy
    obtain ⟨s, hs, ns⟩ := equinoxApprox_near (y + 1) (by omega) "spring" (by decide)
    obtain ⟨l, u⟩ := within_spec (c4.resolve_left (by omega)) ne ns
    refine ⟨s, hs, ?_⟩
    norm_num at l u ⊢; constructor <;> linarith

theorem years_check : allYears (fun y => y == 3000 ||
    seasonNames.all fun s => within 365241 365243 (apN s y) (apN s (y + 1))) = true := by
  decide +kernel

/-- C47: the same season of two consecutive years is between 365.2 and 365.3 days apart. -/
theorem equinox_approx_year (y : ℤ) (h : -1000 ≤ y ∧ y < 3000) (season : String)
    (hs : season ∈ ["spring", "summer", "autumn", "winter"]) :
    ∃ t t' : ℝ, equinoxApprox seasonNames y season = .ok t ∧
      equinoxApprox seasonNames (y + 1 : ℤ) season = .ok t' ∧
      365.2 ≤ t' - t ∧ t' - t < 365.3 := by
  have c := allYears_spec years_check y ⟨h.1, by omega⟩
  simp only [Bool.or_eq_true, beq_iff_eq, List.all_eq_true] at c
  obtain ⟨a, ha, na⟩ := equinoxApprox_near y ⟨h.1, by omega⟩ season hs
  obtain ⟨b, hb, nb⟩ := equinoxApprox_near (y + 1) (by omega) season hs
  obtain ⟨l, u⟩ := within_spec ((c.resolve_left (by omega)) season hs) na nb
  refine ⟨a, b, ha, hb, ?_⟩
  norm_num at l u ⊢; constructor <;> linarith

example : (-1000 : ℤ) ≤ 1962 ∧ (1962 : ℤ) < 3000 := by norm_num

/-- Value at `Y` of the polynomial of a season, in units of `1e-5` day. -/
def tableAt (tbl : List (String × List ℤ)) (season : String) (Y : ℤ) : Option ℤ :=
  (tbl.lookup season).map fun c => (c.zipIdx.map fun (x, i) => x * Y ^ i).sum

/-- C47: where the two tables meet, in the year 1000, they agree to a second for three seasons, but
jump by 42 seconds for the summer solstice. -/
theorem equinox_tables_meet :
    (["spring", "summer", "autumn", "winter"].map fun s =>
      (tableAt Data.approx1000 s 1).bind fun a => (tableAt Data.approx3000 s (-1)).map (a - ·)) =
    [some 0, some (-49), some (-1), some 1] := by
  decide +kernel

/-! ### C63: calendar dates -/

/-- First day and the day after the last day on which a season may begin: month, day, month, day. -/
def seasonDates : List (String × ℤ × ℤ × ℤ × ℤ) :=
  [("spring", 3, 19, 3, 22), ("summer", 6, 19, 6, 23), ("autumn", 9, 21, 9, 25),
   ("winter", 12, 20, 12, 24)]

/-- Julian Day Number of a Gregorian date after February, in closed form. -/
def jdnClosed (y m d : ℤ) : ℤ :=
  38 + (365 * (y + 4712) + (y + 4715) / 4 - (y + 4799) / 100 + (y + 4799) / 400) +
    ((if m = 3 then 59 else if m = 6 then 151 else if m = 9 then 243 else 334) +
      (if y % 4 = 0 ∧ (y % 100 = 0 → y % 400 = 0) then 1 else 0) + d - 1)

theorem jdnClosed_eq (y m d : ℤ) (hm : m = 3 ∨ m = 6 ∨ m = 9 ∨ m = 12) :
    jdn true y m d = jdnClosed y m d := by
  have l : leapDay true y = if y % 4 = 0 ∧ (y % 100 = 0 → y % 400 = 0) then 1 else 0 := by
    unfold leapDay IsLeap
    simp only [Int.dvd_iff_emod_eq_zero, true_imp_iff]
  unfold jdn jdnClosed epoch
  rw [daysToYear_true, dayOfYear_eq _ _ _ _ (by omega) (by omega), l]
  rcases hm with rfl | rfl | rfl | rfl <;> norm_num

theorem dates_check : allYears (fun y => decide (y ≤ 1582) || seasonDates.all fun r =>
    decide ((jdnClosed y r.2.1 r.2.2.1 * 100 - 50) * 10 ^ 15 + 3 * 10 ^ 15 ≤ apN r.1 y) &&
    decide (apN r.1 y ≤ (jdnClosed y r.2.2.2.1 r.2.2.2.2 * 100 - 50) * 10 ^ 15 - 3 * 10 ^ 15)) =
      true := by
  decide +kernel

/-- C63: since the Gregorian reform every season begins on one of the usual dates: spring 19-21
March, summer 19-22 June, autumn 21-24 September, winter 20-23 December. -/
theorem equinox_approx_date (y : ℤ) (h : 1583 ≤ y ∧ y ≤ 3000) :
    ∀ r ∈ seasonDates, ∃ t : ℝ, equinoxApprox seasonNames y r.1 = .ok t ∧
      (jd0 true y r.2.1 r.2.2.1 : ℝ) < t ∧ t < (jd0 true y r.2.2.2.1 r.2.2.2.2 : ℝ) := by
  intro r hr
  have m : r.1 ∈ seasonNames ∧ (r.2.1 = 3 ∨ r.2.1 = 6 ∨ r.2.1 = 9 ∨ r.2.1 = 12) ∧
      (r.2.2.2.1 = 3 ∨ r.2.2.2.1 = 6 ∨ r.2.2.2.1 = 9 ∨ r.2.2.2.1 = 12) := by
    revert r; decide
  have c := allYears_spec dates_check y (by omega)
  simp only [Bool.or_eq_true, decide_eq_true_eq, List.all_eq_true, Bool.and_eq_true] at c
  obtain ⟨c1, c2⟩ := (c.resolve_left (by omega)) r hr
  obtain ⟨t, ht, nt⟩ := equinoxApprox_near y (by omega) r.1 m.1
  refine ⟨t, ht, ?_⟩
  unfold jd0
  rw [jdnClosed_eq _ _ _ m.2.1, jdnClosed_eq _ _ _ m.2.2]
  generalize jdnClosed y r.2.1 r.2.2.1 = a at *
  generalize jdnClosed y r.2.2.2.1 r.2.2.2.2 = b at *
  generalize apN r.1 y = n at *
  have c1 : ((a : ℝ) * 100 - 50) * 10 ^ 15 + 3 * 10 ^ 15 ≤ n := by exact_mod_cast c1
  have c2 : (n : ℝ) ≤ ((b : ℝ) * 100 - 50) * 10 ^ 15 - 3 * 10 ^ 15 := by exact_mod_cast c2
  obtain ⟨t1, t2⟩ := abs_le.mp nt
  norm_num at t1 t2 ⊢
  constructor <;> linarith

example : (1583 : ℤ) ≤ 2024 ∧ (2024 : ℤ) ≤ 3000 := by norm_num

end Verif
