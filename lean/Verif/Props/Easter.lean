import Verif.Props.DayOfYear
import Verif.Spec.Easter
import Mathlib.Data.Int.GCD
import Mathlib.Data.Nat.Prime.Basic
import Mathlib.Tactic.NormNum.Prime

/-!
# C11-C14: Easter
-/

namespace Verif
open Spec

/-- Both helpers return a day of March, shifted by 92. -/
theorem easter1_march (t : ℤ) (h1 : 114 ≤ t) (h2 : t ≤ 148) :
    (t / 31 = 3 ∧ t % 31 + 1 = t - 92 ∧ t ≤ 123) ∨ (t / 31 = 4 ∧ t % 31 + 1 = t - 123 ∧ 124 ≤ t) := by
  omega

theorem jdn_march (g : Bool) (y d : ℤ) : jdn g y 3 d = epoch g + daysToYear g y + 58 + leapDay g y + d := by
  unfold jdn; rw [dayOfYear_eq g y 3 d (by norm_num) (by norm_num)]; norm_num; ring

theorem jdn_april (g : Bool) (y d : ℤ) : jdn g y 4 d = jdn g y 3 (d + 31) := by
  rw [jdn_march]; unfold jdn; rw [dayOfYear_eq g y 4 d (by norm_num) (by norm_num)]; norm_num; ring

/-! ### The Julian computus -/

theorem easterJulian_eq (y : ℤ) :
    julianMoon y < easterJulian y - 92 ∧ easterJulian y - 92 ≤ julianMoon y + 7 ∧
      IsSunday (jdn false y 3 (easterJulian y - 92)) ∧ 21 ≤ julianMoon y ∧ julianMoon y ≤ 49 := by
  have hm : julianMoon y = 21 + (19 * (y % 19) + 15) % 30 := by
    unfold julianMoon golden
    have h0 := Int.emod_nonneg y (show (19 : ℤ) ≠ 0 by norm_num)
    have h1 := Int.emod_lt_of_pos y (show (0 : ℤ) < 19 by norm_num)
    generalize y % 19 = c at *
    interval_cases c <;> rfl
  have hb : (19 * (y % 19) + 15) % 30 ≤ 28 := by
    have h0 := Int.emod_nonneg y (show (19 : ℤ) ≠ 0 by norm_num)
    have h1 := Int.emod_lt_of_pos y (show (0 : ℤ) < 19 by norm_num)
    generalize y % 19 = c at *
    interval_cases c <;> norm_num
  have hb0 : 0 ≤ (19 * (y % 19) + 15) % 30 := Int.emod_nonneg _ (by norm_num)
  unfold IsSunday
  rw [jdn_march, daysToYear_false, leapDay_false, hm]
  unfold easterJulian epoch
  simp only [Bool.false_eq_true, if_false]
  generalize (19 * (y % 19) + 15) % 30 = D at *
  have hd4 : (y + 4715) / 4 = 1178 + (y + 3) / 4 := by omega
  rw [hd4]
  obtain ⟨q, r, rfl, h0, h1⟩ : ∃ q r, y = 4 * q + r ∧ 0 ≤ r ∧ r < 4 :=
    ⟨y / 4, y % 4, by omega, by omega, by omega⟩
  have : (4 * q + r) % 4 = r := by omega
  simp only [this, ind]
  interval_cases r <;> norm_num <;> omega

/-! ### The Gregorian computus -/

/-- The weekday of 0 March. -/
theorem jdn_march_mod (q e i k : ℤ) (he0 : 0 ≤ e) (he1 : e ≤ 3) (hi0 : 0 ≤ i) (hi1 : i ≤ 24)
    (hk0 : 0 ≤ k) (hk1 : k ≤ 3) :
    ∃ v, jdn true (400 * q + 100 * e + 4 * i + k) 3 0 = 7 * v + 1 + 5 * e + 5 * i + k := by
  rw [jdn_march, daysToYear_true, leapDay_true, div4_aux, div100_aux, div400_aux]
  have b4 : (400 * q + 100 * e + 4 * i + k) / 4 = 100 * q + 25 * e + i := by omega
  have b100 : (400 * q + 100 * e + 4 * i + k) / 100 = 4 * q + e := by omega
  have b400 : (400 * q + 100 * e + 4 * i + k) / 400 = q := by omega
  rw [b4, b100, b400]
  refine ⟨245874 + 20871 * q + 5217 * e + 208 * i + 52 * k, ?_⟩
  unfold epoch
  simp only [if_true]
  ring

theorem easterGregorian_eq (y : ℤ) :
    gregorianMoon y < easterGregorian y - 92 ∧ easterGregorian y - 92 ≤ gregorianMoon y + 7 ∧
      IsSunday (jdn true y 3 (easterGregorian y - 92)) ∧
      21 ≤ gregorianMoon y ∧ gregorianMoon y ≤ 49 := by
  obtain ⟨q, e, i, k, hy, he0, he1, hi0, hi1, hk0, hk1⟩ : ∃ q e i k : ℤ,
      y = 400 * q + 100 * e + 4 * i + k ∧ 0 ≤ e ∧ e ≤ 3 ∧ 0 ≤ i ∧ i ≤ 24 ∧ 0 ≤ k ∧ k ≤ 3 :=
    ⟨y / 400, y / 100 % 4, y % 100 / 4, y % 4, by omega, by omega, by omega, by omega, by omega,
      by omega, by omega⟩
  -- the epact and the quantity h of the code
  have hg : (y / 100 - (y / 100 + 8) / 25 + 1) / 3 = (8 * (y / 100) + 13) / 25 := by omega
  have hsum : ∃ j : ℤ, (19 * (y % 19) + y / 100 - y / 100 / 4 -
      (y / 100 - (y / 100 + 8) / 25 + 1) / 3 + 15) + (11 * golden y + 20 + lunarCorr (y / 100)
        - solar (y / 100)) = 30 * j + 23 := by
    refine ⟨y % 19 + 1, ?_⟩
    unfold golden lunarCorr solar
    have h1 : (8 * (y / 100 + 1) + 5) / 25 = (8 * (y / 100) + 13) / 25 := by congr 1; ring
    have h2 : 3 * (y / 100 + 1) / 4 = y / 100 - y / 100 / 4 := by omega
    rw [hg, h1, h2]; ring
  have hgold : golden y = y % 19 + 1 := rfl
  have ha0 : 0 ≤ y % 19 := Int.emod_nonneg y (by norm_num)
  have ha1 : y % 19 < 19 := Int.emod_lt_of_pos y (by norm_num)
  unfold gregorianMoon epact' epact
  unfold easterGregorian
  simp only []
  obtain ⟨j, hj⟩ := hsum
  set P := 19 * (y % 19) + y / 100 - y / 100 / 4 - (y / 100 - (y / 100 + 8) / 25 + 1) / 3 + 15 with hP
  set E := 11 * golden y + 20 + lunarCorr (y / 100) - solar (y / 100) with hE
  have hPE : (P % 30 = 23 - E % 30 ∧ E % 30 ≤ 23) ∨ (P % 30 = 53 - E % 30 ∧ 24 ≤ E % 30) := by
    omega
  have hE0 : 0 ≤ E % 30 := Int.emod_nonneg _ (by norm_num)
  have hE1 : E % 30 < 30 := Int.emod_lt_of_pos _ (by norm_num)
  rw [hgold]
  generalize E % 30 = ep at *
  generalize P % 30 = h at *
  clear hj hE hP hg hgold
  clear_value P E
  unfold IsSunday
  have b100 : y / 100 = 4 * q + e := by omega
  have m100 : y % 100 = 4 * i + k := by omega
  have d1 : y / 100 % 4 = e := by rw [b100]; omega
  have d2 : y % 100 / 4 = i := by rw [m100]; omega
  have d3 : y % 100 % 4 = k := by rw [m100]; omega
  rw [d1, d2, d3]
  have hw : ∃ w u, (32 + 2 * e + 2 * i - h - k) % 7 = w ∧ 0 ≤ w ∧ w ≤ 6 ∧
      32 + 2 * e + 2 * i - h - k = 7 * u + w :=
    ⟨_, (32 + 2 * e + 2 * i - h - k) / 7, rfl, by omega, by omega, by omega⟩
  obtain ⟨w, u, hw, hw0, hw1, hu⟩ := hw
  rw [hw]
  have hm : ((y % 19 + 11 * h + 22 * w) / 451 = 1 ∧ w = 6 ∧ (h = 29 ∨ (h = 28 ∧ 11 ≤ y % 19))) ∨
      ((y % 19 + 11 * h + 22 * w) / 451 = 0 ∧ ¬ (w = 6 ∧ (h = 29 ∨ (h = 28 ∧ 11 ≤ y % 19)))) := by
    omega
  generalize (y % 19 + 11 * h + 22 * w) / 451 = mm at *
  obtain ⟨v, hv⟩ := jdn_march_mod q e i k he0 he1 hi0 hi1 hk0 hk1
  rw [← hy] at hv
  have hjm : jdn true y 3 (h + w - 7 * mm + 114 - 92) = jdn true y 3 0 + (h + w - 7 * mm + 22) := by
    rw [jdn_march, jdn_march]; ring
  rw [hjm, hv]
  generalize y % 19 = a at *
  clear hv hjm
  have hS : (7 * v + 1 + 5 * e + 5 * i + k + (h + w - 7 * mm + 22)) % 7 = 6 := by
    clear hm hPE
    omega
  clear hy d1 d2 d3 hw hu
  refine ⟨?_, ?_, hS, ?_, ?_⟩ <;> clear hS <;> split_ifs <;> omega

/-! ### C11, C12, C13 -/

/-- A day of March from 22 to 56, split into month and day by the code, is a valid date. -/
theorem easter_date (g : Bool) (y t : ℤ) (h1 : 114 ≤ t) (h2 : t ≤ 148) :
    Valid g y (t / 31) (t % 31 + 1) ∧ jdn g y (t / 31) (t % 31 + 1) = jdn g y 3 (t - 92) := by
  have l3 : monthLen g y 3 = 31 := by simp [monthLen]
  have l4 : monthLen g y 4 = 30 := by simp [monthLen]
  rcases easter1_march t h1 h2 with ⟨e1, e2, e3⟩ | ⟨e1, e2, e3⟩ <;> rw [e1, e2]
  · exact ⟨⟨by omega, by omega, by omega, by omega⟩, rfl⟩
  · refine ⟨⟨by omega, by omega, by omega, by omega⟩, ?_⟩
    rw [jdn_april]; congr 1; ring

theorem easter_isEaster (g : Bool) (y : ℤ) :
    IsEaster g y (easter1 y g).1 (easter1 y g).2 ∧
      ((easter1 y g).1 = 3 ∧ 22 ≤ (easter1 y g).2 ∨ (easter1 y g).1 = 4 ∧ (easter1 y g).2 ≤ 25) := by
  unfold easter1
  have key : ∀ t moon : ℤ, (moon < t - 92 ∧ t - 92 ≤ moon + 7 ∧ IsSunday (jdn g y 3 (t - 92)) ∧
      21 ≤ moon ∧ moon ≤ 49) → moonDay g y = jdn g y 3 0 + moon →
      IsEaster g y (t / 31) (t % 31 + 1) ∧
      (t / 31 = 3 ∧ 22 ≤ t % 31 + 1 ∨ t / 31 = 4 ∧ t % 31 + 1 ≤ 25) := by
    rintro t moon ⟨h1, h2, h3, h4, h5⟩ hm
    obtain ⟨hv, hj⟩ := easter_date g y t (by omega) (by omega)
    refine ⟨⟨hv, by rwa [hj], ?_, ?_⟩, by omega⟩
    · rw [hj, hm, jdn_add g y 3 (t - 92)]; omega
    · intro n hn hs
      rw [hj]
      rw [hm] at hn
      rw [jdn_add g y 3 (t - 92)] at h3 ⊢
      unfold IsSunday at h3 hs
      omega
  cases g
  · exact key _ _ (easterJulian_eq y) rfl
  · exact key _ _ (easterGregorian_eq y) rfl

/-- C12, C13: `easter` returns the ecclesiastical Easter date of the chosen calendar. -/
theorem easter_spec (g : Bool) (y : ℤ) :
    ∃ m d, easter [y] g = (.scalar m, .scalar d) ∧ IsEaster g y m d :=
  ⟨_, _, rfl, (easter_isEaster g y).1⟩

/-- C12, C13: no other date is Easter. -/
theorem isEaster_unique (g : Bool) (y m d m' d' : ℤ) (h : IsEaster g y m d)
    (h' : IsEaster g y m' d') : m = m' ∧ d = d' := by
  obtain ⟨v, s, a, b⟩ := h
  obtain ⟨v', s', a', b'⟩ := h'
  exact (jdn_inj v v' (le_antisymm (b _ a' s') (b' _ a s))).2

/-- C11: Easter is a valid date from 22 March to 25 April. -/
theorem easter_window (g : Bool) (y : ℤ) :
    ∃ m d, easter [y] g = (.scalar m, .scalar d) ∧ Valid g y m d ∧
      (m = 3 ∧ 22 ≤ d ∨ m = 4 ∧ d ≤ 25) :=
  ⟨_, _, rfl, (easter_isEaster g y).1.1, (easter_isEaster g y).2⟩

/-- C11: as computed by `cal_to_jd` and `jd_to_day_of_week`, Easter is a Sunday.  The exceptions are
the negative Gregorian century years where `cal_to_jd` is one day off: there it is a Monday. -/
theorem easter_sunday {fl : ℚ → ℚ} (h : FloatLike fl) (g : Bool) (y : ℤ) (hy : -4712 ≤ y)
    (hy2 : y < 2 ^ 31) :
    ∃ m d jd, easter [y] g = (.scalar m, .scalar d) ∧
      calToJd fl [.int y] [.int m] [(d : ℚ)] g = .ok (.scalar jd) ∧
      jdToDayOfWeek fl [jd] = .scalar (if g = true ∧ y < 0 ∧ 100 ∣ y ∧ ¬ 400 ∣ y then 1 else 0) := by
  obtain ⟨⟨hv, hs, -, -⟩, hw⟩ := easter_isEaster g y
  refine ⟨_, _, _, rfl, cal_to_jd_whole_day h g y _ _ (by omega) hy2 hv, ?_⟩
  set m := (easter1 y g).1
  set d := (easter1 y g).2
  have hb : 0 ≤ jdn g y m d ∧ jdn g y m d ≤ 366 * (y + 4714) := by
    have b := dayOfYear_bounds hv
    have l : yearLen g y ≤ 366 := by unfold yearLen; split_ifs <;> norm_num
    unfold jdn epoch
    cases g
    · rw [daysToYear_false]; simp; omega
    · rw [daysToYear_true]; simp; omega
  have hx := excess_eq g y m (by omega)
  have hex : excess g y m = if g = true ∧ y < 0 ∧ 100 ∣ y ∧ ¬ 400 ∣ y then 1 else 0 := by
    split_ifs with hc
    · refine hx.1 ⟨hc.1, y, hc.2.1, hc.2.2.1, hc.2.2.2, .inl ⟨rfl, ?_⟩⟩
      rcases hw with ⟨e, _⟩ | ⟨e, _⟩ <;> rw [e] <;> norm_num
    · refine hx.2 ?_
      rintro ⟨c1, c, c2, c3, c4, c5 | c5⟩
      · obtain ⟨rfl, -⟩ := c5; exact hc ⟨c1, c2, c3, c4⟩
      · rcases hw with ⟨e, _⟩ | ⟨e, _⟩ <;> omega
  have e0 : jd0 g y m d + (excess g y m : ℤ) = ((jdn g y m d + excess g y m : ℤ) : ℚ) - 1 / 2 := by
    unfold jd0; push_cast; ring
  rw [e0]
  have hx01 : excess g y m = 0 ∨ excess g y m = 1 := by rw [hex]; split_ifs <;> simp
  rw [jd_to_day_of_week_midnight h _ (by omega) (by omega)]
  congr 1
  unfold IsSunday at hs
  split_ifs at hex ⊢ <;> rw [hex] <;> omega

/-- Concrete: 31 March 2024 (Gregorian), 5 May 2024 New Style is 22 April 2024 (Julian). -/
theorem easter_2024 : easter [2024] true = (.scalar 3, .scalar 31) ∧
    easter [2024] false = (.scalar 4, .scalar 22) := by decide

/-! The epact of the specification obeys the rules of the reform: it grows by 11 every year (by 12
when the golden number restarts), loses one at every century year that is not a leap year, and
gains one at each lunar correction. -/

/-- The recursion of the epacts, modulo 30. -/
theorem epact_step (y : ℤ) : (epact (y + 1) - epact y - 11 - (if golden (y + 1) = 1 then 1 else 0)
    - (lunarCorr ((y + 1) / 100) - lunarCorr (y / 100))
    + (solar ((y + 1) / 100) - solar (y / 100))) % 30 = 0 := by
  have hg : 11 * golden (y + 1) = 11 * golden y + 11 +
      (if golden (y + 1) = 1 then 1 else 0) - 30 * (if golden (y + 1) = 1 then 7 else 0) := by
    unfold golden; split_ifs <;> omega
  unfold epact
  rw [hg]
  generalize lunarCorr ((y + 1) / 100) = a
  generalize lunarCorr (y / 100) = b
  generalize solar ((y + 1) / 100) = c
  generalize solar (y / 100) = d
  split_ifs <;> omega

/-- The solar correction changes by one exactly at the century years without a leap day. -/
theorem solar_step (y : ℤ) : solar ((y + 1) / 100) - solar (y / 100) =
    if 100 ∣ (y + 1) ∧ ¬ 400 ∣ (y + 1) then 1 else 0 := by
  unfold solar
  by_cases h : 100 ∣ (y + 1)
  · obtain ⟨c, hc⟩ := h
    have e1 : (y + 1) / 100 = c := by omega
    have e2 : y / 100 = c - 1 := by omega
    have e3 : 400 ∣ (y + 1) ↔ 4 ∣ c := by omega
    rw [e1, e2]
    have h100 : (100 : ℤ) ∣ y + 1 := ⟨c, hc⟩
    simp only [h100, true_and, e3]
    clear hc e1 e2 e3 h100
    obtain ⟨q, r, rfl, h0, h1⟩ : ∃ q r, c = 4 * q + r ∧ 0 ≤ r ∧ r < 4 :=
      ⟨c / 4, c % 4, by omega, by omega, by omega⟩
    have e4 : 4 ∣ 4 * q + r ↔ r = 0 := by omega
    simp only [e4]
    interval_cases r <;> norm_num <;> omega
  · have e : (y + 1) / 100 = y / 100 := by omega
    rw [e, if_neg (fun hc => h hc.1)]; ring

/-- The lunar correction: one at 1800, then every 300 years seven times and after 400 years. -/
theorem lunarCorr_step (y : ℤ) : lunarCorr ((y + 1) / 100) - lunarCorr (y / 100) =
    if 100 ∣ (y + 1) ∧ ((y + 1 - 1800) % 2500 ∈ [0, 300, 600, 900, 1200, 1500, 1800, 2100])
    then 1 else 0 := by
  unfold lunarCorr
  simp only [List.mem_cons, List.not_mem_nil, or_false]
  by_cases h : 100 ∣ (y + 1)
  · obtain ⟨c, hc⟩ := h
    have e1 : (y + 1) / 100 = c := by omega
    have e2 : y / 100 = c - 1 := by omega
    have e3 : (y + 1 - 1800) % 2500 = 100 * ((c - 18) % 25) := by omega
    rw [e1, e2, e3]
    have h100 : (100 : ℤ) ∣ y + 1 := ⟨c, hc⟩
    simp only [h100, true_and]
    clear hc e1 e2 e3 h100
    obtain ⟨q, r, rfl, h0, h1⟩ : ∃ q r, c = 25 * q + r + 18 ∧ 0 ≤ r ∧ r < 25 :=
      ⟨(c - 18) / 25, (c - 18) % 25, by omega, by omega, by omega⟩
    have e4 : (25 * q + r + 18 - 18) % 25 = r := by omega
    rw [e4]
    interval_cases r <;> norm_num <;> omega
  · have e : (y + 1) / 100 = y / 100 := by omega
    rw [e, if_neg (fun hc => h hc.1)]; ring

/-- The cycle is anchored at the reform: the epact of 1583 was 7. -/
theorem epact_1583 : epact 1583 = 7 ∧ golden 1583 = 7 := by decide

/-! ### C13, C14: periods -/

theorem easterJulian_period (y : ℤ) : easterJulian (y + 532) = easterJulian y := by
  unfold easterJulian
  have h1 : (y + 532) % 4 = y % 4 := by omega
  have h2 : (y + 532) % 7 = y % 7 := by omega
  have h3 : (y + 532) % 19 = y % 19 := by omega
  rw [h1, h2, h3]

theorem easterGregorian_period (y : ℤ) : easterGregorian (y + 5700000) = easterGregorian y := by
  unfold easterGregorian
  have h1 : (y + 5700000) % 19 = y % 19 := by omega
  have h2 : (y + 5700000) / 100 = y / 100 + 57000 := by omega
  have h3 : (y + 5700000) % 100 = y % 100 := by omega
  simp only [h1, h2, h3]
  have h4 : (y / 100 + 57000) / 4 = y / 100 / 4 + 14250 := by omega
  have h5 : (y / 100 + 57000) % 4 = y / 100 % 4 := by omega
  have h6 : (y / 100 + 57000 - (y / 100 + 57000 + 8) / 25 + 1) / 3 =
      (y / 100 - (y / 100 + 8) / 25 + 1) / 3 + 18240 := by omega
  rw [h4, h5, h6]
  have h7 : (19 * (y % 19) + (y / 100 + 57000) - (y / 100 / 4 + 14250) -
      ((y / 100 - (y / 100 + 8) / 25 + 1) / 3 + 18240) + 15) % 30 =
      (19 * (y % 19) + y / 100 - y / 100 / 4 - (y / 100 - (y / 100 + 8) / 25 + 1) / 3 + 15) % 30 := by
    generalize (y / 100 - (y / 100 + 8) / 25 + 1) / 3 = G
    omega
  rw [h7]

/-- C13: the Julian dates repeat after 532 years. -/
theorem easter_julian_period (y : ℤ) : easter [y + 532] false = easter [y] false := by
  simp [easter, easter1, easterJulian_period]

/-- C14: the Gregorian dates repeat after 5,700,000 years. -/
theorem easter_gregorian_period (y : ℤ) : easter [y + 5700000] true = easter [y] true := by
  simp [easter, easter1, easterGregorian_period]

theorem periodic_mul {α : Type} (f : ℤ → α) (p : ℤ) (h : ∀ y, f (y + p) = f y) (k y : ℤ) :
    f (y + p * k) = f y := by
  induction k using Int.induction_on generalizing y with
  | zero => simp
  | succ k ih => rw [show y + p * (k + 1) = (y + p * k) + p by ring, h, ih]
  | pred k ih =>
    rw [← h (y + p * (-k - 1)), show y + p * (-k - 1) + p = y + p * (-k) by ring, ih]

/-- If `N` is a period and no `N / q`, `q` a prime divisor of `N`, is one, then every period is a
multiple of `N`. -/
theorem minimal_period {α : Type} (f : ℤ → α) (N : ℕ) (hN : 0 < N)
    (h : ∀ y, f (y + N) = f y)
    (hw : ∀ q : ℕ, q.Prime → q ∣ N → ∃ y, f (y + (N / q : ℕ)) ≠ f y)
    (p : ℤ) (hp : ∀ y, f (y + p) = f y) : (N : ℤ) ∣ p := by
  set d := Int.gcd p N with hd
  have hdN : d ∣ N := by
    have := Int.gcd_dvd_right p (N : ℤ)
    exact_mod_cast this
  have hdp : (d : ℤ) ∣ p := Int.gcd_dvd_left p (N : ℤ)
  have hper : ∀ y, f (y + d) = f y := by
    intro y
    have hb := Int.gcd_eq_gcd_ab p N
    rw [← hd] at hb
    rw [hb, ← add_assoc, periodic_mul f N h, periodic_mul f p hp]
  obtain ⟨t, ht⟩ := hdN
  by_cases ht1 : t = 1
  · rw [ht, ht1, mul_one]; exact hdp
  · obtain ⟨q, hq, hqt⟩ := Nat.exists_prime_and_dvd ht1
    obtain ⟨s, rfl⟩ := hqt
    obtain ⟨y, hy⟩ := hw q hq ⟨d * s, by rw [ht]; ring⟩
    refine absurd ?_ hy
    have : N / q = d * s := by
      rw [ht]; exact Nat.div_eq_of_eq_mul_left hq.pos (by ring)
    rw [this]
    push_cast
    exact periodic_mul f d hper s y

/-- C13: every period of the Julian Easter dates is a multiple of 532. -/
theorem easter_julian_period_minimal (p : ℤ) (hp : ∀ y, easter [y + p] false = easter [y] false) :
    532 ∣ p := by
  refine minimal_period (fun y => easter [y] false) 532 (by norm_num)
    (fun y => by exact_mod_cast easter_julian_period y) ?_ p hp
  intro q hq hd
  have : q = 2 ∨ q = 7 ∨ q = 19 := by
    have h2 : (532 : ℕ) = 2 * (2 * (7 * 19)) := by norm_num
    rw [h2, hq.dvd_mul, hq.dvd_mul, hq.dvd_mul, Nat.prime_dvd_prime_iff_eq hq (by norm_num),
      Nat.prime_dvd_prime_iff_eq hq (by norm_num), Nat.prime_dvd_prime_iff_eq hq (by norm_num)] at hd
    tauto
  refine ⟨0, ?_⟩
  rcases this with rfl | rfl | rfl <;> decide

/-- C14: every period of the Gregorian Easter dates is a multiple of 5,700,000. -/
theorem easter_gregorian_period_minimal (p : ℤ) (hp : ∀ y, easter [y + p] true = easter [y] true) :
    5700000 ∣ p := by
  refine minimal_period (fun y => easter [y] true) 5700000 (by norm_num)
    (fun y => by exact_mod_cast easter_gregorian_period y) ?_ p hp
  intro q hq hd
  have : q = 2 ∨ q = 3 ∨ q = 5 ∨ q = 19 := by
    have h2 : (5700000 : ℕ) = 2 ^ 5 * (3 * (5 ^ 5 * 19)) := by norm_num
    rw [h2, hq.dvd_mul, hq.dvd_mul, hq.dvd_mul] at hd
    rcases hd with hd | hd | hd | hd
    · exact .inl ((Nat.prime_dvd_prime_iff_eq hq (by norm_num)).mp (hq.dvd_of_dvd_pow hd))
    · exact .inr (.inl ((Nat.prime_dvd_prime_iff_eq hq (by norm_num)).mp hd))
    · exact .inr (.inr (.inl ((Nat.prime_dvd_prime_iff_eq hq (by norm_num)).mp
        (hq.dvd_of_dvd_pow hd))))
    · exact .inr (.inr (.inr ((Nat.prime_dvd_prime_iff_eq hq (by norm_num)).mp hd)))
  refine ⟨0, ?_⟩
  rcases this with rfl | rfl | rfl | rfl <;> decide

end Verif
