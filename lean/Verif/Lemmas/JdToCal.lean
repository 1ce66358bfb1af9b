import Verif.Lemmas.CalToJd

namespace Verif
open Spec

/-! ### Integer skeleton of `jd_to_cal` -/

/-- Day number inside the March-based year. -/
theorem yearday_bounds (g : Bool) (y m d : ℤ) (hv : Valid g y m d) :
    123 ≤ monTerm m + d ∧ monTerm m + d ≤ 488 ∧
    (monTerm m + d = 488 → IsLeap g (shiftYear y m + 1)) := by
  obtain ⟨h1, h2, h3, h4⟩ := hv
  have hl := leapDay_cases g y
  rw [monthLen_eq] at h4
  have hL : leapDay g y = 1 → IsLeap g y := by
    unfold leapDay; split_ifs with h <;> simp [h]
  unfold monTerm shiftYear
  refine ⟨?_, ?_, ?_⟩
  · interval_cases m <;> norm_num at * <;> omega
  · interval_cases m <;> norm_num at * <;> omega
  · intro he
    have hm : m = 2 ∧ leapDay g y = 1 := by
      interval_cases m <;> norm_num at * <;> omega
    rw [if_pos (by omega), sub_add_cancel]
    exact hL hm.2

theorem isLeap_mod4 {g : Bool} {y : ℤ} (h : IsLeap g y) : y % 4 = 0 := by
  have := h.1; omega

/-- The quotient that determines the year. -/
theorem C_eq (c x : ℤ) (hx1 : 123 ≤ x) (hx2 : x ≤ 488) (hx3 : x = 488 → (c + 1) % 4 = 0) :
    (20 * (1461 * c / 4 + x) - 2442) / 7305 = c ∧
    3 ≤ (20 * (1461 * c / 4 + x) - 2442) % 7305 ∧
    (20 * (1461 * c / 4 + x) - 2442) % 7305 ≤ 7303 := by
  have e : 1461 * c / 4 = 365 * c + c / 4 := by omega
  rw [e]
  omega

/-- The quotient that determines the month. -/
theorem E_eq (M d : ℤ) (hM1 : 4 ≤ M) (hM2 : M ≤ 15) (hd1 : 1 ≤ d) (hd2 : d ≤ 31)
    (h30 : M = 5 ∨ M = 7 ∨ M = 10 ∨ M = 12 → d ≤ 30) (h29 : M = 15 → d ≤ 29) :
    10000 * (306001 * M / 10000 + d) / 306001 = M ∧
    1 ≤ 10000 * (306001 * M / 10000 + d) % 306001 ∧
    10000 * (306001 * M / 10000 + d) % 306001 ≤ 306000 := by
  have key : 1 ≤ 10000 * (306001 * M / 10000 + d) - 306001 * M ∧
      10000 * (306001 * M / 10000 + d) - 306001 * M ≤ 306000 := by
    rcases (by omega : d ≤ 30 ∨ d = 31) with h | rfl
    · omega
    · interval_cases M <;> norm_num at *
  omega

/-- The correction that undoes the Gregorian century rule, code version (with truncations). -/
def aCorr (Z : ℤ) : ℤ :=
  1 + Int.tdiv (4 * Z - 7468865) 146097 - Int.tdiv (Int.tdiv (4 * Z - 7468865) 146097) 4

theorem tdiv_of_neg {a b : ℤ} (h : a < 0) (hb : 0 < b) :
    Int.tdiv a b = a / b + if a % b = 0 then 0 else 1 := by
  have e := Int.emod_add_mul_ediv a b
  have r0 := Int.emod_nonneg a hb.ne'
  have r1 := Int.emod_lt_of_pos a hb
  have h1 : Int.tdiv a b = -((-a) / b) := by
    rw [← Int.tdiv_eq_ediv_of_nonneg (by omega), Int.neg_tdiv, neg_neg]
  rw [h1]
  split_ifs with h0
  · have : (-a) / b = -(a / b) := by
      have : -a = b * (-(a / b)) := by linarith [mul_neg b (a / b)]
      rw [this, Int.mul_ediv_cancel_left _ hb.ne']
    omega
  · have : (-a) / b = -(a / b) - 1 := by
      have e2 : -a = (b - a % b) + b * (-(a / b) - 1) := by
        have : b * (-(a / b) - 1) = -(b * (a / b)) - b := by ring
        omega
      rw [e2, Int.add_mul_ediv_left _ _ hb.ne', Int.ediv_eq_zero_of_lt (by omega) (by omega)]
      omega
    omega

theorem aCorr_dec (Z q w : ℤ) (hZ : 4 * Z - 7468865 = 146097 * (q - 4) + w) (w0 : 0 ≤ w)
    (w1 : w ≤ 146096) (wz : w = 0 → q % 4 = 3) :
    aCorr Z = q - q / 4 - 2 - if q < 4 ∧ w = 0 then 1 else 0 := by
  have hdiv : (4 * Z - 7468865) / 146097 = q - 4 := by
    rw [hZ, add_comm, Int.add_mul_ediv_left _ _ (by norm_num), Int.ediv_eq_zero_of_lt w0 (by omega)]
    ring
  have hmod : (4 * Z - 7468865) % 146097 = w := by
    rw [hZ, add_comm, Int.add_mul_emod_self_left, Int.emod_eq_of_lt w0 (by omega)]
  unfold aCorr
  rcases le_or_gt 4 q with h4 | h4
  · have : 0 ≤ 4 * Z - 7468865 := by
      rw [hZ]; nlinarith
    rw [Int.tdiv_eq_ediv_of_nonneg this, hdiv, Int.tdiv_eq_ediv_of_nonneg (by omega),
      if_neg (by omega)]
    clear hZ hdiv hmod this
    omega
  · have hneg : 4 * Z - 7468865 < 0 := by rw [hZ]; nlinarith
    rw [tdiv_of_neg hneg (by norm_num), hdiv, hmod]
    clear hZ hdiv hmod hneg
    by_cases hw0 : w = 0
    · have := wz hw0
      rw [if_pos hw0, if_pos ⟨h4, hw0⟩]
      have : Int.tdiv (q - 4 + 0) 4 = -((4 - q) / 4) := by
        rw [show q - 4 + 0 = -(4 - q) by ring, Int.neg_tdiv, Int.tdiv_eq_ediv_of_nonneg (by omega)]
      rw [this]; omega
    · rw [if_neg hw0, if_neg (fun h => hw0 h.2)]
      have : Int.tdiv (q - 4 + 1) 4 = -((3 - q) / 4) := by
        rw [show q - 4 + 1 = -(3 - q) by ring, Int.neg_tdiv, Int.tdiv_eq_ediv_of_nonneg (by omega)]
      rw [this]; omega

theorem aCorr_aux (s x Z : ℤ) (hZ : Z = 365 * s + s / 4 - s / 100 + s / 400 + x + 1720997)
    (b1 : 123 ≤ x) (b2 : x ≤ 488)
    (b3 : x = 488 → ((s + 1) % 100 = 0 → (s + 1) % 400 = 0)) :
    aCorr Z = s / 100 - s / 400 - 2 - if s < 400 ∧ s % 400 = 300 ∧ x = 123 then 1 else 0 := by
  obtain ⟨q, hq⟩ : ∃ q, q = s / 100 := ⟨_, rfl⟩
  obtain ⟨r, hr⟩ : ∃ r, r = s % 100 := ⟨_, rfl⟩
  have e400 : s / 400 = q / 4 := by omega
  have e4 : s / 4 = 25 * q + r / 4 := by omega
  have es : s = 100 * q + r := by omega
  have m400 : s % 400 = 100 * (q % 4) + r := by omega
  have hr1 : 0 ≤ r := by omega
  have hr2 : r ≤ 99 := by omega
  have b4 : x = 488 → (r = 99 → q % 4 = 3) := by
    intro h1 h2
    have := b3 h1 (by omega)
    omega
  have hZ' : 4 * Z - 7468865 = 146097 * (q - 4) + (4 * (365 * r + r / 4 + x) - q % 4 - 489) := by
    rw [e400, e4, ← hq] at hZ; omega
  have w0 : 0 ≤ 4 * (365 * r + r / 4 + x) - q % 4 - 489 := by omega
  have w1 : 4 * (365 * r + r / 4 + x) - q % 4 - 489 ≤ 146096 := by
    clear hZ hZ' b3; omega
  have wz : 4 * (365 * r + r / 4 + x) - q % 4 - 489 = 0 ↔ (q % 4 = 3 ∧ r = 0 ∧ x = 123) := by
    clear hZ hZ' b3; omega
  have cond : (s < 400 ∧ s % 400 = 300 ∧ x = 123) ↔
      (q < 4 ∧ 4 * (365 * r + r / 4 + x) - q % 4 - 489 = 0) := by
    rw [wz, m400]; clear hZ hZ' b3 w0 w1 wz; omega
  rw [aCorr_dec Z q _ hZ' w0 w1 (fun h => (wz.mp h).1)]
  simp only [cond, e400, ← hq]

/-- For every Gregorian date the century quotient of the code is the true one, except on bad days. -/
theorem aCorr_eq (y m d : ℤ) (hv : Valid true y m d) (hy : -4715 ≤ y) :
    jdn true y m d + aCorr (jdn true y m d) + 1524 = yearTerm y m + (monTerm m + d) -
      (if (shiftYear y m < 400 ∧ shiftYear y m % 400 = 300 ∧ monTerm m + d = 123) then 1 else 0) := by
  have f := formula_eq true y m d hv.1 hv.2.1
  obtain ⟨b1, b2, b3⟩ := yearday_bounds true y m d hv
  have hx : excess true y m = (if shiftYear y m < 0 ∧ shiftYear y m % 100 = 0 ∧
      shiftYear y m % 400 ≠ 0 then 1 else 0) := by
    have hn : ¬ (shiftYear y m < -4716 ∧ shiftYear y m % 4 ≠ 0) := by
      unfold shiftYear; split_ifs <;> omega
    unfold excess; rw [if_neg hn]; simp
  have hB : corrB true y m = 2 - shiftYear y m / 100 + shiftYear y m / 400 + excess true y m := by
    unfold corrB; rw [if_pos rfl, tdiv_century, hx]
  have hY := yearTerm_eq y m
  rw [if_neg (by unfold shiftYear; split_ifs <;> omega)] at hY
  have b3' : monTerm m + d = 488 →
      ((shiftYear y m + 1) % 100 = 0 → (shiftYear y m + 1) % 400 = 0) := by
    intro h
    have := (b3 h).2 rfl
    simpa only [Int.dvd_iff_emod_eq_zero] using this
  have := aCorr_aux (shiftYear y m) (monTerm m + d) (jdn true y m d) (by omega) b1 b2 b3'
  rw [this]
  omega

/-- Integer skeleton of `jd_to_cal` from the value `B` on. -/
def calOfB (B : ℤ) : ℤ × ℤ × ℤ :=
  let C := (20 * B - 2442) / 7305
  let D := 1461 * C / 4
  let E := 10000 * (B - D) / 306001
  let mon := if E < 14 then E - 1 else E - 13
  (if mon > 2 then C - 4716 else C - 4715, mon, B - D - 306001 * E / 10000)

/-- The skeleton recovers year, month and day from the March-based day count. -/
theorem calOfB_eq (y m d : ℤ) (h1 : 1 ≤ m) (h2 : m ≤ 12) (hd1 : 1 ≤ d)
    (hd2 : d ≤ monthLen false y m) :
    calOfB (1461 * (shiftYear y m + 4716) / 4 + (monTerm m + d)) = (y, m, d) := by
  have hv : Valid false y m d := ⟨h1, h2, hd1, hd2⟩
  obtain ⟨b1, b2, b3⟩ := yearday_bounds false y m d hv
  have hC := C_eq (shiftYear y m + 4716) (monTerm m + d) b1 b2 (fun h => by
    have := isLeap_mod4 (b3 h); omega)
  have hl := monthLen_le false y m
  have hM : monTerm m = 306001 * ((if m ≤ 2 then m + 12 else m) + 1) / 10000 := rfl
  have hl2 : m = 4 ∨ m = 6 ∨ m = 9 ∨ m = 11 → d ≤ 30 := by
    intro h; unfold monthLen at hd2; rw [if_pos h] at hd2; exact hd2
  have hl3 : m = 2 → d ≤ 29 := by
    rintro rfl
    unfold monthLen at hd2
    norm_num at hd2
    split_ifs at hd2 <;> omega
  have hE := E_eq ((if m ≤ 2 then m + 12 else m) + 1) d (by split_ifs <;> omega)
    (by split_ifs <;> omega) hd1 (by omega) (by split_ifs <;> omega) (by split_ifs <;> omega)
  unfold calOfB
  simp only [hC.1]
  have e : 1461 * (shiftYear y m + 4716) / 4 + (monTerm m + d) - 1461 * (shiftYear y m + 4716) / 4
    = monTerm m + d := by ring
  rw [e, hM, hE.1]
  have e2 : 306001 * ((if m ≤ 2 then m + 12 else m) + 1) / 10000 + d -
      306001 * ((if m ≤ 2 then m + 12 else m) + 1) / 10000 = d := by ring
  rw [e2]
  unfold shiftYear
  ext <;> simp only <;> split_ifs <;> omega

theorem monthLen_le_julian (g : Bool) (y m : ℤ) : monthLen g y m ≤ monthLen false y m := by
  have hL : IsLeap g y → IsLeap false y := fun h => ⟨h.1, by simp⟩
  unfold monthLen
  split_ifs <;> first | omega | exact absurd (hL ‹_›) ‹_›

/-- Bounds needed to evaluate the float operations on `B`. -/
theorem float_C {fl : ℚ → ℚ} (h : FloatLike fl) (B : ℤ) (hB1 : 123 ≤ B) (hB2 : B ≤ 2 ^ 41)
    (hr1 : 3 ≤ (20 * B - 2442) % 7305) (hr2 : (20 * B - 2442) % 7305 ≤ 7303) :
    trunc (fl (fl ((B : ℚ) - fl (1221 / 10)) / (1461 / 4))) = (20 * B - 2442) / 7305 := by
  have q1 : (123 : ℚ) ≤ B := by exact_mod_cast hB1
  have q2 : (B : ℚ) ≤ 2 ^ 41 := by exact_mod_cast hB2
  have a := abs_le.mp (h.err_le (x := 1221 / 10) (B := 123) (by norm_num) (by norm_num [abs_of_pos]))
  have x1 : |(B : ℚ) - fl (1221 / 10)| ≤ 2 ^ 41 := by
    rw [abs_le]; constructor <;> linarith
  have r1 := abs_le.mp (h.err_le (by norm_num) x1)
  have e := Int.emod_add_mul_ediv (20 * B - 2442) 7305
  set c := (20 * B - 2442) / 7305 with hc
  have eq : (20 * (B : ℚ) - 2442) = ((20 * B - 2442) % 7305 : ℤ) + 7305 * (c : ℚ) := by
    exact_mod_cast e.symm
  have p1 : (3 : ℚ) ≤ ((20 * B - 2442) % 7305 : ℤ) := by exact_mod_cast hr1
  have p2 : (((20 * B - 2442) % 7305 : ℤ) : ℚ) ≤ 7303 := by exact_mod_cast hr2
  generalize (((20 * B - 2442) % 7305 : ℤ) : ℚ) = R at *
  have hc0 : 0 ≤ c := by omega
  have hc0q : (0 : ℚ) ≤ c := by exact_mod_cast hc0
  have b1 : (c : ℚ) + 2 / 7305 ≤ fl ((B : ℚ) - fl (1221 / 10)) / (1461 / 4) := by
    rw [le_div_iff₀ (by norm_num)]; linarith
  have b2 : fl ((B : ℚ) - fl (1221 / 10)) / (1461 / 4) ≤ (c : ℚ) + 1 - 1 / 7305 := by
    rw [div_le_iff₀ (by norm_num)]; linarith
  have x2 : |fl ((B : ℚ) - fl (1221 / 10)) / (1461 / 4)| ≤ 2 ^ 34 := by
    rw [abs_le]; constructor
    · linarith
    · rw [div_le_iff₀ (by norm_num)]; linarith
  have r2 := abs_le.mp (h.err_le (by norm_num) x2)
  apply trunc_eq <;> linarith

theorem float_E {fl : ℚ → ℚ} (h : FloatLike fl) (x : ℤ) (hx1 : 1 ≤ x) (hx2 : x ≤ 488)
    (hr1 : 1 ≤ 10000 * x % 306001) (hr2 : 10000 * x % 306001 ≤ 306000) :
    trunc (fl ((x : ℚ) / fl (306001 / 10000))) = 10000 * x / 306001 := by
  have q1 : (1 : ℚ) ≤ x := by exact_mod_cast hx1
  have q2 : (x : ℚ) ≤ 488 := by exact_mod_cast hx2
  have a := abs_le.mp (h.err_le (x := 306001 / 10000) (B := 31) (by norm_num)
    (by norm_num [abs_of_pos]))
  set w := fl (306001 / 10000) with hw
  have hwpos : (30 : ℚ) < w := by linarith
  have e := Int.emod_add_mul_ediv (10000 * x) 306001
  set c := 10000 * x / 306001 with hc
  have eq : (10000 * (x : ℚ)) = (10000 * x % 306001 : ℤ) + 306001 * (c : ℚ) := by
    exact_mod_cast e.symm
  have p1 : (1 : ℚ) ≤ (10000 * x % 306001 : ℤ) := by exact_mod_cast hr1
  have p2 : ((10000 * x % 306001 : ℤ) : ℚ) ≤ 306000 := by exact_mod_cast hr2
  generalize ((10000 * x % 306001 : ℤ) : ℚ) = R at *
  have hc0 : 0 ≤ c := by omega
  have hc0q : (0 : ℚ) ≤ c := by exact_mod_cast hc0
  have hc1 : c ≤ 16 := by omega
  have hc1q : (c : ℚ) ≤ 16 := by exact_mod_cast hc1
  have b1 : (c : ℚ) + 1 / 10 ^ 7 ≤ (x : ℚ) / w := by
    rw [le_div_iff₀ (by linarith)]; nlinarith
  have b2 : (x : ℚ) / w ≤ (c : ℚ) + 1 - 1 / 10 ^ 7 := by
    rw [div_le_iff₀ (by linarith)]; nlinarith
  have x2 : |(x : ℚ) / w| ≤ 20 := by
    rw [abs_le]; constructor <;> linarith
  have r2 := abs_le.mp (h.err_le (by norm_num) x2)
  apply trunc_eq <;> linarith

theorem float_mon {fl : ℚ → ℚ} (h : FloatLike fl) (M : ℤ) (hM1 : 0 ≤ M) (hM2 : M ≤ 16) :
    trunc (fl (fl (306001 / 10000) * M)) = 306001 * M / 10000 := by
  have hr : |fl (306001 / 10000) - 306001 / 10000| ≤ 1 / 10 ^ 9 := by
    refine (h.err_le (B := 31) (by norm_num) (by norm_num [abs_of_pos])).trans (by norm_num)
  have hr' := abs_le.mp hr
  have m0 : (0:ℚ) ≤ (M:ℚ) := by exact_mod_cast hM1
  have m1 : (M:ℚ) ≤ 16 := by exact_mod_cast hM2
  have b1 : (306001 / 10000 : ℚ) * M - 1 / 10 ^ 7 ≤ fl (306001 / 10000) * M := by nlinarith
  have b2 : fl (306001 / 10000) * M ≤ (306001 / 10000 : ℚ) * M + 1 / 10 ^ 7 := by nlinarith
  have hb : |fl (306001 / 10000) * (M:ℚ)| ≤ 1000 := by
    rw [abs_le]; constructor <;> nlinarith
  have c1 := h.lo (B := 1000) (by norm_num) hb
  have c2 := h.hi (B := 1000) (by norm_num) hb
  rcases (by omega : M = 0 ∨ 1 ≤ M) with rfl | h1
  · have := h.int_ge (n := 0) (by norm_num) (by norm_num)
    norm_num at this ⊢
    rw [this]; rfl
  · interval_cases M <;> norm_num at * <;> apply trunc_eq <;> norm_num <;> linarith

/-- `jd_to_cal` on one element: all operations but the last are exact. -/
theorem jdToCal1_eq {fl : ℚ → ℚ} (h : FloatLike fl) (g : Bool) (jd : ℚ) (Z B : ℤ)
    (hZ : trunc (fl (jd + 1 / 2)) = Z) (hZ1 : 0 ≤ Z) (hZ2 : Z ≤ 2 ^ 40)
    (hB : B = Z + (if g then aCorr Z else 0) + 1524)
    (y m d : ℤ) (h1 : 1 ≤ m) (h2 : m ≤ 12) (hd1 : 1 ≤ d) (hd2 : d ≤ monthLen false y m)
    (hy : -4716 ≤ shiftYear y m)
    (hBd : B = 1461 * (shiftYear y m + 4716) / 4 + (monTerm m + d)) :
    jdToCal1 fl jd g = (y, m, fl ((d : ℚ) + (fl (jd + 1 / 2) - Z))) := by
  have hcal := calOfB_eq y m d h1 h2 hd1 hd2
  obtain ⟨b1, b2, b3⟩ := yearday_bounds false y m d ⟨h1, h2, hd1, hd2⟩
  have hC := C_eq (shiftYear y m + 4716) (monTerm m + d) b1 b2 (fun h => by
    have := isLeap_mod4 (b3 h); omega)
  have hM : monTerm m = 306001 * ((if m ≤ 2 then m + 12 else m) + 1) / 10000 := rfl
  have hl := monthLen_le false y m
  have hl2 : m = 4 ∨ m = 6 ∨ m = 9 ∨ m = 11 → d ≤ 30 := by
    intro h; unfold monthLen at hd2; rw [if_pos h] at hd2; exact hd2
  have hl3 : m = 2 → d ≤ 29 := by
    rintro rfl
    unfold monthLen at hd2
    norm_num at hd2
    split_ifs at hd2 <;> omega
  have hE := E_eq ((if m ≤ 2 then m + 12 else m) + 1) d (by split_ifs <;> omega)
    (by split_ifs <;> omega) hd1 (by omega) (by split_ifs <;> omega) (by split_ifs <;> omega)
  rw [← hM] at hE
  rw [← hBd] at hcal hC
  have ht : |Int.tdiv (4 * Z - 7468865) 146097| ≤ 2 ^ 42 := by
    have := Int.natAbs_tdiv_le_natAbs (4 * Z - 7468865) 146097
    rw [abs_le]; omega
  have ht4 : |Int.tdiv (Int.tdiv (4 * Z - 7468865) 146097) 4| ≤ 2 ^ 42 := by
    have := Int.natAbs_tdiv_le_natAbs (Int.tdiv (4 * Z - 7468865) 146097) 4
    rw [abs_le] at ht ⊢; omega
  have hA : (if g = true then
      fl (fl (fl ((Z : ℚ) + 1) + trunc (fl (fl ((Z : ℚ) - 7468865 / 4) / (146097 / 4)))) -
        trunc (fl ((trunc (fl (fl ((Z : ℚ) - 7468865 / 4) / (146097 / 4))) : ℤ) / 4)))
      else (Z : ℚ)) = ((B - 1524 : ℤ) : ℚ) := by
    rw [hB]
    cases g
    · simp
    · simp only [if_true]
      have e1 : (Z : ℚ) - 7468865 / 4 = ((4 * Z - 7468865 : ℤ) : ℚ) / 2 ^ 2 := by push_cast; ring
      rw [e1, h.dyadic 2 (by norm_num) (by rw [abs_le]; omega)]
      have e2 : ((4 * Z - 7468865 : ℤ) : ℚ) / 2 ^ 2 / (146097 / 4) =
          ((4 * Z - 7468865 : ℤ) : ℚ) / (146097 : ℕ) := by push_cast; ring
      rw [e2, h.trunc_tdiv (by rw [abs_le]; omega) (by norm_num)]
      have e3 := h.trunc_tdiv (a := Int.tdiv (4 * Z - 7468865) (146097 : ℕ)) (b := 4)
        (by push_cast; exact ht.trans (by norm_num)) (by norm_num)
      push_cast at e3 ht ht4 ⊢
      rw [e3]
      have i1 := h.int_ge (n := Z + 1) (by omega) (by omega)
      push_cast at i1
      rw [i1]
      rw [abs_le] at ht ht4
      have i2 := h.int_ge (n := Z + 1 + Int.tdiv (4 * Z - 7468865) 146097) (by omega) (by omega)
      push_cast at i2
      rw [i2]
      have i3 := h.int_ge (n := Z + 1 + Int.tdiv (4 * Z - 7468865) 146097 -
        Int.tdiv (Int.tdiv (4 * Z - 7468865) 146097) 4) (by omega) (by omega)
      push_cast at i3
      rw [i3, aCorr]
      push_cast; ring
  have hBub : B ≤ 2 ^ 41 := by
    rw [hB]
    cases g
    · simp; omega
    · simp only [if_true]
      have hneg : |Int.tdiv (4 * Z - 7468865) 146097| ≤ 2 ^ 30 := by
        rcases le_or_gt 0 (4 * Z - 7468865) with h0 | h0
        · rw [Int.tdiv_eq_ediv_of_nonneg h0, abs_le]; omega
        · rw [tdiv_of_neg h0 (by norm_num), abs_le]
          split_ifs <;> omega
      have := Int.natAbs_tdiv_le_natAbs (Int.tdiv (4 * Z - 7468865) 146097) 4
      rw [abs_le] at hneg
      unfold aCorr; omega
  have hBlb : 123 ≤ B := by
    rw [hBd]
    have : 0 ≤ 1461 * (shiftYear y m + 4716) / 4 := Int.ediv_nonneg (by omega) (by norm_num)
    omega
  have iB : fl (((B - 1524 : ℤ) : ℚ) + 1524) = B := by
    have := h.int_ge (n := B) (by omega) (by omega)
    have e : ((B - 1524 : ℤ) : ℚ) + 1524 = B := by push_cast; ring
    rw [e, this]
  have hCf : trunc (fl (fl ((B : ℚ) - fl (1221 / 10)) / (1461 / 4))) = shiftYear y m + 4716 := by
    rw [float_C h B hBlb hBub hC.2.1 hC.2.2, hC.1]
  set c := shiftYear y m + 4716 with hc
  have hc0 : 0 ≤ c := by omega
  have hcB : c ≤ B := by
    rw [hBd]
    have : 1461 * c / 4 ≥ c := by omega
    omega
  have hq : fl (1461 / 4) = 1461 / 4 := by
    have := h.dyadic (n := 1461) 2 (by norm_num) (by norm_num)
    norm_num at this ⊢; exact this
  have hD : trunc (fl (fl (1461 / 4) * (c : ℚ))) = 1461 * c / 4 := by
    rw [hq]
    have e : (1461 / 4 : ℚ) * (c : ℚ) = ((1461 * c : ℤ) : ℚ) / 2 ^ 2 := by push_cast; ring
    rw [e, h.dyadic 2 (by norm_num) (by rw [abs_le]; omega)]
    have := trunc_div (1461 * c) 4 (by norm_num)
    rw [Int.tdiv_eq_ediv_of_nonneg (by omega)] at this
    norm_num at this ⊢; exact this
  have hBD : fl ((B : ℚ) - (1461 * c / 4 : ℤ)) = ((monTerm m + d : ℤ) : ℚ) := by
    have e : (B : ℚ) - (1461 * c / 4 : ℤ) = ((monTerm m + d : ℤ) : ℚ) := by
      rw [hBd]; push_cast; ring
    rw [e]
    exact h.int_ge (by omega) (by omega)
  have hEf : trunc (fl (((monTerm m + d : ℤ) : ℚ) / fl (306001 / 10000))) =
      (if m ≤ 2 then m + 12 else m) + 1 := by
    rw [float_E h (monTerm m + d) (by omega) b2 hE.2.1 hE.2.2, hE.1]
  have hT : trunc (fl (fl (306001 / 10000) * (((if m ≤ 2 then m + 12 else m) + 1 : ℤ) : ℚ))) =
      monTerm m := by
    rw [float_mon h _ (by split_ifs <;> omega) (by split_ifs <;> omega), hM]
  have hlast : fl (((monTerm m + d : ℤ) : ℚ) - (monTerm m : ℤ)) = d := by
    have e : ((monTerm m + d : ℤ) : ℚ) - (monTerm m : ℤ) = (d : ℤ) := by push_cast; ring
    rw [e]
    exact h.int_ge (by omega) (by omega)
  unfold jdToCal1
  simp only [hZ, hA, iB, hCf, hD, hBD, hEf, hT, hlast]
  have hs : shiftYear y m = if m ≤ 2 then y - 1 else y := rfl
  ext
  · simp only; split_ifs at * <;> omega
  · simp only; split_ifs at * <;> omega
  · simp only

end Verif
