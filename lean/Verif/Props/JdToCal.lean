import Verif.Lemmas.AddHalf
import Verif.Lemmas.JdToCal
import Verif.Props.CalToJd

/-!
# C03, C04: `jd_to_cal` and the round trips
-/

namespace Verif
open Spec

/-! ### C03 -/

/-- The days the code gets wrong: 1 March of the Gregorian years 300, -100, -500, ... -/
def BadDay (g : Bool) (y m d : ℤ) : Prop :=
  g = true ∧ m = 3 ∧ d = 1 ∧ y < 400 ∧ y % 400 = 300

instance (g : Bool) (y m d : ℤ) : Decidable (BadDay g y m d) := by unfold BadDay; infer_instance

theorem jdn_true_start : jdn true (-4713) 1 1 = -327 := by
  unfold jdn epoch
  rw [daysToYear_true, dayOfYear_1]; decide

theorem jdn_false_start : jdn false (-4713) 1 1 = -365 := by
  unfold jdn epoch
  rw [daysToYear_false, dayOfYear_1]; decide

/-- C03, main statement: the civil date returned for any Julian Day from -1/2 to about `2^40`
(`s` is the rounded `jd + 1/2`, `⌊s⌋` its Julian Day Number): year and month are those of the valid
date with that day number, and the day is the day plus the fraction of the day elapsed.  The only
exceptions are the bad days, reported as 29 February. -/
theorem jd_to_cal_date {fl : ℚ → ℚ} (h : FloatLike fl) (g : Bool) (jd : ℚ) (y m d : ℤ)
    (hv : Valid g y m d) (hs0 : 0 ≤ fl (jd + 1 / 2)) (hs1 : fl (jd + 1 / 2) ≤ 2 ^ 40)
    (hj : jdn g y m d = ⌊fl (jd + 1 / 2)⌋) :
    (¬ BadDay g y m d → jdToCal fl [jd] g =
      (.scalar y, .scalar m, .scalar (fl ((d : ℚ) + Int.fract (fl (jd + 1 / 2)))))) ∧
    (BadDay g y m d → jdToCal fl [jd] g =
      (.scalar y, .scalar 2, .scalar (fl (29 + Int.fract (fl (jd + 1 / 2)))))) := by
  have hj0 : 0 ≤ jdn g y m d := by rw [hj]; exact Int.floor_nonneg.mpr hs0
  have hj1 : jdn g y m d ≤ 2 ^ 40 := by
    have : (jdn g y m d : ℚ) ≤ 2 ^ 40 := by rw [hj]; exact (Int.floor_le _).trans hs1
    exact_mod_cast this
  have hy : -4713 ≤ y := by
    by_contra hc
    have hb : Before (y, m, d) (-4713, 1, 1) := .inl (not_le.mp hc)
    cases g
    · have := jdn_strictMono hv (show Valid false (-4713) 1 1 by decide) hb
      rw [jdn_false_start] at this; omega
    · have := jdn_strictMono hv (show Valid true (-4713) 1 1 by decide) hb
      rw [jdn_true_start] at this; omega
  have htr : trunc (fl (jd + 1 / 2)) = jdn g y m d := by rw [trunc_of_nonneg hs0, hj]
  have hfr : fl (jd + 1 / 2) - (jdn g y m d : ℤ) = Int.fract (fl (jd + 1 / 2)) := by
    rw [hj]; rfl
  have hsy : -4716 ≤ shiftYear y m := by unfold shiftYear; split_ifs <;> omega
  have hyt : yearTerm y m = 1461 * (shiftYear y m + 4716) / 4 := by
    unfold yearTerm; rw [Int.tdiv_eq_ediv_of_nonneg (by omega)]
  obtain ⟨h1, h2, h3, h4⟩ := hv
  have hB : jdn g y m d + (if g then aCorr (jdn g y m d) else 0) + 1524 =
      1461 * (shiftYear y m + 4716) / 4 + (monTerm m + d) - (if g = true ∧ (shiftYear y m < 400 ∧
        shiftYear y m % 400 = 300 ∧ monTerm m + d = 123) then 1 else 0) := by
    cases g
    · have f := formula_eq false y m d h1 h2
      have hx : excess false y m = 0 := by
        have hn : ¬ (shiftYear y m < -4716 ∧ shiftYear y m % 4 ≠ 0) := by omega
        unfold excess; rw [if_neg hn]; simp
      have hc : corrB false y m = 0 := rfl
      simp only [Bool.false_eq_true, if_false, false_and]
      omega
    · have := aCorr_eq y m d ⟨h1, h2, h3, h4⟩ (by omega)
      simp only [if_true, true_and]
      rw [this, hyt]
  have hbad : BadDay g y m d ↔ (g = true ∧ (shiftYear y m < 400 ∧
        shiftYear y m % 400 = 300 ∧ monTerm m + d = 123)) := by
    unfold BadDay
    refine and_congr_right fun _ => ?_
    have hl := monthLen_le g y m
    constructor
    · rintro ⟨rfl, rfl, ha, hb⟩
      exact ⟨ha, hb, by decide⟩
    · rintro ⟨ha, hb, hc⟩
      have : m = 3 ∧ d = 1 := by
        unfold monTerm at hc
        interval_cases m <;> norm_num at * <;> omega
      obtain ⟨rfl, rfl⟩ := this
      exact ⟨rfl, rfl, ha, hb⟩
  have single : ∀ r, jdToCal1 fl jd g = r →
      jdToCal fl [jd] g = (.scalar r.1, .scalar r.2.1, .scalar r.2.2) := by
    rintro r rfl; simp [jdToCal, scalarIfOne]
  constructor
  · intro hnb
    rw [if_neg (mt hbad.mpr hnb)] at hB
    have := jdToCal1_eq h g jd _ _ htr hj0 hj1 rfl y m d h1 h2 h3
      (h4.trans (monthLen_le_julian g y m)) hsy (by rw [hB]; ring)
    rw [single _ this, hfr]
  · intro hb
    rw [if_pos (hbad.mp hb)] at hB
    obtain ⟨hg, rfl, rfl, hb1, hb2⟩ := hb
    have hlen : (29 : ℤ) ≤ monthLen false y 2 := by
      have : IsLeap false y := ⟨by omega, by simp⟩
      simp [monthLen, this]
    have := jdToCal1_eq h g jd _ _ htr hj0 hj1 rfl y 2 29 (by norm_num) (by norm_num) (by norm_num)
      hlen (by simp [shiftYear]; omega) (by
        rw [hB]
        have e1 : shiftYear y 3 = y := by simp [shiftYear]
        have e2 : shiftYear y 2 = y - 1 := by simp [shiftYear]
        have e3 : monTerm 3 = 122 := by decide
        have e4 : monTerm 2 = 459 := by decide
        rw [e1, e2, e3, e4]
        have e5 : 1461 * (y + 4716) / 4 = 365 * (y + 4716) + y / 4 + 1179 := by omega
        have e6 : 1461 * (y - 1 + 4716) / 4 = 365 * (y + 4716) - 365 + y / 4 + 1178 := by omega
        rw [e5, e6]; ring)
    rw [single _ this, hfr]
    push_cast
    rfl

/-- C03: such a date always exists, so `jd_to_cal` is described for every Julian Day. -/
theorem jd_to_cal_total (g : Bool) (n : ℤ) (hn : 0 ≤ n) :
    ∃ y m d, Valid g y m d ∧ jdn g y m d = n ∧ ∀ y' m' d', Valid g y' m' d' →
      jdn g y' m' d' = n → (y', m', d') = (y, m, d) := by
  have : ∃ k : ℕ, n = jdn g (-4713) 1 1 + k := by
    refine ⟨(n - jdn g (-4713) 1 1).toNat, ?_⟩
    cases g
    · rw [jdn_false_start]; omega
    · rw [jdn_true_start]; omega
  obtain ⟨k, rfl⟩ := this
  obtain ⟨y, m, d, hv, _, e⟩ := exists_date g (-4713) k
  refine ⟨y, m, d, hv, e, fun y' m' d' hv' e' => ?_⟩
  obtain ⟨rfl, rfl, rfl⟩ := jdn_inj hv' hv (e'.trans e.symm)
  rfl


/-- C03 in exact arithmetic. -/
theorem jd_to_cal_exact (g : Bool) (jd : ℚ) (h0 : -1 / 2 ≤ jd) (h1 : jd ≤ 2 ^ 39) :
    ∃ y m d, Valid g y m d ∧ jdn g y m d = ⌊jd + 1 / 2⌋ ∧
    jdToCal (fun x => x) [jd] g = if BadDay g y m d
      then (.scalar y, .scalar 2, .scalar (29 + Int.fract (jd + 1 / 2)))
      else (.scalar y, .scalar m, .scalar (d + Int.fract (jd + 1 / 2))) := by
  have hs : (0 : ℚ) ≤ jd + 1 / 2 := by linarith
  obtain ⟨y, m, d, hv, e, -⟩ := jd_to_cal_total g ⌊jd + 1 / 2⌋ (Int.floor_nonneg.mpr hs)
  have := jd_to_cal_date FloatLike.id g jd y m d hv hs (by linarith) e
  refine ⟨y, m, d, hv, e, ?_⟩
  split_ifs with hb
  · exact this.2 hb
  · exact this.1 hb

/-- C03 in binary64, for every float Julian Day from 32 on: the date is that of the civil day
containing `jd`, and the day is the exact sum of the day number and the fraction of the rounded
`jd + 1/2`, which is within one rounding error of the true fraction. -/
theorem jd_to_cal_binary64 {fl : ℚ → ℚ} (h : Rounding fl) (g : Bool) (jd : ℚ) (hF : IsF64 jd)
    (h0 : 32 ≤ jd) (h1 : jd ≤ 2 ^ 39) :
    ∃ y m d f, Valid g y m d ∧ jdn g y m d = ⌊jd + 1 / 2⌋ ∧
    0 ≤ f ∧ f < 1 ∧ |f - Int.fract (jd + 1 / 2)| ≤ (jd + 1 / 2) / 2 ^ 53 + 1 / 2 ^ 1074 ∧
    jdToCal fl [jd] g = if BadDay g y m d
      then (.scalar y, .scalar 2, .scalar (29 + f))
      else (.scalar y, .scalar m, .scalar (d + f)) := by
  have hl := h.floatLike
  have hs : (0 : ℚ) ≤ jd + 1 / 2 := by linarith
  obtain ⟨y, m, d, hv, e, -⟩ := jd_to_cal_total g ⌊jd + 1 / 2⌋ (Int.floor_nonneg.mpr hs)
  have hfl := floor_fl_add_half hl hF (by linarith) (by linarith)
  have hs0 : 0 ≤ fl (jd + 1 / 2) := hl.nonneg hs
  have hs1 : fl (jd + 1 / 2) ≤ 2 ^ 40 := by
    have := hl.le_int (n := 2 ^ 40) (x := jd + 1 / 2) (by norm_num) (by push_cast; linarith)
    exact_mod_cast this
  have hs32 : 32 ≤ fl (jd + 1 / 2) := by
    have := hl.int_le (n := 32) (x := jd + 1 / 2) (by norm_num) (by push_cast; linarith)
    exact_mod_cast this
  have key := jd_to_cal_date hl g jd y m d hv hs0 hs1 (by rw [hfl, e])
  refine ⟨y, m, d, Int.fract (fl (jd + 1 / 2)), hv, e, Int.fract_nonneg _, Int.fract_lt_one _, ?_, ?_⟩
  · have := hl.err (jd + 1 / 2)
    rw [abs_of_nonneg hs] at this
    unfold Int.fract
    rw [hfl]
    convert this using 2
    ring
  · have hlen := monthLen_le g y m
    obtain ⟨_, _, hd1, hd2⟩ := hv
    have hFs : IsF64 (fl (jd + 1 / 2)) := h.rep _
    split_ifs with hb
    · rw [key.2 hb]
      have := isF64_day hFs 29 (by norm_num) (by norm_num) (by push_cast; linarith)
      rw [show (29 : ℚ) = ((29 : ℤ) : ℚ) by norm_num, hl.fix _ this]
    · rw [key.1 hb]
      have hd31 : (d : ℚ) ≤ 31 := by exact_mod_cast hd2.trans hlen
      rw [hl.fix _ (isF64_day hFs d (by omega) (by omega) (by linarith))]

/-- C03: for a float Julian Day and its half-day shift in the same binade (in particular from
2097152, 27 September 1029, to 4194303.5) nothing is rounded at all. -/
theorem jd_to_cal_binary64_exact {fl : ℚ → ℚ} (h : Rounding fl) (g : Bool) (jd : ℚ) (hF : IsF64 jd)
    (k : ℕ) (hk : 5 ≤ k) (hk2 : k ≤ 38) (h0 : 2 ^ k ≤ jd) (h1 : jd + 1 / 2 ≤ 2 ^ (k + 1)) :
    ∃ y m d, Valid g y m d ∧ jdn g y m d = ⌊jd + 1 / 2⌋ ∧
    jdToCal fl [jd] g = if BadDay g y m d
      then (.scalar y, .scalar 2, .scalar (29 + Int.fract (jd + 1 / 2)))
      else (.scalar y, .scalar m, .scalar (d + Int.fract (jd + 1 / 2))) := by
  have hl := h.floatLike
  have p1 : (2 : ℚ) ^ 5 ≤ 2 ^ k := pow_le_pow_right₀ (by norm_num) hk
  have p2 : (2 : ℚ) ^ (k + 1) ≤ 2 ^ 39 := pow_le_pow_right₀ (by norm_num) (by omega)
  have hs : (0 : ℚ) ≤ jd + 1 / 2 := by linarith
  have hx := isF64_add_half hF k (by omega) h0 h1
  have hfx := hl.fix _ hx
  obtain ⟨y, m, d, hv, e, -⟩ := jd_to_cal_total g ⌊jd + 1 / 2⌋ (Int.floor_nonneg.mpr hs)
  have key := jd_to_cal_date hl g jd y m d hv (by rw [hfx]; exact hs) (by rw [hfx]; linarith)
    (by rw [hfx, e])
  rw [hfx] at key
  refine ⟨y, m, d, hv, e, ?_⟩
  have hlen := monthLen_le g y m
  obtain ⟨_, _, hd1, hd2⟩ := hv
  split_ifs with hb
  · rw [key.2 hb]
    have := isF64_day hx 29 (by norm_num) (by norm_num) (by push_cast; linarith)
    rw [show (29 : ℚ) = ((29 : ℤ) : ℚ) by norm_num, hl.fix _ this]
  · rw [key.1 hb]
    have hd31 : (d : ℚ) ≤ 31 := by exact_mod_cast hd2.trans hlen
    rw [hl.fix _ (isF64_day hx d (by omega) (by omega) (by linarith))]

/-! ### C04 -/

theorem jdn_bounds {g : Bool} {y m d : ℤ} (hv : Valid g y m d) (hy : -4712 ≤ y) :
    0 ≤ jdn g y m d ∧ jdn g y m d ≤ 366 * (y + 4714) := by
  have b := dayOfYear_bounds hv
  have l : yearLen g y ≤ 366 := by unfold yearLen; split_ifs <;> norm_num
  unfold jdn epoch
  cases g
  · rw [daysToYear_false]; simp; omega
  · rw [daysToYear_true]; simp; omega

theorem jdToCal_jdn {fl : ℚ → ℚ} (h : FloatLike fl) (g : Bool) (y m d : ℤ) (hv : Valid g y m d)
    (h0 : 0 ≤ jdn g y m d) (h1 : jdn g y m d ≤ 2 ^ 40) (f : ℚ) (hf0 : 0 ≤ f) (hf1 : f < 1)
    (hf : fl ((jdn g y m d : ℚ) + f) = jdn g y m d + f) (hd : fl ((d : ℚ) + f) = d + f)
    (hlt : (jdn g y m d : ℚ) + f ≤ 2 ^ 40) (hb : ¬ BadDay g y m d) :
    jdToCal fl [jd0 g y m d + f] g = (.scalar y, .scalar m, .scalar (d + f)) := by
  have e : jd0 g y m d + f + 1 / 2 = jdn g y m d + f := by unfold jd0; ring
  have e2 : ⌊(jdn g y m d : ℚ) + f⌋ = jdn g y m d := by
    rw [Int.floor_eq_iff]; constructor <;> linarith
  have e3 : Int.fract ((jdn g y m d : ℚ) + f) = f := by unfold Int.fract; rw [e2]; ring
  have h0' : (0 : ℚ) ≤ jdn g y m d := by exact_mod_cast h0
  have := (jd_to_cal_date h g (jd0 g y m d + f) y m d hv (by rw [e, hf]; linarith)
    (by rw [e, hf]; exact hlt) (by rw [e, hf, e2])).1 hb
  rw [this, e, hf, e3, hd]

/-- C04: `jd_to_cal(cal_to_jd(y, m, d)) = (y, m, d)` for every valid date from -4712 on,
except the exceptional dates of C01 and the bad days of C03. -/
theorem jd_to_cal_cal_to_jd {fl : ℚ → ℚ} (h : FloatLike fl) (g : Bool) (y m d : ℤ)
    (hy : -4712 ≤ y) (hy2 : y < 2 ^ 31) (hv : Valid g y m d)
    (hx : ¬ Exceptional g y m) (hb : ¬ BadDay g y m d) :
    ∃ jd, calToJd fl [.int y] [.int m] [(d : ℚ)] g = .ok (.scalar jd) ∧
      jdToCal fl [jd] g = (.scalar y, .scalar m, .scalar (d : ℚ)) := by
  refine ⟨_, (cal_to_jd_counts_days h g y m d (by omega) hy2 hv).1 hx, ?_⟩
  have b := jdn_bounds hv hy
  have b' : jdn g y m d ≤ 2 ^ 40 := by omega
  have hlen := monthLen_le g y m
  obtain ⟨v1, v2, v3, v4⟩ := hv
  have := jdToCal_jdn h g y m d ⟨v1, v2, v3, v4⟩ b.1 b' 0 le_rfl (by norm_num)
    (by rw [add_zero]; exact h.int (by rw [abs_le]; omega))
    (by rw [add_zero]; exact h.int (by rw [abs_le]; omega))
    (by rw [add_zero]; exact_mod_cast b') hb
  simpa using this

/-- C04, failure: on a bad day that `cal_to_jd` counts correctly (1 March 300), the round trip
comes back with 29 February of a common year. -/
theorem jd_to_cal_cal_to_jd_bad {fl : ℚ → ℚ} (h : FloatLike fl) (g : Bool) (y m d : ℤ)
    (hy : -4712 ≤ y) (hb : BadDay g y m d) (hx : ¬ Exceptional g y m) :
    ∃ jd, calToJd fl [.int y] [.int m] [(d : ℚ)] g = .ok (.scalar jd) ∧
      jdToCal fl [jd] g = (.scalar y, .scalar 2, .scalar 29) ∧ ¬ Valid g y 2 29 := by
  obtain ⟨hg, rfl, rfl, hb1, hb2⟩ := id hb
  subst hg
  have hv : Valid true y 3 1 := by
    have := monthLen_ge true y 3
    refine ⟨?_, ?_, ?_, ?_⟩ <;> omega
  refine ⟨_, (cal_to_jd_counts_days h true y 3 1 (by omega) (by omega) hv).1 hx, ?_, ?_⟩
  · have b := jdn_bounds hv hy
    have e : jd0 true y 3 1 + 1 / 2 = jdn true y 3 1 := by unfold jd0; ring
    have hf : fl (jdn true y 3 1 : ℚ) = jdn true y 3 1 := h.int (by rw [abs_le]; omega)
    have h0' : (0 : ℚ) ≤ jdn true y 3 1 := by exact_mod_cast b.1
    have h1' : (jdn true y 3 1 : ℚ) ≤ 2 ^ 40 := by exact_mod_cast (show jdn true y 3 1 ≤ 2 ^ 40 by omega)
    have := (jd_to_cal_date h true (jd0 true y 3 1) y 3 1 hv (by rw [e, hf]; exact h0')
      (by rw [e, hf]; exact h1') (by rw [e, hf, Int.floor_intCast])).2 hb
    rw [this, e, hf, Int.fract_intCast, add_zero]
    have : fl 29 = 29 := by simpa using h.int (n := 29) (by norm_num)
    rw [this]
  · rintro ⟨_, _, _, h4⟩
    have : ¬ IsLeap true y := by
      unfold IsLeap
      simp only [Int.dvd_iff_emod_eq_zero]
      simp only [true_imp_iff]; omega
    simp [monthLen, this] at h4

/-- C04, failure: on every exceptional date the round trip comes back with the following day. -/
theorem jd_to_cal_cal_to_jd_exceptional {fl : ℚ → ℚ} (h : FloatLike fl) (g : Bool) (y m d : ℤ)
    (hy : -4712 ≤ y) (hv : Valid g y m d) (hx : Exceptional g y m) :
    ∃ jd, calToJd fl [.int y] [.int m] [(d : ℚ)] g = .ok (.scalar jd) ∧
      jdToCal fl [jd] g = (.scalar (next g y m d).1, .scalar (next g y m d).2.1,
        .scalar ((next g y m d).2.2 : ℚ)) := by
  have hy2 : y ≤ 0 := by obtain ⟨_, c, h1, _, _, h4⟩ := hx; omega
  refine ⟨_, (cal_to_jd_counts_days h g y m d (by omega) (by omega) hv).2 hx, ?_⟩
  have hn := next_valid g y m d hv
  have en := jdn_next g y m d hv
  have e0 : jd0 g y m d + 1 = jd0 g (next g y m d).1 (next g y m d).2.1 (next g y m d).2.2 := by
    unfold jd0; rw [en]; push_cast; ring
  have hnb : ¬ BadDay g (next g y m d).1 (next g y m d).2.1 (next g y m d).2.2 := by
    rintro ⟨-, hb1, hb2, hb3, hb4⟩
    obtain ⟨_, c, h1, h2, h3, h4⟩ := hx
    obtain ⟨v1, v2, v3, v4⟩ := hv
    unfold next at hb1 hb2 hb3 hb4
    split_ifs at hb1 hb2 hb3 hb4 <;> simp at hb1 hb2 hb3 hb4 <;> omega
  have b := jdn_bounds hv hy
  rw [e0]
  generalize next g y m d = p at *
  obtain ⟨y', m', d'⟩ := p
  simp only at *
  have hlen := monthLen_le g y' m'
  obtain ⟨v1, v2, v3, v4⟩ := hn
  have := jdToCal_jdn h g y' m' d' ⟨v1, v2, v3, v4⟩ (by omega) (by omega) 0 le_rfl (by norm_num)
    (by rw [add_zero]; exact h.int (by rw [abs_le]; omega))
    (by rw [add_zero]; exact h.int (by rw [abs_le]; omega))
    (by rw [add_zero]; exact_mod_cast (show jdn g y' m' d' ≤ 2 ^ 40 by omega)) hnb
  simpa using this

/-- C04, fractional days: days that are multiples of `2^-s` come back exactly, as long as Julian
Days of that size are represented to `s` fractional bits. -/
theorem jd_to_cal_cal_to_jd_dyadic {fl : ℚ → ℚ} (h : FloatLike fl) (g : Bool) (y m k : ℤ) (s : ℕ)
    (hs : 1 ≤ s) (hs2 : s ≤ 40) (hy1 : -4712 ≤ y) (hy2 : y < 2 ^ 31)
    (hy : (368 * (|y| + 4717) + 3000) * 2 ^ s ≤ 2 ^ 53)
    (h1 : 1 ≤ m) (h2 : m ≤ 12) (hk1 : 1 ≤ (k : ℚ) / 2 ^ s)
    (hk2 : (k : ℚ) / 2 ^ s ≤ monthLen g y m)
    (hx : ¬ Exceptional g y m) (hb : ¬ BadDay g y m ⌊(k : ℚ) / 2 ^ s⌋) :
    ∃ jd, calToJd fl [.int y] [.int m] [(k : ℚ) / 2 ^ s] g = .ok (.scalar jd) ∧
      jdToCal fl [jd] g = (.scalar y, .scalar m, .scalar ((k : ℚ) / 2 ^ s)) := by
  refine ⟨_, cal_to_jd_dyadic_day h g y m k s hs hs2 (by omega) hy2 hy h1 h2 hk1 hk2, ?_⟩
  have hlen := monthLen_le g y m
  have hp : (0 : ℚ) < 2 ^ s := by positivity
  have hpz : (0 : ℤ) < 2 ^ s := by positivity
  set x := (k : ℚ) / 2 ^ s with hxdef
  have hxk : x * 2 ^ s = k := by rw [hxdef]; field_simp
  have f1 := Int.floor_le x
  have f2 := Int.lt_floor_add_one x
  have d1 : 1 ≤ ⌊x⌋ := Int.le_floor.mpr (by exact_mod_cast hk1)
  have d2 : ⌊x⌋ ≤ monthLen g y m := by
    have : (⌊x⌋ : ℚ) ≤ monthLen g y m := f1.trans hk2
    exact_mod_cast this
  have hv : Valid g y m ⌊x⌋ := ⟨h1, h2, d1, d2⟩
  have b := jdn_bounds hv hy1
  have e0 : excess g y m = 0 := (excess_eq g y m (by omega)).2 hx
  have ej : jd0 g y m 1 + (x - 1) + (excess g y m : ℤ) = jd0 g y m ⌊x⌋ + (x - ⌊x⌋) := by
    unfold jd0; rw [e0, jdn_add g y m 1, jdn_add g y m ⌊x⌋]; push_cast; ring
  have habs := le_abs_self y
  have hN : jdn g y m ⌊x⌋ + 1 ≤ 368 * (|y| + 4717) + 3000 := by omega
  have hNs : (jdn g y m ⌊x⌋ + 1) * 2 ^ s ≤ 2 ^ 53 :=
    (mul_le_mul_of_nonneg_right hN hpz.le).trans hy
  have edy : (jdn g y m ⌊x⌋ : ℚ) + (x - ⌊x⌋) =
      ((jdn g y m ⌊x⌋ * 2 ^ s + (k - ⌊x⌋ * 2 ^ s) : ℤ) : ℚ) / 2 ^ s := by
    rw [eq_div_iff hp.ne']; push_cast; linear_combination hxk
  have k1 : ⌊x⌋ * 2 ^ s ≤ k := by
    have : (⌊x⌋ : ℚ) * 2 ^ s ≤ k := by rw [← hxk]; exact mul_le_mul_of_nonneg_right f1 hp.le
    exact_mod_cast this
  have k2 : k ≤ (⌊x⌋ + 1) * 2 ^ s := by
    have : (k : ℚ) ≤ (⌊x⌋ + 1) * 2 ^ s := by rw [← hxk]; exact mul_le_mul_of_nonneg_right f2.le hp.le
    exact_mod_cast this
  have k3 : 0 ≤ jdn g y m ⌊x⌋ * 2 ^ s := mul_nonneg b.1 hpz.le
  have k4 : k ≤ 2 ^ 53 := by
    have : (⌊x⌋ + 1) * 2 ^ s ≤ 32 * 2 ^ 40 :=
      mul_le_mul (by omega) (pow_le_pow_right₀ (by norm_num) hs2) hpz.le (by norm_num)
    omega
  have k5 : 0 ≤ ⌊x⌋ * 2 ^ s := mul_nonneg (by omega) hpz.le
  have hlt : (jdn g y m ⌊x⌋ : ℚ) + (x - ⌊x⌋) ≤ 2 ^ 40 := by
    have : ((jdn g y m ⌊x⌋ + 1 : ℤ) : ℚ) ≤ (2 ^ 40 : ℤ) := by exact_mod_cast (by omega)
    push_cast at this; linarith
  have := jdToCal_jdn h g y m ⌊x⌋ hv b.1 (by omega) (x - ⌊x⌋) (by linarith) (by linarith)
    (by
      rw [edy]
      apply h.dyadic s (by omega)
      have e1 : (jdn g y m ⌊x⌋ + 1) * 2 ^ s = jdn g y m ⌊x⌋ * 2 ^ s + 2 ^ s := by ring
      have e2 : (⌊x⌋ + 1) * 2 ^ s = ⌊x⌋ * 2 ^ s + 2 ^ s := by ring
      rw [abs_le]; omega)
    (by
      rw [add_sub_cancel, hxdef]
      apply h.dyadic s (by omega)
      rw [abs_le]; omega)
    hlt hb
  rw [ej, this, add_sub_cancel]

/-- C04, the other direction, for Julian Days that are multiples of `2^-s`: the date returned by
`jd_to_cal` converts back to the same Julian Day, or is refused by `cal_to_jd` because it is a
fractional instant of the last day of the month. -/
theorem cal_to_jd_jd_to_cal {fl : ℚ → ℚ} (h : FloatLike fl) (g : Bool) (K : ℤ) (s : ℕ)
    (hs : 1 ≤ s) (hs2 : s ≤ 31) (h0 : -1 / 2 ≤ (K : ℚ) / 2 ^ s)
    (hU : (K : ℚ) / 2 ^ s ≤ 2 ^ 39)
    (h1 : (101 / 100 * ((K : ℚ) / 2 ^ s) + 5000) * 2 ^ s ≤ 2 ^ 53) :
    ∃ y m d f, Valid g y m d ∧ 0 ≤ f ∧ f < 1 ∧ (K : ℚ) / 2 ^ s = jd0 g y m d + f ∧
      (¬ BadDay g y m d →
        jdToCal fl [(K : ℚ) / 2 ^ s] g = (.scalar y, .scalar m, .scalar (d + f))) ∧
      (¬ Exceptional g y m → d < monthLen g y m ∨ f = 0 →
        calToJd fl [.int y] [.int m] [d + f] g = .ok (.scalar ((K : ℚ) / 2 ^ s))) ∧
      (d = monthLen g y m → f ≠ 0 →
        ∃ msg, calToJd fl [.int y] [.int m] [d + f] g = .error (.ValueError msg)) := by
  have hp : (0 : ℚ) < 2 ^ s := by positivity
  have hpz : (0 : ℤ) < 2 ^ s := by positivity
  have hp2 : (2 : ℤ) ^ s ≤ 2 ^ 31 := pow_le_pow_right₀ (by norm_num) hs2
  obtain ⟨t, rfl⟩ : ∃ t, s = t + 1 := ⟨s - 1, by omega⟩
  set x := (K : ℚ) / 2 ^ (t + 1) with hxdef
  have hxk : x * 2 ^ (t + 1) = K := by rw [hxdef]; field_simp
  have hps : (2 : ℤ) ^ (t + 1) = 2 * 2 ^ t := by rw [pow_succ]; ring
  have hpsq : (2 : ℚ) ^ (t + 1) = 2 * 2 ^ t := by rw [pow_succ]; ring
  have hsnn : 0 ≤ x + 1 / 2 := by linarith
  obtain ⟨y, m, d, hv, e, -⟩ := jd_to_cal_total g ⌊x + 1 / 2⌋ (Int.floor_nonneg.mpr hsnn)
  have f1 := Int.floor_le (x + 1 / 2)
  have f2 := Int.lt_floor_add_one (x + 1 / 2)
  rw [← e] at f1 f2
  have hN0 : 0 ≤ jdn g y m d := by rw [e]; exact Int.floor_nonneg.mpr hsnn
  have b := dayOfYear_bounds hv
  have hl : yearLen g y ≤ 366 := by unfold yearLen; split_ifs <;> norm_num
  have hJ : 365 * (y + 4712) ≤ jdn g y m d + 1 ∧ -4713 ≤ y ∧ y ≤ jdn g y m d := by
    unfold jdn epoch at hN0 ⊢
    cases g
    · rw [daysToYear_false] at hN0 ⊢; simp at hN0 ⊢; omega
    · rw [daysToYear_true] at hN0 ⊢; simp at hN0 ⊢; omega
  have hNU : jdn g y m d ≤ 2 ^ 39 := by
    have : (jdn g y m d : ℚ) < 2 ^ 39 + 1 := by linarith
    have : jdn g y m d < 2 ^ 39 + 1 := by exact_mod_cast this
    omega
  have hJq : (365 * (y + 4712) : ℚ) ≤ jdn g y m d + 1 := by exact_mod_cast hJ.1
  have hyb : (368 * (|y| + 4717) + 3000) * 2 ^ (t + 1) ≤ 2 ^ 53 := by
    rcases le_or_gt 0 y with hy | hy
    · rw [abs_of_nonneg hy]
      have hyq : (0 : ℚ) ≤ y := by exact_mod_cast hy
      have : (368 * ((y : ℚ) + 4717) + 3000) * 2 ^ (t + 1) ≤ 2 ^ 53 := by
        refine le_trans (mul_le_mul_of_nonneg_right ?_ hp.le) h1
        linarith
      exact_mod_cast this
    · rw [abs_of_neg hy]
      calc (368 * (-y + 4717) + 3000) * 2 ^ (t + 1) ≤ 4000000 * 2 ^ 31 :=
            mul_le_mul (by omega) hp2 hpz.le (by norm_num)
        _ ≤ 2 ^ 53 := by norm_num
  have hlen := monthLen_le g y m
  obtain ⟨v1, v2, v3, v4⟩ := id hv
  have hkd : ((d * 2 ^ (t + 1) + (K + 2 ^ t - jdn g y m d * 2 ^ (t + 1)) : ℤ) : ℚ) / 2 ^ (t + 1) =
      d + (x + 1 / 2 - jdn g y m d) := by
    rw [div_eq_iff hp.ne']; push_cast; rw [← hxk, hpsq]; ring
  have hkd1 : ((K + 2 ^ t : ℤ) : ℚ) / 2 ^ (t + 1) = x + 1 / 2 := by
    rw [div_eq_iff hp.ne']; push_cast; rw [← hxk, hpsq]; ring
  have fr1 : ((K + 2 ^ t - jdn g y m d * 2 ^ (t + 1) : ℤ) : ℚ) =
      (x + 1 / 2 - jdn g y m d) * 2 ^ (t + 1) := by
    push_cast; rw [← hxk, hpsq]; ring
  have r0 : 0 ≤ K + 2 ^ t - jdn g y m d * 2 ^ (t + 1) := by
    have : (0 : ℚ) ≤ ((K + 2 ^ t - jdn g y m d * 2 ^ (t + 1) : ℤ) : ℚ) := by
      rw [fr1]; exact mul_nonneg (by linarith) hp.le
    exact_mod_cast this
  have r1 : K + 2 ^ t - jdn g y m d * 2 ^ (t + 1) ≤ 2 ^ (t + 1) := by
    have : ((K + 2 ^ t - jdn g y m d * 2 ^ (t + 1) : ℤ) : ℚ) ≤ 2 ^ (t + 1) := by
      rw [fr1]; nlinarith
    exact_mod_cast this
  refine ⟨y, m, d, x + 1 / 2 - jdn g y m d, hv, by linarith, by linarith,
    by unfold jd0; ring, ?_, ?_, ?_⟩
  · intro hb
    have hd1 : d * 2 ^ (t + 1) ≤ 31 * 2 ^ 31 :=
      mul_le_mul (by omega) hp2 hpz.le (by norm_num)
    have hd0 : 0 ≤ d * 2 ^ (t + 1) := mul_nonneg (by omega) hpz.le
    have hNs : (jdn g y m d + 1) * 2 ^ (t + 1) ≤ 2 ^ 53 := by
      have h3 : jdn g y m d ≤ 366 * (y + 4714) := by
        rcases le_or_gt (-4712) y with hy | hy
        · exact (jdn_bounds hv hy).2
        · have : y = -4713 := by omega
          subst this
          have := b.2
          unfold jdn epoch
          cases g
          · rw [daysToYear_false]; simp; omega
          · rw [daysToYear_true]; simp; omega
      have := le_abs_self y
      exact (mul_le_mul_of_nonneg_right (by omega) hpz.le).trans hyb
    have e1 : (jdn g y m d + 1) * 2 ^ (t + 1) = jdn g y m d * 2 ^ (t + 1) + 2 ^ (t + 1) := by ring
    have k3 : 0 ≤ jdn g y m d * 2 ^ (t + 1) := mul_nonneg hN0 hpz.le
    have hUq : (jdn g y m d : ℚ) ≤ 2 ^ 39 := by exact_mod_cast hNU
    have := jdToCal_jdn h g y m d hv hN0 (by omega) (x + 1 / 2 - jdn g y m d) (by linarith)
      (by linarith)
      (by
        rw [add_sub_cancel, ← hkd1]
        apply h.dyadic _ (by omega)
        rw [abs_le]; omega)
      (by
        rw [← hkd]
        apply h.dyadic _ (by omega)
        rw [abs_le]; omega) (by linarith) hb
    rw [← this]
    congr 2
    unfold jd0; ring
  · intro hx hlt
    have hle : (d : ℚ) + (x + 1 / 2 - jdn g y m d) ≤ monthLen g y m := by
      rcases hlt with hlt | hlt
      · have : ((d + 1 : ℤ) : ℚ) ≤ monthLen g y m := by exact_mod_cast hlt
        push_cast at this; linarith
      · rw [hlt, add_zero]; exact_mod_cast v4
    have v3' : (1 : ℚ) ≤ d := by exact_mod_cast v3
    have := cal_to_jd_dyadic_day h g y m _ (t + 1) hs (by omega) (by omega) (by omega) hyb v1 v2
      (by rw [hkd]; linarith) (by rw [hkd]; exact hle)
    rw [hkd] at this
    rw [this, (excess_eq g y m (by omega)).2 hx]
    congr 2
    unfold jd0
    rw [jdn_add g y m d, jdn_add g y m 1]; push_cast; ring
  · intro hd hf
    have hpos : 0 < x + 1 / 2 - jdn g y m d := lt_of_le_of_ne (by linarith) (Ne.symm hf)
    have hdq : (d : ℚ) = monthLen g y m := by exact_mod_cast hd
    have hno := cal_to_jd_refuses_last_day_fraction h g y m _ hpos
    rw [← hdq] at hno
    cases hr : calToJd fl [.int y] [.int m] [(d : ℚ) + (x + 1 / 2 - jdn g y m d)] g with
    | ok r => exact absurd ⟨r, hr⟩ hno
    | error er =>
      obtain ⟨msg, rfl⟩ := cal_to_jd_refuses_valueError h g y m _ er hr
      exact ⟨msg, rfl⟩

/-- Every binary64 number from `2^21` to `2^22` is a multiple of `2^-31`, so the exact round trip
covers every float Julian Day from the year 1030 to the year 6640. -/
theorem cal_to_jd_jd_to_cal_modern {fl : ℚ → ℚ} (h : FloatLike fl) (g : Bool) (jd : ℚ)
    (hF : IsF64 jd) (h0 : 2 ^ 21 ≤ jd) (h1 : jd ≤ 4147825) :
    ∃ y m d f, Valid g y m d ∧ 0 ≤ f ∧ f < 1 ∧ jd = jd0 g y m d + f ∧
      jdToCal fl [jd] g = (.scalar y, .scalar m, .scalar (d + f)) ∧
      (d < monthLen g y m ∨ f = 0 →
        calToJd fl [.int y] [.int m] [d + f] g = .ok (.scalar jd)) ∧
      (d = monthLen g y m → f ≠ 0 →
        ∃ msg, calToJd fl [.int y] [.int m] [d + f] g = .error (.ValueError msg)) := by
  have hK : ∃ K : ℤ, jd = (K : ℚ) / 2 ^ 31 := by
    obtain ⟨m, e, hm, he, hjd⟩ := hF
    have hm2 := (abs_le.mp hm).2
    rcases le_or_gt (-31) e with h2 | h2
    · obtain ⟨k, hk⟩ := Int.eq_ofNat_of_zero_le (show 0 ≤ e + 31 by omega)
      refine ⟨m * 2 ^ k, ?_⟩
      have : e = (k : ℤ) - 31 := by omega
      rw [hjd, this, zpow_sub₀ (by norm_num), zpow_natCast]
      push_cast; norm_num; ring
    · refine ⟨2 ^ 52, ?_⟩
      have : jd ≤ 2 ^ 21 := by
        have h3 : (2 : ℚ) ^ e ≤ 2 ^ (-32 : ℤ) := zpow_le_zpow_right₀ (by norm_num) (by omega)
        have h5 : (m : ℚ) ≤ 2 ^ 53 := by exact_mod_cast hm2
        calc jd = m * 2 ^ e := hjd
          _ ≤ 2 ^ 53 * 2 ^ (-32 : ℤ) := mul_le_mul h5 h3 (zpos e).le (by positivity)
          _ = 2 ^ 21 := by norm_num
      have : jd = 2 ^ 21 := le_antisymm this h0
      rw [this]; norm_num
  obtain ⟨K, rfl⟩ := hK
  obtain ⟨y, m, d, f, hv, hf0, hf1, e, p1, p2, p3⟩ := cal_to_jd_jd_to_cal h g K 31 (by norm_num) le_rfl
    (by linarith) (by linarith) (by linarith)
  have hy : 400 < y := by
    by_contra hc
    have hj : (jdn g y m d : ℚ) ≤ 366 * (400 + 4714) := by
      rcases le_or_gt (-4712) y with hy | hy
      · have := (jdn_bounds hv hy).2
        exact_mod_cast (by omega)
      · have h3 := jdn_strictMono hv (show Valid g (-4712) 1 1 by
          have := monthLen_ge g (-4712) 1; refine ⟨?_, ?_, ?_, ?_⟩ <;> omega) (.inl hy)
        have h4 := (jdn_bounds (g := g) (show Valid g (-4712) 1 1 by
          have := monthLen_ge g (-4712) 1; refine ⟨?_, ?_, ?_, ?_⟩ <;> omega) le_rfl).2
        exact_mod_cast (by omega)
    unfold jd0 at e
    linarith
  have hb : ¬ BadDay g y m d := by rintro ⟨_, _, _, h3, _⟩; omega
  have hx : ¬ Exceptional g y m := by rintro ⟨_, c, h1, h2, h3, h4⟩; omega
  exact ⟨y, m, d, f, hv, hf0, hf1, e, p1 hb, p2 hx, p3⟩

/-! ### The hypotheses are met -/

example : BadDay true 300 3 1 ∧ ¬ Exceptional true 300 3 ∧ Valid true 300 3 1 := by
  refine ⟨by decide, ?_, by decide⟩
  rintro ⟨_, c, h1, h2, h3, h4⟩; omega

example : Valid true 2000 2 29 ∧ ¬ BadDay true 2000 2 29 := by decide

example : IsF64 (24515455 / 10) := ⟨4903091, -1, by norm_num, by norm_num, by norm_num⟩

/-- J2000.0 concretely, for every rounding: noon of 1 January 2000. -/
theorem jd_to_cal_j2000 {fl : ℚ → ℚ} (h : FloatLike fl) :
    jdToCal fl [2451545] true = (.scalar 2000, .scalar 1, .scalar (3 / 2)) := by
  obtain ⟨jd, h1, h2⟩ := jd_to_cal_cal_to_jd_dyadic h true 2000 1 3 1 le_rfl (by norm_num)
    (by norm_num) (by norm_num) (by norm_num) le_rfl (by norm_num) (by norm_num)
    (by rw [show monthLen true 2000 1 = 31 by decide]; norm_num)
    (by rintro ⟨_, c, h1, h2, h3, h4⟩; omega) (by rintro ⟨_, h, _⟩; omega)
  have h3 := cal_to_jd_dyadic_day h true 2000 1 3 1 le_rfl (by norm_num)
    (by norm_num) (by norm_num) (by norm_num) le_rfl (by norm_num) (by norm_num)
    (by rw [show monthLen true 2000 1 = 31 by decide]; norm_num)
  rw [h3] at h1
  have e0 : excess true 2000 1 = 0 := by decide
  simp only [Except.ok.injEq, Out.scalar.injEq] at h1
  have e : jd = 2451545 := by
    rw [← h1, e0]
    have := j2000
    push_cast; linarith
  rw [e] at h2
  rw [h2]; norm_num

end Verif
