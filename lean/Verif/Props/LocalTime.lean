import Verif.Props.JdToCal
import Verif.Props.TimeOfDay

/-!
# C20, C21: local time as text, daylight saving
-/

namespace Verif
open Spec

/-! ### C20 -/

/-- Two decimal digits, independently of the code. -/
def two (n : ℤ) : String := toString (n / 10) ++ toString (n % 10)

theorem pad2_eq_two (n : ℤ) (h0 : 0 ≤ n) (h1 : n < 100) : pad2 n = two n := by
  have : ∀ k : Fin 100, pad2 (k.1 : ℤ) = two (k.1 : ℤ) := by decide +kernel
  obtain ⟨k, rfl⟩ := Int.eq_ofNat_of_zero_le h0
  exact this ⟨k, by omega⟩

theorem fmtFloat_int (n : ℤ) : fmtFloat (n : ℚ) = toString n ++ ".0" := by
  unfold fmtFloat; rw [trunc_intCast]

/-- What `jd_to_cal` returns, in both arithmetics, with the fraction of the day named. -/
theorem jdToCal1_parts {fl : ℚ → ℚ} (h : Arith fl) (jd : ℚ) (hF : Rounding fl → IsF64 jd)
    (h0 : 32 ≤ jd) (h1 : jd ≤ 2 ^ 39) :
    ∃ y m d f, Valid true y m d ∧ jdn true y m d = ⌊jd + 1 / 2⌋ ∧
    0 ≤ f ∧ f < 1 ∧ (Rounding fl → IsF64 f) ∧ (fl = (fun x => x) → f = Int.fract (jd + 1 / 2)) ∧
    |f - Int.fract (jd + 1 / 2)| ≤ (jd + 1 / 2) / 2 ^ 53 + 1 / 2 ^ 1074 ∧
    jdToCal1 fl jd true = if BadDay true y m d then (y, 2, 29 + f) else (y, m, d + f) := by
  have hl := h.floatLike
  have hs : (0 : ℚ) ≤ jd + 1 / 2 := by linarith
  obtain ⟨y, m, d, hv, e, -⟩ := jd_to_cal_total true ⌊jd + 1 / 2⌋ (Int.floor_nonneg.mpr hs)
  have hfl : ⌊fl (jd + 1 / 2)⌋ = ⌊jd + 1 / 2⌋ := by
    rcases h with h | rfl
    · exact floor_fl_add_half hl (hF h) (by linarith) (by linarith)
    · rfl
  have hs0 : 0 ≤ fl (jd + 1 / 2) := hl.nonneg hs
  have hs1 : fl (jd + 1 / 2) ≤ 2 ^ 40 := by
    have := hl.le_int (n := 2 ^ 40) (x := jd + 1 / 2) (by norm_num) (by push_cast; linarith)
    exact_mod_cast this
  have hs32 : 32 ≤ fl (jd + 1 / 2) := by
    have := hl.int_le (n := 32) (x := jd + 1 / 2) (by norm_num) (by push_cast; linarith)
    exact_mod_cast this
  have key := jd_to_cal_date hl true jd y m d hv hs0 hs1 (by rw [hfl, e])
  refine ⟨y, m, d, Int.fract (fl (jd + 1 / 2)), hv, e, Int.fract_nonneg _, Int.fract_lt_one _,
    ?_, ?_, ?_, ?_⟩
  · intro hR
    have := hl.fract (hR.rep (jd + 1 / 2)) hs0
    have h2 := hR.rep (fl (jd + 1 / 2) - ⌊fl (jd + 1 / 2)⌋)
    rw [this] at h2; exact h2
  · rintro rfl; rfl
  · have := hl.err (jd + 1 / 2)
    rw [abs_of_nonneg hs] at this
    unfold Int.fract
    rw [hfl]
    convert this using 2
    ring
  · have hlen := monthLen_le true y m
    obtain ⟨_, _, hd1, hd2⟩ := hv
    have hfix : ∀ k : ℤ, 0 ≤ k → k ≤ 31 →
        fl ((k : ℚ) + Int.fract (fl (jd + 1 / 2))) = k + Int.fract (fl (jd + 1 / 2)) := by
      intro k k0 k1
      rcases h with h | rfl
      · have : (k : ℚ) ≤ 31 := by exact_mod_cast k1
        exact hl.fix _ (isF64_day (h.rep _) k k0 k1 (by linarith))
      · rfl
    have hout : ∀ (a b : ℤ) (c : ℚ), jdToCal fl [jd] true = (.scalar a, .scalar b, .scalar c) →
        jdToCal1 fl jd true = (a, b, c) := by
      intro a b c hc
      simp only [jdToCal, List.map_cons, List.map_nil, scalarIfOne, Prod.mk.injEq,
        Out.scalar.injEq] at hc
      exact Prod.ext hc.1 (Prod.ext hc.2.1 hc.2.2)
    split_ifs with hb
    · have := hout _ _ _ (key.2 hb)
      rw [this]
      have := hfix 29 (by norm_num) (by norm_num)
      push_cast at this
      rw [this]
    · rw [hout _ _ _ (key.1 hb), hfix d (by omega) (by omega)]

/-- The text for a date and a time of day, by level; the zone follows the time, the level `day`
shows neither.  The minutes are shown the way the code shows them, with a trailing `.0`. -/
def clockText (y m d hr mn sec : ℤ) (zone level : String) : Option String :=
  let date := toString y ++ "-" ++ two m ++ "-" ++ two d
  if level = "second" then
    some (date ++ " " ++ two hr ++ ":" ++ toString mn ++ ".0:" ++ two sec ++ " " ++ zone)
  else if level = "minute" then
    some (date ++ " " ++ two hr ++ ":" ++ toString mn ++ ".0 " ++ zone)
  else if level = "hour" then some (date ++ " " ++ two hr ++ " " ++ zone)
  else if level = "day" then some date
  else none

/-- C20: `lt_to_str` shows the civil date containing the instant and the time of day truncated to
the second, where the time of day is known up to the rounding of `jd + 1/2` and of the product by
86400 (both exact in exact arithmetic, see `lt_to_str_exact`). -/
theorem lt_to_str_text {fl : ℚ → ℚ} (h : Arith fl) (jd : ℚ) (hF : Rounding fl → IsF64 jd)
    (h0 : 32 ≤ jd) (h1 : jd ≤ 2 ^ 39) (zone level : String) :
    ∃ y m d hr mn sec : ℤ, ∃ f : ℚ, Valid true y m d ∧ jdn true y m d = ⌊jd + 1 / 2⌋ ∧
      0 ≤ f ∧ f < 1 ∧ (fl = (fun x => x) → f = Int.fract (jd + 1 / 2)) ∧
      |f - Int.fract (jd + 1 / 2)| ≤ (jd + 1 / 2) / 2 ^ 53 + 1 / 2 ^ 1074 ∧
      0 ≤ hr ∧ hr ≤ 23 ∧ 0 ≤ mn ∧ mn ≤ 59 ∧ 0 ≤ sec ∧ sec ≤ 59 ∧
      3600 * hr + 60 * mn + sec = ⌊fl (f * 86400)⌋ ∧
      ltToStr fl jd zone level =
        match (if BadDay true y m d then clockText y 2 29 hr mn sec zone level
          else clockText y m d hr mn sec zone level) with
        | some s => .ok s
        | none => .error (.Error "calendar" ("unknown time level = " ++ level)) := by
  obtain ⟨y, m, d, f, hv, hj, f0, f1, fF, fe, ferr, hjc⟩ := jdToCal1_parts h jd hF h0 h1
  have hfl0 : ⌊f⌋ = 0 := by rw [Int.floor_eq_iff]; push_cast; exact ⟨f0, by linarith⟩
  have hds : daySeconds fl f = fl (f * 86400) := by unfold daySeconds; rw [hfl0]; simp
  obtain ⟨s0, s1⟩ := daySeconds_lt h fF f0
  have hh := fday_to_hms_eq h fF f0
  rw [hds] at s0 s1 hh
  have n0 : 0 ≤ ⌊fl (f * 86400)⌋ := Int.floor_nonneg.mpr s0
  have n1 : ⌊fl (f * 86400)⌋ < 86400 := by rw [Int.floor_lt]; exact_mod_cast s1
  have hlen := monthLen_le true y m
  obtain ⟨v1, v2, v3, v4⟩ := hv
  refine ⟨y, m, d, ⌊fl (f * 86400)⌋ / 3600, ⌊fl (f * 86400)⌋ / 60 % 60, ⌊fl (f * 86400)⌋ % 60, f,
    ⟨v1, v2, v3, v4⟩, hj, f0, f1, fe, ferr, by omega, by omega, by omega, by omega, by omega,
    by omega, by omega, ?_⟩
  generalize ⌊fl (f * 86400)⌋ = N at *
  have body : ∀ mm dd : ℤ, 0 ≤ mm → mm < 100 → 0 ≤ dd → dd < 100 →
      jdToCal1 fl jd true = (y, mm, (dd : ℚ) + f) →
      ltToStr fl jd zone level =
        match clockText y mm dd (N / 3600) (N / 60 % 60) (N % 60) zone level with
        | some s => .ok s
        | none => .error (.Error "calendar" ("unknown time level = " ++ level)) := by
    intro mm dd b1 b2 b3 b4 e
    have d0 : (0 : ℚ) ≤ dd := by exact_mod_cast b3
    have t1 : trunc ((dd : ℚ) + f) = dd := trunc_eq (by linarith) (by linarith) (by linarith)
    unfold ltToStr clockText
    rw [e]
    simp only [t1, add_sub_cancel_left, hh, pad2_eq_two _ b1 b2, pad2_eq_two _ b3 b4,
      pad2_eq_two (N / 3600) (by omega) (by omega), pad2_eq_two (N % 60) (by omega) (by omega),
      fmtFloat_int]
    split_ifs <;> simp [String.append_assoc, toString]
  split_ifs with hb
  · rw [if_pos hb] at hjc
    exact body 2 29 (by norm_num) (by norm_num) (by norm_num) (by norm_num) (by exact_mod_cast hjc)
  · rw [if_neg hb] at hjc
    exact body m d (by omega) (by omega) (by omega) (by omega) hjc

/-- C20 in exact arithmetic: outside the bad days of C03, the text is the civil date and the time
of day truncated to the second, and an unknown level raises `Error`. -/
theorem lt_to_str_exact (jd : ℚ) (h0 : 32 ≤ jd) (h1 : jd ≤ 2 ^ 39) :
    ∃ y m d hr mn sec : ℤ, Valid true y m d ∧ jdn true y m d = ⌊jd + 1 / 2⌋ ∧
      0 ≤ hr ∧ hr ≤ 23 ∧ 0 ≤ mn ∧ mn ≤ 59 ∧ 0 ≤ sec ∧ sec ≤ 59 ∧
      3600 * hr + 60 * mn + sec = ⌊Int.fract (jd + 1 / 2) * 86400⌋ ∧
      (¬ BadDay true y m d → ∀ zone level, ltToStr (fun x => x) jd zone level =
        match clockText y m d hr mn sec zone level with
        | some s => .ok s
        | none => .error (.Error "calendar" ("unknown time level = " ++ level))) := by
  have key := fun z l => lt_to_str_text (.inr rfl) jd (fun h => h.rep jd) h0 h1 z l
  obtain ⟨y, m, d, hr, mn, sec, f, hv, hj, f0, f1, fe, ferr, a1, a2, a3, a4, a5, a6, a7, -⟩ :=
    key "" ""
  obtain rfl := fe rfl
  refine ⟨y, m, d, hr, mn, sec, hv, hj, a1, a2, a3, a4, a5, a6, a7, fun hb z l => ?_⟩
  obtain ⟨y', m', d', hr', mn', sec', f', hv', hj', g0, g1, ge, gerr, b1, b2, b3, b4, b5, b6, b7, b8⟩ :=
    key z l
  obtain rfl := ge rfl
  obtain ⟨rfl, rfl, rfl⟩ := jdn_inj hv' hv (hj'.trans hj.symm)
  have : hr' = hr ∧ mn' = mn ∧ sec' = sec := by omega
  obtain ⟨rfl, rfl, rfl⟩ := this
  rw [b8, if_neg hb]

/-- C20, the defect: the minutes carry a trailing `.0` and no zero padding, so the documented
`HH:MM:SS` never appears: noon of 1 January 2000 is `12:0.0:00`. -/
theorem lt_to_str_float_minutes :
    ltToStr (fun x => x) 2451545 "UT" "second" = .ok "2000-01-01 12:0.0:00 UT" ∧
    ltToStr (fun x => x) 2451545 "UT" "minute" = .ok "2000-01-01 12:0.0 UT" ∧
    ltToStr (fun x => x) 2451545 "UT" "hour" = .ok "2000-01-01 12 UT" ∧
    ltToStr (fun x => x) 2451545 "UT" "day" = .ok "2000-01-01" ∧
    ltToStr (fun x => x) 2451545 "UT" "week" =
      .error (.Error "calendar" "unknown time level = week") := by
  decide +kernel

/-! ### C21 -/

/-- C21: `is_dst` never returns, whatever the time zone database and the arithmetic. -/
theorem is_dst_never_returns (fl : ℚ → ℚ) (tz : Stamp → ℤ) (jd : ℚ) :
    ∃ e, isDst fl tz jd = .error e := by
  have key : ∀ y mo d hr s : Num, ∀ mi : ℚ, ∃ e, datetimeNew y mo d hr (.flt mi) s = .error e := by
    intro y mo d hr s mi
    unfold datetimeNew
    simp only []
    split
    · rename_i h _; cases h
    all_goals exact ⟨_, rfl⟩
  unfold isDst
  obtain ⟨e, he⟩ := key (.int (jdToCal1 fl jd true).1) (.int (jdToCal1 fl jd true).2.1)
    (.int (trunc (jdToCal1 fl jd true).2.2)) (.int (fdayToHms fl jd).1) (.int (fdayToHms fl jd).2.2)
    (fdayToHms fl jd).2.1
  simp only []
  rw [he]
  exact ⟨e, rfl⟩

/-- C21: it is the `TypeError` of `datetime.datetime` for a float minute, for every Julian Day from
32 on whose year fits a C int. -/
theorem is_dst_type_error {fl : ℚ → ℚ} (h : Arith fl) (tz : Stamp → ℤ) (jd : ℚ)
    (hF : Rounding fl → IsF64 jd) (h0 : 32 ≤ jd) (h1 : jd ≤ 2 ^ 39) :
    isDst fl tz jd = .error (.TypeError "'float' object cannot be interpreted as an integer") := by
  obtain ⟨y, m, d, f, hv, hj, f0, f1, -, -, -, hjc⟩ := jdToCal1_parts h jd hF h0 h1
  obtain ⟨hr, mn, sec, hh, a1, a2, a3, a4, a5, a6, -⟩ := fday_to_hms_range h jd hF (by linarith)
  have hy : -4713 ≤ y ∧ y < 2 ^ 31 := by
    have hb := dayOfYear_bounds hv
    have l : yearLen true y ≤ 366 := yearLen_le true y
    have j0 : 0 ≤ jdn true y m d := by rw [hj]; exact Int.floor_nonneg.mpr (by linarith)
    have j1 : jdn true y m d ≤ 2 ^ 39 + 1 := by
      have : (jdn true y m d : ℚ) ≤ 2 ^ 39 + 1 := by
        rw [hj]; exact (Int.floor_le _).trans (by linarith)
      exact_mod_cast this
    unfold jdn epoch at j0 j1
    rw [daysToYear_true] at j0 j1
    simp only [if_true] at j0 j1
    omega
  have hlen := monthLen_le true y m
  obtain ⟨v1, v2, v3, v4⟩ := hv
  have body : ∀ mm dd : ℤ, 0 ≤ mm → mm < 100 → 0 ≤ dd → dd < 100 →
      jdToCal1 fl jd true = (y, mm, (dd : ℚ) + f) →
      isDst fl tz jd = .error (.TypeError "'float' object cannot be interpreted as an integer") := by
    intro mm dd b1 b2 b3 b4 e
    have d0 : (0 : ℚ) ≤ dd := by exact_mod_cast b3
    have t1 : trunc ((dd : ℚ) + f) = dd := trunc_eq (by linarith) (by linarith) (by linarith)
    unfold isDst
    rw [e, hh]
    simp only [t1]
    unfold datetimeNew
    simp only []
    rw [if_pos (by omega), if_pos (by omega), if_pos (by omega), if_pos (by omega)]
  split_ifs at hjc with hb
  · exact body 2 29 (by norm_num) (by norm_num) (by norm_num) (by norm_num) (by exact_mod_cast hjc)
  · exact body m d (by omega) (by omega) (by omega) (by omega) hjc

/-- C21: hence `ut_to_lt` never returns either, whatever the settings. -/
theorem ut_to_lt_never_returns (fl : ℚ → ℚ) (tz : Stamp → ℤ) (z : Zones) (jd : ℚ) :
    ∃ e, utToLt fl tz z jd = .error e := by
  obtain ⟨e, he⟩ := is_dst_never_returns fl tz jd
  exact ⟨e, by unfold utToLt; rw [he]⟩

/-- The hypotheses are met: J2000. -/
example (tz : Stamp → ℤ) : isDst (fun x => x) tz 2451545 =
    .error (.TypeError "'float' object cannot be interpreted as an integer") :=
  is_dst_type_error (.inr rfl) tz 2451545 (fun h => h.rep _) (by norm_num) (by norm_num)

end Verif
