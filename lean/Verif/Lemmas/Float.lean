import Verif.Model.Float
import Mathlib.Data.Int.Log

namespace Verif

theorem isF64_int {n : ℤ} (h : |n| ≤ 2 ^ 53) : IsF64 (n : ℚ) :=
  ⟨n, 0, h, by norm_num, by simp⟩

theorem isF64_dyadic {n : ℤ} (k : ℕ) (hk : k ≤ 1074) (h : |n| ≤ 2 ^ 53) :
    IsF64 ((n : ℚ) / 2 ^ k) :=
  ⟨n, -(k : ℤ), h, by omega, by rw [zpow_neg, zpow_natCast, div_eq_mul_inv]⟩

theorem IsF64.neg {y : ℚ} (h : IsF64 y) : IsF64 (-y) := by
  obtain ⟨m, e, h1, h2, rfl⟩ := h
  exact ⟨-m, e, by simpa using h1, h2, by push_cast; ring⟩

/-- Exact arithmetic is `FloatLike`. -/
theorem FloatLike.id : FloatLike (fun x => x) where
  fix := fun _ _ => rfl
  mono := fun _ _ h => h
  err := fun x => by simp; positivity

/-- Nearest-value rounding is monotone, whatever the tie rule. -/
theorem Rounding.mono {fl : ℚ → ℚ} (h : Rounding fl) : Monotone fl := by
  intro x y hxy
  by_contra hc
  rw [not_le] at hc
  have h1 := h.nearest x (fl y) (h.rep y)
  have h2 := h.nearest y (fl x) (h.rep x)
  rcases eq_or_lt_of_le hxy with rfl | hlt
  · exact lt_irrefl _ hc
  rw [← sq_le_sq] at h1 h2
  nlinarith

theorem Rounding.fix {fl : ℚ → ℚ} (h : Rounding fl) (y : ℚ) (hy : IsF64 y) : fl y = y := by
  have := h.nearest y y hy
  simp at this
  linarith

/-- The exponent used to round `x`: 53 significant bits, but never below `2^-1074`. -/
def expo (x : ℚ) : ℤ := if x = 0 then -1074 else max (Int.log 2 |x| - 52) (-1074)

theorem zpos (e : ℤ) : (0 : ℚ) < 2 ^ e := zpow_pos (by norm_num) e

theorem expo_ge (x : ℚ) : -1074 ≤ expo x := by unfold expo; split_ifs <;> simp

theorem abs_div_expo_lt (x : ℚ) : |x| / (2 : ℚ) ^ expo x < 2 ^ 53 := by
  rcases eq_or_ne x 0 with rfl | hx
  · simp
  have hp : (0 : ℚ) < 2 ^ expo x := zpos _
  rw [div_lt_iff₀ hp]
  have h1 : |x| < (2 : ℚ) ^ (Int.log 2 |x| + 1) := by
    exact_mod_cast Int.lt_zpow_succ_log_self (b := 2) (by norm_num) |x|
  refine h1.trans_le ?_
  have : ((2 : ℚ) ^ 53) * 2 ^ expo x = 2 ^ (53 + expo x) := by
    rw [zpow_add₀ (by norm_num)]; norm_num
  rw [this]
  apply zpow_le_zpow_right₀ (by norm_num)
  unfold expo; rw [if_neg hx]; omega

theorem half_ulp_le (x : ℚ) : (2 : ℚ) ^ expo x / 2 ≤ |x| / 2 ^ 53 + 1 / 2 ^ 1074 := by
  rcases eq_or_ne x 0 with rfl | hx
  · have : (2 : ℚ) ^ (-1074 : ℤ) = 1 / 2 ^ 1074 := by
      rw [zpow_neg, one_div]; norm_cast
    simp only [expo, if_true, this]
    have h2 : (0 : ℚ) ≤ 1 / 2 ^ 1074 := by positivity
    simp only [abs_zero]
    linarith
  unfold expo
  rw [if_neg hx]
  rcases le_total (Int.log 2 |x| - 52) (-1074) with h | h
  · rw [max_eq_right h]
    have : (2 : ℚ) ^ (-1074 : ℤ) = 1 / 2 ^ 1074 := by
      rw [zpow_neg, one_div]; norm_cast
    rw [this]
    have h1 : (0 : ℚ) ≤ |x| / 2 ^ 53 := by positivity
    have h2 : (0 : ℚ) ≤ 1 / 2 ^ 1074 := by positivity
    linarith
  · rw [max_eq_left h]
    have h2 : (0 : ℚ) ≤ 1 / 2 ^ 1074 := by positivity
    have h1 : (2 : ℚ) ^ (Int.log 2 |x|) ≤ |x| := by
      exact_mod_cast Int.zpow_log_le_self (b := 2) (by norm_num) (abs_pos.mpr hx)
    have h3 : (2 : ℚ) ^ (Int.log 2 |x| - 52) / 2 = 2 ^ (Int.log 2 |x|) / 2 ^ 53 := by
      rw [zpow_sub₀ (by norm_num)]; norm_num; ring
    rw [h3]
    have : (2 : ℚ) ^ (Int.log 2 |x|) / 2 ^ 53 ≤ |x| / 2 ^ 53 := by gcongr
    linarith

theorem exists_close (x : ℚ) :
    IsF64 (round (x / 2 ^ expo x) * 2 ^ expo x) ∧
      |round (x / 2 ^ expo x) * 2 ^ expo x - x| ≤ 2 ^ expo x / 2 := by
  have hp : (0 : ℚ) < 2 ^ expo x := zpos _
  have hr := abs_sub_round (x / 2 ^ expo x)
  refine ⟨⟨_, _, ?_, expo_ge x, rfl⟩, ?_⟩
  · have h1 := abs_div_expo_lt x
    have h2 : |x / 2 ^ expo x| < 2 ^ 53 := by rwa [abs_div, abs_of_pos hp]
    have h3 : |(round (x / 2 ^ expo x) : ℚ)| < 2 ^ 53 + 1 := by
      have := abs_sub_abs_le_abs_sub ((round (x / 2 ^ expo x) : ℤ) : ℚ) (x / 2 ^ expo x)
      rw [abs_sub_comm] at hr
      linarith
    have h4 : |round (x / 2 ^ expo x)| < 2 ^ 53 + 1 := by exact_mod_cast h3
    omega
  · have : (round (x / 2 ^ expo x) : ℚ) * 2 ^ expo x - x
        = -((x / 2 ^ expo x - round (x / 2 ^ expo x)) * 2 ^ expo x) := by
      field_simp; ring
    rw [this, abs_neg, abs_mul, abs_of_pos hp]
    calc _ ≤ 1 / 2 * (2 : ℚ) ^ expo x := by gcongr
      _ = _ := by ring

theorem Rounding.err {fl : ℚ → ℚ} (h : Rounding fl) (x : ℚ) :
    |fl x - x| ≤ |x| / 2 ^ 53 + 1 / 2 ^ 1074 := by
  obtain ⟨h1, h2⟩ := exists_close x
  exact (h.nearest x _ h1).trans (h2.trans (half_ulp_le x))

/-- Every IEEE round-to-nearest function is `FloatLike`. -/
theorem Rounding.floatLike {fl : ℚ → ℚ} (h : Rounding fl) : FloatLike fl :=
  ⟨h.fix, h.mono, h.err⟩

/-- Round half to even on the integers. -/
def roundEven (x : ℚ) : ℤ :=
  if x - ⌊x⌋ < 1 / 2 then ⌊x⌋
  else if 1 / 2 < x - ⌊x⌋ then ⌊x⌋ + 1
  else if 2 ∣ ⌊x⌋ then ⌊x⌋ else ⌊x⌋ + 1

theorem abs_roundEven_sub (x : ℚ) : |(roundEven x : ℚ) - x| ≤ 1 / 2 := by
  have h1 := Int.floor_le x
  have h2 := Int.lt_floor_add_one x
  unfold roundEven
  split_ifs <;> (push_cast; rw [abs_le]; constructor <;> linarith)

theorem roundEven_nearest (x : ℚ) (n : ℤ) : |(roundEven x : ℚ) - x| ≤ |(n : ℚ) - x| := by
  have h1 := Int.floor_le x
  have h2 := Int.lt_floor_add_one x
  have key : |(roundEven x : ℚ) - x| ≤ min (x - ⌊x⌋) (⌊x⌋ + 1 - x) := by
    unfold roundEven
    split_ifs <;> (push_cast; rw [abs_le, le_min_iff]; constructor <;>
      first | (constructor <;> linarith) | (rcases le_total (x - ⌊x⌋) (⌊x⌋ + 1 - x) with h | h <;>
        first | (rw [min_eq_left h]; linarith) | (rw [min_eq_right h]; linarith)))
  refine key.trans ?_
  rcases le_or_gt n ⌊x⌋ with h | h
  · have : (n : ℚ) ≤ ⌊x⌋ := by exact_mod_cast h
    rw [abs_sub_comm, abs_of_nonneg (by linarith)]
    exact (min_le_left _ _).trans (by linarith)
  · have : (⌊x⌋ : ℚ) + 1 ≤ n := by exact_mod_cast h
    rw [abs_of_nonneg (by linarith)]
    exact (min_le_right _ _).trans (by linarith)

/-- IEEE binary64 round-to-nearest, ties-to-even (no overflow). -/
def rne (x : ℚ) : ℚ := roundEven (x / 2 ^ expo x) * 2 ^ expo x

theorem rne_mult_nearest (x : ℚ) (n : ℤ) :
    |rne x - x| ≤ |(n : ℚ) * 2 ^ expo x - x| := by
  have hp : (0 : ℚ) < 2 ^ expo x := zpos _
  have h := roundEven_nearest (x / 2 ^ expo x) n
  have e1 : rne x - x = (roundEven (x / 2 ^ expo x) - x / 2 ^ expo x) * 2 ^ expo x := by
    unfold rne; field_simp
  have e2 : (n : ℚ) * 2 ^ expo x - x = (n - x / 2 ^ expo x) * 2 ^ expo x := by field_simp
  rw [e1, e2, abs_mul, abs_mul]
  gcongr

/-- The rounding hypothesis is satisfiable: `rne` is a rounding. -/
theorem rounding_rne : Rounding rne where
  rep x := by
    refine ⟨_, _, ?_, expo_ge x, rfl⟩
    have hp : (0 : ℚ) < 2 ^ expo x := zpos _
    have h2 : |x / 2 ^ expo x| < 2 ^ 53 := by
      rw [abs_div, abs_of_pos hp]; exact abs_div_expo_lt x
    have h3 : |(roundEven (x / 2 ^ expo x) : ℚ)| < 2 ^ 53 + 1 := by
      have := abs_sub_abs_le_abs_sub ((roundEven (x / 2 ^ expo x) : ℤ) : ℚ) (x / 2 ^ expo x)
      have := abs_roundEven_sub (x / 2 ^ expo x)
      linarith
    have h4 : |roundEven (x / 2 ^ expo x)| < 2 ^ 53 + 1 := by exact_mod_cast h3
    omega
  nearest x y hy := by
    obtain ⟨m, e, hm, he, rfl⟩ := hy
    have hp : (0 : ℚ) < 2 ^ expo x := zpos _
    rcases eq_or_ne x 0 with rfl | hx
    · have : rne 0 = 0 := by simp [rne, roundEven]
      rw [this]; simp only [sub_self, abs_zero]; exact abs_nonneg _
    rcases le_or_gt (expo x) e with hle | hlt
    · obtain ⟨k, hk⟩ := Int.eq_ofNat_of_zero_le (sub_nonneg.mpr hle)
      have : (m : ℚ) * 2 ^ e = ((m * 2 ^ k : ℤ) : ℚ) * 2 ^ expo x := by
        have h1 : e = k + expo x := by
          have : e - expo x = (k : ℤ) := hk
          omega
        rw [h1, zpow_add₀ (by norm_num), zpow_natCast]; push_cast; ring
      rw [this]; exact rne_mult_nearest x _
    · have he' : expo x = Int.log 2 |x| - 52 := by
        unfold expo at *; rw [if_neg hx] at *; omega
      have hlog : (2 : ℚ) ^ (Int.log 2 |x|) ≤ |x| := by
        exact_mod_cast Int.zpow_log_le_self (b := 2) (by norm_num) (abs_pos.mpr hx)
      have hpow : (2 : ℚ) ^ (Int.log 2 |x|) = 2 ^ 52 * 2 ^ expo x := by
        rw [he', zpow_sub₀ (by norm_num)]; norm_num; ring
      have hy : |(m : ℚ) * 2 ^ e| ≤ 2 ^ (Int.log 2 |x|) := by
        rw [abs_mul, abs_of_pos (zpos e)]
        have h1 : |(m : ℚ)| ≤ 2 ^ 53 := by exact_mod_cast hm
        have h2 : (2 : ℚ) ^ e ≤ 2 ^ (expo x - 1) :=
          zpow_le_zpow_right₀ (by norm_num) (by omega)
        have h3 : (2 : ℚ) ^ (expo x - 1) = 2 ^ expo x / 2 := by
          rw [zpow_sub₀ (by norm_num)]; norm_num
        rw [hpow]
        calc |(m : ℚ)| * 2 ^ e ≤ 2 ^ 53 * (2 ^ expo x / 2) := (h3 ▸ mul_le_mul h1 h2 (zpos _).le (by positivity))
          _ = _ := by ring
      rcases lt_or_gt_of_ne hx with hneg | hpos
      · have := rne_mult_nearest x (-2 ^ 52)
        refine this.trans ?_
        rw [abs_of_neg hneg] at *
        have e1 : ((-2 ^ 52 : ℤ) : ℚ) * 2 ^ expo x = -(2 ^ (Int.log 2 (-x))) := by
          rw [hpow]; push_cast; ring
        rw [e1]
        have := neg_le_of_abs_le hy
        rw [abs_of_nonneg (by linarith), abs_of_nonneg (by linarith)]
        linarith
      · have := rne_mult_nearest x (2 ^ 52)
        refine this.trans ?_
        rw [abs_of_pos hpos] at *
        have e1 : ((2 ^ 52 : ℤ) : ℚ) * 2 ^ expo x = 2 ^ (Int.log 2 x) := by
          rw [hpow]; push_cast; ring
        rw [e1]
        have := le_of_abs_le hy
        rw [abs_of_nonpos (by linarith), abs_of_nonpos (by linarith)]
        linarith

/-- Any rounding of an `x` strictly closer than half a unit to a 53-bit number `m * 2^e` (not a
power of two) is that number, whatever the tie rule. -/
theorem Rounding.eq_of_close {fl : ℚ → ℚ} (h : Rounding fl) (x : ℚ) (m e : ℤ)
    (hm1 : 2 ^ 52 < |m|) (hm2 : |m| ≤ 2 ^ 53) (he : -1074 ≤ e)
    (hx : |m * (2 : ℚ) ^ e - x| < 2 ^ e / 2) : fl x = m * (2 : ℚ) ^ e := by
  have hp : (0 : ℚ) < 2 ^ e := zpos _
  obtain ⟨m', e', hm', he', hy⟩ := h.rep x
  have h1 := h.nearest x (m * (2 : ℚ) ^ e) ⟨m, e, hm2, he, rfl⟩
  have h2 : |fl x - m * (2 : ℚ) ^ e| < 2 ^ e := by
    have := abs_sub_le (fl x) x (m * (2 : ℚ) ^ e)
    rw [abs_sub_comm x] at this
    linarith
  rcases le_or_gt e e' with hle | hlt
  · obtain ⟨k, hk⟩ := Int.eq_ofNat_of_zero_le (sub_nonneg.mpr hle)
    have hy2 : fl x = ((m' * 2 ^ k : ℤ) : ℚ) * 2 ^ e := by
      have h1 : e' = k + e := by
        have : e' - e = (k : ℤ) := hk
        omega
      rw [hy, h1, zpow_add₀ (by norm_num), zpow_natCast]; push_cast; ring
    rw [hy2, ← sub_mul, abs_mul, abs_of_pos hp] at h2
    have h3 : |((m' * 2 ^ k : ℤ) : ℚ) - m| < 1 := by
      rwa [mul_lt_iff_lt_one_left hp] at h2
    have h4 : |(m' * 2 ^ k : ℤ) - m| < 1 := by exact_mod_cast h3
    have h5 : (m' * 2 ^ k : ℤ) = m := by rw [Int.abs_lt_one_iff] at h4; omega
    rw [hy2, h5]
  · exfalso
    have h3 : |fl x| ≤ 2 ^ 52 * 2 ^ e := by
      rw [hy, abs_mul, abs_of_pos (zpos e')]
      have h1 : |(m' : ℚ)| ≤ 2 ^ 53 := by exact_mod_cast hm'
      have h2 : (2 : ℚ) ^ e' ≤ 2 ^ (e - 1) := zpow_le_zpow_right₀ (by norm_num) (by omega)
      have h3 : (2 : ℚ) ^ (e - 1) = 2 ^ e / 2 := by
        rw [zpow_sub₀ (by norm_num)]; norm_num
      calc |(m' : ℚ)| * 2 ^ e' ≤ 2 ^ 53 * (2 ^ e / 2) := (h3 ▸ mul_le_mul h1 h2 (zpos _).le (by positivity))
        _ = _ := by ring
    have h4 : (2 ^ 52 + 1 : ℚ) ≤ |(m : ℚ)| := by exact_mod_cast hm1
    have h5 : |(m : ℚ) * 2 ^ e| = |(m : ℚ)| * 2 ^ e := by rw [abs_mul, abs_of_pos hp]
    have h6 := abs_sub_abs_le_abs_sub ((m : ℚ) * 2 ^ e) (fl x)
    rw [abs_sub_comm] at h6
    nlinarith

/-! ### Truncation -/

theorem trunc_of_nonneg {x : ℚ} (h : 0 ≤ x) : trunc x = ⌊x⌋ := if_pos h

theorem trunc_intCast (n : ℤ) : trunc (n : ℚ) = n := by
  unfold trunc; split_ifs <;> simp

theorem trunc_eq {x : ℚ} {n : ℤ} (h : 0 ≤ x) (h1 : (n : ℚ) ≤ x) (h2 : x < n + 1) :
    trunc x = n := by
  rw [trunc_of_nonneg h, Int.floor_eq_iff]; exact ⟨h1, h2⟩

theorem trunc_eq_neg {x : ℚ} {n : ℤ} (h : x ≤ 0) (h1 : (n : ℚ) - 1 < x) (h2 : x ≤ n) :
    trunc x = n := by
  unfold trunc
  split_ifs with h0
  · have : x = 0 := le_antisymm h h0
    subst this
    simp
    have a : (0 : ℤ) ≤ n := by exact_mod_cast h2
    have b : (n : ℚ) < 1 := by linarith
    have c : n < 1 := by exact_mod_cast b
    omega
  · rw [Int.ceil_eq_iff]; exact ⟨h1, h2⟩

theorem trunc_neg (x : ℚ) : trunc (-x) = -trunc x := by
  unfold trunc
  rcases lt_trichotomy x 0 with h | rfl | h
  · rw [if_pos (by linarith), if_neg (by linarith), Int.floor_neg]
  · simp
  · rw [if_neg (by linarith), if_pos (by linarith), Int.ceil_neg]

/-- Truncation of an exact quotient of integers. -/
theorem trunc_div (a : ℤ) (b : ℕ) (hb : 0 < b) : trunc ((a : ℚ) / b) = Int.tdiv a b := by
  have hb' : (0 : ℚ) < b := by exact_mod_cast hb
  rcases le_or_gt 0 a with h | h
  · rw [trunc_of_nonneg (div_nonneg (by exact_mod_cast h) hb'.le), Int.tdiv_eq_ediv_of_nonneg h]
    exact Rat.floor_intCast_div_natCast a b
  · have h2 : (a : ℚ) / b ≤ 0 := by
      apply div_nonpos_of_nonpos_of_nonneg <;> [exact_mod_cast h.le; positivity]
    unfold trunc
    have h3 : (a : ℚ) / b < 0 := by
      apply div_neg_of_neg_of_pos _ hb'
      exact_mod_cast h
    rw [if_neg (not_le.mpr h3)]
    have e : (a : ℚ) / b = -(((-a : ℤ) : ℚ) / b) := by push_cast; ring
    rw [e, Int.ceil_neg, Rat.floor_intCast_div_natCast]
    rw [← Int.tdiv_eq_ediv_of_nonneg (by omega), Int.neg_tdiv, neg_neg]

namespace FloatLike
variable {fl : ℚ → ℚ} (h : FloatLike fl)
include h

theorem int {n : ℤ} (hn : |n| ≤ 2 ^ 53) : fl n = n := h.fix _ (isF64_int hn)

theorem dyadic {n : ℤ} (k : ℕ) (hk : k ≤ 1074) (hn : |n| ≤ 2 ^ 53) :
    fl ((n : ℚ) / 2 ^ k) = n / 2 ^ k := h.fix _ (isF64_dyadic k hk hn)

theorem le_int {n : ℤ} {x : ℚ} (hn : |n| ≤ 2 ^ 53) (hx : x ≤ n) : fl x ≤ n := by
  have := h.mono hx
  rwa [h.int hn] at this

theorem int_le {n : ℤ} {x : ℚ} (hn : |n| ≤ 2 ^ 53) (hx : n ≤ x) : (n : ℚ) ≤ fl x := by
  have := h.mono hx
  rwa [h.int hn] at this

theorem nonneg {x : ℚ} (hx : 0 ≤ x) : 0 ≤ fl x := by
  have := h.int_le (n := 0) (by norm_num) (by exact_mod_cast hx)
  exact_mod_cast this

end FloatLike

end Verif
