import Verif.Lemmas.CalToJd
import Verif.Props.FracYear

/-!
# C17, C18, C19: times of day
-/

namespace Verif
open Spec

/-- The two arithmetics of the model: IEEE binary64 rounding (any tie rule), or exact. -/
def Arith (fl : ℚ → ℚ) : Prop := Rounding fl ∨ fl = fun x => x

theorem Arith.floatLike {fl : ℚ → ℚ} (h : Arith fl) : FloatLike fl := by
  rcases h with h | rfl
  · exact h.floatLike
  · exact FloatLike.id

/-- The quotient of a binary64 number by a small whole number never rounds up to the next whole
number, so the truncated quotient is right. -/
theorem FloatLike.trunc_div_f64 {fl : ℚ → ℚ} (h : FloatLike fl) {x : ℚ} (hF : IsF64 x) (h0 : 0 ≤ x)
    (n : ℕ) (hn : 2 ≤ n) (hn2 : n ≤ 2 ^ 10) (hx : x ≤ 2 ^ 52) : trunc (fl (x / n)) = ⌊x / n⌋ := by
  have hn' : (2 : ℚ) ≤ n := by exact_mod_cast hn
  have q0 : 0 ≤ x / n := by positivity
  have qx : x / n ≤ x := div_le_self h0 (by linarith)
  have f0 : 0 ≤ ⌊x / n⌋ := Int.floor_nonneg.mpr q0
  have f1 := Int.floor_le (x / n)
  have f2 := Int.lt_floor_add_one (x / n)
  set k := ⌊x / n⌋ with hk
  have kb : k ≤ 2 ^ 52 := by
    have : (k : ℚ) ≤ 2 ^ 52 := by linarith
    exact_mod_cast this
  have lo : (k : ℚ) ≤ fl (x / n) := h.int_le (by rw [abs_le]; omega) f1
  refine trunc_eq (h.nonneg q0) lo ?_
  by_contra hc
  rw [not_lt] at hc
  have hxk : x < n * (k + 1) := by
    rw [div_lt_iff₀ (by linarith)] at f2; linarith
  rcases lt_or_ge x 1 with hx1 | hx1
  · have : x / n ≤ ((1 : ℤ) : ℚ) / 2 ^ 1 := by
      rw [div_le_div_iff₀ (by linarith) (by norm_num)]; push_cast; nlinarith
    have := h.mono this
    rw [h.dyadic 1 (by norm_num) (by norm_num)] at this
    have : (0 : ℚ) ≤ k := by exact_mod_cast f0
    push_cast at *
    linarith
  · have herr := (abs_le.mp (h.err (x / n))).2
    rw [abs_of_nonneg q0] at herr
    obtain ⟨m, e, hm, he, hxe⟩ := hF
    have hp : (0 : ℚ) < 2 ^ e := zpos e
    -- normalise the significand below 2^53
    obtain ⟨m, e, hm, he, hxe⟩ : ∃ m e : ℤ, |m| < 2 ^ 53 ∧ -1074 ≤ e ∧ x = m * (2 : ℚ) ^ e := by
      rcases hm.lt_or_eq with hlt | heq
      · exact ⟨m, e, hlt, he, hxe⟩
      · have m0 : 0 ≤ m := by
          by_contra hneg
          have : (m : ℚ) < 0 := by exact_mod_cast not_le.mp hneg
          have := mul_neg_of_neg_of_pos this hp
          linarith
        rw [abs_of_nonneg m0] at heq
        refine ⟨2 ^ 52, e + 1, by norm_num, by omega, ?_⟩
        rw [hxe, heq, zpow_add₀ (by norm_num)]; push_cast; ring
    have hp : (0 : ℚ) < 2 ^ e := zpos e
    have hm' : (m : ℚ) ≤ 2 ^ 53 - 1 := by
      have : m ≤ 2 ^ 53 - 1 := by have := (abs_lt.mp hm).2; omega
      exact_mod_cast this
    have hdiff : (n : ℚ) * (k + 1) - x ≤ x / 2 ^ 53 + n / 2 ^ 1074 := by
      have h1 : (k : ℚ) + 1 - x / n ≤ x / n / 2 ^ 53 + 1 / 2 ^ 1074 := by linarith
      have h2 := mul_le_mul_of_nonneg_left h1 (show (0 : ℚ) ≤ n by linarith)
      have e1 : (n : ℚ) * (k + 1 - x / n) = n * (k + 1) - x := by field_simp
      have e2 : (n : ℚ) * (x / n / 2 ^ 53 + 1 / 2 ^ 1074) = x / 2 ^ 53 + n / 2 ^ 1074 := by
        field_simp
      rw [e1, e2] at h2; exact h2
    have hn3 : (n : ℚ) / 2 ^ 1074 ≤ 1 / 2 ^ 200 := by
      have : (n : ℚ) ≤ 2 ^ 10 := by exact_mod_cast hn2
      rw [div_le_div_iff₀ (by positivity) (by positivity)]
      calc (n : ℚ) * 2 ^ 200 ≤ 2 ^ 10 * 2 ^ 200 := by gcongr
        _ = 2 ^ 210 := by rw [← pow_add]
        _ ≤ 1 * 2 ^ 1074 := by rw [one_mul]; exact pow_le_pow_right₀ (by norm_num) (by norm_num)
    rcases le_or_gt 0 e with he0 | he0
    · obtain ⟨j, rfl⟩ := Int.eq_ofNat_of_zero_le he0
      have hxi : x = ((m * 2 ^ j : ℤ) : ℚ) := by rw [hxe, zpow_natCast]; push_cast; ring
      have : (1 : ℚ) ≤ n * (k + 1) - x := by
        rw [hxi] at hxk ⊢
        have h1 : m * 2 ^ j < (n : ℤ) * (k + 1) := by exact_mod_cast hxk
        have h2 : (1 : ℤ) ≤ n * (k + 1) - m * 2 ^ j := by omega
        exact_mod_cast h2
      have : x / 2 ^ 53 ≤ 1 / 2 := by
        rw [div_le_div_iff₀ (by positivity) (by norm_num)]; linarith
      have : (1 : ℚ) / 2 ^ 200 ≤ 1 / 4 := by norm_num
      linarith
    · obtain ⟨j, hj⟩ := Int.eq_ofNat_of_zero_le (show 0 ≤ -e by omega)
      have ej : e = -(j : ℤ) := by omega
      subst ej
      rw [zpow_neg, zpow_natCast] at hxe hp
      have hj0 : (0 : ℚ) < 2 ^ j := by positivity
      have hxm : x * 2 ^ j = m := by rw [hxe]; field_simp
      have hj53 : j ≤ 53 := by
        by_contra hc
        have : (2 : ℚ) ^ 53 ≤ 2 ^ j := pow_le_pow_right₀ (by norm_num) (by omega)
        nlinarith
      have hjb : (2 : ℚ) ^ j ≤ 2 ^ 53 := pow_le_pow_right₀ (by norm_num) hj53
      have h1 : (1 : ℚ) ≤ (n * (k + 1) - x) * 2 ^ j := by
        have h3 := mul_lt_mul_of_pos_right hxk hj0
        rw [hxm] at h3
        have h4 : m < (n : ℤ) * (k + 1) * 2 ^ j := by exact_mod_cast h3
        have h5 : (1 : ℤ) ≤ n * (k + 1) * 2 ^ j - m := by omega
        rw [sub_mul, hxm]
        exact_mod_cast h5
      have h2 := mul_le_mul_of_nonneg_right hdiff hj0.le
      have h3 : x / 2 ^ 53 * 2 ^ j = m / 2 ^ 53 := by rw [div_mul_eq_mul_div, hxm]
      have h4 : (n : ℚ) / 2 ^ 1074 * 2 ^ j ≤ 1 / 2 ^ 200 * 2 ^ 53 :=
        mul_le_mul hn3 hjb hj0.le (by positivity)
      have h5 : (m : ℚ) / 2 ^ 53 ≤ (2 ^ 53 - 1) / 2 ^ 53 := by gcongr
      rw [add_mul, h3] at h2
      have : (1 : ℚ) / 2 ^ 200 * 2 ^ 53 + (2 ^ 53 - 1) / 2 ^ 53 < 1 := by norm_num
      linarith

/-- A binary64 number less a smaller non-negative whole number is exact. -/
theorem FloatLike.sub_int_f64 {fl : ℚ → ℚ} (h : FloatLike fl) {x : ℚ} (hF : IsF64 x) (k : ℤ)
    (hk : 0 ≤ k) (hkx : (k : ℚ) ≤ x) (hx : x ≤ 2 ^ 53) : fl (x - k) = x - k := by
  apply h.fix
  obtain ⟨m, e, hm, he, hx'⟩ := hF
  rcases le_or_gt 0 e with h1 | h1
  · obtain ⟨j, rfl⟩ := Int.eq_ofNat_of_zero_le h1
    have e1 : x = ((m * 2 ^ j : ℤ) : ℚ) := by rw [hx', zpow_natCast]; push_cast; ring
    have e2 : x - k = ((m * 2 ^ j - k : ℤ) : ℚ) := by rw [e1]; push_cast; ring
    rw [e2]
    apply isF64_int
    rw [e1] at hkx hx
    have a1 : k ≤ m * 2 ^ j := by exact_mod_cast hkx
    have a2 : m * 2 ^ j ≤ 2 ^ 53 := by exact_mod_cast hx
    rw [abs_le]; omega
  · obtain ⟨j, hj⟩ := Int.eq_ofNat_of_zero_le (show 0 ≤ -e by omega)
    have ej : e = -(j : ℤ) := by omega
    subst ej
    have hp : (0 : ℚ) < 2 ^ j := by positivity
    have hz : x * 2 ^ j = m := by
      rw [hx', zpow_neg, zpow_natCast]; field_simp
    have e1 : x - k = ((m - k * 2 ^ j : ℤ) : ℚ) / 2 ^ j := by
      rw [eq_div_iff hp.ne']; push_cast; rw [← hz]; ring
    rw [e1]
    refine isF64_dyadic j (by omega) ?_
    have g1 : (0 : ℚ) ≤ ((m - k * 2 ^ j : ℤ) : ℚ) := by
      push_cast; rw [← hz]; nlinarith
    have g1' : 0 ≤ m - k * 2 ^ j := by exact_mod_cast g1
    have g2 : 0 ≤ k * 2 ^ j := mul_nonneg hk (by positivity)
    have := (abs_le.mp hm).2
    rw [abs_le]; omega

/-- The seconds of the day that `fday_to_hms` works with. -/
def daySeconds (fl : ℚ → ℚ) (d : ℚ) : ℚ := fl ((d - ⌊d⌋) * 86400)

/-- They are below 86400, also after rounding. -/
theorem daySeconds_lt {fl : ℚ → ℚ} (h : Arith fl) {d : ℚ} (hd : Rounding fl → IsF64 d) (h0 : 0 ≤ d) :
    0 ≤ daySeconds fl d ∧ daySeconds fl d < 86400 := by
  have f1 := Int.floor_le d
  have f2 := Int.lt_floor_add_one d
  have hF := h.floatLike
  refine ⟨hF.nonneg (by nlinarith), ?_⟩
  unfold daySeconds
  rcases h with h | rfl
  · -- the fraction is a binary64 number below 1, hence at most 1 - 2^-53
    have hfr : d - ⌊d⌋ ≤ 1 - 1 / 2 ^ 53 := by
      obtain ⟨m, e, hm, he, hx⟩ := hd h
      rcases le_or_gt 0 e with h1 | h1
      · obtain ⟨j, rfl⟩ := Int.eq_ofNat_of_zero_le h1
        have e1 : d = ((m * 2 ^ j : ℤ) : ℚ) := by rw [hx, zpow_natCast]; push_cast; ring
        rw [e1, Int.floor_intCast, sub_self]; norm_num
      · obtain ⟨j, hj⟩ := Int.eq_ofNat_of_zero_le (show 0 ≤ -e by omega)
        have ej : e = -(j : ℤ) := by omega
        subst ej
        have hp : (0 : ℚ) < 2 ^ j := by positivity
        have hz : d * 2 ^ j = m := by
          rw [hx, zpow_neg, zpow_natCast]; field_simp
        have hm' : (m : ℚ) ≤ 2 ^ 53 := by exact_mod_cast (abs_le.mp hm).2
        rcases le_or_gt j 53 with hj53 | hj53
        · have hb : (2 : ℚ) ^ j ≤ 2 ^ 53 := pow_le_pow_right₀ (by norm_num) hj53
          have g : (1 : ℚ) ≤ (⌊d⌋ + 1 - d) * 2 ^ j := by
            have h3 := mul_lt_mul_of_pos_right f2 hp
            rw [hz] at h3
            have h4 : m < (⌊d⌋ + 1) * 2 ^ j := by exact_mod_cast h3
            have h5 : (1 : ℤ) ≤ (⌊d⌋ + 1) * 2 ^ j - m := by omega
            rw [sub_mul, hz]; exact_mod_cast h5
          have : 1 / 2 ^ 53 ≤ (⌊d⌋ + 1 - d) := by
            rw [div_le_iff₀ (by positivity)]
            have : 0 ≤ ⌊d⌋ + 1 - d := by linarith
            nlinarith
          linarith
        · have hb : (2 : ℚ) ^ 54 ≤ 2 ^ j := pow_le_pow_right₀ (by norm_num) hj53
          have : d ≤ 1 / 2 := by
            by_contra hc
            rw [not_le] at hc
            have : (2 : ℚ) ^ 53 < d * 2 ^ j := by
              calc (2 : ℚ) ^ 53 = 1 / 2 * 2 ^ 54 := by norm_num
                _ ≤ 1 / 2 * 2 ^ j := by gcongr
                _ < d * 2 ^ j := by gcongr
            rw [hz] at this; linarith
          have : (0 : ℚ) ≤ ⌊d⌋ := by exact_mod_cast Int.floor_nonneg.mpr h0
          have : (1 : ℚ) / 2 ^ 53 ≤ 1 / 2 := by norm_num
          linarith
    have hm := hF.mono (show (d - ⌊d⌋) * 86400 ≤ (1 - 1 / 2 ^ 53) * 86400 by
      gcongr)
    have he := h.eq_of_close ((1 - 1 / 2 ^ 53) * 86400) 5937362789990399 (-36) (by norm_num) (by norm_num)
      (by norm_num) (by rw [abs_lt]; norm_num)
    rw [he] at hm
    refine hm.trans_lt ?_
    norm_num
  · simp only []; nlinarith

/-- The whole function: the three numbers are the digits of the truncated seconds. -/
theorem fday_to_hms_eq {fl : ℚ → ℚ} (h : Arith fl) {d : ℚ} (hd : Rounding fl → IsF64 d) (h0 : 0 ≤ d) :
    fdayToHms fl d = (⌊daySeconds fl d⌋ / 3600, ((⌊daySeconds fl d⌋ / 60 % 60 : ℤ) : ℚ),
      ⌊daySeconds fl d⌋ % 60) := by
  obtain ⟨s0, s1⟩ := daySeconds_lt h hd h0
  have hF := h.floatLike
  have hsec : fl ((d - trunc d) * 86400) = daySeconds fl d := by
    rw [trunc_of_nonneg h0]; rfl
  have hrep : IsF64 (daySeconds fl d) ∨ fl = fun x => x := by
    rcases h with h | h
    · exact .inl (h.rep _)
    · exact .inr h
  generalize daySeconds fl d = S at *
  have hmin : trunc (fl (S / 60)) = ⌊S / 60⌋ := by
    rcases hrep with h | rfl
    · exact hF.trunc_div_f64 h s0 60 (by norm_num) (by norm_num) (by linarith)
    · exact trunc_of_nonneg (by positivity)
  have q1 : ⌊S / 60⌋ = ⌊S⌋ / 60 := Int.floor_div_natCast S 60
  have n0 : 0 ≤ ⌊S⌋ := Int.floor_nonneg.mpr s0
  have n1 : ⌊S⌋ < 86400 := by rw [Int.floor_lt]; exact_mod_cast s1
  have fS := Int.floor_le S
  have fS2 := Int.lt_floor_add_one S
  generalize ⌊S⌋ = N at *
  have hM : fl (((N / 60 : ℤ) : ℚ) * 60) = ((N / 60 * 60 : ℤ) : ℚ) := by
    have : ((N / 60 : ℤ) : ℚ) * 60 = ((N / 60 * 60 : ℤ) : ℚ) := by push_cast; ring
    rw [this]; exact hF.int (by rw [abs_le]; omega)
  have hle : ((N / 60 * 60 : ℤ) : ℚ) ≤ S := by
    have : N / 60 * 60 ≤ N := by omega
    have : ((N / 60 * 60 : ℤ) : ℚ) ≤ N := by exact_mod_cast this
    linarith
  have hs2 : fl (S - ((N / 60 * 60 : ℤ) : ℚ)) = S - ((N / 60 * 60 : ℤ) : ℚ) := by
    rcases hrep with h | rfl
    · exact hF.sub_int_f64 h _ (by omega) hle (by linarith)
    · rfl
  have hH : trunc (fl (((N / 60 : ℤ) : ℚ) / 60)) = N / 60 / 60 := by
    have := hF.trunc_div_nat (a := N / 60) (b := 60) (by omega) (by omega) (by norm_num)
    exact_mod_cast this
  have hH2 : fl (((N / 60 / 60 : ℤ) : ℚ) * 60) = ((N / 60 / 60 * 60 : ℤ) : ℚ) := by
    have : ((N / 60 / 60 : ℤ) : ℚ) * 60 = ((N / 60 / 60 * 60 : ℤ) : ℚ) := by push_cast; ring
    rw [this]; exact hF.int (by rw [abs_le]; omega)
  have hmm : fl (((N / 60 : ℤ) : ℚ) - ((N / 60 / 60 * 60 : ℤ) : ℚ)) = ((N / 60 % 60 : ℤ) : ℚ) := by
    have : ((N / 60 : ℤ) : ℚ) - ((N / 60 / 60 * 60 : ℤ) : ℚ) = ((N / 60 % 60 : ℤ) : ℚ) := by
      rw [← Int.cast_sub]; congr 1; omega
    rw [this]; exact hF.int (by rw [abs_le]; omega)
  have ht : trunc (S - ((N / 60 * 60 : ℤ) : ℚ)) = N % 60 := by
    have e : ((N % 60 : ℤ) : ℚ) = N - ((N / 60 * 60 : ℤ) : ℚ) := by
      rw [← Int.cast_sub]; congr 1; omega
    refine trunc_eq (by linarith) ?_ ?_ <;> rw [e] <;> linarith
  have h3600 : N / 60 / 60 = N / 3600 := by omega
  unfold fdayToHms
  simp only [hsec, hmin, q1, hM, hs2, hH, hH2, hmm, ht]
  rw [h3600]

/-- C18: the ranges, and the time of day is the exact one truncated to the second, where "exact" is
up to the single rounding of the multiplication by 86400 (none in exact arithmetic). -/
theorem fday_to_hms_range {fl : ℚ → ℚ} (h : Arith fl) (d : ℚ) (hd : Rounding fl → IsF64 d)
    (h0 : 0 ≤ d) :
    ∃ hr mn sec : ℤ, fdayToHms fl d = (hr, (mn : ℚ), sec) ∧ 0 ≤ hr ∧ hr ≤ 23 ∧ 0 ≤ mn ∧ mn ≤ 59 ∧
      0 ≤ sec ∧ sec ≤ 59 ∧
      ((3600 * hr + 60 * mn + sec : ℤ) : ℚ) ≤ Int.fract d * 86400 + 1 / 2 ^ 35 ∧
      Int.fract d * 86400 < (3600 * hr + 60 * mn + sec : ℤ) + 1 + 1 / 2 ^ 35 := by
  obtain ⟨s0, s1⟩ := daySeconds_lt h hd h0
  refine ⟨_, _, _, fday_to_hms_eq h hd h0, ?_⟩
  have n0 : 0 ≤ ⌊daySeconds fl d⌋ := Int.floor_nonneg.mpr s0
  have n1 : ⌊daySeconds fl d⌋ < 86400 := by rw [Int.floor_lt]; exact_mod_cast s1
  have fS := Int.floor_le (daySeconds fl d)
  have fS2 := Int.lt_floor_add_one (daySeconds fl d)
  have herr : |daySeconds fl d - Int.fract d * 86400| ≤ 86400 / 2 ^ 52 := by
    have f0 := Int.fract_nonneg d
    have f1 := Int.fract_lt_one d
    exact h.floatLike.err_le (by norm_num) (by
      rw [abs_of_nonneg (by positivity)]; unfold Int.fract at *; linarith)
  rw [abs_le] at herr
  have : (86400 : ℚ) / 2 ^ 52 ≤ 1 / 2 ^ 35 := by norm_num
  generalize ⌊daySeconds fl d⌋ = N at *
  have e : (3600 * (N / 3600) + 60 * (N / 60 % 60) + N % 60 : ℤ) = N := by omega
  rw [e]
  refine ⟨by omega, by omega, by omega, by omega, by omega, by omega, ?_, ?_⟩ <;> linarith

/-- C18 in exact arithmetic: exactly the truncation to the second. -/
theorem fday_to_hms_exact (d : ℚ) (h0 : 0 ≤ d) :
    ∃ hr mn sec : ℤ, fdayToHms (fun x => x) d = (hr, (mn : ℚ), sec) ∧ 0 ≤ hr ∧ hr ≤ 23 ∧
      0 ≤ mn ∧ mn ≤ 59 ∧ 0 ≤ sec ∧ sec ≤ 59 ∧
      3600 * hr + 60 * mn + sec = ⌊Int.fract d * 86400⌋ := by
  have hd : Rounding (fun x => x) → IsF64 d := fun h => h.rep d
  obtain ⟨s0, s1⟩ := daySeconds_lt (.inr rfl) hd h0
  refine ⟨_, _, _, fday_to_hms_eq (.inr rfl) hd h0, ?_⟩
  have n0 : 0 ≤ ⌊daySeconds (fun x => x) d⌋ := Int.floor_nonneg.mpr s0
  have n1 : ⌊daySeconds (fun x => x) d⌋ < 86400 := by rw [Int.floor_lt]; exact_mod_cast s1
  have e : ⌊daySeconds (fun x => x) d⌋ = ⌊Int.fract d * 86400⌋ := rfl
  rw [← e]
  generalize ⌊daySeconds (fun x => x) d⌋ = N at *
  omega

/-! ### C17 -/

/-- C17: `fday_to_hms` undoes `hms_to_fday` in exact arithmetic. -/
theorem hms_round_trip_exact (hr mn sec : ℤ) (h1 : 0 ≤ hr) (h2 : hr < 24) (m1 : 0 ≤ mn)
    (m2 : mn < 60) (s1 : 0 ≤ sec) (s2 : sec < 60) :
    fdayToHms (fun x => x) (hmsToFday1 (fun x => x) hr mn sec) = (hr, (mn : ℚ), sec) := by
  set N : ℤ := 3600 * hr + 60 * mn + sec with hN
  have e : hmsToFday1 (fun x => x) hr mn sec = (N : ℚ) / 86400 := by
    unfold hmsToFday1; simp only [hN]; push_cast; ring
  have b : (0 : ℚ) ≤ N ∧ (N : ℚ) < 86400 := by
    constructor
    · exact_mod_cast (by omega : 0 ≤ N)
    · exact_mod_cast (by omega : N < 86400)
  have h0 : (0 : ℚ) ≤ N / 86400 := by have := b.1; positivity
  have hfl : ⌊(N : ℚ) / 86400⌋ = 0 := by
    rw [Int.floor_eq_iff]; push_cast
    exact ⟨h0, by rw [div_lt_iff₀ (by norm_num)]; linarith [b.2]⟩
  rw [e, fday_to_hms_eq (.inr rfl) (fun h => h.rep _) h0]
  have : ⌊daySeconds (fun x => x) ((N : ℚ) / 86400)⌋ = N := by
    unfold daySeconds; rw [hfl]
    simp
  rw [this]
  refine Prod.ext (by simp only []; omega) (Prod.ext ?_ (by simp only []; omega))
  simp only []
  congr 1; omega

/-- C17 in binary64: the result is the time or exactly one second less. -/
theorem hms_round_trip_float {fl : ℚ → ℚ} (h : Arith fl) (hr mn sec : ℤ) (h1 : 0 ≤ hr) (h2 : hr < 24)
    (m1 : 0 ≤ mn) (m2 : mn < 60) (s1 : 0 ≤ sec) (s2 : sec < 60) :
    ∃ hr' mn' sec' : ℤ, fdayToHms fl (hmsToFday1 fl hr mn sec) = (hr', (mn' : ℚ), sec') ∧
      0 ≤ hr' ∧ hr' ≤ 23 ∧ 0 ≤ mn' ∧ mn' ≤ 59 ∧ 0 ≤ sec' ∧ sec' ≤ 59 ∧
      (3600 * hr' + 60 * mn' + sec' = 3600 * hr + 60 * mn + sec ∨
        3600 * hr' + 60 * mn' + sec' = 3600 * hr + 60 * mn + sec - 1) := by
  have hF := h.floatLike
  set N : ℤ := 3600 * hr + 60 * mn + sec with hN
  have b : (0 : ℚ) ≤ N ∧ (N : ℚ) ≤ 86399 := by
    constructor
    · exact_mod_cast (by omega : 0 ≤ N)
    · exact_mod_cast (by omega : N ≤ 86399)
  have q1 : (0 : ℚ) ≤ hr ∧ (hr : ℚ) < 24 := ⟨by exact_mod_cast h1, by exact_mod_cast h2⟩
  have q2 : (0 : ℚ) ≤ mn ∧ (mn : ℚ) < 60 := ⟨by exact_mod_cast m1, by exact_mod_cast m2⟩
  have q3 : (0 : ℚ) ≤ sec ∧ (sec : ℚ) < 60 := ⟨by exact_mod_cast s1, by exact_mod_cast s2⟩
  have e1 := abs_le.mp (hF.err_le (x := (hr : ℚ) / 24) (B := 1) le_rfl (by
    rw [abs_of_nonneg (by linarith [q1.1])]; linarith))
  have e2 := abs_le.mp (hF.err_le (x := (mn : ℚ) / 1440) (B := 1) le_rfl (by
    rw [abs_of_nonneg (by linarith [q2.1])]; linarith))
  have e3 := abs_le.mp (hF.err_le (x := (sec : ℚ) / 86400) (B := 1) le_rfl (by
    rw [abs_of_nonneg (by linarith [q3.1])]; linarith))
  have z1 : 0 ≤ fl ((hr : ℚ) / 24) := hF.nonneg (by linarith [q1.1])
  have z2 : 0 ≤ fl ((mn : ℚ) / 1440) := hF.nonneg (by linarith [q2.1])
  have z3 : 0 ≤ fl ((sec : ℚ) / 86400) := hF.nonneg (by linarith [q3.1])
  set a := fl ((hr : ℚ) / 24)
  set c := fl ((mn : ℚ) / 1440)
  set s := fl ((sec : ℚ) / 86400)
  have tiny : (1 : ℚ) / 2 ^ 52 ≤ 1 / 10 ^ 15 := by norm_num
  have hsum : (hr : ℚ) / 24 + mn / 1440 + sec / 86400 = N / 86400 := by
    rw [hN]; push_cast; ring
  have e4 := abs_le.mp (hF.err_le (x := a + c) (B := 2) (by norm_num) (by
    rw [abs_of_nonneg (by linarith)]; linarith))
  have z4 : 0 ≤ fl (a + c) := hF.nonneg (by linarith)
  set w := fl (a + c)
  have e5 := abs_le.mp (hF.err_le (x := w + s) (B := 4) (by norm_num) (by
    rw [abs_of_nonneg (by linarith)]; linarith))
  have z5 : 0 ≤ fl (w + s) := hF.nonneg (by linarith)
  have hd : hmsToFday1 fl hr mn sec = fl (w + s) := rfl
  have hclose : |hmsToFday1 fl hr mn sec - N / 86400| ≤ 1 / 10 ^ 14 := by
    rw [hd, abs_le]; constructor <;> linarith
  have hd0 : 0 ≤ hmsToFday1 fl hr mn sec := by rw [hd]; exact z5
  have hrep : Rounding fl → IsF64 (hmsToFday1 fl hr mn sec) := fun h => h.rep _
  obtain ⟨s0, s1'⟩ := daySeconds_lt h hrep hd0
  refine ⟨_, _, _, fday_to_hms_eq h hrep hd0, ?_⟩
  generalize hmsToFday1 fl hr mn sec = D at *
  have hc := abs_le.mp hclose
  have hfl : ⌊D⌋ = 0 := by
    rw [Int.floor_eq_iff]; push_cast
    refine ⟨hd0, ?_⟩
    have : (1 : ℚ) / 10 ^ 14 < 1 / 86400 := by norm_num
    linarith
  have e6 := abs_le.mp (hF.err_le (x := (D - ⌊D⌋) * 86400) (B := 86400) (by norm_num) (by
    rw [hfl, abs_of_nonneg (by push_cast; linarith)]; push_cast
    have : (1 : ℚ) / 10 ^ 14 < 1 / 86400 := by norm_num
    linarith))
  have hds : fl ((D - ⌊D⌋) * 86400) = daySeconds fl D := rfl
  rw [hds, hfl] at e6
  push_cast at e6
  have n0 : 0 ≤ ⌊daySeconds fl D⌋ := Int.floor_nonneg.mpr s0
  have n1 : ⌊daySeconds fl D⌋ < 86400 := by rw [Int.floor_lt]; exact_mod_cast s1'
  have t2 : (86400 : ℚ) / 2 ^ 52 ≤ 1 / 10 ^ 10 := by norm_num
  have hK : ⌊daySeconds fl D⌋ = N ∨ ⌊daySeconds fl D⌋ = N - 1 := by
    have u1 := Int.floor_le (daySeconds fl D)
    have u2 := Int.lt_floor_add_one (daySeconds fl D)
    have l1 : (⌊daySeconds fl D⌋ : ℚ) < N + 1 := by linarith
    have l2 : (N : ℚ) < ⌊daySeconds fl D⌋ + 2 := by linarith
    have l1' : ⌊daySeconds fl D⌋ < N + 1 := by exact_mod_cast l1
    have l2' : N < ⌊daySeconds fl D⌋ + 2 := by exact_mod_cast l2
    omega
  generalize ⌊daySeconds fl D⌋ = K at *
  omega

/-- C17: the loss of a second does happen: 0:00:11 comes back as 0:00:10 under every IEEE
rounding. -/
theorem hms_round_trip_fails {fl : ℚ → ℚ} (h : Rounding fl) :
    fdayToHms fl (hmsToFday1 fl 0 0 11) = (0, 0, 10) := by
  have hF := h.floatLike
  have z : fl 0 = 0 := by simpa using hF.int (n := 0) (by norm_num)
  have a := h.eq_of_close (11 / 86400) 4697087611361228 (-65) (by norm_num) (by norm_num) (by norm_num)
    (by rw [abs_lt]; norm_num)
  have e : hmsToFday1 fl 0 0 11 = (4697087611361228 : ℤ) * (2 : ℚ) ^ (-65 : ℤ) := by
    unfold hmsToFday1
    rw [a]
    norm_num only [zero_div, z, add_zero, zero_add]
    have := hF.fix ((4697087611361228 : ℤ) * (2 : ℚ) ^ (-65 : ℤ)) ⟨_, _, by norm_num, by norm_num, rfl⟩
    norm_num at this ⊢
    exact this
  rw [e, fday_to_hms_eq (.inl h) (fun _ => ⟨_, _, by norm_num, by norm_num, rfl⟩) (by positivity)]
  have hfl : ⌊((4697087611361228 : ℤ) : ℚ) * (2 : ℚ) ^ (-65 : ℤ)⌋ = 0 := by
    rw [Int.floor_eq_iff]; norm_num
  have s : daySeconds fl (((4697087611361228 : ℤ) : ℚ) * (2 : ℚ) ^ (-65 : ℤ)) =
      ((6192449487634431 : ℤ) : ℚ) * (2 : ℚ) ^ (-49 : ℤ) := by
    unfold daySeconds
    rw [hfl]
    exact h.eq_of_close _ _ _ (by norm_num) (by norm_num) (by norm_num) (by rw [abs_lt]; norm_num)
  have s10 : ⌊daySeconds fl (((4697087611361228 : ℤ) : ℚ) * (2 : ℚ) ^ (-65 : ℤ))⌋ = 10 := by
    rw [s, Int.floor_eq_iff]; norm_num
  rw [s10]; norm_num

/-- `hms_to_fday` returns an array even for three scalars. -/
theorem hms_to_fday_scalar (fl : ℚ → ℚ) (hr mn sec : ℚ) :
    hmsToFday fl [hr] [mn] [sec] = .ok [hmsToFday1 fl hr mn sec] := by
  unfold hmsToFday; rw [bcast3_single]; rfl

/-- The hypotheses are met: 23:59:59 exactly, and a day number with a fraction. -/
example : fdayToHms (fun x => x) (hmsToFday1 (fun x => x) 23 59 59) = (23, 59, 59) := by
  simpa using hms_round_trip_exact 23 59 59 (by norm_num) (by norm_num) (by norm_num) (by norm_num)
    (by norm_num) (by norm_num)

example {fl : ℚ → ℚ} (h : Rounding fl) : ∃ hr mn sec : ℤ,
    fdayToHms fl (4921 / 2) = (hr, (mn : ℚ), sec) ∧ hr ≤ 23 := by
  obtain ⟨a, b, c, h1, _, h2, _⟩ := fday_to_hms_range (.inl h) (4921 / 2)
    (fun _ => by simpa using isF64_dyadic (n := 4921) 1 (by norm_num) (by norm_num)) (by norm_num)
  exact ⟨a, b, c, h1, h2⟩

/-! ### C19 -/

/-- C19 for scalars: `cal_to_jde` raises what `cal_to_jd` raises, and otherwise adds the time. -/
theorem cal_to_jde_scalar (fl : ℚ → ℚ) (g : Bool) (y m : Num) (d hr mn sec : ℚ) :
    (∀ e, calToJd fl [y] [m] [d] g = .error e →
      calToJde fl [y] [m] [d] [hr] [mn] [sec] g = .error e) ∧
    (∀ j, calToJd fl [y] [m] [d] g = .ok (.scalar j) →
      calToJde fl [y] [m] [d] [hr] [mn] [sec] g =
        .ok (.scalar (fl (j + fl (fl (fl (hr / 24) + fl (mn / 1440)) + fl (sec / 86400)))))) := by
  constructor
  · intro e he; unfold calToJde; rw [he]
  · intro j hj
    unfold calToJde
    rw [hj, hms_to_fday_scalar]
    simp [Out.toList, bcast2, bdim, stretch, scalarIfOne, hmsToFday1]

/-- C19 in exact arithmetic, for every date in range: the day count plus the time of day. -/
theorem cal_to_jde_exact (g : Bool) (y m d : ℤ) (hr mn sec : ℚ) (hy1 : -4715 ≤ y) (hy2 : y < 2 ^ 31)
    (hv : Valid g y m d) (hx : ¬ Exceptional g y m) :
    calToJde (fun x => x) [.int y] [.int m] [(d : ℚ)] [hr] [mn] [sec] g =
      .ok (.scalar (jd0 g y m d + hr / 24 + mn / 1440 + sec / 86400)) := by
  rw [(cal_to_jde_scalar (fun x => x) g (.int y) (.int m) d hr mn sec).2 _
    ((cal_to_jd_counts_days FloatLike.id g y m d hy1 hy2 hv).1 hx)]
  congr 2; ring

/-- C19 in floating point, for times `0 ≤ h ≤ 24`, `0 ≤ m ≤ 60`, `0 ≤ s ≤ 60`: within one
hundred-thousandth of a second times the size of the Julian Day over a million. -/
theorem cal_to_jde_error {fl : ℚ → ℚ} (h : FloatLike fl) (g : Bool) (y m d : ℤ) (hr mn sec : ℚ)
    (hy1 : -4715 ≤ y) (hy2 : y < 2 ^ 31) (hv : Valid g y m d) (hx : ¬ Exceptional g y m)
    (h1 : 0 ≤ hr ∧ hr ≤ 24) (h2 : 0 ≤ mn ∧ mn ≤ 60) (h3 : 0 ≤ sec ∧ sec ≤ 60) :
    ∃ r, calToJde fl [.int y] [.int m] [(d : ℚ)] [hr] [mn] [sec] g = .ok (.scalar r) ∧
      |r - (jd0 g y m d + hr / 24 + mn / 1440 + sec / 86400)| ≤ (|jd0 g y m d| + 16) / 2 ^ 52 := by
  refine ⟨_, (cal_to_jde_scalar fl g (.int y) (.int m) d hr mn sec).2 _
    ((cal_to_jd_counts_days h g y m d hy1 hy2 hv).1 hx), ?_⟩
  have e1 := abs_le.mp (h.err_le (x := hr / 24) (B := 1) le_rfl (by
    rw [abs_of_nonneg (by linarith [h1.1])]; linarith [h1.2]))
  have e2 := abs_le.mp (h.err_le (x := mn / 1440) (B := 1) le_rfl (by
    rw [abs_of_nonneg (by linarith [h2.1])]; linarith [h2.2]))
  have e3 := abs_le.mp (h.err_le (x := sec / 86400) (B := 1) le_rfl (by
    rw [abs_of_nonneg (by linarith [h3.1])]; linarith [h3.2]))
  have z1 : 0 ≤ fl (hr / 24) := h.nonneg (by linarith [h1.1])
  have z2 : 0 ≤ fl (mn / 1440) := h.nonneg (by linarith [h2.1])
  have z3 : 0 ≤ fl (sec / 86400) := h.nonneg (by linarith [h3.1])
  set a := fl (hr / 24)
  set c := fl (mn / 1440)
  set s := fl (sec / 86400)
  have tiny : (1 : ℚ) / 2 ^ 52 ≤ 1 / 10 ^ 15 := by norm_num
  have e4 := abs_le.mp (h.err_le (x := a + c) (B := 2) (by norm_num) (by
    rw [abs_of_nonneg (by linarith)]; linarith))
  have z4 : 0 ≤ fl (a + c) := h.nonneg (by linarith)
  set w := fl (a + c)
  have e5 := abs_le.mp (h.err_le (x := w + s) (B := 3) (by norm_num) (by
    rw [abs_of_nonneg (by linarith)]; linarith))
  have z5 : 0 ≤ fl (w + s) := h.nonneg (by linarith)
  set t := fl (w + s)
  have ht : t ≤ 4 := by linarith
  have e6 := abs_le.mp (h.err_le (x := jd0 g y m d + t) (B := |jd0 g y m d| + 4) (by
    have := abs_nonneg (jd0 g y m d); linarith) (by
    refine (abs_add_le _ _).trans ?_
    rw [abs_of_nonneg z5]; linarith))
  have e7 : (|jd0 g y m d| + 16) / 2 ^ 52 = (|jd0 g y m d| + 4) / 2 ^ 52 + 12 * (1 / 2 ^ 52) := by ring
  rw [abs_le, e7]
  constructor <;> linarith

theorem fits_three {n a b c d e f : ℕ} (h : Fits n [a, b, c, d, e, f]) :
    ∃ k, (k = 1 ∨ k = n) ∧ Fits k [a, b, c] ∧ ∃ j, (j = 1 ∨ j = n) ∧ Fits j [d, e, f] ∧
      Fits n [k, j] := by
  unfold Fits at *
  simp only [List.mem_cons, List.not_mem_nil, or_false, forall_eq_or_imp, forall_eq] at h ⊢
  obtain ⟨⟨h1, h2, h3, h4, h5, h6⟩, h7⟩ := h
  by_cases hk : n = a ∨ n = b ∨ n = c <;> by_cases hj : n = d ∨ n = e ∨ n = f
  · exact ⟨n, by omega, by omega, n, by omega, by omega, by omega⟩
  · exact ⟨n, by omega, by omega, 1, by omega, by omega, by omega⟩
  · exact ⟨1, by omega, by omega, n, by omega, by omega, by omega⟩
  · exact ⟨1, by omega, by omega, 1, by omega, by omega, by omega⟩

theorem pick_one {α : Type} {l : List α} (h : l.length = 1) (i j : ℕ) : pick l i = pick l j := by
  simp [pick, h]

/-- C19 for arrays: `cal_to_jde` returns exactly when `cal_to_jd` does, with one value per element,
each the Julian Day of its date plus its time of day. -/
theorem cal_to_jde_array (fl : ℚ → ℚ) (g : Bool) (ys ms : List Num) (ds hs mis ss : List ℚ) (n : ℕ)
    (hn : 0 < n)
    (hf : Fits n [ys.length, ms.length, ds.length, hs.length, mis.length, ss.length]) :
    ((∃ r, calToJde fl ys ms ds hs mis ss g = .ok r) ↔ ∃ r, calToJd fl ys ms ds g = .ok r) ∧
    ∀ r, calToJde fl ys ms ds hs mis ss g = .ok r → r.toList.length = n ∧
      ∀ i < n, ∃ y m d hr mn sec j, pick ys i = some y ∧ pick ms i = some m ∧ pick ds i = some d ∧
        pick hs i = some hr ∧ pick mis i = some mn ∧ pick ss i = some sec ∧
        calToJd fl [y] [m] [d] g = .ok (.scalar j) ∧
        r.toList[i]? = some (fl (j + fl (fl (fl (hr / 24) + fl (mn / 1440)) + fl (sec / 86400)))) := by
  obtain ⟨k, hk1, hk, j, hj1, hj, hkj⟩ := fits_three hf
  have hk0 : 0 < k := by omega
  have hj0 : 0 < j := by omega
  have hms : ∃ f, hmsToFday fl hs mis ss = .ok f ∧ f.length = j ∧
      ∀ i < j, ∃ hr mn sec, pick hs i = some hr ∧ pick mis i = some mn ∧ pick ss i = some sec ∧
        f[i]? = some (hmsToFday1 fl hr mn sec) := by
    unfold hmsToFday
    have hb := bcast3_fits hj
    rw [hb]
    refine ⟨_, rfl, ?_, ?_⟩
    · simp [stretch_length j hs (hj.1 _ (by simp)), stretch_length j mis (hj.1 _ (by simp)),
        stretch_length j ss (hj.1 _ (by simp))]
    · intro i hi
      have hlen : ((stretch j hs).zip ((stretch j mis).zip (stretch j ss))).length = j := by
        simp [stretch_length j hs (hj.1 _ (by simp)), stretch_length j mis (hj.1 _ (by simp)),
          stretch_length j ss (hj.1 _ (by simp))]
      obtain ⟨x, y, z, h1, h2, h3, h4⟩ := (bcast3_ok hb).2 i (by omega)
      exact ⟨x, y, z, h2, h3, h4, by rw [List.getElem?_map, h1]; rfl⟩
  obtain ⟨f, hf1, hf2, hf3⟩ := hms
  have main : ∀ r0, calToJd fl ys ms ds g = .ok r0 →
      ∃ rows, bcast2 r0.toList f = .ok rows ∧ rows.length = n ∧
        calToJde fl ys ms ds hs mis ss g = .ok (scalarIfOne (rows.map fun r => fl (r.1 + r.2))) := by
    intro r0 h0
    have hl := (cal_to_jd_array_values fl g ys ms ds k hk0 hk r0 h0).1
    obtain ⟨rows, hr1, hr2⟩ := bcast2_fits (a := r0.toList) (b := f) (n := n) (by rw [hl, hf2]; exact hkj)
    refine ⟨rows, hr1, hr2, ?_⟩
    unfold calToJde
    rw [h0, hf1]; simp only []; rw [hr1]
  refine ⟨⟨?_, ?_⟩, ?_⟩
  · rintro ⟨r, hr⟩
    cases h0 : calToJd fl ys ms ds g with
    | ok r0 => exact ⟨r0, rfl⟩
    | error e => unfold calToJde at hr; rw [h0] at hr; cases hr
  · rintro ⟨r0, h0⟩
    obtain ⟨rows, -, -, h3⟩ := main r0 h0
    exact ⟨_, h3⟩
  · intro r hr
    cases h0 : calToJd fl ys ms ds g with
    | error e => unfold calToJde at hr; rw [h0] at hr; cases hr
    | ok r0 =>
      obtain ⟨rows, h1, h2, h3⟩ := main r0 h0
      rw [h3] at hr
      obtain rfl := Except.ok.inj hr
      rw [scalarIfOne_toList]
      refine ⟨by simp [h2], fun i hi => ?_⟩
      obtain ⟨x, t, e1, e2, e3⟩ := (bcast2_ok h1).2 i (by omega)
      obtain ⟨hl, -, hv⟩ := cal_to_jd_array_values fl g ys ms ds k hk0 hk r0 h0
      -- the index used in the shorter arrays
      have hdate : ∃ y m d, pick ys i = some y ∧ pick ms i = some m ∧ pick ds i = some d ∧
          calToJd fl [y] [m] [d] g = .ok (.scalar x) := by
        unfold pick at e2
        split_ifs at e2 with hone
        · have hk1' : k = 1 := by omega
          obtain ⟨y, m, d, v, p1, p2, p3, p4, p5⟩ := hv 0 hk0
          rw [p5] at e2; obtain rfl := Option.some.inj e2
          have l1 := hk.1 ys.length (by simp)
          have l2 := hk.1 ms.length (by simp)
          have l3 := hk.1 ds.length (by simp)
          refine ⟨y, m, d, ?_, ?_, ?_, p4⟩
          · rw [pick_one (by omega) i 0]; exact p1
          · rw [pick_one (by omega) i 0]; exact p2
          · rw [pick_one (by omega) i 0]; exact p3
        · obtain ⟨y, m, d, v, p1, p2, p3, p4, p5⟩ := hv i (by omega)
          rw [p5] at e2; obtain rfl := Option.some.inj e2
          exact ⟨y, m, d, p1, p2, p3, p4⟩
      have htime : ∃ hr mn sec, pick hs i = some hr ∧ pick mis i = some mn ∧ pick ss i = some sec ∧
          t = hmsToFday1 fl hr mn sec := by
        unfold pick at e3
        split_ifs at e3 with hone
        · obtain ⟨a, b, c, p1, p2, p3, p4⟩ := hf3 0 hj0
          rw [p4] at e3; obtain rfl := Option.some.inj e3
          have l1 := hj.1 hs.length (by simp)
          have l2 := hj.1 mis.length (by simp)
          have l3 := hj.1 ss.length (by simp)
          refine ⟨a, b, c, ?_, ?_, ?_, rfl⟩
          · rw [pick_one (by omega) i 0]; exact p1
          · rw [pick_one (by omega) i 0]; exact p2
          · rw [pick_one (by omega) i 0]; exact p3
        · obtain ⟨a, b, c, p1, p2, p3, p4⟩ := hf3 i (by omega)
          rw [p4] at e3; obtain rfl := Option.some.inj e3
          exact ⟨a, b, c, p1, p2, p3, rfl⟩
      obtain ⟨y, m, d, p1, p2, p3, p4⟩ := hdate
      obtain ⟨a, b, c, q1, q2, q3, rfl⟩ := htime
      refine ⟨y, m, d, a, b, c, x, p1, p2, p3, q1, q2, q3, p4, ?_⟩
      rw [List.getElem?_map, e1]; rfl

/-- The time fields are not validated: 25 o'clock is the next day. -/
theorem cal_to_jde_no_time_check :
    calToJde (fun x => x) [.int 2000] [.int 1] [1] [36] [0] [0] true = .ok (.scalar 2451546) ∧
    calToJde (fun x => x) [.int 2000] [.int 1] [2] [12] [0] [0] true = .ok (.scalar 2451546) := by
  constructor <;> decide +kernel

/-- The hypotheses are met. -/
example : calToJde (fun x => x) [.int 2000] [.int 1] [((1 : ℤ) : ℚ)] [12] [0] [0] true =
    .ok (.scalar (jd0 true 2000 1 1 + 12 / 24 + 0 / 1440 + 0 / 86400)) :=
  cal_to_jde_exact true 2000 1 1 12 0 0 (by norm_num) (by norm_num) (by decide)
    (by rintro ⟨_, c, h⟩; omega)

end Verif
