import Verif.Lemmas.CalToJd
import Mathlib.Tactic.LinearCombination

/-!
# Adding one half to a binary64 number
-/

namespace Verif

/-- For a binary64 Julian Day from 1 on, rounding `jd + 0.5` does not move it to another civil
day. -/
theorem floor_fl_add_half {fl : ℚ → ℚ} (h : FloatLike fl) {jd : ℚ} (hF : IsF64 jd) (h1 : 1 ≤ jd)
    (hU : jd ≤ 2 ^ 50) : ⌊fl (jd + 1 / 2)⌋ = ⌊jd + 1 / 2⌋ := by
  have hfl := Int.floor_le (jd + 1 / 2)
  have hlt := Int.lt_floor_add_one (jd + 1 / 2)
  set N := ⌊jd + 1 / 2⌋ with hN
  have hN0 : 1 ≤ N := by
    rw [hN, Int.le_floor]; push_cast; linarith
  have hNU : N ≤ 2 ^ 50 + 1 := by
    have : (N : ℚ) ≤ 2 ^ 50 + 1 := by linarith
    exact_mod_cast this
  rw [Int.floor_eq_iff]
  refine ⟨h.int_le (by rw [abs_le]; omega) hfl, ?_⟩
  suffices ∃ y, IsF64 y ∧ jd + 1 / 2 ≤ y ∧ y < N + 1 by
    obtain ⟨y, hy, h2, h3⟩ := this
    have := h.mono h2
    rw [h.fix y hy] at this
    linarith
  obtain ⟨m, e, hm, he, hjd⟩ := hF
  rcases le_or_gt 0 e with he0 | he0
  · -- an integer
    obtain ⟨k, rfl⟩ := Int.eq_ofNat_of_zero_le he0
    have hz : jd = ((m * 2 ^ k : ℤ) : ℚ) := by rw [hjd, zpow_natCast]; push_cast; ring
    have hb : m * 2 ^ k ≤ 2 ^ 50 := by rw [hz] at hU; exact_mod_cast hU
    have hb2 : 1 ≤ m * 2 ^ k := by rw [hz] at h1; exact_mod_cast h1
    refine ⟨jd + 1 / 2, ⟨2 * (m * 2 ^ k) + 1, -1, by rw [abs_le]; omega, by norm_num, ?_⟩, le_rfl, hlt⟩
    rw [hz]; push_cast; norm_num; ring
  · obtain ⟨j, hj⟩ := Int.eq_ofNat_of_zero_le (show 0 ≤ -e by omega)
    have ej : e = -(j : ℤ) := by omega
    have hj1 : 1 ≤ j := by omega
    have hpz : (0 : ℤ) < 2 ^ j := by positivity
    have hpq : (0 : ℚ) < 2 ^ j := by positivity
    have hz : jd = (m : ℚ) / 2 ^ j := by rw [hjd, ej, zpow_neg, zpow_natCast, div_eq_mul_inv]
    have hmq : (2 : ℚ) ^ j ≤ m := by rw [hz, le_div_iff₀ hpq] at h1; linarith
    have hmz : (2 : ℤ) ^ j ≤ m := by exact_mod_cast hmq
    have hm' : m ≤ 2 ^ 53 := (abs_le.mp hm).2
    have hj53 : j ≤ 53 := by
      by_contra hc
      have : (2 : ℤ) ^ 54 ≤ 2 ^ j := pow_le_pow_right₀ (by norm_num) (by omega)
      omega
    obtain ⟨i, rfl⟩ : ∃ i, j = i + 1 := ⟨j - 1, by omega⟩
    have hpi : (0 : ℤ) < 2 ^ i := by positivity
    have hpiq : (0 : ℚ) < 2 ^ i := by positivity
    have hps : (2 : ℤ) ^ (i + 1) = 2 * 2 ^ i := by rw [pow_succ]; ring
    have hpsq : (2 : ℚ) ^ (i + 1) = 2 * 2 ^ i := by rw [pow_succ]; ring
    -- jd + 1/2 = (m + 2^i) / 2^(i+1) < N + 1
    have hsum : jd + 1 / 2 = ((m + 2 ^ i : ℤ) : ℚ) / 2 ^ (i + 1) := by
      rw [hz, hpsq]; push_cast; field_simp
    have hlt' : m + 2 ^ i < (N + 1) * (2 * 2 ^ i) := by
      have := hlt
      rw [hsum, div_lt_iff₀ hpq, hpsq] at this
      exact_mod_cast this
    rcases le_or_gt ((N + 1) * (2 * 2 ^ i) - 1) (2 ^ 53) with hc | hc
    · refine ⟨(((N + 1) * (2 * 2 ^ i) - 1 : ℤ) : ℚ) / 2 ^ (i + 1), isF64_dyadic _ (by omega) ?_, ?_, ?_⟩
      · rw [abs_le]
        have : 0 ≤ m + 2 ^ i := by omega
        omega
      · rw [hsum, div_le_div_iff_of_pos_right hpq]
        have : m + 2 ^ i ≤ (N + 1) * (2 * 2 ^ i) - 1 := by omega
        exact_mod_cast this
      · rw [div_lt_iff₀ hpq, hpsq]; push_cast; linarith
    · -- jd is at most W = 2^(52-i), and N + 1 = W + 1
      rcases (by omega : i = 52 ∨ i ≤ 51) with rfl | hi
      · have hm1 : m = 2 ^ 53 := by omega
        have hjd1 : jd = 1 := by rw [hz, hm1]; norm_num
        exact ⟨3 / 2, ⟨3, -1, by norm_num, by norm_num, by norm_num⟩, by rw [hjd1]; norm_num, by
          have : (1 : ℚ) ≤ N := by exact_mod_cast hN0
          linarith⟩
      · have hW : (2 : ℤ) ^ 53 = 2 ^ (52 - i) * (2 * 2 ^ i) := by
          rw [← hps, ← pow_add]; congr 1; omega
        have hWq : (2 : ℚ) ^ 53 = 2 ^ (52 - i) * (2 * 2 ^ i) := by exact_mod_cast hW
        have hNW : 2 ^ (52 - i) < N + 1 := by
          by_contra hcc
          have := mul_le_mul_of_nonneg_right (not_lt.mp hcc) (show (0:ℤ) ≤ 2 * 2 ^ i by positivity)
          rw [← hW] at this
          omega
        have hjdW : jd ≤ 2 ^ (52 - i) := by
          rw [hz, div_le_iff₀ hpq, hpsq, ← hWq]; exact_mod_cast hm'
        have hWb : (2 : ℤ) ^ (52 - i) ≤ 2 ^ 52 := pow_le_pow_right₀ (by norm_num) (by omega)
        have hWp : (0 : ℤ) < 2 ^ (52 - i) := by positivity
        rcases Nat.eq_zero_or_pos i with rfl | hi0
        · -- e = -1
          exfalso
          have : (2:ℤ) ^ 52 < N + 1 := by simpa using hNW
          omega
        · have hWb : (2 : ℤ) ^ (52 - i) ≤ 2 ^ 51 := pow_le_pow_right₀ (by norm_num) (by omega)
          refine ⟨((2 * 2 ^ (52 - i) + 1 : ℤ) : ℚ) / 2 ^ 1, isF64_dyadic 1 (by norm_num)
            (by rw [abs_le]; omega), ?_, ?_⟩
          · push_cast; linarith
          · have : ((2 : ℚ) ^ (52 - i)) + 1 ≤ N + 1 := by exact_mod_cast hNW
            push_cast; linarith

/-- Adding one half inside a binade is exact: for instance for every Julian Day between `2^21`
(year 1029) and `2^22 - 1/2` (year 6771). -/
theorem isF64_add_half {jd : ℚ} (hF : IsF64 jd) (k : ℕ) (hk : k ≤ 51) (h1 : 2 ^ k ≤ jd)
    (h2 : jd + 1 / 2 ≤ 2 ^ (k + 1)) : IsF64 (jd + 1 / 2) := by
  obtain ⟨m, e, hm, he, hjd⟩ := hF
  obtain ⟨hm1, hm2⟩ := abs_le.mp hm
  have hpe : (0 : ℚ) < 2 ^ e := zpos e
  have hk0 : (0 : ℚ) < 2 ^ k := by positivity
  have hmp : 0 < m := by
    have : (0 : ℚ) < m * 2 ^ e := by rw [← hjd]; linarith
    have := (pos_iff_pos_of_mul_pos this).mpr hpe
    exact_mod_cast this
  rcases le_or_gt (-1) e with he1 | he1
  · -- multiple of one half
    obtain ⟨i, hi⟩ := Int.eq_ofNat_of_zero_le (show 0 ≤ e + 1 by omega)
    have hz : jd + 1 / 2 = ((m * 2 ^ i + 1 : ℤ) : ℚ) * 2 ^ (-1 : ℤ) := by
      have : (2 : ℚ) ^ e = 2 ^ i * 2 ^ (-1 : ℤ) := by
        rw [← zpow_natCast, ← zpow_add₀ (by norm_num)]; congr 1; omega
      rw [hjd, this]; push_cast; norm_num; ring
    refine ⟨m * 2 ^ i + 1, -1, ?_, by norm_num, hz⟩
    rw [hz] at h2
    have hb : ((m * 2 ^ i + 1 : ℤ) : ℚ) ≤ 2 ^ (k + 2) := by
      have e2 : (2 : ℚ) ^ (k + 2) = 2 ^ (k + 1) * 2 := by rw [pow_succ]
      norm_num at h2
      rw [e2]; push_cast; linarith
    have hb' : m * 2 ^ i + 1 ≤ 2 ^ (k + 2) := by exact_mod_cast hb
    have : (2 : ℤ) ^ (k + 2) ≤ 2 ^ 53 := pow_le_pow_right₀ (by norm_num) (by omega)
    have h3 : 0 ≤ m * 2 ^ i := by positivity
    rw [abs_le]; omega
  · obtain ⟨i, hi⟩ := Int.eq_ofNat_of_zero_le (show 0 ≤ -e - 2 by omega)
    -- 1/2 = 2^(i+1) * 2^e
    have hz : jd + 1 / 2 = ((m + 2 ^ (i + 1) : ℤ) : ℚ) * 2 ^ e := by
      have : (1 / 2 : ℚ) = 2 ^ (i + 1) * 2 ^ e := by
        have : (1 / 2 : ℚ) = 2 ^ (-1 : ℤ) := by norm_num
        rw [this, ← zpow_natCast, ← zpow_add₀ (by norm_num)]; congr 1; push_cast; omega
      rw [hjd, this]; push_cast; ring
    -- the whole is at most twice 2^k ≤ 2 * m 2^e
    rcases le_or_gt (m + 2 ^ (i + 1)) (2 ^ 53) with hle | hgt
    · refine ⟨_, e, ?_, he, hz⟩
      have : (0 : ℤ) < 2 ^ (i + 1) := by positivity
      rw [abs_le]; omega
    · -- then jd = 2^k
      have hek : e < (k : ℤ) + 1 - 53 := by
        by_contra hc
        have h3 : (2 : ℚ) ^ ((k : ℤ) + 1 - 53) ≤ 2 ^ e := zpow_le_zpow_right₀ (by norm_num) (by omega)
        have h4 : (2 : ℚ) ^ 53 * 2 ^ ((k : ℤ) + 1 - 53) = 2 ^ (k + 1) := by
          rw [← zpow_natCast, ← zpow_natCast, ← zpow_add₀ (by norm_num)]; congr 1; push_cast; ring
        have h5 : (2 : ℚ) ^ 53 < ((m + 2 ^ (i + 1) : ℤ) : ℚ) := by exact_mod_cast hgt
        rw [hz] at h2
        nlinarith
      have hjk : jd = 2 ^ k := by
        refine le_antisymm ?_ h1
        have h3 : (2 : ℚ) ^ e ≤ 2 ^ ((k : ℤ) - 53) := zpow_le_zpow_right₀ (by norm_num) (by omega)
        have h4 : (2 : ℚ) ^ 53 * 2 ^ ((k : ℤ) - 53) = 2 ^ k := by
          rw [← zpow_natCast, ← zpow_natCast, ← zpow_add₀ (by norm_num)]; congr 1; push_cast; ring
        have h5 : (m : ℚ) ≤ 2 ^ 53 := by exact_mod_cast hm2
        rw [hjd, ← h4]
        exact mul_le_mul h5 h3 hpe.le (by positivity)
      refine ⟨2 ^ (k + 1) + 1, -1, ?_, by norm_num, ?_⟩
      · have : (2 : ℤ) ^ (k + 1) ≤ 2 ^ 52 := pow_le_pow_right₀ (by norm_num) (by omega)
        have h3 : (0 : ℤ) < 2 ^ (k + 1) := by positivity
        rw [abs_le]; omega
      · rw [hjk]; push_cast; rw [pow_succ]; norm_num; ring

/-- A fraction of a rounded number stays exact when moved to a smaller integer. -/
theorem isF64_day {s : ℚ} (hF : IsF64 s) (d : ℤ) (hd : 0 ≤ d) (hd' : d ≤ 31) (hds : (d : ℚ) + 1 ≤ s) :
    IsF64 ((d : ℚ) + Int.fract s) := by
  obtain ⟨m, e, hm, he, hs⟩ := hF
  have hd0 : (0 : ℚ) ≤ d := by exact_mod_cast hd
  have hf0 := Int.fract_nonneg s
  have hf1 := Int.fract_lt_one s
  rcases le_or_gt 0 e with h0 | h0
  · obtain ⟨k, rfl⟩ := Int.eq_ofNat_of_zero_le h0
    have : s = ((m * 2 ^ k : ℤ) : ℚ) := by rw [hs, zpow_natCast]; push_cast; ring
    rw [this, Int.fract_intCast, add_zero]
    exact isF64_int (by rw [abs_le]; omega)
  · obtain ⟨k, hk⟩ := Int.eq_ofNat_of_zero_le (show 0 ≤ -e by omega)
    have ek : e = -(k : ℤ) := by omega
    have hpq : (0 : ℚ) < 2 ^ k := by positivity
    have hz : s = (m : ℚ) / 2 ^ k := by rw [hs, ek, zpow_neg, zpow_natCast, div_eq_mul_inv]
    have e1 : (d : ℚ) + Int.fract s = ((d * 2 ^ k + (m - ⌊s⌋ * 2 ^ k) : ℤ) : ℚ) / 2 ^ k := by
      rw [← Int.self_sub_floor]
      push_cast
      rw [eq_div_iff hpq.ne']
      have : s * 2 ^ k = m := by rw [hz]; field_simp
      linear_combination this
    rw [e1]
    apply isF64_dyadic k (by omega)
    have hle : (d : ℚ) + Int.fract s ≤ s := by linarith
    have hle2 : ((d * 2 ^ k + (m - ⌊s⌋ * 2 ^ k) : ℤ) : ℚ) / 2 ^ k ≤ (m : ℚ) / 2 ^ k := by
      rw [← e1, ← hz]; exact hle
    rw [div_le_div_iff_of_pos_right hpq] at hle2
    have hle' : (d * 2 ^ k + (m - ⌊s⌋ * 2 ^ k) : ℤ) ≤ m := by exact_mod_cast hle2
    have hge : 0 ≤ (d : ℚ) + Int.fract s := by linarith
    rw [e1, le_div_iff₀ hpq, zero_mul] at hge
    have hge' : 0 ≤ (d * 2 ^ k + (m - ⌊s⌋ * 2 ^ k) : ℤ) := by exact_mod_cast hge
    have := (abs_le.mp hm).2
    rw [abs_le]; omega

end Verif
