import Verif.Lemmas.Float
import Verif.Model.Calendar
import Verif.Model.FloatSun

/-!
# C81: `jd_to_jcent`

The specification is the definition of the Julian century: 36525 days, counted from JD 2451545.
-/

namespace Verif

/-- `T` is the number of Julian centuries between J2000 and the Julian Day `jd`. -/
def IsCenturies (jd T : ℚ) : Prop := jd = 2451545 + 36525 * T

/-- C81: in exact arithmetic. -/
theorem jd_to_jcent_exact (jd T : ℚ) : jdToJcent1 id jd = T ↔ IsCenturies jd T := by
  unfold jdToJcent1 IsCenturies
  simp only [id]
  rw [div_eq_iff (by norm_num)]
  constructor <;> intro h <;> linarith

/-- C81: later days never get a smaller number. -/
theorem jd_to_jcent_mono {fl : ℚ → ℚ} (hf : FloatLike fl) : Monotone (jdToJcent1 fl) := by
  intro a b h
  unfold jdToJcent1
  refine hf.mono (div_le_div_of_nonneg_right (hf.mono ?_) (by norm_num))
  linarith

/-- C81: two roundings: the relative error is at most `2.3e-16`. -/
theorem jd_to_jcent_float {fl : ℚ → ℚ} (hf : FloatLike fl) {jd T : ℚ} (h : IsCenturies jd T) :
    |jdToJcent1 fl jd - T| ≤ 2.3e-16 * |T| + 1 / 2 ^ 1073 := by
  have e : jd - 2451545 = 36525 * T := by unfold IsCenturies at h; linarith
  unfold jdToJcent1
  rw [e]
  have a := hf.err (36525 * T)
  have b := hf.err (fl (36525 * T) / 36525)
  rw [abs_mul, abs_of_pos (by norm_num : (0 : ℚ) < 36525)] at a
  generalize fl (fl (36525 * T) / 36525) = V at *
  generalize fl (36525 * T) = U at *
  have d : |U / 36525 - T| ≤ (36525 * |T| / 2 ^ 53 + 1 / 2 ^ 1074) / 36525 := by
    rw [show U / 36525 - T = (U - 36525 * T) / 36525 by ring, abs_div, abs_of_pos (by norm_num : (0 : ℚ) < 36525)]
    exact div_le_div_of_nonneg_right a (by norm_num)
  have u : |U / 36525| ≤ |U / 36525 - T| + |T| := by
    have := abs_add_le (U / 36525 - T) T
    rwa [sub_add_cancel] at this
  have t := abs_sub_le V (U / 36525) T
  have q := abs_nonneg T
  generalize |U / 36525 - T| = D at *
  generalize |U / 36525| = W at *
  have two : (1 : ℚ) / 2 ^ 1073 = 2 * (1 / 2 ^ 1074) := by
    rw [show (2 : ℚ) ^ 1074 = 2 ^ 1073 * 2 from pow_succ _ _]; field_simp
  have w0 : (0 : ℚ) < 1 / 2 ^ 1074 := by positivity
  rw [two]
  generalize (1 : ℚ) / 2 ^ 1074 = w at *
  clear two
  norm_num at t u a d b ⊢
  linarith

/-- C81: whole centuries are exact. -/
theorem jd_to_jcent_whole {fl : ℚ → ℚ} (hf : FloatLike fl) (k : ℤ) (hk : |k| ≤ 2 ^ 37) :
    jdToJcent1 fl (2451545 + 36525 * k) = k := by
  have i : ∀ m : ℤ, |m| ≤ 2 ^ 53 → fl m = m := fun m hm => hf.fix _ ⟨m, 0, hm, by norm_num, by simp⟩
  have h1 := i (36525 * k) (by
    rw [abs_mul, abs_of_pos (by norm_num : (0 : ℤ) < 36525)]; omega)
  have h2 := i k (by omega)
  unfold jdToJcent1
  rw [show (2451545 : ℚ) + 36525 * k - 2451545 = ((36525 * k : ℤ) : ℚ) by push_cast; ring, h1,
    show ((36525 * k : ℤ) : ℚ) / 36525 = k by push_cast; field_simp, h2]

/-- C81: for every float between JD 1048576 and JD 4548697 (about the years -1842 to 7740) the subtraction is exact, so that the result is
the float nearest to the number of centuries. -/
theorem jd_to_jcent_nearest {fl : ℚ → ℚ} (hf : Rounding fl) {jd T : ℚ} (h : IsCenturies jd T) (hj : IsF64 jd)
    (h1 : 2 ^ 20 ≤ jd) (h2 : jd ≤ 4548697) :
    IsF64 (jdToJcent1 fl jd) ∧ ∀ y, IsF64 y → |jdToJcent1 fl jd - T| ≤ |y - T| := by
  have g : ∃ m : ℤ, jd = m / 2 ^ 32 := by
    obtain ⟨m, e, m1, -, rfl⟩ := hj
    rcases le_or_gt (-32) e with he | he
    · obtain ⟨n, rfl⟩ : ∃ n : ℕ, e = n - 32 := ⟨(e + 32).toNat, by omega⟩
      refine ⟨m * 2 ^ n, ?_⟩
      rw [zpow_sub₀ (by norm_num), zpow_natCast]
      push_cast
      norm_num
      ring
    · have le : (2 : ℚ) ^ e ≤ 2 ^ (-33 : ℤ) := zpow_le_zpow_right₀ (by norm_num) (by omega)
      have m2 : (m : ℚ) ≤ 2 ^ 53 := by exact_mod_cast (le_abs_self m).trans m1
      have p0 : (0 : ℚ) < 2 ^ e := by positivity
      have k1 : (m : ℚ) * 2 ^ e ≤ 2 ^ 53 * 2 ^ (-33 : ℤ) := mul_le_mul m2 le p0.le (by norm_num)
      refine ⟨2 ^ 52, le_antisymm (k1.trans (by norm_num)) (le_trans (by norm_num) h1)⟩
  obtain ⟨m, rfl⟩ := g
  have ex : fl (m / 2 ^ 32 - 2451545) = m / 2 ^ 32 - 2451545 := by
    refine hf.fix _ ⟨m - 2451545 * 2 ^ 32, -32, ?_, by norm_num, ?_⟩
    · rw [le_div_iff₀ (by norm_num)] at h1
      rw [div_le_iff₀ (by norm_num)] at h2
      have h1' : (2 ^ 20 * 2 ^ 32 : ℤ) ≤ m := by exact_mod_cast h1
      have h2' : m ≤ 4548697 * 2 ^ 32 := by exact_mod_cast h2
      rw [abs_le]; omega
    · push_cast
      rw [zpow_neg]
      norm_num
      ring
  have t : (m / 2 ^ 32 - 2451545 : ℚ) / 36525 = T := by
    unfold IsCenturies at h; rw [div_eq_iff (by norm_num)]; linarith
  unfold jdToJcent1
  rw [ex, t]
  exact ⟨hf.rep _, fun y hy => hf.nearest _ y hy⟩

/-- C81: the models of the trigonometric part use the same function. -/
theorem jcentF_eq (fl : ℚ → ℚ) : jcentF fl = jdToJcent1 fl := rfl

/-- J2000 is the start, and 1900 January 0.5 a century before. -/
example : jdToJcent1 rne 2451545 = 0 ∧ jdToJcent1 rne 2415020 = -1 := by
  have a := jd_to_jcent_whole rounding_rne.floatLike 0 (by norm_num)
  have b := jd_to_jcent_whole rounding_rne.floatLike (-1) (by norm_num)
  norm_num at a b
  exact ⟨a, b⟩

example : IsF64 2448976.5 ∧ (2 : ℚ) ^ 20 ≤ 2448976.5 ∧ IsCenturies 2448976.5 (-5137 / 73050) :=
  ⟨⟨4897953, -1, by norm_num, by norm_num, by norm_num⟩, by norm_num, by unfold IsCenturies; norm_num⟩

end Verif
