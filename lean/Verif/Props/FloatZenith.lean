import Verif.Props.FloatCoord

/-!
# C79: a star in the zenith

The exclusion of the poles in C79 is needed: for correctly rounded cosines the altitude of a star in the
zenith can be nan.
-/

namespace Verif
open Real

/-- `X` is the binary64 number nearest to `x`. -/
def IsNearest (X : ℚ) (x : ℝ) : Prop := IsF64 X ∧ ∀ f : ℚ, IsF64 f → |(X : ℝ) - x| ≤ |(f : ℝ) - x|

/-- Binary64 numbers between a half and one are multiples of `2^-53`. -/
theorem isF64_grid {X : ℚ} (h : IsF64 X) (h1 : 1 / 2 < X) : ∃ n : ℤ, X = n / 2 ^ 53 := by
  obtain ⟨m, e, hm, -, rfl⟩ := h
  by_cases he : -53 ≤ e
  · obtain ⟨k, hk⟩ := Int.eq_ofNat_of_zero_le (show 0 ≤ e + 53 by omega)
    refine ⟨m * 2 ^ k, ?_⟩
    have : e = (k : ℤ) - 53 := by omega
    rw [this, zpow_sub₀ (by norm_num), zpow_natCast]
    push_cast
    norm_num
    ring
  · exfalso
    have h2 : (2 : ℚ) ^ e ≤ 2 ^ (-54 : ℤ) := zpow_le_zpow_right₀ (by norm_num) (by omega)
    have h3 : (m : ℚ) ≤ 2 ^ 53 := by
      have := (le_abs_self m).trans hm
      exact_mod_cast this
    have h4 : (m : ℚ) * 2 ^ e ≤ 2 ^ 53 * 2 ^ (-54 : ℤ) :=
      mul_le_mul h3 h2 (zpos _).le (by norm_num)
    norm_num at h4
    linarith

/-- The latitude and declination of the example, a binary64 number of about 1.7 minutes of arc. -/
def zenithLat : ℚ := 1039 / 2 ^ 21

theorem zenithLat_f64 : IsF64 zenithLat := ⟨1039, -21, by norm_num, by norm_num, by unfold zenithLat; norm_num⟩

theorem zenith_sin : |sin (zenithLat : ℝ) - (zenithLat - zenithLat ^ 3 / 6)| ≤ 1e-18 ∧
    |sin ((zenithLat : ℝ) / 2) - (zenithLat / 2 - (zenithLat / 2) ^ 3 / 6)| ≤ 1e-18 := by
  have h1 : |(zenithLat : ℝ)| ≤ 1 := by unfold zenithLat; push_cast; rw [abs_of_pos (by norm_num)]; norm_num
  have h2 : |(zenithLat : ℝ) / 2| ≤ 1 := by unfold zenithLat; push_cast; rw [abs_of_pos (by norm_num)]; norm_num
  refine ⟨(Real.sin_bound h1).trans ?_, (Real.sin_bound h2).trans ?_⟩ <;>
  · unfold zenithLat; push_cast; rw [abs_of_pos (by norm_num)]; norm_num

/-- The cosine, in units of `2^-53`. -/
theorem zenith_cos : |cos (zenithLat : ℝ) - 9007198149311510.61107 / 2 ^ 53| ≤ 1e-20 := by
  have e : cos (zenithLat : ℝ) = 1 - 2 * sin ((zenithLat : ℝ) / 2) ^ 2 := by
    have h := Real.cos_two_mul ((zenithLat : ℝ) / 2)
    rw [mul_div_cancel₀ _ (two_ne_zero' ℝ)] at h
    have := Real.sin_sq_add_cos_sq ((zenithLat : ℝ) / 2)
    linarith
  obtain ⟨h1, h2⟩ := abs_le.mp zenith_sin.2
  rw [e]
  generalize sin ((zenithLat : ℝ) / 2) = s at *
  unfold zenithLat at h1 h2
  push_cast at h1 h2
  norm_num at h1 h2
  rw [abs_le]
  norm_num
  constructor <;> nlinarith

/-- C79: for every rounding to nearest and every library whose cosine is correctly rounded, the altitude
of a star which culminates in the zenith at latitude `zenithLat` comes out as nan instead of a right
angle. -/
theorem equ_to_horiz_zenith_nan {fl : ℚ → ℚ} (hf : Rounding fl) {lib : TrigLib} {N : ℕ} (hl : lib.Good fl N)
    (hc : IsNearest (lib.cosF zenithLat) (cos zenithLat)) (hc0 : IsNearest (lib.cosF 0) 1) :
    (equToHoriz zenithLat 0 zenithLat).2 = π / 2 ∧ (equToHorizF fl lib zenithLat 0 zenithLat).2 = none := by
  constructor
  · unfold equToHoriz
    simp only [cos_zero, mul_one]
    have : sin (zenithLat : ℝ) * sin zenithLat + cos (zenithLat : ℝ) * cos zenithLat = 1 := by
      have := Real.sin_sq_add_cos_sq (zenithLat : ℝ)
      linarith [this, sq (sin (zenithLat : ℝ)), sq (cos (zenithLat : ℝ))]
    rw [this, Real.arcsin_one]
  -- the cosines
  have c0 : lib.cosF 0 = 1 := by
    have := hc0.2 1 ⟨1, 0, by norm_num, by norm_num, by norm_num⟩
    rw [Rat.cast_one, sub_self, abs_zero] at this
    have := abs_nonpos_iff.mp this
    have : (lib.cosF 0 : ℝ) = 1 := by linarith
    exact_mod_cast this
  have c1 : lib.cosF zenithLat = 9007198149311511 / 2 ^ 53 := by
    have f : IsF64 (9007198149311511 / 2 ^ 53) := ⟨9007198149311511, -53, by norm_num, by norm_num, by norm_num⟩
    have h1 := hc.2 _ f
    obtain ⟨a1, a2⟩ := abs_le.mp zenith_cos
    have h2 : |((9007198149311511 / 2 ^ 53 : ℚ) : ℝ) - cos (zenithLat : ℝ)| ≤ 0.39 / 2 ^ 53 := by
      push_cast
      rw [abs_le]
      norm_num at a1 a2 ⊢
      constructor <;> linarith
    obtain ⟨b1, b2⟩ := abs_le.mp (h1.trans h2)
    have half : (1 / 2 : ℚ) < lib.cosF zenithLat := by
      have : (1 / 2 : ℝ) < lib.cosF zenithLat := by norm_num at a1 a2 b1 b2 ⊢; linarith
      rw [← Rat.cast_lt (K := ℝ)]; push_cast; exact this
    obtain ⟨n, hn⟩ := isF64_grid hc.1 half
    rw [hn] at b1 b2 ⊢
    push_cast at b1 b2
    have n1 : (9007198149311510 : ℝ) < n := by norm_num at a1 a2 b1 b2 ⊢; linarith
    have n2 : (n : ℝ) < 9007198149311512 := by norm_num at a1 a2 b1 b2 ⊢; linarith
    have n1' : (9007198149311510 : ℤ) < n := by exact_mod_cast n1
    have n2' : n < (9007198149311512 : ℤ) := by exact_mod_cast n2
    have : n = 9007198149311511 := by omega
    rw [this]; norm_num
  -- the squares
  have q1 : fl (lib.cosF zenithLat * lib.cosF zenithLat) = 9007197043882166 / 2 ^ 53 := by
    rw [c1, hf.eq_of_close _ 9007197043882166 (-53) (by norm_num) (by norm_num) (by norm_num)
      (by norm_num [abs_lt])]
    norm_num
  have q2 : fl (9007197043882166 / 2 ^ 53 * lib.cosF 0) = 9007197043882166 / 2 ^ 53 := by
    rw [c0, mul_one]
    exact hf.fix _ ⟨9007197043882166, -53, by norm_num, by norm_num, by norm_num⟩
  have s1 : (1 : ℝ) + 1.05 / 2 ^ 53 - 9007197043882166 / 2 ^ 53 ≤
      fl (lib.sinF zenithLat * lib.sinF zenithLat) := by
    have h1 := abs_le.mp (hl.num.sin zenithLat)
    have h2 := abs_le.mp zenith_sin.1
    have h3 := hf.floatLike.errR (lib.sinF zenithLat * lib.sinF zenithLat)
    rw [uuR, wwR] at h3
    push_cast at h3
    rw [abs_of_nonneg (mul_self_nonneg (lib.sinF zenithLat : ℝ))] at h3
    have h3 := (abs_le.mp h3).1
    generalize (lib.sinF zenithLat : ℝ) = S at *
    generalize sin (zenithLat : ℝ) = s at *
    generalize (fl (lib.sinF zenithLat * lib.sinF zenithLat) : ℝ) = Q at *
    unfold zenithLat at h2
    push_cast at h2
    norm_num at h1 h2 h3 ⊢
    have lo : (0.00049543378710428 : ℝ) ≤ S := by norm_num; linarith [h1.1, h1.2, h2.1, h2.2]
    nlinarith
  -- the sum
  have big : 1 < fl (fl (lib.sinF zenithLat * lib.sinF zenithLat) +
      fl (fl (lib.cosF zenithLat * lib.cosF zenithLat) * lib.cosF 0)) := by
    rw [q1, q2]
    have s1' : (1 : ℚ) + 1.05 / 2 ^ 53 - 9007197043882166 / 2 ^ 53 ≤
        fl (lib.sinF zenithLat * lib.sinF zenithLat) := by
      rw [← Rat.cast_le (K := ℝ)]; push_cast; exact s1
    generalize fl (lib.sinF zenithLat * lib.sinF zenithLat) = Q at *
    have lo : 1 + 1.05 / 2 ^ 53 ≤ Q + 9007197043882166 / 2 ^ 53 := by linarith
    have mono := hf.mono lo
    refine lt_of_lt_of_le ?_ mono
    rw [hf.eq_of_close (1 + 1.05 / 2 ^ 53) (2 ^ 52 + 1) (-52) (by norm_num) (by norm_num) (by norm_num)
      (by norm_num [abs_lt])]
    norm_num
  unfold equToHorizF
  simp only
  refine hl.asin_nan _ ?_
  rw [abs_of_pos (by linarith)]
  exact big

/-- Such libraries exist. -/
theorem zenith_lib_exists (fl : ℚ → ℚ) (D : ℕ) (h : ∃ lib : TrigLib, lib.Good fl D) :
    ∃ lib : TrigLib, lib.Good fl D ∧ IsNearest (lib.cosF zenithLat) (cos zenithLat) ∧ IsNearest (lib.cosF 0) 1 := by
  obtain ⟨lib, hl⟩ := h
  have z : zenithLat ≠ 0 := by unfold zenithLat; norm_num
  obtain ⟨a1, a2⟩ := abs_le.mp zenith_cos
  have d : |((9007198149311511 / 2 ^ 53 : ℚ) : ℝ) - cos (zenithLat : ℝ)| ≤ 0.39 / 2 ^ 53 := by
    push_cast
    rw [abs_le]
    norm_num at a1 a2 ⊢
    constructor <;> linarith
  refine ⟨{ lib with cosF := (fun x => if x = zenithLat then 9007198149311511 / 2 ^ 53 else
      if x = 0 then 1 else lib.cosF x) }, ⟨⟨fun x => ?_, hl.num.sin, hl.num.tan, hl.num.sum⟩, hl.tanG, hl.atan2, hl.atan2_range,
      hl.asin, hl.asin_nan⟩, ?_, ?_⟩
  · dsimp only
    split_ifs with h1 h2
    · subst h1; exact d.trans (by norm_num)
    · subst h2; norm_num
    · exact hl.num.cos x
  · simp only [if_true]
    refine ⟨⟨9007198149311511, -53, by norm_num, by norm_num, by norm_num⟩, fun f hf => ?_⟩
    by_cases hh : 1 / 2 < f
    · obtain ⟨n, rfl⟩ := isF64_grid hf hh
      rcases lt_trichotomy n 9007198149311511 with h1 | h1 | h1
      · have h2 : (n : ℝ) ≤ 9007198149311510 := by exact_mod_cast (show n ≤ 9007198149311510 by omega)
        refine d.trans (le_trans ?_ (neg_le_abs _))
        push_cast
        norm_num at a1 a2 ⊢; linarith
      · subst h1; push_cast; exact le_rfl
      · have h2 : (9007198149311512 : ℝ) ≤ n := by exact_mod_cast (show 9007198149311512 ≤ n by omega)
        refine d.trans (le_trans ?_ (le_abs_self _))
        push_cast
        norm_num at a1 a2 ⊢; linarith
    · have h2 : (f : ℝ) ≤ 1 / 2 := by
        have := (Rat.cast_le (K := ℝ)).mpr (not_lt.mp hh)
        push_cast at this; exact this
      refine d.trans (le_trans ?_ (neg_le_abs _))
      norm_num at a1 a2 ⊢; linarith
  · simp only [if_neg z.symm, if_true]
    exact ⟨⟨1, 0, by norm_num, by norm_num, by norm_num⟩, fun f _ => by norm_num⟩

example : ∃ lib : TrigLib, lib.Good rne 64 ∧ IsNearest (lib.cosF zenithLat) (cos zenithLat) ∧
    IsNearest (lib.cosF 0) 1 :=
  zenith_lib_exists rne 64 (trigLib_exists 64 (halfSum rne 64) rne fun l h =>
    halfSum_flSum rne 64 l (h.trans (by norm_num)))

end Verif
