import Verif.Props.LowSunAccuracy
import Verif.Props.LowSunRadius
import Verif.Props.FloatMisc

/-!
# C101: accuracy of the low precision longitude of the Sun, binary64

Every rounding and library of C87.
-/

namespace Verif
open Real

/-- C101: the computed low precision longitude against the complete theory. -/
theorem low_longitude_accuracy_float {fl : ℚ → ℚ} (hf : FloatLike fl) {lib : NumLib} {D : ℕ} (hl : lib.Good fl D) (jd : ℚ) :
    ∃ L B R, sunDimension3 vsopDict [(jd : ℝ)] = .ok (.scalar L, .scalar B, .scalar R) ∧
      (|centuries jd| ≤ 10 → TurnNear (longitudeRadiusLowF fl lib jd).1 L (deg 0.02081)) ∧
      (|centuries jd| ≤ 20 → TurnNear (longitudeRadiusLowF fl lib jd).1 L (deg 0.02591)) := by
  obtain ⟨L, B, R, hv, k, h1, h2⟩ := low_longitude_accuracy jd
  obtain ⟨-, ⟨n, hn⟩, -⟩ := longitude_radius_low_value jd
  refine ⟨L, B, R, hv, ?_, ?_⟩
  all_goals
    intro h
    obtain ⟨-, ⟨m, hm⟩, -⟩ := longitude_radius_low_float hf hl jd (h.trans (by norm_num))
    refine ⟨m - n - k, ?_⟩
  · have h1 := h1 h
    rw [show ((longitudeRadiusLowF fl lib jd).1 : ℝ) - (L + ((m - n - k : ℤ) : ℝ) * (2 * π)) =
      (((longitudeRadiusLowF fl lib jd).1 : ℝ) - (deg (lowLongitude (centuries jd) + lowCenter (centuries jd)) + m * (2 * π))) +
      ((longitudeRadiusLow jd).1 - L + k * (2 * π)) by rw [hn]; push_cast; ring]
    refine (abs_add_le _ _).trans ((add_le_add hm h1).trans ?_)
    have p := Real.pi_gt_three
    unfold deg; norm_num; linarith
  · have h2 := h2 h
    rw [show ((longitudeRadiusLowF fl lib jd).1 : ℝ) - (L + ((m - n - k : ℤ) : ℝ) * (2 * π)) =
      (((longitudeRadiusLowF fl lib jd).1 : ℝ) - (deg (lowLongitude (centuries jd) + lowCenter (centuries jd)) + m * (2 * π))) +
      ((longitudeRadiusLow jd).1 - L + k * (2 * π)) by rw [hn]; push_cast; ring]
    refine (abs_add_le _ _).trans ((add_le_add hm h2).trans ?_)
    have p := Real.pi_gt_three
    unfold deg; norm_num; linarith

/-- C101, negated for the documented accuracy: the computed longitude of 2061 May 13, 0h, is more than 0.01024 degree off. -/
theorem low_longitude_documented_accuracy_false_float {fl : ℚ → ℚ} (hf : FloatLike fl) {lib : NumLib} {D : ℕ} (hl : lib.Good fl D) :
    ∃ L B R, sunDimension3 vsopDict [2473957.5] = .ok (.scalar L, .scalar B, .scalar R) ∧
      ∀ j : ℤ, deg 0.01024 < |((longitudeRadiusLowF fl lib 2473957.5).1 : ℝ) - L + j * (2 * π)| := by
  obtain ⟨L, B, R, hv, -, h1, h2, -⟩ := low_longitude_documented_accuracy_false
  refine ⟨L, B, R, hv, ?_⟩
  have ej : ((2473957.5 : ℚ) : ℝ) = 2473957.5 := by norm_num
  obtain ⟨-, ⟨k, hk⟩, -⟩ := longitude_radius_low_float hf hl 2473957.5 (by rw [ej]; unfold centuries; norm_num [abs_le])
  obtain ⟨-, ⟨n, hn⟩, -⟩ := longitude_radius_low_value 2473957.5
  rw [ej] at hk
  intro j
  have p := Real.pi_gt_three
  have e : ((longitudeRadiusLowF fl lib 2473957.5).1 : ℝ) - L + j * (2 * π) =
      (((longitudeRadiusLowF fl lib 2473957.5).1 : ℝ) - (deg (lowLongitude (centuries 2473957.5) + lowCenter (centuries 2473957.5)) +
        k * (2 * π))) + ((longitudeRadiusLow 2473957.5).1 - L) + ((k - n + j : ℤ) : ℝ) * (2 * π) := by
    rw [hn]; push_cast; ring
  rw [e]
  generalize ((longitudeRadiusLowF fl lib 2473957.5).1 : ℝ) - (deg (lowLongitude (centuries 2473957.5) +
    lowCenter (centuries 2473957.5)) + k * (2 * π)) = a at *
  generalize (longitudeRadiusLow 2473957.5).1 - L = b at *
  generalize k - n + j = m
  obtain ⟨a0, a1⟩ := abs_le.1 hk
  have b2 : b < 0.001 := h2.trans (by have := pi_lt_d2; unfold deg; norm_num at this ⊢; linarith)
  have b1 : deg 0.01024 + 5e-11 < b := lt_trans (by unfold deg; norm_num; linarith) h1
  have d : deg 0.01024 < 0.001 := by have := pi_lt_d2; unfold deg; norm_num at this ⊢; linarith
  have d0 : 0 < deg 0.01024 := by unfold deg; positivity
  norm_num at a0 a1 b2 d b1
  rw [lt_abs]
  rcases lt_trichotomy m 0 with hm | hm | hm
  · right
    have : (m : ℝ) ≤ -1 := by exact_mod_cast (by omega : m ≤ -1)
    nlinarith
  · left; rw [hm]; push_cast; linarith
  · left
    have : (1 : ℝ) ≤ m := by exact_mod_cast (by omega : 1 ≤ m)
    nlinarith

example : |centuries ((2473957.5 : ℚ) : ℝ)| ≤ 10 := by unfold centuries; norm_num [abs_le]

/-- C101: the computed low precision distance against the complete theory. -/
theorem low_radius_accuracy_float {fl : ℚ → ℚ} (hf : FloatLike fl) {lib : NumLib} {D : ℕ} (hl : lib.Good fl D) (jd : ℚ) :
    ∃ L B R, sunDimension3 vsopDict [(jd : ℝ)] = .ok (.scalar L, .scalar B, .scalar R) ∧
      (|centuries jd| ≤ 10 → |((longitudeRadiusLowF fl lib jd).2 : ℝ) - R| ≤ 0.000165) ∧
      (|centuries jd| ≤ 20 → |((longitudeRadiusLowF fl lib jd).2 : ℝ) - R| ≤ 0.000173) := by
  obtain ⟨L, B, R, hv, h1, h2⟩ := low_radius_accuracy jd
  refine ⟨L, B, R, hv, ?_, ?_⟩
  all_goals
    intro h
    obtain ⟨-, -, hr⟩ := longitude_radius_low_float hf hl jd (h.trans (by norm_num))
    rw [← (longitude_radius_low_value jd).2.2] at hr
  · refine (abs_sub_le _ _ _).trans ((add_le_add hr (h1 h)).trans ?_)
    norm_num
  · refine (abs_sub_le _ _ _).trans ((add_le_add hr (h2 h)).trans ?_)
    norm_num

end Verif
