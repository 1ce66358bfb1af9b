import Verif.Lemmas.EqLinOK
import Verif.Lemmas.PointEvent

/-!
# Events near the results of `equinox_approx`: one block
-/

namespace Verif
open Real

set_option exponentiation.threshold 500

theorem kSun_le : kSunMotion ≤ 58.132 := by
  rw [kSunMotion_eq, div_le_iff₀ (by positivity)]
  have := Real.pi_gt_d6
  norm_num at this ⊢; linarith

/-- Every event of a block lies within `δ` of the result. -/
theorem block_event {U H a b c d e z h : ℤ} {q : Lin} {T n : ℕ} {ex : List ℕ} {δ : ℝ}
    (hb : blockN U H q a b c d e z h T ex n = true) (hn : n ≤ 1024)
    (hq : ∀ j < n, LinOK q ((U + j * H) / 10 ^ 11)) (hp : ∀ j ∈ ex, HasPoint a b c d e z h j)
    (hx : ex = [] ∨ 0.001499995 ≤ δ) (hT : (T / 2 ^ 56 + 592000) / 10 ^ 11 * 58.132 ≤ 0.947 * δ) (hδ : δ ≤ 1)
    {j : ℕ} (hj : j < n) (hr : |h + 4 * (j : ℤ)| ≤ 20000) {jd : ℝ}
    (hjd : jd = ((((e * (z + j) + d) * (z + j) + c) * (z + j) + b) * (z + j) + a : ℤ) / 10 ^ 17 + 2451545) :
    |millennia (jd + equinoxCorrection jd)| ≤ 5.9 ∧
    ∃ x, |x - (jd + equinoxCorrection jd)| ≤ δ ∧ sunLambda x = (h + 4 * j : ℤ) * (π / 2) + π := by
  by_cases hm : j ∈ ex
  · obtain ⟨thr, m, u, s, ht, hh⟩ := hp j hm
    obtain ⟨h1, x, h2, h3⟩ := ptBlk_event ht hh hjd
    refine ⟨h1, x, h2.trans ?_, h3⟩
    rcases hx with rfl | hx
    · simp at hm
    · exact hx
  · have hr' : |((h + 4 * j : ℤ) : ℝ)| ≤ 20000 := by exact_mod_cast hr
    obtain ⟨h1, h2⟩ := block_lambda hb hn hq hj hm hr' hjd
    have e1 : (h + 4 * j : ℝ) = ((h + 4 * j : ℤ) : ℝ) := by push_cast; ring
    rw [e1] at h2
    refine ⟨h1, ?_⟩
    generalize ((T : ℝ) / 2 ^ 56 + 592000) / 10 ^ 11 = w at *
    have w1 : w ≤ 1 := by norm_num at hT; linarith
    obtain ⟨x, -, x2, x3⟩ := event_exists _ _ h1 (h2.trans (by have := pi_gt_three; linarith))
    refine ⟨x, x3.trans ?_, x2⟩
    rw [div_le_iff₀ (by norm_num)]
    refine (mul_le_mul kSun_le h2 (abs_nonneg _) (by norm_num)).trans ?_
    linarith

end Verif
