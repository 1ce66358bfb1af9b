import Verif.Lemmas.PoissonJet
import Verif.Lemmas.Equinox

/-!
# Lemmas about the longitude of the Earth within a day of a given time
-/

namespace Verif
open Real

theorem millennia_add (jd n : ℝ) : millennia (jd + n) = millennia jd + n / 365250 := by unfold millennia; ring

theorem millennia_day {jd n : ℝ} (h : |millennia jd| ≤ 5.9) (hn : |n| ≤ 1) : |millennia (jd + n)| ≤ 6 := by
  rw [millennia_add]
  obtain ⟨a, b⟩ := abs_le.mp h
  obtain ⟨c, d⟩ := abs_le.mp hn
  norm_num at a b
  rw [abs_le]; constructor <;> linarith

theorem earthL_acc : pAcc1 6 Data.earthL ≤ 66100 * 10 ^ 21 ∧ pAcc2 6 Data.earthL ≤ 2380000 * 10 ^ 33 ∧
    pAcc3 6 Data.earthL ≤ 41100 * 10 ^ 50 := by decide +kernel

/-- The longitude of the Earth is nearly a parabola from the day before to the day after. -/
theorem earthL_day {jd : ℝ} (h : |millennia jd| ≤ 5.9) :
    ∃ v q, Parab (fun n => poisson Data.earthL (millennia (jd + n))) v q 1.5e-7 ∧ |v| ≤ 0.0181 ∧ |q| ≤ 9e-6 ∧
      ∀ n, |n| ≤ 1 → |poisson Data.earthL (millennia (jd + n)) - poisson Data.earthL (millennia (jd + 0))| ≤ 0.0181 := by
  set t := millennia jd with ht
  have six : ∀ x, |x - t| ≤ 1 / 365250 → |x| ≤ ((6 : ℕ) : ℝ) := by
    intro x hx
    obtain ⟨a, b⟩ := abs_le.mp h
    obtain ⟨c, d⟩ := abs_le.mp hx
    norm_num at a b
    push_cast
    rw [abs_le]; constructor <;> linarith
  obtain ⟨k1, k2, k3⟩ := earthL_acc
  have r1 : (pAcc1 6 Data.earthL : ℝ) ≤ (66100 * 10 ^ 21 : ℕ) := by exact_mod_cast k1
  have r2 : (pAcc2 6 Data.earthL : ℝ) ≤ (2380000 * 10 ^ 33 : ℕ) := by exact_mod_cast k2
  have r3 : (pAcc3 6 Data.earthL : ℝ) ≤ (41100 * 10 ^ 50 : ℕ) := by exact_mod_cast k3
  have b1 : |pval1 Data.earthL t| ≤ 6610 := by
    refine (pval1_abs Data.earthL (six t (by simp))).trans ?_
    rw [div_le_iff₀ (by positivity)]; exact r1.trans (by norm_num)
  have b2 : |pval2 Data.earthL t| ≤ 2380000 := by
    refine (pval2_abs Data.earthL (six t (by simp))).trans ?_
    rw [div_le_iff₀ (by positivity)]; exact r2.trans (by norm_num)
  have b3 : ∀ x, |x - t| ≤ 1 / 365250 → |pval3 Data.earthL x| ≤ 41100000000 := by
    intro x hx
    refine (pval3_abs Data.earthL (six x hx)).trans ?_
    rw [div_le_iff₀ (by positivity)]; exact r3.trans (by norm_num)
  refine ⟨pval1 Data.earthL t / 365250, pval2 Data.earthL t / 2 / 365250 ^ 2, ?_, ?_, ?_, ?_⟩
  · intro n hn
    have hh : |n / 365250| ≤ 1 / 365250 := by
      rw [abs_div, abs_of_pos (by norm_num : (0 : ℝ) < 365250)]; gcongr
    have y := taylor2 (x0 := t) (fun x _ => pval_deriv Data.earthL x) (fun x _ => pval1_deriv Data.earthL x)
      (fun x _ => pval2_deriv Data.earthL x) b3 hh
    simp only [millennia_add, ← ht, poisson_eq_pval]
    rw [zero_div, add_zero]
    have c : |n / 365250| ^ 3 ≤ (1 / 365250) ^ 3 := by gcongr
    refine le_trans (le_of_eq ?_) (y.trans ?_)
    · congr 1; ring
    · generalize |n / 365250| ^ 3 = w at *
      norm_num at c ⊢
      linarith
  · rw [abs_div, abs_of_pos (by norm_num : (0 : ℝ) < 365250), div_le_iff₀ (by norm_num)]
    norm_num; linarith
  · rw [abs_div, abs_div, abs_of_pos (by norm_num : (0 : ℝ) < 2), abs_of_pos (by norm_num : (0 : ℝ) < 365250 ^ 2),
      div_le_iff₀ (by norm_num), div_le_iff₀ (by norm_num)]
    norm_num; linarith
  · intro n hn
    have e := (earth6 (millennia (jd + n)) (millennia (jd + 0)) (millennia_day h hn)
      (millennia_day h (by norm_num))).1
    have d : millennia (jd + n) - millennia (jd + 0) = n / 365250 := by rw [millennia_add, millennia_add]; ring
    rw [d, abs_div, abs_of_pos (by norm_num : (0 : ℝ) < 365250)] at e
    obtain ⟨n1, n2⟩ := abs_le.mp hn
    obtain ⟨e1, e2⟩ := abs_le.mp e
    norm_num at e1 e2 ⊢
    rw [abs_le]; constructor <;> linarith

end Verif
