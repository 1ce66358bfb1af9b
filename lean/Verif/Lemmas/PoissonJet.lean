import Verif.Lemmas.Taylor2
import Verif.Lemmas.Poisson
import Mathlib.Analysis.SpecialFunctions.Trigonometric.Deriv

/-!
# Lemmas about Poisson series: derivatives, and the longitude of the Earth within a day
-/

namespace Verif
open Real

/-- The first three derivatives of a term. -/
noncomputable def term1 (r : Term) (t : ℝ) : ℝ :=
  -(r.1 / 10 ^ 11 * (r.2.2 / 10 ^ 11)) * sin (r.2.1 / 10 ^ 11 + r.2.2 / 10 ^ 11 * t)
noncomputable def term2 (r : Term) (t : ℝ) : ℝ :=
  -(r.1 / 10 ^ 11 * (r.2.2 / 10 ^ 11) ^ 2) * cos (r.2.1 / 10 ^ 11 + r.2.2 / 10 ^ 11 * t)
noncomputable def term3 (r : Term) (t : ℝ) : ℝ :=
  r.1 / 10 ^ 11 * (r.2.2 / 10 ^ 11) ^ 3 * sin (r.2.1 / 10 ^ 11 + r.2.2 / 10 ^ 11 * t)

theorem arg_deriv (r : Term) (t : ℝ) :
    HasDerivAt (fun t : ℝ => (r.2.1 : ℝ) / 10 ^ 11 + r.2.2 / 10 ^ 11 * t) ((r.2.2 : ℝ) / 10 ^ 11) t :=
  (((hasDerivAt_id t).const_mul ((r.2.2 : ℝ) / 10 ^ 11)).const_add _).congr_deriv (by ring)

theorem term_deriv (r : Term) (t : ℝ) : HasDerivAt (vsopTerm r) (term1 r t) t :=
  ((arg_deriv r t).cos.const_mul _).congr_deriv (by unfold term1; ring)
theorem term1_deriv (r : Term) (t : ℝ) : HasDerivAt (term1 r) (term2 r t) t :=
  ((arg_deriv r t).sin.const_mul _).congr_deriv (by unfold term2; ring)
theorem term2_deriv (r : Term) (t : ℝ) : HasDerivAt (term2 r) (term3 r t) t :=
  ((arg_deriv r t).cos.const_mul _).congr_deriv (by unfold term3; ring)

/-- Derivatives of a series. -/
noncomputable def series1 (s : List Term) (t : ℝ) : ℝ := (s.map fun r => term1 r t).sum
noncomputable def series2 (s : List Term) (t : ℝ) : ℝ := (s.map fun r => term2 r t).sum
noncomputable def series3 (s : List Term) (t : ℝ) : ℝ := (s.map fun r => term3 r t).sum

theorem map_sum_deriv (s : List Term) (f g : Term → ℝ → ℝ) (h : ∀ r t, HasDerivAt (f r) (g r t) t) (t : ℝ) :
    HasDerivAt (fun t => (s.map fun r => f r t).sum) ((s.map fun r => g r t).sum) t := by
  induction s with
  | nil => simpa using hasDerivAt_const t (0 : ℝ)
  | cons r s ih =>
    simp only [List.map_cons, List.sum_cons]
    exact (h r t).add ih

/-- Derivatives of a Poisson series. -/
noncomputable def pval1 : List (List Term) → ℝ → ℝ
  | [], _ => 0
  | s :: c, t => series1 s t + (pval c t + t * pval1 c t)
noncomputable def pval2 : List (List Term) → ℝ → ℝ
  | [], _ => 0
  | s :: c, t => series2 s t + (2 * pval1 c t + t * pval2 c t)
noncomputable def pval3 : List (List Term) → ℝ → ℝ
  | [], _ => 0
  | s :: c, t => series3 s t + (3 * pval2 c t + t * pval3 c t)

theorem pval_deriv (c : List (List Term)) (t : ℝ) : HasDerivAt (pval c) (pval1 c t) t := by
  induction c with
  | nil => exact hasDerivAt_const t (0 : ℝ)
  | cons s c ih =>
    have := (map_sum_deriv s _ _ term_deriv t).add ((hasDerivAt_id t).mul ih)
    exact this.congr_deriv (by simp [pval1, series1])

theorem pval1_deriv (c : List (List Term)) (t : ℝ) : HasDerivAt (pval1 c) (pval2 c t) t := by
  induction c with
  | nil => exact hasDerivAt_const t (0 : ℝ)
  | cons s c ih =>
    have := (map_sum_deriv s _ _ term1_deriv t).add ((pval_deriv c t).add ((hasDerivAt_id t).mul ih))
    exact this.congr_deriv (by simp [pval2, series2]; ring)

theorem pval2_deriv (c : List (List Term)) (t : ℝ) : HasDerivAt (pval2 c) (pval3 c t) t := by
  induction c with
  | nil => exact hasDerivAt_const t (0 : ℝ)
  | cons s c ih =>
    have := (map_sum_deriv s _ _ term2_deriv t).add
      (((pval1_deriv c t).const_mul 2).add ((hasDerivAt_id t).mul ih))
    exact this.congr_deriv (by simp [pval3, series3]; ring)

/-- Sums of amplitude times power of the frequency. -/
def accel (k : ℕ) : List Term → ℕ
  | [] => 0
  | r :: s => r.1 * r.2.2 ^ k + accel k s

theorem map_sum_abs (s : List Term) (f : Term → ℝ) (k : ℕ)
    (h : ∀ r, |f r| ≤ (r.1 * r.2.2 ^ k : ℕ) / 10 ^ (11 * (k + 1))) :
    |(s.map f).sum| ≤ accel k s / 10 ^ (11 * (k + 1)) := by
  induction s with
  | nil => simp [accel]
  | cons r s ih =>
    rw [List.map_cons, List.sum_cons, accel, Nat.cast_add, add_div]
    exact (abs_add_le _ _).trans (add_le_add (h r) ih)

theorem amp_sin (a x : ℝ) (h : 0 ≤ a) : |a * sin x| ≤ a := by
  rw [abs_mul, abs_of_nonneg h]; exact mul_le_of_le_one_right h (abs_sin_le_one x)
theorem amp_cos (a x : ℝ) (h : 0 ≤ a) : |a * cos x| ≤ a := by
  rw [abs_mul, abs_of_nonneg h]; exact mul_le_of_le_one_right h (abs_cos_le_one x)

theorem series1_abs (s : List Term) (t : ℝ) : |series1 s t| ≤ accel 1 s / 10 ^ 22 :=
  map_sum_abs s _ 1 fun r => by
    unfold term1
    rw [neg_mul, abs_neg]
    refine (amp_sin _ _ (by positivity)).trans (le_of_eq ?_)
    push_cast; ring
theorem series2_abs (s : List Term) (t : ℝ) : |series2 s t| ≤ accel 2 s / 10 ^ 33 :=
  map_sum_abs s _ 2 fun r => by
    unfold term2
    rw [neg_mul, abs_neg]
    refine (amp_cos _ _ (by positivity)).trans (le_of_eq ?_)
    push_cast; ring
theorem series3_abs (s : List Term) (t : ℝ) : |series3 s t| ≤ accel 3 s / 10 ^ 44 :=
  map_sum_abs s _ 3 fun r => by
    unfold term3
    refine (amp_sin _ _ (by positivity)).trans (le_of_eq ?_)
    push_cast; ring

/-- Bounds of the derivatives of a Poisson series for `|t| ≤ T`, in units of `1e-22`, `1e-33`, `1e-44`. -/
def pAcc1 (T : ℕ) : List (List Term) → ℕ
  | [] => 0
  | s :: c => accel 1 s + (10 ^ 11 * pAmpl T c + T * pAcc1 T c)
def pAcc2 (T : ℕ) : List (List Term) → ℕ
  | [] => 0
  | s :: c => accel 2 s + (2 * 10 ^ 11 * pAcc1 T c + T * pAcc2 T c)
def pAcc3 (T : ℕ) : List (List Term) → ℕ
  | [] => 0
  | s :: c => accel 3 s + (3 * 10 ^ 11 * pAcc2 T c + T * pAcc3 T c)

theorem pval1_abs {T : ℕ} (c : List (List Term)) {t : ℝ} (h : |t| ≤ T) : |pval1 c t| ≤ pAcc1 T c / 10 ^ 22 := by
  induction c with
  | nil => simp [pval1, pAcc1]
  | cons s c ih =>
    rw [pval1, pAcc1]
    have m : |t * pval1 c t| ≤ T * (pAcc1 T c / 10 ^ 22) := by
      rw [abs_mul]; exact mul_le_mul h ih (abs_nonneg _) (Nat.cast_nonneg _)
    refine (abs_add_le _ _).trans ((add_le_add (series1_abs s t) ((abs_add_le _ _).trans
      (add_le_add (pval_abs c h) m))).trans (le_of_eq ?_))
    push_cast; ring

theorem pval2_abs {T : ℕ} (c : List (List Term)) {t : ℝ} (h : |t| ≤ T) : |pval2 c t| ≤ pAcc2 T c / 10 ^ 33 := by
  induction c with
  | nil => simp [pval2, pAcc2]
  | cons s c ih =>
    rw [pval2, pAcc2]
    have m : |t * pval2 c t| ≤ T * (pAcc2 T c / 10 ^ 33) := by
      rw [abs_mul]; exact mul_le_mul h ih (abs_nonneg _) (Nat.cast_nonneg _)
    have m2 : |2 * pval1 c t| ≤ 2 * (pAcc1 T c / 10 ^ 22) := by
      rw [abs_mul, abs_of_pos (by norm_num : (0 : ℝ) < 2)]
      exact mul_le_mul_of_nonneg_left (pval1_abs c h) (by norm_num)
    refine (abs_add_le _ _).trans ((add_le_add (series2_abs s t) ((abs_add_le _ _).trans
      (add_le_add m2 m))).trans (le_of_eq ?_))
    push_cast; ring

theorem pval3_abs {T : ℕ} (c : List (List Term)) {t : ℝ} (h : |t| ≤ T) : |pval3 c t| ≤ pAcc3 T c / 10 ^ 44 := by
  induction c with
  | nil => simp [pval3, pAcc3]
  | cons s c ih =>
    rw [pval3, pAcc3]
    have m : |t * pval3 c t| ≤ T * (pAcc3 T c / 10 ^ 44) := by
      rw [abs_mul]; exact mul_le_mul h ih (abs_nonneg _) (Nat.cast_nonneg _)
    have m2 : |3 * pval2 c t| ≤ 3 * (pAcc2 T c / 10 ^ 33) := by
      rw [abs_mul, abs_of_pos (by norm_num : (0 : ℝ) < 3)]
      exact mul_le_mul_of_nonneg_left (pval2_abs c h) (by norm_num)
    refine (abs_add_le _ _).trans ((add_le_add (series3_abs s t) ((abs_add_le _ _).trans
      (add_le_add m2 m))).trans (le_of_eq ?_))
    push_cast; ring

end Verif
