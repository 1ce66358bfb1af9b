import Mathlib.Analysis.Calculus.LocalExtr.Rolle
import Mathlib.Analysis.SpecialFunctions.Trigonometric.Deriv
import Mathlib.Analysis.SpecialFunctions.Trigonometric.ArctanDeriv
import Verif.Lemmas.RiseSet
import Verif.Spec.RiseSet

/-!
# Lemmas: functions with three derivatives, and the error of the interpolation from three values
-/

namespace Verif
open Real

/-- `f1`, `f2`, `f3` are the derivatives of `f`. -/
structure Jet3 (f f1 f2 f3 : ℝ → ℝ) : Prop where
  d1 : ∀ x, HasDerivAt f (f1 x) x
  d2 : ∀ x, HasDerivAt f1 (f2 x) x
  d3 : ∀ x, HasDerivAt f2 (f3 x) x

theorem rolle_zero {f f1 : ℝ → ℝ} (h : ∀ x, HasDerivAt f (f1 x) x) {a b : ℝ} (ab : a < b) (ha : f a = 0) (hb : f b = 0) :
    ∃ c, a < c ∧ c < b ∧ f1 c = 0 := by
  obtain ⟨c, hc, e⟩ := exists_hasDerivAt_eq_zero ab (fun x _ => (h x).continuousAt.continuousWithinAt) (ha.trans hb.symm)
    (fun x _ => h x)
  exact ⟨c, hc.1, hc.2, e⟩

/-- Four zeros. -/
theorem rolle_four {f f1 f2 f3 : ℝ → ℝ} (j : Jet3 f f1 f2 f3) {a b c d : ℝ} (ab : a < b) (bc : b < c) (cd : c < d)
    (ha : f a = 0) (hb : f b = 0) (hc : f c = 0) (hd : f d = 0) : ∃ x, a < x ∧ x < d ∧ f3 x = 0 := by
  obtain ⟨p, p1, p2, hp⟩ := rolle_zero j.d1 ab ha hb
  obtain ⟨q, q1, q2, hq⟩ := rolle_zero j.d1 bc hb hc
  obtain ⟨r, r1, r2, hr⟩ := rolle_zero j.d1 cd hc hd
  obtain ⟨u, u1, u2, hu⟩ := rolle_zero j.d2 (p2.trans q1) hp hq
  obtain ⟨v, v1, v2, hv⟩ := rolle_zero j.d2 (q2.trans r1) hq hr
  obtain ⟨x, x1, x2, hx⟩ := rolle_zero j.d3 (u2.trans v1) hu hv
  exact ⟨x, by linarith, by linarith, hx⟩

theorem Jet3.sub {f f1 f2 f3 g g1 g2 g3 : ℝ → ℝ} (j : Jet3 f f1 f2 f3) (k : Jet3 g g1 g2 g3) :
    Jet3 (fun x => f x - g x) (fun x => f1 x - g1 x) (fun x => f2 x - g2 x) (fun x => f3 x - g3 x) :=
  ⟨fun x => (j.d1 x).sub (k.d1 x), fun x => (j.d2 x).sub (k.d2 x), fun x => (j.d3 x).sub (k.d3 x)⟩

theorem Jet3.add {f f1 f2 f3 g g1 g2 g3 : ℝ → ℝ} (j : Jet3 f f1 f2 f3) (k : Jet3 g g1 g2 g3) :
    Jet3 (fun x => f x + g x) (fun x => f1 x + g1 x) (fun x => f2 x + g2 x) (fun x => f3 x + g3 x) :=
  ⟨fun x => (j.d1 x).add (k.d1 x), fun x => (j.d2 x).add (k.d2 x), fun x => (j.d3 x).add (k.d3 x)⟩

theorem Jet3.smul {f f1 f2 f3 : ℝ → ℝ} (c : ℝ) (j : Jet3 f f1 f2 f3) :
    Jet3 (fun x => c * f x) (fun x => c * f1 x) (fun x => c * f2 x) (fun x => c * f3 x) :=
  ⟨fun x => (j.d1 x).const_mul c, fun x => (j.d2 x).const_mul c, fun x => (j.d3 x).const_mul c⟩

/-- A polynomial of third degree. -/
theorem jet_cubic (a b c d : ℝ) : Jet3 (fun x => a + b * x + c * x ^ 2 + d * x ^ 3) (fun x => b + 2 * c * x + 3 * d * x ^ 2)
    (fun x => 2 * c + 6 * d * x) (fun _ => 6 * d) := by
  have p : ∀ x : ℝ, HasDerivAt (fun x : ℝ => x) 1 x := fun x => hasDerivAt_id x
  refine ⟨fun x => ?_, fun x => ?_, fun x => ?_⟩
  · have := ((((p x).const_mul b).const_add a).add (((p x).pow 2).const_mul c)).add (((p x).pow 3).const_mul d)
    refine this.congr_deriv ?_
    push_cast; ring
  · have := ((((p x).const_mul (2 * c)).const_add b)).add (((p x).pow 2).const_mul (3 * d))
    refine this.congr_deriv ?_
    push_cast; ring
  · exact (((p x).const_mul (6 * d)).const_add (2 * c)).congr_deriv (by ring)

theorem cubic_max {n : ℝ} (h : |n| ≤ 1) : |n - n ^ 3| ≤ 0.38492 := by
  obtain ⟨a, b⟩ := abs_le.mp h
  rw [abs_le]
  norm_num
  constructor
  · nlinarith [sq_nonneg (n + 0.57735), mul_nonneg (sub_nonneg.2 a) (sq_nonneg (n + 0.57735)), mul_nonneg (sub_nonneg.2 b) (sq_nonneg (n + 0.57735))]
  · nlinarith [sq_nonneg (n - 0.57735), mul_nonneg (sub_nonneg.2 a) (sq_nonneg (n - 0.57735)), mul_nonneg (sub_nonneg.2 b) (sq_nonneg (n - 0.57735))]

/-- The error of the interpolation from three values. -/
theorem interp3_error {f f1 f2 f3 : ℝ → ℝ} (j : Jet3 f f1 f2 f3) {M : ℝ} (hM : ∀ x, |x| ≤ 1 → |f3 x| ≤ M) {n : ℝ}
    (hn : |n| ≤ 1) : |parabola (f (-1), f 0, f 1) n - f n| ≤ 0.06416 * M := by
  have M0 : 0 ≤ M := (abs_nonneg _).trans (hM 0 (by norm_num))
  obtain ⟨n1, n2⟩ := abs_le.mp hn
  by_cases e1 : n = -1
  · rw [e1]; unfold parabola; norm_num; linarith
  by_cases e2 : n = 1
  · rw [e2]; unfold parabola; norm_num; linarith
  by_cases e3 : n = 0
  · rw [e3]; unfold parabola; norm_num; linarith
  have n1' : -1 < n := lt_of_le_of_ne n1 (Ne.symm e1)
  have n2' : n < 1 := lt_of_le_of_ne n2 e2
  have w : n - n ^ 3 ≠ 0 := by
    rw [show n - n ^ 3 = n * ((1 - n) * (1 + n)) by ring]
    exact mul_ne_zero e3 (mul_ne_zero (by linarith) (by linarith))
  obtain ⟨K, hK⟩ : ∃ K, f n - parabola (f (-1), f 0, f 1) n = K * (n - n ^ 3) :=
    ⟨_, (div_mul_cancel₀ _ w).symm⟩
  have g := j.sub (jet_cubic (f 0) ((f 1 - f (-1)) / 2 + K) ((f 1 + f (-1) - 2 * f 0) / 2) (-K))
  have z0 : f n - (f 0 + ((f 1 - f (-1)) / 2 + K) * n + (f 1 + f (-1) - 2 * f 0) / 2 * n ^ 2 + -K * n ^ 3) = 0 := by
    unfold parabola at hK
    linear_combination hK
  have key : ∃ x, -1 < x ∧ x < 1 ∧ f3 x - 6 * -K = 0 := by
    rcases lt_or_gt_of_ne e3 with p | p
    · exact rolle_four g n1' p (by norm_num : (0 : ℝ) < 1) (by ring) z0 (by ring) (by ring)
    · exact rolle_four g (by norm_num : (-1 : ℝ) < 0) p n2' (by ring) (by ring) z0 (by ring)
  obtain ⟨x, x1, x2, hx⟩ := key
  have b := hM x (abs_le.mpr ⟨x1.le, x2.le⟩)
  have c := cubic_max hn
  rw [abs_sub_comm, hK, abs_mul]
  have kb : |K| ≤ M / 6 := by
    rw [show K = -f3 x / 6 by linarith, abs_div, abs_neg, abs_of_pos (by norm_num : (0 : ℝ) < 6)]
    gcongr
  calc |K| * |n - n ^ 3| ≤ M / 6 * 0.38492 := by gcongr
    _ ≤ 0.06416 * M := by norm_num; linarith

theorem mean_value_step {f f1 : ℝ → ℝ} (h : ∀ x, HasDerivAt f (f1 x) x) {a b : ℝ} (ab : a < b) :
    ∃ c, a < c ∧ c < b ∧ f b - f a = f1 c * (b - a) := by
  obtain ⟨c, hc, e⟩ := exists_hasDerivAt_eq_slope f f1 ab (fun x _ => (h x).continuousAt.continuousWithinAt) (fun x _ => h x)
  refine ⟨c, hc.1, hc.2, ?_⟩
  rw [e, div_mul_cancel₀ _ (by linarith : b - a ≠ 0)]

theorem Jet3.slow {f f1 f2 f3 : ℝ → ℝ} (j : Jet3 f f1 f2 f3) {s c : ℝ} (h1 : ∀ x, |x| ≤ 1 → |f1 x| ≤ s)
    (h2 : ∀ x, |x| ≤ 1 → |f2 x| ≤ c) : Slow s c (f (-1), f 0, f 1) := by
  refine ⟨?_, ?_, ?_⟩
  · obtain ⟨x, a, b, e⟩ := mean_value_step j.d1 (by norm_num : (-1 : ℝ) < 0)
    have := h1 x (by rw [abs_le]; constructor <;> linarith)
    simp only; rw [e]; norm_num; exact this
  · obtain ⟨x, a, b, e⟩ := mean_value_step j.d1 (by norm_num : (0 : ℝ) < 1)
    have := h1 x (by rw [abs_le]; constructor <;> linarith)
    simp only; rw [e]; norm_num; exact this
  · have g := j.sub (jet_cubic (f 0) ((f 1 - f (-1)) / 2) ((f 1 + f (-1) - 2 * f 0) / 2) 0)
    obtain ⟨p, p1, p2, hp⟩ := rolle_zero g.d1 (by norm_num : (-1 : ℝ) < 0) (by ring) (by ring)
    obtain ⟨q, q1, q2, hq⟩ := rolle_zero g.d1 (by norm_num : (0 : ℝ) < 1) (by ring) (by ring)
    obtain ⟨x, a, b, e⟩ := rolle_zero g.d2 (p2.trans q1) hp hq
    have := h2 x (by rw [abs_le]; constructor <;> linarith)
    simp only
    rw [show f 1 - 2 * f 0 + f (-1) = f2 x by linarith]
    exact this

end Verif
