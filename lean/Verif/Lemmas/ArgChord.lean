import Verif.Lemmas.SecondDiff
import Mathlib.Analysis.SpecialFunctions.Complex.LogDeriv

/-!
# Lemmas: the argument of a complex number which moves nearly uniformly
-/

namespace Verif
open Real

theorem line_norm {d : ℂ} {D x : ℝ} (hd : ‖d‖ ≤ D) (hD : D ≤ 0.25) (hx : |x| ≤ 1) :
    0.75 ≤ ‖1 + x * d‖ ∧ 0.75 ≤ (1 + x * d).re := by
  have n : ‖(x : ℂ) * d‖ ≤ 0.25 := by
    rw [norm_mul, Complex.norm_real, Real.norm_eq_abs]
    exact (mul_le_of_le_one_left (norm_nonneg _) hx).trans (hd.trans hD)
  have a := (abs_le.mp (Complex.abs_re_le_norm ((x : ℂ) * d))).1
  have re : 0.75 ≤ (1 + x * d).re := by
    rw [Complex.add_re, Complex.one_re]
    have k : (0.75 : ℝ) = 1 - 0.25 := by norm_num
    rw [k]; linarith
  exact ⟨re.trans (Complex.re_le_norm _), re⟩

/-- The argument of a point moving on a line. -/
theorem arg_line {d : ℂ} {D n : ℝ} (hd : ‖d‖ ≤ D) (hD : D ≤ 0.25) (n0 : 0 ≤ n) (n1 : n ≤ 1) :
    |(1 + n * d).arg - n * (1 + d).arg| ≤ D ^ 2 / 4.5 := by
  have D0 : 0 ≤ D := (norm_nonneg _).trans hd
  have ne : ∀ x : ℝ, |x| ≤ 1 → (1 + x * d) ≠ 0 := fun x hx h => by
    have := (line_norm hd hD hx).1
    rw [h, norm_zero] at this; norm_num at this
  have lin : ∀ x : ℝ, HasDerivAt (fun x : ℝ => (1 : ℂ) + x * d) d x := fun x => by
    have := ((Complex.ofRealCLM.hasDerivAt (x := x)).mul_const d).const_add (1 : ℂ)
    simpa using this
  have im : ∀ {g : ℝ → ℂ} {g' : ℂ} {x : ℝ}, HasDerivAt g g' x → HasDerivAt (fun x => (g x).im) g'.im x := fun h =>
    Complex.imCLM.hasFDerivAt.comp_hasDerivAt _ h
  have d1 : ∀ x : ℝ, |x| ≤ 1 → HasDerivAt (fun x : ℝ => (Complex.log (1 + x * d)).im) (d / (1 + x * d)).im x :=
    fun x hx => im ((lin x).clog_real (.inl (lt_of_lt_of_le (by norm_num) (line_norm hd hD hx).2)))
  have d2 : ∀ x : ℝ, |x| ≤ 1 → HasDerivAt (fun x : ℝ => (d / (1 + x * d)).im) (-(d / (1 + x * d)) ^ 2).im x :=
    fun x hx => im (((hasDerivAt_const x d).div (lin x) (ne x hx)).congr_deriv (by
      have := ne x hx
      field_simp; ring))
  have b2 : ∀ x : ℝ, |x| ≤ 1 → |(-(d / (1 + x * d)) ^ 2).im| ≤ D ^ 2 / 0.5625 := fun x hx => by
    refine (Complex.abs_im_le_norm _).trans ?_
    rw [norm_neg, norm_pow, norm_div, div_pow]
    refine div_le_div₀ (by positivity) (pow_le_pow_left₀ (norm_nonneg _) hd 2) (by norm_num) ?_
    have := pow_le_pow_left₀ (by norm_num) (line_norm hd hD hx).1 2
    norm_num at this ⊢; exact this
  have q1 := chord_diff (K := 1) (a := 0) (b := n) (c := 1) d1 d2 b2 (by norm_num) (by rw [abs_of_nonneg n0]; exact n1)
    (by norm_num) n0 n1
  have q2 := chord_diff (K := 1) (a := 0) (b := n) (c := 1) (fun x hx => (d1 x hx).neg) (fun x hx => (d2 x hx).neg)
    (fun x hx => by rw [abs_neg]; exact b2 x hx) (by norm_num) (by rw [abs_of_nonneg n0]; exact n1)
    (by norm_num) n0 n1
  simp only [Complex.log_im, Complex.ofReal_zero, zero_mul, add_zero, Complex.arg_one, Complex.ofReal_one, one_mul,
    sub_zero, mul_zero, neg_zero, mul_one, Pi.neg_apply] at q1 q2
  have k : (1 - n) * n ≤ 1 / 4 := by nlinarith [sq_nonneg (n - 1 / 2)]
  have k' : D ^ 2 / 0.5625 / 2 * ((1 - n) * n) ≤ D ^ 2 / 0.5625 / 2 * (1 / 4) :=
    mul_le_mul_of_nonneg_left k (by positivity)
  rw [abs_le]
  norm_num at q1 q2 k' ⊢
  constructor <;> linarith

/-- The argument of a point moving nearly uniformly. -/
theorem args_chord {w0 w w1 : ℂ} {n r V E : ℝ} (n0 : 0 ≤ n) (n1 : n ≤ 1) (hr : 0 < r) (h0 : r ≤ ‖w0‖) (hV : ‖w1 - w0‖ ≤ V)
    (hE : ‖w - w0 - n * (w1 - w0)‖ ≤ E) (k1 : V ≤ 0.25 * r) (k2 : E ≤ 0.2 * r) :
    |(w / w0).arg - n * (w1 / w0).arg| ≤ (V / r) ^ 2 / 4.5 + 1.47 * (E / r) ∧ w ≠ 0 := by
  have hn : 0 < ‖w0‖ := lt_of_lt_of_le hr h0
  have ne : w0 ≠ 0 := norm_pos_iff.mp hn
  have E0 : 0 ≤ E := (norm_nonneg _).trans hE
  set d := (w1 - w0) / w0 with hd
  have e1 : w1 / w0 = 1 + d := by rw [hd]; field_simp; ring
  have nd : ‖d‖ ≤ V / r := by
    rw [hd, norm_div]; exact div_le_div₀ ((norm_nonneg _).trans hV) hV hr h0
  have D1 : V / r ≤ 0.25 := by rw [div_le_iff₀ hr]; exact k1
  have an : |n| ≤ 1 := by rw [abs_of_nonneg n0]; exact n1
  obtain ⟨l1, l2⟩ := line_norm nd D1 an
  have ln : 1 + n * d ≠ 0 := fun h => by rw [h, norm_zero] at l1; norm_num at l1
  set P := w / w0 / (1 + n * d) with hP
  have nP : ‖P - 1‖ ≤ E / r / 0.75 := by
    have : P - 1 = (w - w0 - n * (w1 - w0)) / w0 / (1 + n * d) := by
      rw [hP, div_sub_one ln]; congr 1
      rw [hd]; field_simp; ring
    rw [this, norm_div, norm_div]
    exact div_le_div₀ (by positivity) (div_le_div₀ E0 hE hr h0) (by norm_num) l1
  have e3 : w / w0 = (1 + n * d) * P := by rw [hP]; field_simp
  have ER : E / r ≤ 0.2 := by rw [div_le_iff₀ hr]; exact k2
  have ER0 : 0 ≤ E / r := by positivity
  generalize E / r = g at *
  generalize V / r = D at *
  have aP : |P.arg| ≤ 1.47 * g ∧ P ≠ 0 := by
    refine ⟨?_, fun h => ?_⟩
    · rcases ER0.eq_or_lt with e | e
      · rw [← e] at nP ⊢
        have : P - 1 = 0 := norm_le_zero_iff.mp (by simpa using nP)
        rw [sub_eq_zero.mp this]; simp
      · refine arg_small nP (by positivity) (by norm_num at ER ⊢; linarith) ?_
        have : g ^ 3 ≤ 0.04 * g := by
          have : g ^ 2 ≤ 0.2 ^ 2 := pow_le_pow_left₀ ER0 ER 2
          norm_num at this ⊢; nlinarith
        norm_num at this ⊢
        ring_nf
        linarith
    · rw [h] at nP; norm_num at nP ER; linarith
  have L := arg_line nd D1 n0 n1
  have a1 := Complex.abs_arg_lt_pi_div_two_iff.mpr (.inl (lt_of_lt_of_le (by norm_num) l2 : 0 < (1 + n * d).re))
  have hp := Real.pi_gt_three
  have am : (w / w0).arg = (1 + n * d).arg + P.arg := by
    rw [e3, Complex.arg_mul ln aP.2]
    have b1 := abs_le.mp a1.le
    have b2 := abs_le.mp aP.1
    norm_num at b2 ER
    constructor <;> linarith [b1.1, b1.2, b2.1, b2.2]
  refine ⟨?_, fun h => ?_⟩
  · rw [am, e1, add_sub_right_comm]
    exact (abs_add_le _ _).trans (add_le_add L aP.1)
  · rw [h, zero_div] at e3
    exact (mul_ne_zero ln aP.2) e3.symm

end Verif
