import Mathlib.Analysis.Calculus.Deriv.MeanValue
import Mathlib.Analysis.Calculus.Deriv.Pow
import Mathlib.Analysis.Calculus.Deriv.Shift
import Verif.Spec.RiseSet

/-!
# Lemmas about parabolas: Taylor's formula of the second order, composition, interpolation
-/

namespace Verif
open Real

/-- A function which vanishes at `0` and has a nonnegative derivative is nonnegative. -/
theorem nonneg_of_deriv {f g : ℝ → ℝ} {r : ℝ} (h : ∀ x, 0 ≤ x → x ≤ r → HasDerivAt f (g x) x) (h0 : f 0 = 0)
    (hg : ∀ x, 0 ≤ x → x ≤ r → 0 ≤ g x) : ∀ x, 0 ≤ x → x ≤ r → 0 ≤ f x := by
  intro x x0 xr
  have m : MonotoneOn f (Set.Icc 0 r) := by
    refine monotoneOn_of_hasDerivWithinAt_nonneg (f' := g) (convex_Icc 0 r) ?_ ?_ ?_
    · intro y hy
      exact (h y hy.1 hy.2).continuousAt.continuousWithinAt
    · intro y hy
      have hy' := interior_subset hy
      exact (h y hy'.1 hy'.2).hasDerivWithinAt
    · intro y hy
      have hy' := interior_subset hy
      exact hg y hy'.1 hy'.2
  have := m ⟨le_refl 0, x0.trans xr⟩ ⟨x0, xr⟩ x0
  rwa [h0] at this

/-- Taylor's formula on the right, one side. -/
theorem taylor_side {f f1 f2 f3 : ℝ → ℝ} {r M : ℝ} (h1 : ∀ x, 0 ≤ x → x ≤ r → HasDerivAt f (f1 x) x)
    (h2 : ∀ x, 0 ≤ x → x ≤ r → HasDerivAt f1 (f2 x) x) (h3 : ∀ x, 0 ≤ x → x ≤ r → HasDerivAt f2 (f3 x) x)
    (hM : ∀ x, 0 ≤ x → x ≤ r → f3 x ≤ M) : ∀ x, 0 ≤ x → x ≤ r →
    f x ≤ f 0 + f1 0 * x + f2 0 / 2 * x ^ 2 + M / 6 * x ^ 3 := by
  have p1 : ∀ (x : ℝ), HasDerivAt (fun x : ℝ => x) 1 x := fun x => hasDerivAt_id x
  have a3 : ∀ x, 0 ≤ x → x ≤ r → 0 ≤ f2 0 + M * x - f2 x := by
    refine nonneg_of_deriv (g := fun x => M - f3 x) (fun x x0 xr => ?_) (by ring) (fun x x0 xr => ?_)
    · have := (((p1 x).const_mul M).const_add (f2 0)).sub (h3 x x0 xr)
      exact this.congr_deriv (by ring)
    · have := hM x x0 xr; linarith
  have a2 : ∀ x, 0 ≤ x → x ≤ r → 0 ≤ f1 0 + f2 0 * x + M / 2 * x ^ 2 - f1 x := by
    refine nonneg_of_deriv (g := fun x => f2 0 + M * x - f2 x) (fun x x0 xr => ?_) (by ring) a3
    have := ((((p1 x).const_mul (f2 0)).const_add (f1 0)).add (((p1 x).pow 2).const_mul (M / 2))).sub (h2 x x0 xr)
    exact this.congr_deriv (by simp; ring)
  have a1 : ∀ x, 0 ≤ x → x ≤ r → 0 ≤ f 0 + f1 0 * x + f2 0 / 2 * x ^ 2 + M / 6 * x ^ 3 - f x := by
    refine nonneg_of_deriv (g := fun x => f1 0 + f2 0 * x + M / 2 * x ^ 2 - f1 x) (fun x x0 xr => ?_) (by ring) a2
    have := (((((p1 x).const_mul (f1 0)).const_add (f 0)).add (((p1 x).pow 2).const_mul (f2 0 / 2))).add
      (((p1 x).pow 3).const_mul (M / 6))).sub (h1 x x0 xr)
    exact this.congr_deriv (by simp; ring)
  intro x x0 xr
  have := a1 x x0 xr
  linarith

/-- Taylor's formula on the right. -/
theorem taylor_right {f f1 f2 f3 : ℝ → ℝ} {r M : ℝ} (h1 : ∀ x, 0 ≤ x → x ≤ r → HasDerivAt f (f1 x) x)
    (h2 : ∀ x, 0 ≤ x → x ≤ r → HasDerivAt f1 (f2 x) x) (h3 : ∀ x, 0 ≤ x → x ≤ r → HasDerivAt f2 (f3 x) x)
    (hM : ∀ x, 0 ≤ x → x ≤ r → |f3 x| ≤ M) (x : ℝ) (x0 : 0 ≤ x) (xr : x ≤ r) :
    |f x - (f 0 + f1 0 * x + f2 0 / 2 * x ^ 2)| ≤ M / 6 * x ^ 3 := by
  have a := taylor_side h1 h2 h3 (fun x x0 xr => (abs_le.mp (hM x x0 xr)).2) x x0 xr
  have b := taylor_side (f := fun x => -f x) (f1 := fun x => -f1 x) (f2 := fun x => -f2 x) (f3 := fun x => -f3 x)
    (fun x x0 xr => (h1 x x0 xr).neg) (fun x x0 xr => (h2 x x0 xr).neg) (fun x x0 xr => (h3 x x0 xr).neg)
    (fun x x0 xr => (neg_le.mpr (by have := (abs_le.mp (hM x x0 xr)).1; linarith))) x x0 xr
  rw [abs_le]
  constructor <;> nlinarith

/-- Taylor's formula of the second order. -/
theorem taylor2 {f f1 f2 f3 : ℝ → ℝ} {x0 r M : ℝ} (h1 : ∀ x, |x - x0| ≤ r → HasDerivAt f (f1 x) x)
    (h2 : ∀ x, |x - x0| ≤ r → HasDerivAt f1 (f2 x) x) (h3 : ∀ x, |x - x0| ≤ r → HasDerivAt f2 (f3 x) x)
    (hM : ∀ x, |x - x0| ≤ r → |f3 x| ≤ M) {h : ℝ} (hh : |h| ≤ r) :
    |f (x0 + h) - (f x0 + f1 x0 * h + f2 x0 / 2 * h ^ 2)| ≤ M / 6 * |h| ^ 3 := by
  rcases le_total 0 h with p | p
  · have k : ∀ x, 0 ≤ x → x ≤ r → |x0 + x - x0| ≤ r := fun x a b => by
      rw [add_sub_cancel_left, abs_of_nonneg a]; exact b
    have := taylor_right (f := fun x => f (x0 + x)) (f1 := fun x => f1 (x0 + x)) (f2 := fun x => f2 (x0 + x))
      (f3 := fun x => f3 (x0 + x)) (r := r) (M := M) (fun x a b => (h1 _ (k x a b)).comp_const_add x0 x)
      (fun x a b => (h2 _ (k x a b)).comp_const_add x0 x) (fun x a b => (h3 _ (k x a b)).comp_const_add x0 x)
      (fun x a b => hM _ (k x a b)) h p (by rwa [abs_of_nonneg p] at hh)
    rw [abs_of_nonneg p]
    simpa only [add_zero] using this
  · have k : ∀ x, 0 ≤ x → x ≤ r → |x0 - x - x0| ≤ r := fun x a b => by
      rw [show x0 - x - x0 = -x by ring, abs_neg, abs_of_nonneg a]; exact b
    have := taylor_right (f := fun x => f (x0 - x)) (f1 := fun x => -f1 (x0 - x)) (f2 := fun x => f2 (x0 - x))
      (f3 := fun x => -f3 (x0 - x)) (r := r) (M := M) (fun x a b => (h1 _ (k x a b)).comp_const_sub x0 x)
      (fun x a b => ((h2 _ (k x a b)).comp_const_sub x0 x).neg.congr_deriv (neg_neg _))
      (fun x a b => (h3 _ (k x a b)).comp_const_sub x0 x)
      (fun x a b => by rw [abs_neg]; exact hM _ (k x a b)) (-h) (by linarith) (by rwa [abs_of_nonpos p] at hh)
    rw [abs_of_nonpos p]
    simp only [sub_zero, sub_neg_eq_add] at this
    rw [show f x0 + f1 x0 * h + f2 x0 / 2 * h ^ 2 = f x0 + -f1 x0 * -h + f2 x0 / 2 * (-h) ^ 2 by ring]
    exact this

/-- `g` is a parabola on `[-1, 1]` up to `e`. -/
def Parab (g : ℝ → ℝ) (v q e : ℝ) : Prop := ∀ n, |n| ≤ 1 → |g n - (g 0 + v * n + q * n ^ 2)| ≤ e

/-- The interpolation of a function that is nearly a parabola. -/
theorem parab_interp {g : ℝ → ℝ} {v q e : ℝ} (h : Parab g v q e) {n : ℝ} (hn : |n| ≤ 1) :
    |parabola (g (-1), g 0, g 1) n - g n| ≤ 2 * e := by
  have a := h (-1) (by norm_num)
  have b := h 1 (by norm_num)
  have c := h n hn
  obtain ⟨n1, n2⟩ := abs_le.mp hn
  have e0 : 0 ≤ e := (abs_nonneg _).trans a
  generalize hA : g (-1) - (g 0 + v * -1 + q * (-1) ^ 2) = A at a
  generalize hB : g 1 - (g 0 + v * 1 + q * 1 ^ 2) = B at b
  generalize hC : g n - (g 0 + v * n + q * n ^ 2) = C at c
  have x : parabola (g (-1), g 0, g 1) n - g n = A * (n * (n - 1) / 2) + B * (n * (n + 1) / 2) - C := by
    rw [← hA, ← hB, ← hC]; unfold parabola; simp only; ring
  rw [x]
  have w : |n * (n - 1) / 2| + |n * (n + 1) / 2| ≤ 1 := by
    rw [abs_div, abs_div, abs_mul, abs_mul, abs_of_nonpos (by linarith : n - 1 ≤ 0),
      abs_of_nonneg (by linarith : 0 ≤ n + 1), abs_of_pos (by norm_num : (0 : ℝ) < 2)]
    nlinarith
  have t1 : |A * (n * (n - 1) / 2)| ≤ e * |n * (n - 1) / 2| := by
    rw [abs_mul]; exact mul_le_mul_of_nonneg_right a (abs_nonneg _)
  have t2 : |B * (n * (n + 1) / 2)| ≤ e * |n * (n + 1) / 2| := by
    rw [abs_mul]; exact mul_le_mul_of_nonneg_right b (abs_nonneg _)
  have t3 := (abs_sub (A * (n * (n - 1) / 2) + B * (n * (n + 1) / 2)) C).trans
    (add_le_add (abs_add_le (A * (n * (n - 1) / 2)) (B * (n * (n + 1) / 2))) c)
  refine t3.trans ?_
  nlinarith [mul_le_mul_of_nonneg_left w e0]

/-- Interpolating a function near a function that is interpolated well. -/
theorem interp_perturb {g k : ℝ → ℝ} {E d n : ℝ} (hk : ∀ n, |n| ≤ 1 → |k n - g n| ≤ d)
    (hn : |n| ≤ 1) (p : |parabola (g (-1), g 0, g 1) n - g n| ≤ E) :
    |parabola (k (-1), k 0, k 1) n - k n| ≤ E + 2.25 * d := by
  have a := hk (-1) (by norm_num)
  have b := hk 1 (by norm_num)
  have c := hk 0 (by norm_num)
  have f := hk n hn
  obtain ⟨n1, n2⟩ := abs_le.mp hn
  have d0 : 0 ≤ d := (abs_nonneg _).trans a
  generalize hA : k (-1) - g (-1) = A at a
  generalize hB : k 1 - g 1 = B at b
  generalize hC : k 0 - g 0 = C at c
  generalize hF : k n - g n = F at f
  have x : parabola (k (-1), k 0, k 1) n - k n = (parabola (g (-1), g 0, g 1) n - g n) +
      (A * (n * (n - 1) / 2) + C * (1 - n ^ 2) + B * (n * (n + 1) / 2)) - F := by
    rw [← hA, ← hB, ← hC, ← hF]; unfold parabola; simp only; ring
  rw [x]
  have w : |n * (n - 1) / 2| + |1 - n ^ 2| + |n * (n + 1) / 2| ≤ 1.25 := by
    rw [abs_div, abs_div, abs_mul, abs_mul, abs_of_nonpos (by linarith : n - 1 ≤ 0),
      abs_of_nonneg (by linarith : 0 ≤ n + 1), abs_of_pos (by norm_num : (0 : ℝ) < 2),
      abs_of_nonneg (by nlinarith : 0 ≤ 1 - n ^ 2)]
    norm_num
    nlinarith [sq_nonneg (|n| - 1 / 2), sq_abs n]
  have t1 : |A * (n * (n - 1) / 2)| ≤ d * |n * (n - 1) / 2| := by
    rw [abs_mul]; exact mul_le_mul_of_nonneg_right a (abs_nonneg _)
  have t2 : |B * (n * (n + 1) / 2)| ≤ d * |n * (n + 1) / 2| := by
    rw [abs_mul]; exact mul_le_mul_of_nonneg_right b (abs_nonneg _)
  have t3 : |C * (1 - n ^ 2)| ≤ d * |1 - n ^ 2| := by
    rw [abs_mul]; exact mul_le_mul_of_nonneg_right c (abs_nonneg _)
  have s := abs_add_le (A * (n * (n - 1) / 2) + C * (1 - n ^ 2)) (B * (n * (n + 1) / 2))
  have s2 := abs_add_le (A * (n * (n - 1) / 2)) (C * (1 - n ^ 2))
  have s3 := abs_sub ((parabola (g (-1), g 0, g 1) n - g n) +
      (A * (n * (n - 1) / 2) + C * (1 - n ^ 2) + B * (n * (n + 1) / 2))) F
  have s4 := abs_add_le (parabola (g (-1), g 0, g 1) n - g n)
      (A * (n * (n - 1) / 2) + C * (1 - n ^ 2) + B * (n * (n + 1) / 2))
  have := mul_le_mul_of_nonneg_left w d0
  norm_num at this ⊢
  linarith

/-- A function near a function that is nearly a parabola. -/
theorem Parab.perturb {g k : ℝ → ℝ} {v q e d : ℝ} (h : Parab g v q e) (hk : ∀ n, |n| ≤ 1 → |k n - g n| ≤ d) {n : ℝ}
    (hn : |n| ≤ 1) : |parabola (k (-1), k 0, k 1) n - k n| ≤ 2 * e + 2.25 * d :=
  interp_perturb hk hn (parab_interp h hn)

/-- Composition: a smooth function of a function that is nearly a parabola. -/
theorem Parab.comp {g : ℝ → ℝ} {v q e : ℝ} (h : Parab g v q e) {f f1 f2 f3 : ℝ → ℝ} {H V Q M1 M2 M3 : ℝ}
    (hH : ∀ n, |n| ≤ 1 → |g n - g 0| ≤ H) (hv : |v| ≤ V) (hq : |q| ≤ Q)
    (h1 : ∀ x, |x - g 0| ≤ H → HasDerivAt f (f1 x) x)
    (h2 : ∀ x, |x - g 0| ≤ H → HasDerivAt f1 (f2 x) x) (h3 : ∀ x, |x - g 0| ≤ H → HasDerivAt f2 (f3 x) x)
    (b1 : |f1 (g 0)| ≤ M1) (b2 : |f2 (g 0)| ≤ M2) (b3 : ∀ x, |x - g 0| ≤ H → |f3 x| ≤ M3) :
    Parab (fun n => f (g n)) (f1 (g 0) * v) (f1 (g 0) * q + f2 (g 0) / 2 * v ^ 2)
      (M3 / 6 * H ^ 3 + M1 * e + M2 / 2 * ((Q + e) * (H + V))) := by
  intro n hn
  have p := h n hn
  have y := hH n hn
  have t := taylor2 h1 h2 h3 b3 y
  rw [add_sub_cancel] at t
  have H0 : 0 ≤ H := (abs_nonneg _).trans y
  have e0 : 0 ≤ e := (abs_nonneg _).trans p
  have V0 : 0 ≤ V := (abs_nonneg _).trans hv
  have Q0 : 0 ≤ Q := (abs_nonneg _).trans hq
  have M0 : 0 ≤ M3 := (abs_nonneg _).trans (b3 (g 0) (by simpa using H0))
  have t' : M3 / 6 * |g n - g 0| ^ 3 ≤ M3 / 6 * H ^ 3 := by gcongr
  generalize hd : g n - g 0 = d at *
  have pd : g n - (g 0 + v * n + q * n ^ 2) = d - v * n - q * n ^ 2 := by rw [← hd]; ring
  rw [pd] at p
  have n2 : |n| ^ 2 ≤ 1 := by nlinarith [abs_nonneg n]
  have w1 : |d - v * n| ≤ Q + e := by
    have : d - v * n = (d - v * n - q * n ^ 2) + q * n ^ 2 := by ring
    rw [this]
    refine (abs_add_le _ _).trans ?_
    rw [abs_mul, abs_pow]
    have : |q| * |n| ^ 2 ≤ Q * 1 := mul_le_mul hq n2 (by positivity) Q0
    linarith
  have w2 : |d + v * n| ≤ H + V := by
    refine (abs_add_le _ _).trans (add_le_add y ?_)
    rw [abs_mul]
    have : |v| * |n| ≤ V * 1 := mul_le_mul hv hn (abs_nonneg _) V0
    linarith
  have w3 : |(d - v * n) * (d + v * n)| ≤ (Q + e) * (H + V) := by
    rw [abs_mul]; exact mul_le_mul w1 w2 (abs_nonneg _) (by linarith)
  have x : f (g n) - (f (g 0) + f1 (g 0) * v * n + (f1 (g 0) * q + f2 (g 0) / 2 * v ^ 2) * n ^ 2) =
      (f (g n) - (f (g 0) + f1 (g 0) * d + f2 (g 0) / 2 * d ^ 2)) + f1 (g 0) * (d - v * n - q * n ^ 2) +
        f2 (g 0) / 2 * ((d - v * n) * (d + v * n)) := by ring
  rw [x]
  refine (abs_add_le _ _).trans (add_le_add ((abs_add_le _ _).trans (add_le_add (t.trans t') ?_)) ?_)
  · rw [abs_mul]; exact mul_le_mul b1 p (abs_nonneg _) ((abs_nonneg _).trans b1)
  · rw [abs_mul, abs_div, abs_of_pos (by norm_num : (0 : ℝ) < 2)]
    have m0 : 0 ≤ M2 := (abs_nonneg _).trans b2
    exact mul_le_mul (by linarith) w3 (abs_nonneg _) (by linarith)

end Verif
