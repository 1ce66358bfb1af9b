import Verif.Model.Planets
import Verif.Spec.Poisson
import Verif.Props.Coordinates

/-!
# Lemmas about Poisson series: recursive form, bounds and Lipschitz constants
-/

namespace Verif
open Real

/-! ### Recursive form -/

/-- Sum of one series. -/
noncomputable def seriesVal (s : List Term) (t : ℝ) : ℝ := (s.map fun r => vsopTerm r t).sum

/-- Horner form of a Poisson series. -/
noncomputable def pval : List (List Term) → ℝ → ℝ
  | [], _ => 0
  | s :: c, t => seriesVal s t + t * pval c t

theorem poisson_eq_pval (c : List (List Term)) (t : ℝ) : poisson c t = pval c t := by
  induction c with
  | nil => simp [poisson, pval]
  | cons s c ih =>
    unfold poisson at ih ⊢
    rw [List.length_cons, Finset.sum_range_succ', pval, ← ih, Finset.mul_sum, add_comm]
    congr 1
    · simp only [pow_zero, one_mul, List.getD_cons_zero, seriesVal, vsopTerm]
      congr 2
      funext r
      norm_num [div_eq_mul_inv]
    · refine Finset.sum_congr rfl fun i _ => ?_
      rw [List.getD_cons_succ, pow_succ]; ring

/-- The same for an array of times: every time sees the sums over all times. -/
noncomputable def pvalArr : List (List Term) → List ℝ → ℝ → ℝ
  | [], _, _ => 0
  | s :: c, ts, t => (ts.map (seriesVal s)).sum + t * pvalArr c ts t

theorem sum_swap (s : List Term) (ts : List ℝ) :
    (s.map fun r => (ts.map fun t => vsopTerm r t).sum).sum = (ts.map (seriesVal s)).sum := by
  induction ts with
  | nil => simp
  | cons t ts ih =>
    simp only [List.map_cons, List.sum_cons, List.sum_map_add, ih]
    rfl

theorem vsopLoop_eq (ts : List ℝ) (c : List (List Term)) (us : List ℝ) (f g : ℝ → ℝ) 
    (hus : us = ts) :
    vsopLoop ts c (us.map f) (us.map g) = us.map fun t => f t + g t * pvalArr c ts t := by
  induction c generalizing f g with
  | nil => simp [vsopLoop, pvalArr]
  | cons s c ih =>
    rw [vsopLoop, sum_swap]
    have e1 : List.zipWith (· + ·) (us.map f) ((us.map g).map fun t => (ts.map (seriesVal s)).sum * t) =
        us.map fun t => f t + (ts.map (seriesVal s)).sum * g t := by
      rw [List.map_map, List.zipWith_map, List.zipWith_self]
      rfl
    have e2 : List.zipWith (· * ·) (us.map g) ts = us.map fun t => g t * t := by
      rw [← hus]
      conv_lhs => rw [← List.map_id us, List.map_map]
      rw [List.zipWith_map, List.zipWith_self]
      rfl
    rw [e1, e2, ih]
    refine List.map_congr_left fun t _ => ?_
    rw [pvalArr]; ring

theorem pvalArr_singleton (c : List (List Term)) (t : ℝ) : pvalArr c [t] t = pval c t := by
  induction c with
  | nil => rfl
  | cons s c ih => simp [pvalArr, pval, ih]

theorem pvalArr_replicate (c : List (List Term)) (n : ℕ) (t : ℝ) :
    pvalArr c (List.replicate n t) t = n * pval c t := by
  induction c with
  | nil => simp [pvalArr, pval]
  | cons s c ih => simp [pvalArr, pval, ih]; ring

/-! ### Bounds -/

theorem vsopTerm_abs (r : Term) (t : ℝ) : |vsopTerm r t| ≤ r.1 / 10 ^ 11 := by
  unfold vsopTerm
  rw [abs_mul, abs_of_nonneg (by positivity : (0 : ℝ) ≤ r.1 / 10 ^ 11)]
  have := Real.abs_cos_le_one (r.2.1 / 10 ^ 11 + r.2.2 / 10 ^ 11 * t)
  exact mul_le_of_le_one_right (by positivity) this

theorem abs_cos_sub_le (x y : ℝ) : |cos x - cos y| ≤ |x - y| := by
  have h := Real.cos_sub_cos x y
  rw [h, abs_mul, abs_mul, abs_neg, abs_two]
  have h1 := Real.abs_sin_le_one ((x + y) / 2)
  have h2 : |sin ((x - y) / 2)| ≤ |(x - y) / 2| := Real.abs_sin_le_abs
  rw [abs_div, abs_two] at h2
  have h3 := abs_nonneg (sin ((x - y) / 2))
  nlinarith

theorem abs_sin_sub_le (x y : ℝ) : |sin x - sin y| ≤ |x - y| := by
  have h := abs_cos_sub_le (π / 2 - x) (π / 2 - y)
  rw [Real.cos_pi_div_two_sub, Real.cos_pi_div_two_sub] at h
  refine h.trans (le_of_eq ?_)
  rw [show π / 2 - x - (π / 2 - y) = -(x - y) by ring, abs_neg]

theorem vsopTerm_lip (r : Term) (t u : ℝ) :
    |vsopTerm r t - vsopTerm r u| ≤ r.1 * r.2.2 / 10 ^ 22 * |t - u| := by
  unfold vsopTerm
  rw [← mul_sub, abs_mul, abs_of_nonneg (by positivity : (0 : ℝ) ≤ r.1 / 10 ^ 11)]
  have := abs_cos_sub_le (r.2.1 / 10 ^ 11 + r.2.2 / 10 ^ 11 * t) (r.2.1 / 10 ^ 11 + r.2.2 / 10 ^ 11 * u)
  rw [show (r.2.1 / 10 ^ 11 + r.2.2 / 10 ^ 11 * t) - (r.2.1 / 10 ^ 11 + r.2.2 / 10 ^ 11 * u) =
    (r.2.2 : ℝ) / 10 ^ 11 * (t - u) by ring, abs_mul,
    abs_of_nonneg (by positivity : (0 : ℝ) ≤ r.2.2 / 10 ^ 11)] at this
  calc (r.1 : ℝ) / 10 ^ 11 * _ ≤ r.1 / 10 ^ 11 * (r.2.2 / 10 ^ 11 * |t - u|) :=
        mul_le_mul_of_nonneg_left this (by positivity)
    _ = _ := by ring

/-- Sum of the amplitudes of a series. -/
def ampl : List Term → ℕ
  | [] => 0
  | r :: s => r.1 + ampl s

/-- Sum of amplitude times frequency. -/
def speed : List Term → ℕ
  | [] => 0
  | r :: s => r.1 * r.2.2 + speed s

theorem seriesVal_abs (s : List Term) (t : ℝ) : |seriesVal s t| ≤ ampl s / 10 ^ 11 := by
  induction s with
  | nil => simp [seriesVal, ampl]
  | cons r s ih =>
    unfold seriesVal at ih ⊢
    rw [List.map_cons, List.sum_cons, ampl, Nat.cast_add, add_div]
    exact (abs_add_le _ _).trans (add_le_add (vsopTerm_abs r t) ih)

theorem seriesVal_lip (s : List Term) (t u : ℝ) :
    |seriesVal s t - seriesVal s u| ≤ speed s / 10 ^ 22 * |t - u| := by
  induction s with
  | nil => simp [seriesVal, speed]
  | cons r s ih =>
    unfold seriesVal at ih ⊢
    rw [List.map_cons, List.sum_cons, List.map_cons, List.sum_cons, speed, Nat.cast_add, add_div,
      add_mul, add_sub_add_comm]
    refine (abs_add_le _ _).trans (add_le_add ?_ ih)
    push_cast
    exact vsopTerm_lip r t u

/-- Bound of a Poisson series for `|t| ≤ T`, in units of `1e-11`. -/
def pAmpl (T : ℕ) : List (List Term) → ℕ
  | [] => 0
  | s :: c => ampl s + T * pAmpl T c

/-- Lipschitz constant of a Poisson series for `|t| ≤ T`, in units of `1e-22`. -/
def pSpeed (T : ℕ) : List (List Term) → ℕ
  | [] => 0
  | s :: c => speed s + T * pSpeed T c + 10 ^ 11 * pAmpl T c

theorem pval_abs {T : ℕ} (c : List (List Term)) {t : ℝ} (h : |t| ≤ T) :
    |pval c t| ≤ pAmpl T c / 10 ^ 11 := by
  induction c with
  | nil => simp [pval, pAmpl]
  | cons s c ih =>
    rw [pval, pAmpl, Nat.cast_add, Nat.cast_mul, add_div, mul_div_assoc]
    refine (abs_add_le _ _).trans (add_le_add (seriesVal_abs s t) ?_)
    rw [abs_mul]
    exact mul_le_mul h ih (abs_nonneg _) (Nat.cast_nonneg _)

theorem pval_lip {T : ℕ} (c : List (List Term)) {t u : ℝ} (h : |t| ≤ T) (h' : |u| ≤ T) :
    |pval c t - pval c u| ≤ pSpeed T c / 10 ^ 22 * |t - u| := by
  induction c with
  | nil => simp [pval, pSpeed]
  | cons s c ih =>
    rw [pval, pval, pSpeed]
    have e : seriesVal s t + t * pval c t - (seriesVal s u + u * pval c u) =
      (seriesVal s t - seriesVal s u) + (t * (pval c t - pval c u) + (t - u) * pval c u) := by ring
    rw [e]
    push_cast
    have a := seriesVal_lip s t u
    have b := pval_abs c h'
    have c1 : |t * (pval c t - pval c u)| ≤ T * (pSpeed T c / 10 ^ 22 * |t - u|) := by
      rw [abs_mul]; exact mul_le_mul h ih (abs_nonneg _) (Nat.cast_nonneg _)
    have c2 : |(t - u) * pval c u| ≤ |t - u| * (pAmpl T c / 10 ^ 11) := by
      rw [abs_mul]; exact mul_le_mul_of_nonneg_left b (abs_nonneg _)
    refine (abs_add_le _ _).trans ((add_le_add a ((abs_add_le _ _).trans (add_le_add c1 c2))).trans
      (le_of_eq ?_))
    ring

/-! ### Leading constant and linear terms -/

/-- Amplitude of the first term of the first series, if it is constant. -/
def head0 : List (List Term) → Option ℕ
  | ((a, 0, 0) :: _) :: _ => some a
  | _ => none

/-- The table without that term. -/
def tail0 : List (List Term) → List (List Term)
  | (_ :: s) :: c => s :: c
  | c => c

theorem pval_head0 {c : List (List Term)} {a : ℕ} (h : head0 c = some a) (t : ℝ) :
    pval c t = a / 10 ^ 11 + pval (tail0 c) t := by
  unfold head0 at h
  split at h
  · next b s c' =>
    rw [Option.some.injEq] at h
    subst h
    simp [pval, tail0, seriesVal, vsopTerm, add_assoc]
  · simp at h

/-- The same for the second series. -/
def head1 : List (List Term) → Option ℕ
  | _ :: c => head0 c
  | [] => none

/-- The table without that term. -/
def tail1 : List (List Term) → List (List Term)
  | s :: c => s :: tail0 c
  | [] => []

theorem pval_head1 {c : List (List Term)} {a : ℕ} (h : head1 c = some a) (t : ℝ) :
    pval c t = a / 10 ^ 11 * t + pval (tail1 c) t := by
  cases c with
  | nil => simp [head1] at h
  | cons s c =>
    simp only [head1] at h
    rw [pval, pval_head0 h, tail1, pval]
    ring

/-- Distance from the leading constant. -/
theorem pval_near {T : ℕ} {c : List (List Term)} {a b : ℕ} (h : head0 c = some a)
    (hb : pAmpl T (tail0 c) ≤ b) {t : ℝ} (ht : |t| ≤ T) :
    |pval c t - (a : ℝ) / 10 ^ 11| ≤ (b : ℝ) / 10 ^ 11 := by
  rw [pval_head0 h, add_sub_cancel_left]
  refine (pval_abs _ ht).trans ?_
  have : (pAmpl T (tail0 c) : ℝ) ≤ b := by exact_mod_cast hb
  gcongr

/-- Growth against the leading linear term. -/
theorem pval_rate {T : ℕ} {c : List (List Term)} {a b : ℕ} (h : head1 c = some a)
    (hb : pSpeed T (tail1 c) ≤ b) {t u : ℝ} (ht : |t| ≤ T) (hu : |u| ≤ T) :
    |pval c t - pval c u - (a : ℝ) / 10 ^ 11 * (t - u)| ≤ (b : ℝ) / 10 ^ 22 * |t - u| := by
  rw [pval_head1 h, pval_head1 h,
    show a / 10 ^ 11 * t + pval (tail1 c) t - (a / 10 ^ 11 * u + pval (tail1 c) u) -
      a / 10 ^ 11 * (t - u) = pval (tail1 c) t - pval (tail1 c) u by ring]
  refine (pval_lip _ ht hu).trans ?_
  have : (pSpeed T (tail1 c) : ℝ) ≤ b := by exact_mod_cast hb
  gcongr

end Verif
