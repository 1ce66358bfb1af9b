import Verif.Lemmas.Poisson
import Verif.Lemmas.Fk5Rotation
import Verif.Spec.Aberration
import Verif.Lemmas.LightTime

/-!
# Motion of the Earth while the light comes from the Sun
-/

namespace Verif
open Real

/-! ### Parts of a Poisson series -/

theorem seriesVal_split (P : Term → Bool) (s : List Term) (t : ℝ) :
    seriesVal s t = seriesVal (s.filter P) t + seriesVal (s.filter fun r => !P r) t := by
  induction s with
  | nil => simp [seriesVal]
  | cons r s ih =>
    have e : ∀ (x : Term) (l : List Term), seriesVal (x :: l) t = vsopTerm x t + seriesVal l t := by
      intro x l; simp [seriesVal]
    rw [e, ih, List.filter_cons, List.filter_cons]
    cases P r <;> simp [e] <;> ring

/-- The terms for which `P` holds. -/
def part (P : Term → Bool) (c : List (List Term)) : List (List Term) := c.map (List.filter P)

theorem pval_split (P : Term → Bool) (c : List (List Term)) (t : ℝ) :
    pval c t = pval (part P c) t + pval (part (fun r => !P r) c) t := by
  induction c with
  | nil => simp [part, pval]
  | cons s c ih =>
    have e : ∀ Q : Term → Bool, part Q (s :: c) = s.filter Q :: part Q c := fun _ => rfl
    rw [e, e, pval, pval, pval, ih, seriesVal_split P s]
    ring

/-! ### Derivative with the powers of the time kept fixed -/

noncomputable def dser (s : List Term) (t : ℝ) : ℝ :=
  (s.map fun r => -((r.1 : ℝ) / 10 ^ 11 * ((r.2.2 : ℝ) / 10 ^ 11) * sin (r.2.1 / 10 ^ 11 + r.2.2 / 10 ^ 11 * t))).sum

noncomputable def dval : List (List Term) → ℝ → ℝ
  | [], _ => 0
  | s :: c, t => dser s t + t * dval c t

/-- Bound of the second derivative. -/
noncomputable def curv : List Term → ℝ
  | [] => 0
  | r :: s => (r.1 : ℝ) / 10 ^ 11 * ((r.2.2 : ℝ) / 10 ^ 11) ^ 2 + curv s

noncomputable def pCurv (T : ℕ) : List (List Term) → ℝ
  | [] => 0
  | s :: c => curv s + T * pCurv T c

/-- Derivative of the powers of the time. -/
noncomputable def pFroz (T : ℕ) : List (List Term) → ℝ
  | [] => 0
  | _ :: c => T * pFroz T c + pAmpl T c / 10 ^ 11

theorem seriesVal_tangent (s : List Term) (t u : ℝ) :
    |seriesVal s t - seriesVal s u - (t - u) * dser s t| ≤ curv s * (t - u) ^ 2 := by
  induction s with
  | nil => simp [seriesVal, dser, curv]
  | cons r s ih =>
    have e1 : ∀ t, seriesVal (r :: s) t = vsopTerm r t + seriesVal s t := by intro t; simp [seriesVal]
    have e2 : dser (r :: s) t = -((r.1 : ℝ) / 10 ^ 11 * ((r.2.2 : ℝ) / 10 ^ 11) *
      sin (r.2.1 / 10 ^ 11 + r.2.2 / 10 ^ 11 * t)) + dser s t := by simp [dser]
    rw [e1, e1, e2, curv]
    have k := cos_tangent (r.2.1 / 10 ^ 11 + r.2.2 / 10 ^ 11 * t) (-(r.2.2 / 10 ^ 11 * (t - u)))
    rw [show (r.2.1 : ℝ) / 10 ^ 11 + r.2.2 / 10 ^ 11 * t + -(r.2.2 / 10 ^ 11 * (t - u)) =
      r.2.1 / 10 ^ 11 + r.2.2 / 10 ^ 11 * u by ring] at k
    have A : (0 : ℝ) ≤ r.1 / 10 ^ 11 := by positivity
    have m := mul_le_mul_of_nonneg_left k A
    rw [← abs_of_nonneg A, ← abs_mul, abs_of_nonneg A] at m
    have id : vsopTerm r t + seriesVal s t - (vsopTerm r u + seriesVal s u) - (t - u) *
        (-((r.1 : ℝ) / 10 ^ 11 * ((r.2.2 : ℝ) / 10 ^ 11) * sin (r.2.1 / 10 ^ 11 + r.2.2 / 10 ^ 11 * t)) +
          dser s t) =
        -((r.1 : ℝ) / 10 ^ 11 * (cos (r.2.1 / 10 ^ 11 + r.2.2 / 10 ^ 11 * u) -
          cos (r.2.1 / 10 ^ 11 + r.2.2 / 10 ^ 11 * t) + -(r.2.2 / 10 ^ 11 * (t - u)) *
          sin (r.2.1 / 10 ^ 11 + r.2.2 / 10 ^ 11 * t))) +
        (seriesVal s t - seriesVal s u - (t - u) * dser s t) := by
      unfold vsopTerm; ring
    rw [id]
    refine (abs_add_le _ _).trans ?_
    rw [abs_neg]
    refine (add_le_add m ih).trans (le_of_eq ?_)
    ring

theorem pval_tangent {T : ℕ} (c : List (List Term)) {t u : ℝ} (h : |t| ≤ T) (h' : |u| ≤ T) :
    |pval c t - pval c u - (t - u) * dval c t| ≤ pCurv T c * (t - u) ^ 2 + pFroz T c * |t - u| := by
  induction c with
  | nil => simp [pval, dval, pCurv, pFroz]
  | cons s c ih =>
    rw [pval, pval, dval, pCurv, pFroz]
    have e : seriesVal s t + t * pval c t - (seriesVal s u + u * pval c u) - (t - u) * (dser s t + t * dval c t) =
      (seriesVal s t - seriesVal s u - (t - u) * dser s t) +
      (t * (pval c t - pval c u - (t - u) * dval c t) + (t - u) * pval c u) := by ring
    rw [e]
    have a := seriesVal_tangent s t u
    have b := pval_abs c h'
    have c1 : |t * (pval c t - pval c u - (t - u) * dval c t)| ≤
        T * (pCurv T c * (t - u) ^ 2 + pFroz T c * |t - u|) := by
      rw [abs_mul]; exact mul_le_mul h ih (abs_nonneg _) (Nat.cast_nonneg _)
    have c2 : |(t - u) * pval c u| ≤ |t - u| * (pAmpl T c / 10 ^ 11) := by
      rw [abs_mul]; exact mul_le_mul_of_nonneg_left b (abs_nonneg _)
    refine (abs_add_le _ _).trans ((add_le_add a ((abs_add_le _ _).trans (add_le_add c1 c2))).trans
      (le_of_eq ?_))
    ring

/-! ### The main terms of the Earth -/

/-- The terms with the period of a year (and half a year at J2000), longitude. -/
def mainL : List (List Term) := [
  [(3341656456, 466925680417, 628307584999140), (34894275, 462610241759, 1256615169998280)],
  [(206058863, 267823455584, 628307584999140)], [(8719837, 107209665242, 628307584999140)],
  [(289226, 584384198723, 628307584999140)], [], []]

/-- The same, distance. -/
def mainR : List (List Term) := [
  [(1670699626, 309846350771, 628307584999140), (13956023, 305524609620, 1256615169998280)],
  [(103018608, 110748969588, 628307584999140)], [(4359385, 578455133738, 628307584999140)],
  [(144595, 427319435148, 628307584999140)], [], []]

def isMain (m : List (List Term)) (r : Term) : Bool := decide (r ∈ m.flatten)

theorem main_parts : part (isMain mainL) Data.earthL = mainL ∧ part (isMain mainR) Data.earthR = mainR := by
  decide +kernel

theorem rest_parts :
    head1 (part (fun r => !isMain mainL r) Data.earthL) = some 628331966747491 ∧
    pSpeed 2 (tail1 (part (fun r => !isMain mainL r) Data.earthL)) ≤ 54221 * 10 ^ 18 ∧
    head0 (part (fun r => !isMain mainR r) Data.earthR) = some 100013988799 ∧
    pAmpl 2 (tail0 (part (fun r => !isMain mainR r) Data.earthR)) ≤ 18151000 := by decide +kernel

theorem earthL_parts {t u : ℝ} (ht : |t| ≤ (2 : ℕ)) (hu : |u| ≤ (2 : ℕ)) :
    |pval Data.earthL t - pval Data.earthL u - (6283.31966747491 + dval mainL t) * (t - u)| ≤
      5.4221 * |t - u| + (pCurv 2 mainL * (t - u) ^ 2 + pFroz 2 mainL * |t - u|) := by
  rw [pval_split (isMain mainL) _ t, pval_split (isMain mainL) _ u, main_parts.1]
  have a := pval_rate rest_parts.1 rest_parts.2.1 ht hu
  have b := pval_tangent mainL ht hu
  generalize pval (part (fun r => !isMain mainL r) Data.earthL) t = x at *
  generalize pval (part (fun r => !isMain mainL r) Data.earthL) u = y at *
  have e : pval mainL t + x - (pval mainL u + y) - (6283.31966747491 + dval mainL t) * (t - u) =
    (x - y - ((628331966747491 : ℕ) : ℝ) / 10 ^ 11 * (t - u)) + (pval mainL t - pval mainL u - (t - u) * dval mainL t) := by
    push_cast; ring
  rw [e]
  refine (abs_add_le _ _).trans (add_le_add (a.trans ?_) b)
  push_cast
  exact mul_le_mul_of_nonneg_right (by norm_num) (abs_nonneg _)

theorem earthR_parts {t : ℝ} (ht : |t| ≤ (2 : ℕ)) :
    |pval Data.earthR t - (1.00013988799 + pval mainR t)| ≤ 1.8151e-4 := by
  rw [pval_split (isMain mainR) _ t, main_parts.2]
  have a := pval_near rest_parts.2.2.1 rest_parts.2.2.2 ht
  generalize pval (part (fun r => !isMain mainR r) Data.earthR) t = x at *
  rw [show pval mainR t + x - (1.00013988799 + pval mainR t) = x - ((100013988799 : ℕ) : ℝ) / 10 ^ 11 by
    push_cast; ring]
  refine a.trans ?_
  push_cast; norm_num

/-! ### Nearly opposite waves -/

theorem two_waves {X Y α β θ : ℝ} (hY : 0 ≤ Y) :
    |X * cos (α + θ) - Y * cos (β + θ)| ≤ |X - Y| + Y * |α - β| := by
  have e : X * cos (α + θ) - Y * cos (β + θ) = (X - Y) * cos (α + θ) + Y * (cos (α + θ) - cos (β + θ)) := by ring
  rw [e]
  refine (abs_add_le _ _).trans ?_
  rw [abs_mul, abs_mul, abs_of_nonneg hY]
  have k := abs_cos_sub_cos_le (α + θ) (β + θ)
  rw [add_sub_add_right_eq_sub] at k
  have a := mul_le_mul_of_nonneg_left (abs_cos_le_one (α + θ)) (abs_nonneg (X - Y))
  have b := mul_le_mul_of_nonneg_left k hY
  linarith

/-- A sine with amplitude `X` and a cosine with amplitude `Y` that nearly cancel. -/
theorem opposite_waves {X Y c a θ : ℝ} (m : ℤ) {d e : ℝ} (hY : 0 ≤ Y) (hd : |X - Y| ≤ d)
    (he : Y * |c - a - π / 2 + m * (2 * π)| ≤ e) :
    |-(X * sin (c + θ)) + Y * cos (a + θ)| ≤ d + e := by
  have k := two_waves (X := X) (α := c + π / 2 + m * (2 * π)) (β := a + π) (θ := θ) hY
  have e1 : cos (c + π / 2 + m * (2 * π) + θ) = -sin (c + θ) := by
    rw [show c + π / 2 + m * (2 * π) + θ = (c + θ + π / 2) + m * (2 * π) by ring, cos_add_int_mul_two_pi,
      cos_add_pi_div_two]
  have e2 : cos (a + π + θ) = -cos (a + θ) := by
    rw [show a + π + θ = a + θ + π by ring, cos_add_pi]
  rw [e1, e2] at k
  rw [show X * -sin (c + θ) - Y * -cos (a + θ) = -(X * sin (c + θ)) + Y * cos (a + θ) by ring,
    show c + π / 2 + m * (2 * π) - (a + π) = c - a - π / 2 + m * (2 * π) by ring] at k
  linarith

end Verif
