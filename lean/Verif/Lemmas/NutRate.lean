import Verif.Lemmas.EarthDay
import Verif.Lemmas.Nutation

/-!
# Lemmas about the nutation: change within a day
-/

namespace Verif
open Real

/-- Rates of the five arguments, in degrees per century, up to 1.3. -/
theorem nutArgs_rate {T U : ℝ} (hT : |T| ≤ 60) (hU : |U| ≤ 60) :
    |polyR kD T - polyR kD U - dToR 445267.1114034 * (T - U)| ≤ dToR 1.3 * |T - U| ∧
    |polyR kM T - polyR kM U - dToR 35999.0502909 * (T - U)| ≤ dToR 1.3 * |T - U| ∧
    |polyR kM1 T - polyR kM1 U - dToR 477198.8675055 * (T - U)| ≤ dToR 1.3 * |T - U| ∧
    |polyR kF T - polyR kF U - dToR 483202.0175233 * (T - U)| ≤ dToR 1.3 * |T - U| ∧
    |polyR ko T - polyR ko U - dToR (-1934.1362891) * (T - U)| ≤ dToR 1.3 * |T - U| := by
  have key : ∀ {a b c d e : ℝ}, 120 * |c| + 10800 * |d| + 864000 * |e| ≤ 1.3 →
      |polyR [a, b, dToR c, dToR d, dToR e] T - polyR [a, b, dToR c, dToR d, dToR e] U - b * (T - U)| ≤
        dToR 1.3 * |T - U| := by
    intro a b c d e h
    have x : polyR [a, b, dToR c, dToR d, dToR e] T - polyR [a, b, dToR c, dToR d, dToR e] U - b * (T - U) =
        polyR [a, 0, dToR c, dToR d, dToR e] T - polyR [a, 0, dToR c, dToR d, dToR e] U := by
      simp only [polyR, horner]; ring
    rw [x]
    refine (poly4_lip hT hU).trans (mul_le_mul_of_nonneg_right ?_ (abs_nonneg _))
    simp only [dToR_abs, abs_zero]
    unfold dToR
    have := Real.pi_pos
    rw [le_div_iff₀ (by norm_num)]
    nlinarith
  have hM5 : ∀ T, polyR kM T = polyR [dToR 357.5291092, dToR 35999.0502909, dToR (-0.0001536),
      dToR (1 / 24490000), dToR 0] T := by
    intro T
    rw [show kM = [dToR 357.5291092, dToR 35999.0502909, dToR (-0.0001536), dToR (1 / 24490000)] from rfl]
    simp only [polyR, horner, dToR]; ring
  refine ⟨?_, ?_, ?_, ?_, ?_⟩
  · exact key (by norm_num [abs_of_pos, abs_of_neg])
  · rw [hM5, hM5]
    exact key (by norm_num [abs_of_pos, abs_of_neg])
  · exact key (by norm_num [abs_of_pos, abs_of_neg])
  · exact key (by norm_num [abs_of_pos, abs_of_neg])
  · exact key (by norm_num [abs_of_pos, abs_of_neg])

/-- Rate of the argument of a row, in `1e-7` degree per century. -/
def nutRateS (r : NutRow) : ℕ :=
  (4452671114034 * r.1 + 359990502909 * r.2.1 + 4771988675055 * r.2.2.1 + 4832020175233 * r.2.2.2.1 -
    19341362891 * r.2.2.2.2.1).natAbs +
  13000000 * (r.1.natAbs + r.2.1.natAbs + r.2.2.1.natAbs + r.2.2.2.1.natAbs + r.2.2.2.2.1.natAbs)

theorem nutArg_rate {T U : ℝ} (hT : |T| ≤ 60) (hU : |U| ≤ 60) (r : NutRow) :
    |nutArg T r - nutArg U r| ≤ dToR (nutRateS r / 10 ^ 7) * |T - U| := by
  obtain ⟨h1, h2, h3, h4, h5⟩ := nutArgs_rate hT hU
  have m : ∀ {x c : ℝ} (n : ℤ), |x| ≤ c * |T - U| → |x * n| ≤ c * n.natAbs * |T - U| := by
    intro x c n h
    rw [abs_mul, Nat.cast_natAbs, Int.cast_abs]
    calc |x| * |(n : ℝ)| ≤ c * |T - U| * |(n : ℝ)| := mul_le_mul_of_nonneg_right h (abs_nonneg _)
      _ = _ := by ring
  have main : |dToR (445267.1114034 * r.1 + 35999.0502909 * r.2.1 + 477198.8675055 * r.2.2.1 +
      483202.0175233 * r.2.2.2.1 + -1934.1362891 * r.2.2.2.2.1) * (T - U)| =
      dToR (((4452671114034 * r.1 + 359990502909 * r.2.1 + 4771988675055 * r.2.2.1 + 4832020175233 * r.2.2.2.1 -
        19341362891 * r.2.2.2.2.1).natAbs : ℕ) / 10 ^ 7) * |T - U| := by
    rw [abs_mul, dToR_abs, Nat.cast_natAbs, Int.cast_abs]
    congr 2
    rw [show (10 : ℝ) ^ 7 = |(10 : ℝ) ^ 7| by norm_num, ← abs_div]
    congr 1
    push_cast
    ring
  have e : nutArg T r - nutArg U r = dToR (445267.1114034 * r.1 + 35999.0502909 * r.2.1 + 477198.8675055 * r.2.2.1 +
      483202.0175233 * r.2.2.2.1 + -1934.1362891 * r.2.2.2.2.1) * (T - U) +
      ((polyR kD T - polyR kD U - dToR 445267.1114034 * (T - U)) * r.1 +
      ((polyR kM T - polyR kM U - dToR 35999.0502909 * (T - U)) * r.2.1 +
      ((polyR kM1 T - polyR kM1 U - dToR 477198.8675055 * (T - U)) * r.2.2.1 +
      ((polyR kF T - polyR kF U - dToR 483202.0175233 * (T - U)) * r.2.2.2.1 +
      (polyR ko T - polyR ko U - dToR (-1934.1362891) * (T - U)) * r.2.2.2.2.1)))) := by
    unfold nutArg dToR; ring
  rw [e]
  refine (abs_add_le _ _).trans ((add_le_add (le_of_eq main) ((abs_add_le _ _).trans (add_le_add (m _ h1)
    ((abs_add_le _ _).trans (add_le_add (m _ h2) ((abs_add_le _ _).trans (add_le_add (m _ h3)
    ((abs_add_le _ _).trans (add_le_add (m _ h4) (m _ h5)))))))))).trans (le_of_eq ?_))
  unfold nutRateS dToR
  push_cast
  ring

/-- Bound of the rate of a row, in `1e-17` seconds of arc per century. -/
def nutRowRate (k k' : ℤ) (r : NutRow) : ℕ :=
  (k.natAbs * 10 + k'.natAbs * 60) * nutRateS r * 1746 + k'.natAbs * 10 ^ 12

theorem nutRow_rate {T U : ℝ} (hT : |T| ≤ 60) (hU : |U| ≤ 60) (k k' : ℤ) (r : NutRow) {g : ℝ → ℝ}
    (g1 : ∀ x, |g x| ≤ 1) (g2 : ∀ x y, |g x - g y| ≤ |x - y|) :
    |((k : ℝ) / 10000 + k' / 100000 * T) * g (nutArg T r) - ((k : ℝ) / 10000 + k' / 100000 * U) * g (nutArg U r)| ≤
      nutRowRate k k' r / 10 ^ 17 * |T - U| := by
  have s := (g2 (nutArg T r) (nutArg U r)).trans (nutArg_rate hT hU r)
  have e : ((k : ℝ) / 10000 + k' / 100000 * T) * g (nutArg T r) -
      ((k : ℝ) / 10000 + k' / 100000 * U) * g (nutArg U r) =
      ((k : ℝ) / 10000 + k' / 100000 * T) * (g (nutArg T r) - g (nutArg U r)) +
      k' / 100000 * (T - U) * g (nutArg U r) := by ring
  rw [e]
  have c1 : |(k : ℝ) / 10000 + k' / 100000 * T| ≤ k.natAbs / 10000 + k'.natAbs / 100000 * 60 := by
    refine (abs_add_le _ _).trans ?_
    rw [abs_mul, abs_div, abs_div, Nat.cast_natAbs, Nat.cast_natAbs, Int.cast_abs, Int.cast_abs,
      abs_of_pos (by norm_num : (0 : ℝ) < 10000), abs_of_pos (by norm_num : (0 : ℝ) < 100000)]
    gcongr
  have c2 : |(k' : ℝ) / 100000 * (T - U) * g (nutArg U r)| ≤ k'.natAbs / 100000 * |T - U| := by
    rw [abs_mul]
    refine (mul_le_of_le_one_right (abs_nonneg _) (g1 _)).trans (le_of_eq ?_)
    rw [abs_mul, abs_div, Nat.cast_natAbs, Int.cast_abs, abs_of_pos (by norm_num : (0 : ℝ) < 100000)]
  have d : dToR (nutRateS r / 10 ^ 7) ≤ nutRateS r / 10 ^ 7 * 0.01746 := by
    unfold dToR
    have := Real.pi_lt_d4
    have n : (0 : ℝ) ≤ nutRateS r := Nat.cast_nonneg _
    rw [div_le_iff₀ (by norm_num)]
    norm_num at this ⊢
    nlinarith
  have c3 : |((k : ℝ) / 10000 + k' / 100000 * T) * (g (nutArg T r) - g (nutArg U r))| ≤
      (k.natAbs / 10000 + k'.natAbs / 100000 * 60) * (nutRateS r / 10 ^ 7 * 0.01746 * |T - U|) := by
    rw [abs_mul]
    refine mul_le_mul c1 (s.trans ?_) (abs_nonneg _) (by positivity)
    exact mul_le_mul_of_nonneg_right d (abs_nonneg _)
  refine (abs_add_le _ _).trans ((add_le_add c3 c2).trans (le_of_eq ?_))
  unfold nutRowRate
  push_cast
  norm_num
  ring

theorem nutSum_rate {T U : ℝ} (hT : |T| ≤ 60) (hU : |U| ≤ 60) (l : List NutRow) (k k' : NutRow → ℤ) {g : ℝ → ℝ}
    (g1 : ∀ x, |g x| ≤ 1) (g2 : ∀ x y, |g x - g y| ≤ |x - y|) {N : ℕ}
    (hN : (l.map fun r => nutRowRate (k r) (k' r) r).sum ≤ N) :
    |(l.map fun r => ((k r : ℝ) / 10000 + k' r / 100000 * T) * g (nutArg T r)).sum -
      (l.map fun r => ((k r : ℝ) / 10000 + k' r / 100000 * U) * g (nutArg U r)).sum| ≤ N / 10 ^ 17 * |T - U| := by
  refine (sum_lip l (fun r T => ((k r : ℝ) / 10000 + k' r / 100000 * T) * g (nutArg T r))
    (fun r => nutRowRate (k r) (k' r) r / 10 ^ 17) T U (fun r _ => nutRow_rate hT hU _ _ r g1 g2)).trans ?_
  refine mul_le_mul_of_nonneg_right ?_ (abs_nonneg _)
  have e : ∀ l : List NutRow, (l.map fun r => (nutRowRate (k r) (k' r) r : ℝ) / 10 ^ 17).sum =
      ((l.map fun r => nutRowRate (k r) (k' r) r).sum : ℕ) / (10 ^ 17 : ℝ) := by
    intro l
    induction l with
    | nil => simp
    | cons r l ih => rw [List.map_cons, List.sum_cons, ih, List.map_cons, List.sum_cons]; push_cast; ring
  rw [e]
  have : (((l.map fun r => nutRowRate (k r) (k' r) r).sum : ℕ) : ℝ) ≤ N := by exact_mod_cast hN
  gcongr

end Verif
