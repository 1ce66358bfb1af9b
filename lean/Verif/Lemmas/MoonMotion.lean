import Verif.Props.Lunar
import Verif.Props.EquinoxYear

/-!
# Lemmas about the motion of the Moon: rates of the lunar series
-/

namespace Verif
open Real

/-- The mean arguments move almost uniformly: deviation from the linear rate, in degrees per century,
for `|T| ≤ 60`. -/
theorem poly4_rate {a b c d e T U : ℝ} (hT : |T| ≤ 60) (hU : |U| ≤ 60) :
    |polyR [a, b, c, d, e] T - polyR [a, b, c, d, e] U - b * (T - U)| ≤
      (120 * |c| + 10800 * |d| + 864000 * |e|) * |T - U| := by
  have h := poly4_lip (a := a) (b := 0) (c := c) (d := d) (e := e) hT hU
  have x : polyR [a, b, c, d, e] T - polyR [a, b, c, d, e] U - b * (T - U) =
      polyR [a, 0, c, d, e] T - polyR [a, 0, c, d, e] U := by
    simp only [polyR, horner]; ring
  rw [x]
  rwa [abs_zero, zero_add] at h

theorem args_rate {T U : ℝ} (hT : |T| ≤ 60) (hU : |U| ≤ 60) :
    |polyR kD T - polyR kD U - dToR 445267 * (T - U)| ≤ dToR 2 * |T - U| ∧
    |polyR kM T - polyR kM U - dToR 35999 * (T - U)| ≤ dToR 2 * |T - U| ∧
    |polyR kM1 T - polyR kM1 U - dToR 477199 * (T - U)| ≤ dToR 2 * |T - U| ∧
    |polyR kF T - polyR kF U - dToR 483202 * (T - U)| ≤ dToR 2 * |T - U| ∧
    |polyR kL1 T - polyR kL1 U - dToR 481268 * (T - U)| ≤ dToR 2 * |T - U| := by
  have key : ∀ {a b c d e n : ℝ}, |b - n| + 120 * |c| + 10800 * |d| + 864000 * |e| ≤ 2 →
      |polyR [dToR a, dToR b, dToR c, dToR d, dToR e] T -
        polyR [dToR a, dToR b, dToR c, dToR d, dToR e] U - dToR n * (T - U)| ≤ dToR 2 * |T - U| := by
    intro a b c d e n h
    have r := poly4_rate (a := dToR a) (b := dToR b) (c := dToR c) (d := dToR d) (e := dToR e) hT hU
    have x : ∀ p q : ℝ, p - q - dToR n * (T - U) = (p - q - dToR b * (T - U)) +
        dToR (b - n) * (T - U) := by intros; unfold dToR; ring
    rw [x]
    refine (abs_add_le _ _).trans ?_
    rw [abs_mul]
    simp only [dToR_abs] at r ⊢
    refine (add_le_add r le_rfl).trans ?_
    rw [← add_mul]
    refine mul_le_mul_of_nonneg_right ?_ (abs_nonneg _)
    unfold dToR
    have := Real.pi_pos
    rw [le_div_iff₀ (by norm_num)]
    nlinarith
  have hM5 : ∀ T, polyR kM T = polyR [dToR 357.5291092, dToR 35999.0502909, dToR (-0.0001536),
      dToR (1 / 24490000), dToR 0] T := by
    intro T; unfold kM; simp only [polyR, horner, dToR]; ring
  refine ⟨?_, ?_, ?_, ?_, ?_⟩
  · exact key (by norm_num [abs_of_pos, abs_of_neg])
  · rw [hM5, hM5]; exact key (by norm_num [abs_of_pos, abs_of_neg])
  · exact key (by norm_num [abs_of_pos, abs_of_neg])
  · exact key (by norm_num [abs_of_pos, abs_of_neg])
  · exact key (by norm_num [abs_of_pos, abs_of_neg])

/-- Degrees per century of the argument of a row, at most. -/
def lunarRate (d m m1 f : ℤ) : ℕ :=
  (d * 445267 + m * 35999 + m1 * 477199 + f * 483202).natAbs +
    2 * (d.natAbs + m.natAbs + m1.natAbs + f.natAbs)

theorem lunarArg_lip {T U : ℝ} (hT : |T| ≤ 60) (hU : |U| ≤ 60) (d m m1 f : ℤ) :
    |lunarArg T d m m1 f - lunarArg U d m m1 f| ≤ dToR (lunarRate d m m1 f) * |T - U| := by
  obtain ⟨h1, h2, h3, h4, -⟩ := args_rate hT hU
  unfold lunarArg
  generalize polyR kD T = a1 at *
  generalize polyR kD U = b1 at *
  generalize polyR kM T = a2 at *
  generalize polyR kM U = b2 at *
  generalize polyR kM1 T = a3 at *
  generalize polyR kM1 U = b3 at *
  generalize polyR kF T = a4 at *
  generalize polyR kF U = b4 at *
  have k : ∀ {x y c : ℝ} (n : ℤ), |x - y - c| ≤ dToR 2 * |T - U| →
      |n * (x - y - c)| ≤ dToR 2 * n.natAbs * |T - U| := by
    intro x y c n h
    rw [abs_mul, Nat.cast_natAbs, Int.cast_abs]
    calc |(n : ℝ)| * |x - y - c| ≤ |(n : ℝ)| * (dToR 2 * |T - U|) :=
          mul_le_mul_of_nonneg_left h (abs_nonneg _)
      _ = _ := by ring
  have e : d * a1 + m * a2 + m1 * a3 + f * a4 - (d * b1 + m * b2 + m1 * b3 + f * b4) =
      dToR (d * 445267 + m * 35999 + m1 * 477199 + f * 483202) * (T - U) +
      (d * (a1 - b1 - dToR 445267 * (T - U)) + (m * (a2 - b2 - dToR 35999 * (T - U)) +
      (m1 * (a3 - b3 - dToR 477199 * (T - U)) + f * (a4 - b4 - dToR 483202 * (T - U))))) := by
    unfold dToR; ring
  rw [e]
  refine (abs_add_le _ _).trans ((add_le_add le_rfl ((abs_add_le _ _).trans (add_le_add (k _ h1)
    ((abs_add_le _ _).trans (add_le_add (k _ h2) ((abs_add_le _ _).trans
    (add_le_add (k _ h3) (k _ h4)))))))).trans (le_of_eq ?_))
  rw [abs_mul, dToR_abs]
  have q : |(d * 445267 + m * 35999 + m1 * 477199 + f * 483202 : ℝ)| =
      ((d * 445267 + m * 35999 + m1 * 477199 + f * 483202).natAbs : ℝ) := by
    rw [Nat.cast_natAbs, Int.cast_abs]; push_cast; rfl
  rw [q]
  unfold lunarRate
  generalize (d * 445267 + m * 35999 + m1 * 477199 + f * 483202).natAbs = z
  unfold dToR
  push_cast
  ring

theorem lunarFactor_lip {T U : ℝ} (hT : |T| ≤ 20) (hU : |U| ≤ 20) (m : ℤ) :
    |lunarFactor (lunarConstants T) m - lunarFactor (lunarConstants U) m| ≤ 0.006 * |T - U| := by
  obtain ⟨t1, t2⟩ := abs_le.mp hT
  obtain ⟨u1, u2⟩ := abs_le.mp hU
  have bT := lunarFactor_abs hT 1
  have bU := lunarFactor_abs hU 1
  rw [lunarFactor_eq] at bT bU
  rw [lunarFactor_eq, lunarFactor_eq]
  have l1 : |1 - 0.002516 * T - 0.0000074 * T ^ 2 - (1 - 0.002516 * U - 0.0000074 * U ^ 2)| ≤
      0.00282 * |T - U| := by
    have e : 1 - 0.002516 * T - 0.0000074 * T ^ 2 - (1 - 0.002516 * U - 0.0000074 * U ^ 2) =
        -(0.002516 + 0.0000074 * (T + U)) * (T - U) := by ring
    rw [e, abs_mul, abs_neg]
    refine mul_le_mul_of_nonneg_right ?_ (abs_nonneg _)
    rw [abs_le]; constructor <;> norm_num <;> linarith
  unfold eccFactor factorBound at *
  simp only [true_or, if_true] at bT bU
  generalize 1 - 0.002516 * T - 0.0000074 * T ^ 2 = x at *
  generalize 1 - 0.002516 * U - 0.0000074 * U ^ 2 = y at *
  have n := abs_nonneg (T - U)
  have hx : |x| ≤ 1.0474 := by norm_num at bT ⊢; exact bT
  have hy : |y| ≤ 1.0474 := by norm_num at bU ⊢; exact bU
  split_ifs
  · norm_num at l1 ⊢; linarith
  · rw [show x ^ 2 - y ^ 2 = (x + y) * (x - y) by ring, abs_mul]
    have s : |x + y| ≤ 2.0948 := by
      refine (abs_add_le _ _).trans ?_
      norm_num at hx hy ⊢; linarith
    have := mul_le_mul s l1 (abs_nonneg _) (by norm_num)
    norm_num at this ⊢; linarith
  · rw [sub_self, abs_zero]; positivity

theorem deg_rate_le (n : ℕ) : dToR n ≤ n * 0.0174533 := by
  unfold dToR
  have p := Real.pi_lt_d6
  have c : (0 : ℝ) ≤ n := Nat.cast_nonneg _
  rw [div_le_iff₀ (by norm_num)]
  norm_num at p ⊢
  nlinarith

/-- Rate of a sum of terms of the lunar theory. -/
theorem lunar_sum_lip {α : Type} (l : List α) (k m : α → ℤ) (rate : α → ℕ) (arg : ℝ → α → ℝ)
    (g : ℝ → ℝ) {T U : ℝ} (hT : |T| ≤ 20) (hU : |U| ≤ 20) (hg : ∀ x, |g x| ≤ 1)
    (hl : ∀ x y, |g x - g y| ≤ |x - y|)
    (ha : ∀ r, |arg T r - arg U r| ≤ dToR (rate r) * |T - U|) :
    |(l.map fun r => (k r : ℝ) * lunarFactor (lunarConstants T) (m r) * g (arg T r)).sum -
      (l.map fun r => (k r : ℝ) * lunarFactor (lunarConstants U) (m r) * g (arg U r)).sum| ≤
      ((l.map fun r => (k r).natAbs * (factorBound (m r) * rate r * 174533 + 600000000)).sum : ℕ) /
        10 ^ 11 * |T - U| := by
  have c := sum_lip l (fun r T => (k r : ℝ) * lunarFactor (lunarConstants T) (m r) * g (arg T r))
    (fun r => ((k r).natAbs * (factorBound (m r) * rate r * 174533 + 600000000) : ℕ) / 10 ^ 11) T U ?_
  · refine c.trans (le_of_eq ?_)
    congr 1
    clear c ha
    induction l with
    | nil => simp
    | cons r l ih => rw [List.map_cons, List.sum_cons, ih, List.map_cons, List.sum_cons]; push_cast; ring
  · intro r _
    have f1 := lunarFactor_abs hT (m r)
    have f2 := lunarFactor_lip hT hU (m r)
    have g1 := (hl (arg T r) (arg U r)).trans ((ha r).trans
      (mul_le_mul_of_nonneg_right (deg_rate_le (rate r)) (abs_nonneg _)))
    have g2 := hg (arg U r)
    generalize lunarFactor (lunarConstants T) (m r) = F at *
    generalize lunarFactor (lunarConstants U) (m r) = G at *
    generalize g (arg T r) = p at *
    generalize g (arg U r) = q at *
    have e : (k r : ℝ) * F * p - k r * G * q = k r * (F * (p - q) + (F - G) * q) := by ring
    rw [e, abs_mul, show |(k r : ℝ)| = ((k r).natAbs : ℝ) by rw [Nat.cast_natAbs, Int.cast_abs]]
    have t : |F * (p - q) + (F - G) * q| ≤
        (factorBound (m r) * rate r * 174533 + 600000000 : ℕ) / 10 ^ 11 * |T - U| := by
      refine (abs_add_le _ _).trans ?_
      rw [abs_mul, abs_mul]
      have t1 := mul_le_mul f1 g1 (abs_nonneg _) (by positivity)
      have t2 := mul_le_mul f2 g2 (abs_nonneg _) (by positivity)
      refine (add_le_add t1 t2).trans (le_of_eq ?_)
      push_cast
      norm_num
      ring
    refine (mul_le_mul_of_nonneg_left t (Nat.cast_nonneg _)).trans (le_of_eq ?_)
    push_cast
    ring

theorem nat_div_le' {n m : ℕ} (h : n ≤ m) : (n : ℝ) / 10 ^ 11 ≤ (m : ℝ) / 10 ^ 11 :=
  div_le_div_of_nonneg_right (by exact_mod_cast h) (by positivity)

/-- Rates of the three sums: millionths of a degree, or metres, per century. -/
theorem lonSum_lip {T U : ℝ} (hT : |T| ≤ 20) (hU : |U| ≤ 20) :
    |lonSum T - lonSum U| ≤ 2.271e6 * 36525 * |T - U| := by
  have h := lunar_sum_lip Data.lunarLR (fun r : LRow => r.2.2.2.2.1) (fun r => r.2.1)
    (fun r => lunarRate r.1 r.2.1 r.2.2.1 r.2.2.2.1)
    (fun T r => lunarArg T r.1 r.2.1 r.2.2.1 r.2.2.2.1) sin hT hU abs_sin_le_one abs_sin_sub_le
    (fun r => lunarArg_lip (by linarith) (by linarith) _ _ _ _)
  refine h.trans (mul_le_mul_of_nonneg_right ?_ (abs_nonneg _))
  refine (nat_div_le' (m := 2271 * 10 ^ 3 * 36525 * 10 ^ 11) (by decide +kernel)).trans (by norm_num)

theorem latSum_lip {T U : ℝ} (hT : |T| ≤ 20) (hU : |U| ≤ 20) :
    |latSum T - latSum U| ≤ 1.435e6 * 36525 * |T - U| := by
  have h := lunar_sum_lip Data.lunarB (fun r : BRow => r.2.2.2.2) (fun r => r.2.1)
    (fun r => lunarRate r.1 r.2.1 r.2.2.1 r.2.2.2.1)
    (fun T r => lunarArg T r.1 r.2.1 r.2.2.1 r.2.2.2.1) sin hT hU abs_sin_le_one abs_sin_sub_le
    (fun r => lunarArg_lip (by linarith) (by linarith) _ _ _ _)
  refine h.trans (mul_le_mul_of_nonneg_right ?_ (abs_nonneg _))
  refine (nat_div_le' (m := 1435 * 10 ^ 3 * 36525 * 10 ^ 11) (by decide +kernel)).trans (by norm_num)

theorem radSum_lip {T U : ℝ} (hT : |T| ≤ 20) (hU : |U| ≤ 20) :
    |radSum T - radSum U| ≤ 7.49e6 * 36525 * |T - U| := by
  have h := lunar_sum_lip Data.lunarLR (fun r : LRow => r.2.2.2.2.2) (fun r => r.2.1)
    (fun r => lunarRate r.1 r.2.1 r.2.2.1 r.2.2.2.1)
    (fun T r => lunarArg T r.1 r.2.1 r.2.2.1 r.2.2.2.1) cos hT hU abs_cos_le_one abs_cos_sub_le
    (fun r => lunarArg_lip (by linarith) (by linarith) _ _ _ _)
  refine h.trans (mul_le_mul_of_nonneg_right ?_ (abs_nonneg _))
  refine (nat_div_le' (m := 749 * 10 ^ 4 * 36525 * 10 ^ 11) (by decide +kernel)).trans (by norm_num)

/-! ### The additional terms -/

theorem sin_deg_lip {x y : ℝ} {n : ℕ} {w : ℝ} (h : |x - y| ≤ dToR n * w) (hw : 0 ≤ w) (k : ℝ) :
    |k * sin x - k * sin y| ≤ |k| * (n * 0.0174533) * w := by
  rw [← mul_sub, abs_mul, mul_assoc]
  refine mul_le_mul_of_nonneg_left ((abs_sin_sub_le _ _).trans (h.trans ?_)) (abs_nonneg _)
  exact mul_le_mul_of_nonneg_right (deg_rate_le n) hw

theorem deg_linear_lip (a b T U : ℝ) (n : ℕ) (h : |b| ≤ n) :
    |deg (a + b * T) - deg (a + b * U)| ≤ dToR n * |T - U| := by
  have e : deg (a + b * T) - deg (a + b * U) = dToR b * (T - U) := by unfold deg dToR; ring
  rw [e, abs_mul, dToR_abs]
  refine mul_le_mul_of_nonneg_right ?_ (abs_nonneg _)
  unfold dToR
  have := Real.pi_pos
  gcongr

/-- Combination of two mean arguments. -/
theorem comb_lip {x y x' y' w : ℝ} {a b : ℝ} (s : ℝ) (hs : |s| = 1)
    (h : |x - x' - dToR a * w| ≤ dToR 2 * |w|)
    (h' : |y - y' - dToR b * w| ≤ dToR 2 * |w|) (n : ℕ) (hn : |a + s * b| + 4 ≤ n) :
    |x + s * y - (x' + s * y')| ≤ dToR n * |w| := by
  have e : x + s * y - (x' + s * y') = (x - x' - dToR a * w) + (s * (y - y' - dToR b * w) +
      dToR (a + s * b) * w) := by unfold dToR; ring
  rw [e]
  refine (abs_add_le _ _).trans ((add_le_add h (abs_add_le _ _)).trans ?_)
  rw [abs_mul, hs, one_mul, abs_mul, dToR_abs]
  have q : dToR (|a + s * b|) ≤ dToR ((n : ℝ) - 4) := by
    unfold dToR
    have := Real.pi_pos
    gcongr
    linarith
  have q2 := mul_le_mul_of_nonneg_right q (abs_nonneg w)
  have f : dToR ((n : ℝ) - 4) * |w| = dToR n * |w| - dToR 2 * |w| - dToR 2 * |w| := by
    unfold dToR; ring
  linarith

/-- The additional terms of the longitude. -/
noncomputable def lonExtra (T : ℝ) : ℝ :=
  3958 * sin (polyR kA1 T) + 1962 * sin (polyR kL1 T - polyR kF T) + 318 * sin (polyR kA2 T)

/-- The additional terms of the latitude. -/
noncomputable def latExtra (T : ℝ) : ℝ :=
  -2235 * sin (polyR kL1 T) + 382 * sin (polyR kA3 T) + 175 * sin (polyR kA1 T - polyR kF T) +
    175 * sin (polyR kA1 T + polyR kF T) + 127 * sin (polyR kL1 T - polyR kM1 T) -
    115 * sin (polyR kL1 T + polyR kM1 T)

theorem lonExtra_abs (T : ℝ) : |lonExtra T| ≤ 6238 := by
  unfold lonExtra
  have s := fun x : ℝ => abs_le.mp (abs_sin_le_one x)
  have s1 := s (polyR kA1 T)
  have s2 := s (polyR kL1 T - polyR kF T)
  have s3 := s (polyR kA2 T)
  rw [abs_le]; constructor <;> linarith [s1.1, s1.2, s2.1, s2.2, s3.1, s3.2]

theorem latExtra_abs (T : ℝ) : |latExtra T| ≤ 3209 := by
  unfold latExtra
  have s := fun x : ℝ => abs_le.mp (abs_sin_le_one x)
  have s1 := s (polyR kL1 T)
  have s2 := s (polyR kA3 T)
  have s3 := s (polyR kA1 T - polyR kF T)
  have s4 := s (polyR kA1 T + polyR kF T)
  have s5 := s (polyR kL1 T - polyR kM1 T)
  have s6 := s (polyR kL1 T + polyR kM1 T)
  rw [abs_le]; constructor <;> linarith [s1.1, s1.2, s2.1, s2.2, s3.1, s3.2, s4.1, s4.2, s5.1, s5.2,
    s6.1, s6.2]

theorem A1_rate (T U : ℝ) :
    |polyR kA1 T - polyR kA1 U - dToR 132 * (T - U)| ≤ dToR 2 * |T - U| := by
  rw [polyR_kA1, polyR_kA1]
  have e : deg (119.75 + 131.849 * T) - deg (119.75 + 131.849 * U) - dToR 132 * (T - U) =
      dToR (-0.151) * (T - U) := by unfold deg dToR; ring
  rw [e, abs_mul, dToR_abs]
  refine mul_le_mul_of_nonneg_right ?_ (abs_nonneg _)
  unfold dToR
  have := Real.pi_pos
  gcongr
  norm_num [abs_of_neg]

theorem lonExtra_lip {T U : ℝ} (hT : |T| ≤ 60) (hU : |U| ≤ 60) :
    |lonExtra T - lonExtra U| ≤ 100 * 36525 * |T - U| := by
  obtain ⟨-, -, -, hF, hL⟩ := args_rate hT hU
  have n := abs_nonneg (T - U)
  have a1 := sin_deg_lip (x := polyR kA1 T) (y := polyR kA1 U) (n := 132)
    (by rw [polyR_kA1, polyR_kA1]; exact deg_linear_lip _ _ _ _ _ (by norm_num [abs_of_pos])) n 3958
  have a2 := sin_deg_lip (x := polyR kA2 T) (y := polyR kA2 U) (n := 479265)
    (by rw [polyR_kA2, polyR_kA2]; exact deg_linear_lip _ _ _ _ _ (by norm_num [abs_of_pos])) n 318
  have a3 := sin_deg_lip (comb_lip (-1) (by norm_num) hL hF 1940 (by norm_num [abs_of_neg])) n 1962
  rw [show ∀ x y : ℝ, x + -1 * y = x - y by intros; ring,
    show ∀ x y : ℝ, x + -1 * y = x - y by intros; ring] at a3
  unfold lonExtra
  rw [show ∀ a b c a' b' c' : ℝ, a + b + c - (a' + b' + c') = (a - a') + ((b - b') + (c - c'))
    by intros; ring]
  refine (abs_add_le _ _).trans ((add_le_add a1 ((abs_add_le _ _).trans (add_le_add a3 a2))).trans ?_)
  rw [← add_mul, ← add_mul]
  refine mul_le_mul_of_nonneg_right ?_ n
  norm_num [abs_of_pos]

theorem latExtra_lip {T U : ℝ} (hT : |T| ≤ 60) (hU : |U| ≤ 60) :
    |latExtra T - latExtra U| ≤ 1000 * 36525 * |T - U| := by
  obtain ⟨-, -, hM, hF, hL⟩ := args_rate hT hU
  have hA := A1_rate T U
  have n := abs_nonneg (T - U)
  have z : ∀ x y : ℝ, x + -1 * y = x - y := by intros; ring
  have o : ∀ x y : ℝ, x + 1 * y = x + y := by intros; ring
  have a1 := sin_deg_lip (x := polyR kL1 T) (y := polyR kL1 U) (n := 481270) (w := |T - U|) (by
    have e : polyR kL1 T - polyR kL1 U = (polyR kL1 T - polyR kL1 U - dToR 481268 * (T - U)) +
      dToR 481268 * (T - U) := by ring
    rw [e]
    refine (abs_add_le _ _).trans ((add_le_add hL le_rfl).trans (le_of_eq ?_))
    rw [abs_mul, dToR_abs, abs_of_pos (by norm_num : (0 : ℝ) < 481268)]
    unfold dToR; push_cast; ring) n (-2235)
  have a2 := sin_deg_lip (x := polyR kA3 T) (y := polyR kA3 U) (n := 481267)
    (by rw [polyR_kA3, polyR_kA3]; exact deg_linear_lip _ _ _ _ _ (by norm_num [abs_of_pos])) n 382
  have a3 := sin_deg_lip (comb_lip (-1) (by norm_num) hA hF 490000 (by norm_num [abs_of_neg])) n 175
  have a4 := sin_deg_lip (comb_lip 1 (by norm_num) hA hF 490000 (by norm_num [abs_of_pos])) n 175
  have a5 := sin_deg_lip (comb_lip (-1) (by norm_num) hL hM 4080 (by norm_num [abs_of_pos])) n 127
  have a6 := sin_deg_lip (comb_lip 1 (by norm_num) hL hM 960000 (by norm_num [abs_of_pos])) n (-115)
  simp only [z, o] at a3 a4 a5 a6
  unfold latExtra
  rw [show ∀ a b c d e f a' b' c' d' e' f' : ℝ, a + b + c + d + e - 115 * f -
      (a' + b' + c' + d' + e' - 115 * f') = (a - a') + ((b - b') + ((c - c') + ((d - d') +
      ((e - e') + (-115 * f - -115 * f'))))) by intros; ring]
  refine (abs_add_le _ _).trans ((add_le_add a1 ((abs_add_le _ _).trans (add_le_add a2
    ((abs_add_le _ _).trans (add_le_add a3 ((abs_add_le _ _).trans (add_le_add a4
    ((abs_add_le _ _).trans (add_le_add a5 a6))))))))).trans ?_)
  rw [← add_mul, ← add_mul, ← add_mul, ← add_mul, ← add_mul]
  refine mul_le_mul_of_nonneg_right ?_ n
  norm_num [abs_of_pos, abs_of_neg]

/-! ### The unreduced longitude -/

/-- Degrees of the periodic part of the Moon's longitude, without nutation. -/
noncomputable def moonPeriodic (T : ℝ) : ℝ := (lonSum T + lonExtra T) / 1000000

/-- The unreduced longitude of the Moon. -/
noncomputable def moonLambda (jd : ℝ) : ℝ :=
  deg (Mean.moonLongitude (centuries jd) + moonPeriodic (centuries jd)) + nutationInLongitude jd

theorem moonLambda_congr (jd : ℝ) : Congr (2 * π) (lunarLongitude jd) (moonLambda jd) := by
  rw [lunarLongitude_eq]
  unfold moonLambda moonPeriodic lonExtra
  rw [deg_add, ← polyR_kL1, deg_eq]
  exact congr_add (congr_add (modpi2_spec _).2.2 (congr_refl _)) (congr_refl _)

theorem nutation_lip_days {x y : ℝ} (hx : |millennia x| ≤ 6) (hy : |millennia y| ≤ 6) :
    |nutationInLongitude x - nutationInLongitude y| ≤ deg (0.0005 * |x - y|) := by
  refine (nutation_lip hx hy).trans ?_
  have e : |millennia x - millennia y| = |x - y| / 365250 := by
    rw [show millennia x - millennia y = (x - y) / 365250 by unfold millennia; ring, abs_div,
      abs_of_pos (by norm_num : (0 : ℝ) < 365250)]
  rw [e]
  unfold deg
  have p := Real.pi_gt_d2
  have n := abs_nonneg (x - y)
  norm_num at p ⊢
  nlinarith

theorem millennia_centuries (jd : ℝ) : centuries jd = 10 * millennia jd := jcent_eq_millennia jd

theorem millennia_le {jd : ℝ} (h : |centuries jd| ≤ 20) : |millennia jd| ≤ 2 := by
  rw [millennia_centuries, abs_mul, abs_of_pos (by norm_num : (0 : ℝ) < 10)] at h
  linarith

theorem centuries_sub (x y : ℝ) : |centuries x - centuries y| = |x - y| / 36525 := by
  rw [show centuries x - centuries y = (x - y) / 36525 by unfold centuries; ring, abs_div,
    abs_of_pos (by norm_num : (0 : ℝ) < 36525)]

/-- The mean motion, degrees per day. -/
theorem mean_rate {x y : ℝ} (hx : |centuries x| ≤ 20) (hy : |centuries y| ≤ 20) :
    |Mean.moonLongitude (centuries x) - Mean.moonLongitude (centuries y) - 13.1764 * (x - y)| ≤
      0.0001 * |x - y| := by
  obtain ⟨-, -, -, -, h⟩ := args_rate (T := centuries x) (U := centuries y) (by linarith)
    (by linarith)
  rw [centuries_sub, polyR_kL1, polyR_kL1] at h
  have e : ∀ a b : ℝ, deg a - deg b - dToR 481268 * (centuries x - centuries y) =
      deg (a - b - 481268 / 36525 * (x - y)) := by
    intro a b
    rw [show centuries x - centuries y = (x - y) / 36525 by unfold centuries; ring]
    unfold deg dToR; ring
  rw [e, show dToR 2 * (|x - y| / 36525) = deg (2 / 36525 * |x - y|) by unfold dToR deg; ring,
    abs_deg, deg_le] at h
  generalize Mean.moonLongitude (centuries x) - Mean.moonLongitude (centuries y) = m at *
  have q : m - 13.1764 * (x - y) = (m - 481268 / 36525 * (x - y)) +
    (481268 / 36525 - 13.1764) * (x - y) := by ring
  rw [q]
  refine (abs_add_le _ _).trans ?_
  rw [abs_mul]
  have k : |(481268 / 36525 - 13.1764 : ℝ)| ≤ 0.00001 := by rw [abs_le]; norm_num
  have k2 := mul_le_mul_of_nonneg_right k (abs_nonneg (x - y))
  have n := abs_nonneg (x - y)
  norm_num at h k2 ⊢
  linarith

theorem moonPeriodic_lip {x y : ℝ} (hx : |centuries x| ≤ 20) (hy : |centuries y| ≤ 20) :
    |moonPeriodic (centuries x) - moonPeriodic (centuries y)| ≤ 2.2711 * |x - y| := by
  have h1 := lonSum_lip hx hy
  have h2 := lonExtra_lip (T := centuries x) (U := centuries y) (by linarith) (by linarith)
  rw [centuries_sub] at h1 h2
  unfold moonPeriodic
  rw [← sub_div, abs_div, abs_of_pos (by norm_num : (0 : ℝ) < 1000000), div_le_iff₀ (by norm_num),
    add_sub_add_comm]
  refine (abs_add_le _ _).trans ((add_le_add h1 h2).trans (le_of_eq ?_))
  norm_num
  ring

theorem moonPeriodic_abs {T : ℝ} (h : |T| ≤ 20) : |moonPeriodic T| ≤ 9.237 := by
  unfold moonPeriodic
  rw [abs_div, abs_of_pos (by norm_num : (0 : ℝ) < 1000000), div_le_iff₀ (by norm_num)]
  refine (abs_add_le _ _).trans ((add_le_add (lonSum_abs h) (lonExtra_abs T)).trans ?_)
  norm_num

/-- The unreduced longitude: rate. -/
theorem moonLambda_rate {x y : ℝ} (hx : |centuries x| ≤ 20) (hy : |centuries y| ≤ 20) :
    |moonLambda x - moonLambda y - deg (13.1764 * (x - y))| ≤ deg (2.272 * |x - y|) := by
  have h1 := mean_rate hx hy
  have h2 := moonPeriodic_lip hx hy
  have h3 := nutation_lip_days (x := x) (y := y) (by linarith [millennia_le hx])
    (by linarith [millennia_le hy])
  unfold moonLambda
  have e : ∀ a b c a' b' c' : ℝ, deg (a + b) + c - (deg (a' + b') + c') - deg (13.1764 * (x - y)) =
      deg ((a - a' - 13.1764 * (x - y)) + (b - b')) + (c - c') := by intros; unfold deg; ring
  rw [e]
  refine (abs_add_le _ _).trans ((add_le_add le_rfl h3).trans ?_)
  rw [abs_deg, ← deg_add, deg_le]
  refine (add_le_add (abs_add_le _ _) le_rfl).trans ?_
  have n := abs_nonneg (x - y)
  norm_num at h1 h2 ⊢
  linarith

/-- The unreduced longitude: distance from the mean motion. -/
theorem moonLambda_mean {x y : ℝ} (hx : |centuries x| ≤ 20) (hy : |centuries y| ≤ 20) :
    |moonLambda x - moonLambda y - deg (13.1764 * (x - y))| ≤ deg (18.486 + 0.0001 * |x - y|) := by
  have h1 := mean_rate hx hy
  have b1 := moonPeriodic_abs hx
  have b2 := moonPeriodic_abs hy
  have n1 := (nutation_small x (by linarith)).1.le
  have n2 := (nutation_small y (by linarith)).1.le
  unfold moonLambda
  have e : ∀ a b c a' b' c' : ℝ, deg (a + b) + c - (deg (a' + b') + c') - deg (13.1764 * (x - y)) =
      deg ((a - a' - 13.1764 * (x - y)) + (b - b')) + (c - c') := by intros; unfold deg; ring
  rw [e]
  have c := abs_sub (nutationInLongitude x) (nutationInLongitude y)
  have a : arcsec 20 = deg (20 / 3600) := by unfold arcsec deg; ring
  have q : |nutationInLongitude x - nutationInLongitude y| ≤ deg (40 / 3600) := by
    refine c.trans ((add_le_add n1 n2).trans (le_of_eq ?_))
    rw [a, ← deg_add]; congr 1; norm_num
  refine (abs_add_le _ _).trans ((add_le_add le_rfl q).trans ?_)
  rw [abs_deg, ← deg_add, deg_le]
  have t := abs_sub (moonPeriodic (centuries x)) (moonPeriodic (centuries y))
  refine (add_le_add (abs_add_le _ _) le_rfl).trans ?_
  norm_num at h1 b1 b2 ⊢
  linarith

end Verif
