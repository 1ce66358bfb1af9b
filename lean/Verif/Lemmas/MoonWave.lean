import Verif.Lemmas.Jet3
import Verif.Lemmas.MoonMotion

/-!
# Lemmas: the lunar series over one day as a sum of waves
-/

namespace Verif
open Real

section
variable {α : Type} (l : List α) (A th w : α → ℝ)

/-- A sum of waves. -/
noncomputable def waves (x : ℝ) : ℝ := (l.map fun r => A r * sin (th r + w r * x)).sum
noncomputable def waves1 (x : ℝ) : ℝ := (l.map fun r => A r * w r * cos (th r + w r * x)).sum
noncomputable def waves2 (x : ℝ) : ℝ := (l.map fun r => A r * w r ^ 2 * -sin (th r + w r * x)).sum
noncomputable def waves3 (x : ℝ) : ℝ := (l.map fun r => A r * w r ^ 3 * -cos (th r + w r * x)).sum

theorem sum_deriv {f f' : α → ℝ → ℝ} (x : ℝ) (h : ∀ r, HasDerivAt (f r) (f' r x) x) :
    HasDerivAt (fun x => (l.map fun r => f r x).sum) ((l.map fun r => f' r x).sum) x := by
  induction l with
  | nil => simpa using hasDerivAt_const x (0 : ℝ)
  | cons r l ih =>
    simp only [List.map_cons, List.sum_cons]
    exact (h r).add ih

theorem waves_jet : Jet3 (waves l A th w) (waves1 l A th w) (waves2 l A th w) (waves3 l A th w) := by
  have lin : ∀ r x, HasDerivAt (fun x => th r + w r * x) (w r) x := fun r x => by
    have := ((hasDerivAt_id x).const_mul (w r)).const_add (th r)
    simpa using this
  refine ⟨fun x => ?_, fun x => ?_, fun x => ?_⟩
  · refine sum_deriv l (f := fun r x => A r * sin (th r + w r * x)) (f' := fun r x => A r * w r * cos (th r + w r * x)) x
      fun r => ((lin r x).sin.const_mul (A r)).congr_deriv (by ring)
  · refine sum_deriv l (f := fun r x => A r * w r * cos (th r + w r * x))
      (f' := fun r x => A r * w r ^ 2 * -sin (th r + w r * x)) x
      fun r => ((lin r x).cos.const_mul (A r * w r)).congr_deriv (by ring)
  · refine sum_deriv l (f := fun r x => A r * w r ^ 2 * -sin (th r + w r * x))
      (f' := fun r x => A r * w r ^ 3 * -cos (th r + w r * x)) x
      fun r => (((lin r x).sin.neg).const_mul (A r * w r ^ 2)).congr_deriv (by ring)

/-- Amplitudes: whole numbers times factors of the lunar theory, rates in degrees per century. -/
theorem wave_sum_abs (k m : α → ℤ) (R : α → ℕ) (j : ℕ) (g : α → ℝ) (hg : ∀ r, |g r| ≤ 1)
    (hA : ∀ r, |A r| ≤ (k r).natAbs * (factorBound (m r) / 10000)) (hw : ∀ r, |w r| ≤ R r * (0.0174533 / 36525)) :
    |(l.map fun r => A r * w r ^ j * g r).sum| ≤
      ((l.map fun r => (k r).natAbs * factorBound (m r) * R r ^ j).sum : ℕ) / 10000 * (0.0174533 / 36525) ^ j := by
  induction l with
  | nil => simp
  | cons r l ih =>
    simp only [List.map_cons, List.sum_cons]
    refine (abs_add_le _ _).trans ?_
    have e : |A r * w r ^ j * g r| ≤ (k r).natAbs * (factorBound (m r) / 10000) * (R r * (0.0174533 / 36525)) ^ j := by
      rw [abs_mul, abs_mul, abs_pow]
      refine (mul_le_of_le_one_right (by positivity) (hg r)).trans ?_
      exact mul_le_mul (hA r) (pow_le_pow_left₀ (abs_nonneg _) (hw r) j) (by positivity) (by positivity)
    refine (add_le_add e ih).trans (le_of_eq ?_)
    push_cast
    rw [mul_pow]
    ring

/-- Difference of two sums. -/
theorem sum_diff (f g : α → ℝ) (c : α → ℕ) (e : ℝ) (h : ∀ r, |f r - g r| ≤ c r * e) :
    |(l.map f).sum - (l.map g).sum| ≤ ((l.map c).sum : ℕ) * e := by
  induction l with
  | nil => simp
  | cons r l ih =>
    simp only [List.map_cons, List.sum_cons]
    rw [add_sub_add_comm]
    refine (abs_add_le _ _).trans ((add_le_add (h r) ih).trans (le_of_eq ?_))
    push_cast; ring
end

/-- The rate of a row, degrees per century. -/
def rowRate (d m m1 f : ℤ) : ℤ := d * 445267 + m * 35999 + m1 * 477199 + f * 483202

/-- The rate of a row, radians per day. -/
noncomputable def rowOmega (d m m1 f : ℤ) : ℝ := dToR (rowRate d m m1 f) / 36525

theorem rowOmega_abs (d m m1 f : ℤ) : |rowOmega d m m1 f| ≤ (rowRate d m m1 f).natAbs * (0.0174533 / 36525) := by
  unfold rowOmega
  have := deg_rate_le (rowRate d m m1 f).natAbs
  rw [Nat.cast_natAbs, Int.cast_abs] at *
  rw [abs_div, dToR_abs, abs_of_pos (by norm_num : (0 : ℝ) < 36525), ← mul_div_assoc]
  gcongr

/-- The argument over one day: linear up to a small term. -/
theorem lunarArg_day {T n : ℝ} (hT : |T| ≤ 59) (hn : |n| ≤ 1) (d m m1 f : ℤ) :
    |lunarArg (T + n / 36525) d m m1 f - (lunarArg T d m m1 f + rowOmega d m m1 f * n)| ≤
      (d.natAbs + m.natAbs + m1.natAbs + f.natAbs : ℕ) * 1e-6 := by
  have hn' : |n / 36525| ≤ 1 / 36525 := by
    rw [abs_div, abs_of_pos (by norm_num : (0 : ℝ) < 36525)]; gcongr
  have hU : |T + n / 36525| ≤ 60 := (abs_add_le _ _).trans (by linarith)
  obtain ⟨h1, h2, h3, h4, -⟩ := args_rate hU (show |T| ≤ 60 by linarith)
  rw [show T + n / 36525 - T = n / 36525 by ring] at h1 h2 h3 h4
  have u : dToR 2 * |n / 36525| ≤ 1e-6 := by
    have := deg_rate_le 2
    push_cast at this
    have b := mul_le_mul this hn' (abs_nonneg _) (by norm_num)
    exact b.trans (by norm_num)
  have k : ∀ {x : ℝ} (n' : ℤ), |x| ≤ dToR 2 * |n / 36525| → |n' * x| ≤ n'.natAbs * 1e-6 := by
    intro x n' h
    rw [abs_mul, Nat.cast_natAbs, Int.cast_abs]
    exact mul_le_mul_of_nonneg_left (h.trans u) (abs_nonneg _)
  unfold lunarArg rowOmega rowRate
  generalize polyR kD (T + n / 36525) = a1 at *
  generalize polyR kD T = b1 at *
  generalize polyR kM (T + n / 36525) = a2 at *
  generalize polyR kM T = b2 at *
  generalize polyR kM1 (T + n / 36525) = a3 at *
  generalize polyR kM1 T = b3 at *
  generalize polyR kF (T + n / 36525) = a4 at *
  generalize polyR kF T = b4 at *
  have e : d * a1 + m * a2 + m1 * a3 + f * a4 - (d * b1 + m * b2 + m1 * b3 + f * b4 +
      dToR ((d * 445267 + m * 35999 + m1 * 477199 + f * 483202 : ℤ) : ℝ) / 36525 * n) =
      d * (a1 - b1 - dToR 445267 * (n / 36525)) + m * (a2 - b2 - dToR 35999 * (n / 36525)) +
      m1 * (a3 - b3 - dToR 477199 * (n / 36525)) + f * (a4 - b4 - dToR 483202 * (n / 36525)) := by
    unfold dToR; push_cast; ring
  rw [e]
  refine (abs_add_le _ _).trans ((add_le_add ((abs_add_le _ _).trans (add_le_add ((abs_add_le _ _).trans
    (add_le_add (k _ h1) (k _ h2))) (k _ h3))) (k _ h4)).trans (le_of_eq ?_))
  push_cast; ring

/-- One term over one day. -/
theorem row_day {F G p q u : ℝ} (k : ℤ) (c : ℕ) (hF : |F - G| ≤ 1e-6) (hG : |G| ≤ 1.1) (hu : |p - q| ≤ u)
    (hc : u ≤ c * 1e-6) :
    |k * F * sin p - k * G * sin q| ≤ (k.natAbs * (2 * c + 1) : ℕ) * 1e-6 := by
  have e : k * F * sin p - k * G * sin q = k * ((F - G) * sin p + G * (sin p - sin q)) := by ring
  rw [e, abs_mul]
  have h1 : |(F - G) * sin p + G * (sin p - sin q)| ≤ (2 * c + 1) * 1e-6 := by
    refine (abs_add_le _ _).trans ?_
    rw [abs_mul, abs_mul]
    have a := mul_le_mul hF (abs_sin_le_one p) (abs_nonneg _) (by norm_num)
    have b := mul_le_mul hG ((abs_sin_sub_le p q).trans (hu.trans hc)) (abs_nonneg _) (by norm_num)
    have c0 : (0 : ℝ) ≤ c := Nat.cast_nonneg _
    norm_num at a b ⊢
    linarith
  rw [show |(k : ℝ)| = ((k).natAbs : ℝ) by rw [Nat.cast_natAbs, Int.cast_abs]]
  refine (mul_le_mul_of_nonneg_left h1 (Nat.cast_nonneg _)).trans (le_of_eq ?_)
  push_cast; ring

theorem factor_day {T n : ℝ} (hT : |T| ≤ 19.9) (hn : |n| ≤ 1) (m : ℤ) :
    |lunarFactor (lunarConstants (T + n / 36525)) m - lunarFactor (lunarConstants T) m| ≤ 1e-6 ∧
    |lunarFactor (lunarConstants T) m| ≤ factorBound m / 10000 := by
  have hn' : |n / 36525| ≤ 1 / 36525 := by
    rw [abs_div, abs_of_pos (by norm_num : (0 : ℝ) < 36525)]; gcongr
  have hT' : |T| ≤ 20 := hT.trans (by norm_num)
  have hU : |T + n / 36525| ≤ 20 := (abs_add_le _ _).trans (by norm_num at hT hn' ⊢; linarith)
  refine ⟨(lunarFactor_lip hU hT' m).trans ?_, lunarFactor_abs hT' m⟩
  rw [show T + n / 36525 - T = n / 36525 by ring]
  norm_num at hn' ⊢; linarith

/-! ### The two sums -/

noncomputable def lonWave (T : ℝ) : ℝ → ℝ := waves Data.lunarLR
  (fun r : LRow => (r.2.2.2.2.1 : ℝ) * lunarFactor (lunarConstants T) r.2.1)
  (fun r => lunarArg T r.1 r.2.1 r.2.2.1 r.2.2.2.1) (fun r => rowOmega r.1 r.2.1 r.2.2.1 r.2.2.2.1)

noncomputable def latWave (T : ℝ) : ℝ → ℝ := waves Data.lunarB
  (fun r : BRow => (r.2.2.2.2 : ℝ) * lunarFactor (lunarConstants T) r.2.1)
  (fun r => lunarArg T r.1 r.2.1 r.2.2.1 r.2.2.2.1) (fun r => rowOmega r.1 r.2.1 r.2.2.1 r.2.2.2.1)

theorem factorBound_le (m : ℤ) : (factorBound m : ℝ) / 10000 ≤ 1.1 := by
  unfold factorBound; split_ifs <;> norm_num

theorem lonSum_day {T n : ℝ} (hT : |T| ≤ 19.9) (hn : |n| ≤ 1) : |lonSum (T + n / 36525) - lonWave T n| ≤ 200 := by
  unfold lonSum lonWave waves
  refine (sum_diff Data.lunarLR _ _ (fun r : LRow => r.2.2.2.2.1.natAbs *
    (2 * (r.1.natAbs + r.2.1.natAbs + r.2.2.1.natAbs + r.2.2.2.1.natAbs) + 1)) 1e-6 fun r => ?_).trans ?_
  · obtain ⟨f1, f2⟩ := factor_day hT hn r.2.1
    exact row_day r.2.2.2.2.1 _ f1 (f2.trans (factorBound_le _))
      (lunarArg_day (by norm_num at hT ⊢; linarith) hn r.1 r.2.1 r.2.2.1 r.2.2.2.1) le_rfl
  · have : (Data.lunarLR.map fun r : LRow => r.2.2.2.2.1.natAbs *
      (2 * (r.1.natAbs + r.2.1.natAbs + r.2.2.1.natAbs + r.2.2.2.1.natAbs) + 1)).sum ≤ 100000000 := by decide +kernel
    have := (Nat.cast_le (α := ℝ)).mpr this
    refine (mul_le_mul_of_nonneg_right this (by norm_num)).trans (by norm_num)

theorem latSum_day {T n : ℝ} (hT : |T| ≤ 19.9) (hn : |n| ≤ 1) : |latSum (T + n / 36525) - latWave T n| ≤ 200 := by
  unfold latSum latWave waves
  refine (sum_diff Data.lunarB _ _ (fun r : BRow => r.2.2.2.2.natAbs *
    (2 * (r.1.natAbs + r.2.1.natAbs + r.2.2.1.natAbs + r.2.2.2.1.natAbs) + 1)) 1e-6 fun r => ?_).trans ?_
  · obtain ⟨f1, f2⟩ := factor_day hT hn r.2.1
    exact row_day r.2.2.2.2 _ f1 (f2.trans (factorBound_le _))
      (lunarArg_day (by norm_num at hT ⊢; linarith) hn r.1 r.2.1 r.2.2.1 r.2.2.2.1) le_rfl
  · have : (Data.lunarB.map fun r : BRow => r.2.2.2.2.natAbs *
      (2 * (r.1.natAbs + r.2.1.natAbs + r.2.2.1.natAbs + r.2.2.2.1.natAbs) + 1)).sum ≤ 100000000 := by decide +kernel
    have := (Nat.cast_le (α := ℝ)).mpr this
    refine (mul_le_mul_of_nonneg_right this (by norm_num)).trans (by norm_num)

theorem amp_abs {F : ℝ} (k m : ℤ) (h : |F| ≤ factorBound m / 10000) :
    |(k : ℝ) * F| ≤ k.natAbs * (factorBound m / 10000) := by
  rw [abs_mul, Nat.cast_natAbs, Int.cast_abs]
  exact mul_le_mul_of_nonneg_left h (abs_nonneg _)

/-- Derivatives of the longitude waves, millionths of a degree per day. -/
theorem lonWave_jet {T : ℝ} (hT : |T| ≤ 19.9) : ∃ f1 f2 f3, Jet3 (lonWave T) f1 f2 f3 ∧
    (∀ x, |f1 x| ≤ 2270250) ∧ (∀ x, |f2 x| ≤ 638400) ∧ ∀ x, |f3 x| ≤ 210300 := by
  have A := fun r : LRow => amp_abs r.2.2.2.2.1 r.2.1 (factor_day hT (show |(0 : ℝ)| ≤ 1 by norm_num) r.2.1).2
  have W := fun r : LRow => rowOmega_abs r.1 r.2.1 r.2.2.1 r.2.2.2.1
  have key := fun (j : ℕ) (g : LRow → ℝ) (hg : ∀ r, |g r| ≤ 1) => wave_sum_abs Data.lunarLR _ _
    (fun r : LRow => r.2.2.2.2.1) (fun r => r.2.1) _ j g hg A W
  refine ⟨_, _, _, waves_jet _ _ _ _, fun x => ?_, fun x => ?_, fun x => ?_⟩
  · have k := key 1 (fun r => cos (lunarArg T r.1 r.2.1 r.2.2.1 r.2.2.2.1 + rowOmega r.1 r.2.1 r.2.2.1 r.2.2.2.1 * x))
      fun r => abs_cos_le_one _
    simp only [pow_one] at k
    refine le_trans k ?_
    have : (Data.lunarLR.map fun r : LRow => r.2.2.2.2.1.natAbs * factorBound r.2.1 *
      (rowRate r.1 r.2.1 r.2.2.1 r.2.2.2.1).natAbs).sum ≤ 47509700720706436 := by decide +kernel
    have := (Nat.cast_le (α := ℝ)).mpr this
    refine (mul_le_mul_of_nonneg_right (div_le_div_of_nonneg_right this (by norm_num)) (by norm_num)).trans (by norm_num)
  · refine (key 2 _ fun r => by rw [abs_neg]; exact abs_sin_le_one _).trans ?_
    have : (Data.lunarLR.map fun r : LRow => r.2.2.2.2.1.natAbs * factorBound r.2.1 *
      (rowRate r.1 r.2.1 r.2.2.1 r.2.2.2.1).natAbs ^ 2).sum ≤ 27955841606045504053958 := by decide +kernel
    have := (Nat.cast_le (α := ℝ)).mpr this
    refine (mul_le_mul_of_nonneg_right (div_le_div_of_nonneg_right this (by norm_num)) (by norm_num)).trans (by norm_num)
  · refine (key 3 _ fun r => by rw [abs_neg]; exact abs_cos_le_one _).trans ?_
    have : (Data.lunarLR.map fun r : LRow => r.2.2.2.2.1.natAbs * factorBound r.2.1 *
      (rowRate r.1 r.2.1 r.2.2.1 r.2.2.2.1).natAbs ^ 3).sum ≤ 19269655542542677763041674670 := by decide +kernel
    have := (Nat.cast_le (α := ℝ)).mpr this
    refine (mul_le_mul_of_nonneg_right (div_le_div_of_nonneg_right this (by norm_num)) (by norm_num)).trans (by norm_num)

theorem latWave_jet {T : ℝ} (hT : |T| ≤ 19.9) : ∃ f1 f2 f3, Jet3 (latWave T) f1 f2 f3 ∧ (∀ x, |latWave T x| ≤ 6085829) ∧
    (∀ x, |f1 x| ≤ 1433900) ∧ (∀ x, |f2 x| ≤ 386500) ∧ ∀ x, |f3 x| ≤ 120700 := by
  have A := fun r : BRow => amp_abs r.2.2.2.2 r.2.1 (factor_day hT (show |(0 : ℝ)| ≤ 1 by norm_num) r.2.1).2
  have W := fun r : BRow => rowOmega_abs r.1 r.2.1 r.2.2.1 r.2.2.2.1
  have key := fun (j : ℕ) (g : BRow → ℝ) (hg : ∀ r, |g r| ≤ 1) => wave_sum_abs Data.lunarB _ _
    (fun r : BRow => r.2.2.2.2) (fun r => r.2.1) _ j g hg A W
  refine ⟨_, _, _, waves_jet _ _ _ _, fun x => ?_, fun x => ?_, fun x => ?_, fun x => ?_⟩
  · have k := key 0 (fun r => sin (lunarArg T r.1 r.2.1 r.2.2.1 r.2.2.2.1 + rowOmega r.1 r.2.1 r.2.2.1 r.2.2.2.1 * x))
      fun r => abs_sin_le_one _
    simp only [pow_zero, mul_one] at k
    refine le_trans k ?_
    have : (Data.lunarB.map fun r : BRow => r.2.2.2.2.natAbs * factorBound r.2.1).sum ≤ 60858284365 := by decide +kernel
    have := (Nat.cast_le (α := ℝ)).mpr this
    refine (div_le_div_of_nonneg_right this (by norm_num)).trans (by norm_num)
  · have k := key 1 (fun r => cos (lunarArg T r.1 r.2.1 r.2.2.1 r.2.2.2.1 + rowOmega r.1 r.2.1 r.2.2.1 r.2.2.2.1 * x))
      fun r => abs_cos_le_one _
    simp only [pow_one] at k
    refine le_trans k ?_
    have : (Data.lunarB.map fun r : BRow => r.2.2.2.2.natAbs * factorBound r.2.1 *
      (rowRate r.1 r.2.1 r.2.2.1 r.2.2.2.1).natAbs).sum ≤ 30007028207381774 := by decide +kernel
    have := (Nat.cast_le (α := ℝ)).mpr this
    refine (mul_le_mul_of_nonneg_right (div_le_div_of_nonneg_right this (by norm_num)) (by norm_num)).trans (by norm_num)
  · refine (key 2 _ fun r => by rw [abs_neg]; exact abs_sin_le_one _).trans ?_
    have : (Data.lunarB.map fun r : BRow => r.2.2.2.2.natAbs * factorBound r.2.1 *
      (rowRate r.1 r.2.1 r.2.2.1 r.2.2.2.1).natAbs ^ 2).sum ≤ 16925608636481861712220 := by decide +kernel
    have := (Nat.cast_le (α := ℝ)).mpr this
    refine (mul_le_mul_of_nonneg_right (div_le_div_of_nonneg_right this (by norm_num)) (by norm_num)).trans (by norm_num)
  · refine (key 3 _ fun r => by rw [abs_neg]; exact abs_cos_le_one _).trans ?_
    have : (Data.lunarB.map fun r : BRow => r.2.2.2.2.natAbs * factorBound r.2.1 *
      (rowRate r.1 r.2.1 r.2.2.1 r.2.2.2.1).natAbs ^ 3).sum ≤ 11057508008670670676857200272 := by decide +kernel
    have := (Nat.cast_le (α := ℝ)).mpr this
    refine (mul_le_mul_of_nonneg_right (div_le_div_of_nonneg_right this (by norm_num)) (by norm_num)).trans (by norm_num)

end Verif
