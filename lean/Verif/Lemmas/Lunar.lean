import Verif.Model.Lunar
import Verif.Lemmas.Nutation

/-!
# Lemmas about the lunar series
-/

namespace Verif
open Real

/-- Upper bound of `|lunarFactor|` for `|T| ≤ 20`, in units of `1e-4`. -/
def factorBound (m : ℤ) : ℕ := if |m| = 1 then 10474 else if |m| = 2 then 10971 else 10000

theorem lunarFactor_abs {T : ℝ} (hT : |T| ≤ 20) (m : ℤ) :
    |lunarFactor (lunarConstants T) m| ≤ factorBound m / 10000 := by
  obtain ⟨h1, h2⟩ := abs_le.mp hT
  have e : (lunarConstants T).E = 1 - 0.002516 * T - 0.0000074 * T ^ 2 := by
    simp only [lunarConstants, polyR, horner]; ring
  have e2 : (lunarConstants T).E2 = (lunarConstants T).E * (lunarConstants T).E := rfl
  have b1 : (lunarConstants T).E ≤ 1.0474 := by
    rw [e]; norm_num; nlinarith
  have b2 : 0 ≤ (lunarConstants T).E := by
    rw [e]; norm_num; nlinarith
  unfold lunarFactor factorBound
  split_ifs
  · rw [abs_of_nonneg b2]; norm_num at b1 ⊢; exact b1
  · rw [e2, abs_of_nonneg (mul_nonneg b2 b2)]; norm_num at b1 ⊢; nlinarith
  · norm_num

/-- A sum of terms with the factors of the lunar theory. -/
theorem lunar_sum_abs {α : Type} (l : List α) (k m : α → ℤ) (g : α → ℝ) {T : ℝ} (hT : |T| ≤ 20)
    (hg : ∀ r, |g r| ≤ 1) :
    |(l.map fun r => (k r : ℝ) * lunarFactor (lunarConstants T) (m r) * g r).sum| ≤
      ((l.map fun r => (k r).natAbs * factorBound (m r)).sum : ℕ) / 10000 := by
  induction l with
  | nil => simp
  | cons r l ih =>
    simp only [List.map_cons, List.sum_cons]
    refine (abs_add_le _ _).trans ?_
    have e : |(k r : ℝ) * lunarFactor (lunarConstants T) (m r) * g r| ≤
        (k r).natAbs * factorBound (m r) / 10000 := by
      rw [abs_mul, abs_mul]
      refine (mul_le_of_le_one_right (by positivity) (hg r)).trans ?_
      rw [Nat.cast_natAbs, Int.cast_abs, mul_div_assoc]
      exact mul_le_mul_of_nonneg_left (lunarFactor_abs hT _) (abs_nonneg _)
    refine (add_le_add e ih).trans (le_of_eq ?_)
    push_cast; ring

/-- Rows of the two tables. -/
abbrev LRow := ℤ × ℤ × ℤ × ℤ × ℤ × ℤ
abbrev BRow := ℤ × ℤ × ℤ × ℤ × ℤ

/-- The argument of a row with unreduced angles. -/
noncomputable def lunarArg (T : ℝ) (d m m1 f : ℤ) : ℝ :=
  d * polyR kD T + m * polyR kM T + m1 * polyR kM1 T + f * polyR kF T

theorem lunarArg_congr (T : ℝ) (d m m1 f : ℤ) :
    Congr (2 * π) (d * (lunarConstants T).D + m * (lunarConstants T).M +
      m1 * (lunarConstants T).M1 + f * (lunarConstants T).F) (lunarArg T d m m1 f) := by
  have c : ∀ (n : ℤ) (x : ℝ), Congr (2 * π) (n * modpi2 x) (n * x) := by
    intro n x
    have := congr_mul_int (modpi2_spec x).2.2 n
    rwa [mul_comm (modpi2 x), mul_comm x] at this
  exact congr_add (congr_add (congr_add (c _ _) (c _ _)) (c _ _)) (c _ _)

/-- The periodic part of the longitude, millionths of a degree. -/
noncomputable def lonSum (T : ℝ) : ℝ :=
  (Data.lunarLR.map fun r : LRow => (r.2.2.2.2.1 : ℝ) * lunarFactor (lunarConstants T) r.2.1 *
    sin (lunarArg T r.1 r.2.1 r.2.2.1 r.2.2.2.1)).sum

noncomputable def latSum (T : ℝ) : ℝ :=
  (Data.lunarB.map fun r : BRow => (r.2.2.2.2 : ℝ) * lunarFactor (lunarConstants T) r.2.1 *
    sin (lunarArg T r.1 r.2.1 r.2.2.1 r.2.2.2.1)).sum

noncomputable def radSum (T : ℝ) : ℝ :=
  (Data.lunarLR.map fun r : LRow => (r.2.2.2.2.2 : ℝ) * lunarFactor (lunarConstants T) r.2.1 *
    cos (lunarArg T r.1 r.2.1 r.2.2.1 r.2.2.2.1)).sum

theorem congr_sub' {t x y x' y' : ℝ} (h : Congr t x x') (h2 : Congr t y y') :
    Congr t (x - y) (x' - y') := by
  obtain ⟨k, e⟩ := h; obtain ⟨j, e2⟩ := h2
  exact ⟨k - j, by rw [e, e2]; push_cast; ring⟩

theorem lunarLongitude_eq (jd : ℝ) : lunarLongitude jd = modpi2 (polyR kL1 (jcent jd)) +
    dToR ((lonSum (jcent jd) + (3958 * sin (polyR kA1 (jcent jd)) +
      1962 * sin (polyR kL1 (jcent jd) - polyR kF (jcent jd)) + 318 * sin (polyR kA2 (jcent jd)))) /
      1000000) + nutationInLongitude jd := by
  unfold lunarLongitude
  simp only
  rw [foldl_add_eq (fun r : LRow => (r.2.2.2.2.1 : ℝ) *
    lunarFactor (lunarConstants (jcent jd)) r.2.1 *
    sin (r.1 * (lunarConstants (jcent jd)).D + r.2.1 * (lunarConstants (jcent jd)).M +
      r.2.2.1 * (lunarConstants (jcent jd)).M1 + r.2.2.2.1 * (lunarConstants (jcent jd)).F)), zero_add]
  simp only [fun r : LRow => sin_congr (lunarArg_congr (jcent jd) r.1 r.2.1 r.2.2.1 r.2.2.2.1)]
  have s1 : sin (lunarConstants (jcent jd)).A1 = sin (polyR kA1 (jcent jd)) := sin_modpi2 _
  have s2 : sin (lunarConstants (jcent jd)).A2 = sin (polyR kA2 (jcent jd)) := sin_modpi2 _
  have s3 : sin ((lunarConstants (jcent jd)).L1 - (lunarConstants (jcent jd)).F) =
      sin (polyR kL1 (jcent jd) - polyR kF (jcent jd)) :=
    sin_congr (congr_sub' (modpi2_spec _).2.2 (modpi2_spec _).2.2)
  rw [s1, s2, s3]
  rfl

theorem lunarLatitude_eq (jd : ℝ) : lunarLatitude jd = dToR ((latSum (jcent jd) +
    (-2235 * sin (polyR kL1 (jcent jd)) + 382 * sin (polyR kA3 (jcent jd)) +
      175 * sin (polyR kA1 (jcent jd) - polyR kF (jcent jd)) +
      175 * sin (polyR kA1 (jcent jd) + polyR kF (jcent jd)) +
      127 * sin (polyR kL1 (jcent jd) - polyR kM1 (jcent jd)) -
      115 * sin (polyR kL1 (jcent jd) + polyR kM1 (jcent jd)))) / 1000000) := by
  unfold lunarLatitude
  simp only
  rw [foldl_add_eq (fun r : BRow => (r.2.2.2.2 : ℝ) *
    lunarFactor (lunarConstants (jcent jd)) r.2.1 *
    sin (r.1 * (lunarConstants (jcent jd)).D + r.2.1 * (lunarConstants (jcent jd)).M +
      r.2.2.1 * (lunarConstants (jcent jd)).M1 + r.2.2.2.1 * (lunarConstants (jcent jd)).F)), zero_add]
  simp only [fun r : BRow => sin_congr (lunarArg_congr (jcent jd) r.1 r.2.1 r.2.2.1 r.2.2.2.1)]
  have s1 : sin (lunarConstants (jcent jd)).L1 = sin (polyR kL1 (jcent jd)) := sin_modpi2 _
  have s2 : sin (lunarConstants (jcent jd)).A3 = sin (polyR kA3 (jcent jd)) := sin_modpi2 _
  have s3 : sin ((lunarConstants (jcent jd)).A1 - (lunarConstants (jcent jd)).F) =
      sin (polyR kA1 (jcent jd) - polyR kF (jcent jd)) :=
    sin_congr (congr_sub' (modpi2_spec _).2.2 (modpi2_spec _).2.2)
  have s4 : sin ((lunarConstants (jcent jd)).A1 + (lunarConstants (jcent jd)).F) =
      sin (polyR kA1 (jcent jd) + polyR kF (jcent jd)) :=
    sin_congr (congr_add (modpi2_spec _).2.2 (modpi2_spec _).2.2)
  have s5 : sin ((lunarConstants (jcent jd)).L1 - (lunarConstants (jcent jd)).M1) =
      sin (polyR kL1 (jcent jd) - polyR kM1 (jcent jd)) :=
    sin_congr (congr_sub' (modpi2_spec _).2.2 (modpi2_spec _).2.2)
  have s6 : sin ((lunarConstants (jcent jd)).L1 + (lunarConstants (jcent jd)).M1) =
      sin (polyR kL1 (jcent jd) + polyR kM1 (jcent jd)) :=
    sin_congr (congr_add (modpi2_spec _).2.2 (modpi2_spec _).2.2)
  rw [s1, s2, s3, s4, s5, s6]
  rfl

theorem lunarRadius_eq (jd : ℝ) : lunarRadius jd = 385000.56 + radSum (jcent jd) / 1000 := by
  unfold lunarRadius
  simp only
  rw [foldl_add_eq (fun r : LRow => (r.2.2.2.2.2 : ℝ) *
    lunarFactor (lunarConstants (jcent jd)) r.2.1 *
    cos (r.1 * (lunarConstants (jcent jd)).D + r.2.1 * (lunarConstants (jcent jd)).M +
      r.2.2.1 * (lunarConstants (jcent jd)).M1 + r.2.2.2.1 * (lunarConstants (jcent jd)).F)), zero_add]
  simp only [fun r : LRow => cos_congr (lunarArg_congr (jcent jd) r.1 r.2.1 r.2.2.1 r.2.2.2.1)]
  rfl

theorem nat_div_le {n m : ℕ} (h : n ≤ m) : (n : ℝ) / 10000 ≤ (m : ℝ) / 10000 :=
  div_le_div_of_nonneg_right (by exact_mod_cast h) (by norm_num)

theorem lonSum_abs {T : ℝ} (hT : |T| ≤ 20) : |lonSum T| ≤ 9230000 := by
  refine (lunar_sum_abs Data.lunarLR (fun r : LRow => r.2.2.2.2.1) (fun r => r.2.1)
    (fun r => sin (lunarArg T r.1 r.2.1 r.2.2.1 r.2.2.2.1)) hT fun _ => abs_sin_le_one _).trans ?_
  refine (nat_div_le (m := 92300000000) (by decide +kernel)).trans (by norm_num)

theorem latSum_abs {T : ℝ} (hT : |T| ≤ 20) : |latSum T| ≤ 6090000 := by
  refine (lunar_sum_abs Data.lunarB (fun r : BRow => r.2.2.2.2) (fun r => r.2.1)
    (fun r => sin (lunarArg T r.1 r.2.1 r.2.2.1 r.2.2.2.1)) hT fun _ => abs_sin_le_one _).trans ?_
  refine (nat_div_le (m := 60900000000) (by decide +kernel)).trans (by norm_num)

theorem radSum_abs {T : ℝ} (hT : |T| ≤ 20) : |radSum T| ≤ 29800000 := by
  refine (lunar_sum_abs Data.lunarLR (fun r : LRow => r.2.2.2.2.2) (fun r => r.2.1)
    (fun r => cos (lunarArg T r.1 r.2.1 r.2.2.1 r.2.2.2.1)) hT fun _ => abs_cos_le_one _).trans ?_
  refine (nat_div_le (m := 298000000000) (by decide +kernel)).trans (by norm_num)

/-- The first row of the table of longitude is the equation of the centre; the rest is smaller. -/
theorem lonSum_center {T : ℝ} (hT : |T| ≤ 20) :
    |lonSum T - 6288774 * sin (polyR kM1 T)| ≤ 2950000 := by
  have h : Data.lunarLR = (0, 0, 1, 0, 6288774, -20905355) :: Data.lunarLR.tail := by decide +kernel
  have e : lonSum T = 6288774 * sin (polyR kM1 T) +
      (Data.lunarLR.tail.map fun r : LRow => (r.2.2.2.2.1 : ℝ) *
        lunarFactor (lunarConstants T) r.2.1 *
        sin (lunarArg T r.1 r.2.1 r.2.2.1 r.2.2.2.1)).sum := by
    unfold lonSum
    conv_lhs => rw [h]
    rw [List.map_cons, List.sum_cons]
    have f : lunarFactor (lunarConstants T) 0 = 1 := by unfold lunarFactor; simp
    have g : lunarArg T 0 0 1 0 = polyR kM1 T := by unfold lunarArg; simp
    simp only [f, g]
    norm_num
  rw [e, add_sub_cancel_left]
  refine (lunar_sum_abs Data.lunarLR.tail (fun r : LRow => r.2.2.2.2.1) (fun r => r.2.1)
    (fun r => sin (lunarArg T r.1 r.2.1 r.2.2.1 r.2.2.2.1)) hT fun _ => abs_sin_le_one _).trans ?_
  refine (nat_div_le (m := 29500000000) (by decide +kernel)).trans (by norm_num)

end Verif
