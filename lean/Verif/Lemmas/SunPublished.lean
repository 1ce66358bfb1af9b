import Verif.Lemmas.PointMoon
import Verif.Props.SunLow

/-!
# The Sun at the time of the published examples
-/

namespace Verif
open Real

set_option exponentiation.threshold 500
set_option maxRecDepth 100000

/-- The value of a table is within `w` of `c`, up to the error of the evaluation. -/
noncomputable def ptNearN (thr : ℕ) (u : ℤ) (tbl : List (List Term)) (c : ℤ) (w : ℕ) : Bool :=
  and (Nat.ble (Int.natAbs u) 3000000000000)
    (ptN thr u tbl 1 fun v => Nat.ble (Int.natAbs (Int.sub v (Int.mul c 340282366920938463463374607431768211456))) (Nat.shiftLeft w 128))

theorem ptNearN_spec {thr : ℕ} {u : ℤ} {tbl : List (List Term)} {c : ℤ} {w : ℕ} (h : ptNearN thr u tbl c w = true)
    (hc : ∀ s ∈ tbl, ∀ r ∈ s, r.2.1 + r.2.2 ≤ 10 ^ 18) {n m : ℕ} (hn : leftTot thr 1 tbl ≤ n) (hm : ptA 1 tbl ≤ m) :
    |10 ^ 11 * pval tbl (u * 1e-12) - c| ≤ (w : ℝ) + (n + 1.1e-11 * m) := by
  unfold ptNearN at h
  obtain ⟨hu, h⟩ := Bool.and_eq_true_iff.1 h
  have hu := Nat.le_of_ble_eq_true hu
  have hu' : |(u : ℝ)| ≤ 3e12 := by
    rw [← Int.cast_abs, Int.abs_eq_natAbs]
    have : ((u.natAbs : ℕ) : ℝ) ≤ (3000000000000 : ℕ) := by exact_mod_cast hu
    norm_num at this ⊢
    exact this
  obtain ⟨v, e, b⟩ := ptN_spec thr hu' tbl hc 1
  rw [e] at h
  have h := Nat.le_of_ble_eq_true h
  rw [int_sub, int_mul, show Nat.shiftLeft w 128 = w * 2 ^ 128 from Nat.shiftLeft_eq w 128] at h
  have h' : |(v : ℝ) - c * 2 ^ 128| ≤ (w : ℝ) * 2 ^ 128 := by
    have : ((v - c * 340282366920938463463374607431768211456).natAbs : ℝ) ≤ (w * 2 ^ 128 : ℕ) := by exact_mod_cast h
    rw [Nat.cast_natAbs, Int.cast_abs, Int.cast_sub, Int.cast_mul, Nat.cast_mul, Nat.cast_pow] at this
    refine le_trans (le_of_eq ?_) (this.trans (by norm_num))
    norm_num
  have g : |(v : ℝ) / 2 ^ 128 - c| ≤ (w : ℝ) := by
    rw [show (v : ℝ) / 2 ^ 128 - c = (v - c * 2 ^ 128) / 2 ^ 128 by field_simp, abs_div,
      abs_of_pos (by positivity : (0 : ℝ) < 2 ^ 128), div_le_iff₀ (by positivity)]
    exact h'
  have n' : (leftTot thr 1 tbl : ℝ) ≤ n := by exact_mod_cast hn
  have m' : (ptA 1 tbl : ℝ) ≤ m := by exact_mod_cast hm
  rw [Nat.cast_one, one_mul] at b
  have b' := b.trans (add_le_add n' (mul_le_mul_of_nonneg_left m' (by norm_num)))
  rw [show 10 ^ 11 * pval tbl (u * 1e-12) - c = ((v : ℝ) / 2 ^ 128 - c) - ((v : ℝ) / 2 ^ 128 - 10 ^ 11 * pval tbl (u * 1e-12)) by ring]
  exact (abs_sub _ _).trans (add_le_add g b')

theorem deg_of_int {x t : ℝ} {A : ℤ} (h : |x * 10 ^ 12 - A| ≤ t) : |deg x - dToR (A / 10 ^ 12)| ≤ 1.8e-14 * t := by
  rw [show deg x - dToR (A / 10 ^ 12) = (x * 10 ^ 12 - A) * (π / (180 * 10 ^ 12)) by unfold deg dToR; ring, abs_mul,
    abs_of_pos (by positivity : (0 : ℝ) < π / (180 * 10 ^ 12)), mul_comm]
  have p := pi_lt_d2
  refine mul_le_mul ?_ h (abs_nonneg _) (by norm_num)
  rw [div_le_iff₀ (by norm_num)]
  norm_num at p ⊢; linarith

theorem sinDeg_near {x t : ℝ} {A c : ℤ} {w : ℕ} (h : |x * 10 ^ 12 - A| ≤ t) (hn : nearN c w [sinRow (1000000000000, A)] = true) :
    |sin (deg x) - c / 10 ^ 12| ≤ (w + 3000) / 10 ^ 12 + 1.8e-14 * t := by
  have a := (sin_lip (deg x) (dToR (A / 10 ^ 12))).trans (deg_of_int h)
  have b := sin_near (l := [(1000000000000, A)]) hn
  unfold waveS at b
  simp only [List.map_cons, List.map_nil, List.sum_cons, List.sum_nil, add_zero] at b
  have e : (((1000000000000 : ℤ) : ℝ) * sin (dToR ((A : ℝ) / 10 ^ 12))) / 10 ^ 12 = sin (dToR ((A : ℝ) / 10 ^ 12)) := by
    push_cast; ring
  rw [e] at b
  exact near_trans a b

theorem cosDeg_near {x t : ℝ} {A c : ℤ} {w : ℕ} (h : |x * 10 ^ 12 - A| ≤ t) (hn : nearN c w [cosRow (1000000000000, A)] = true) :
    |cos (deg x) - c / 10 ^ 12| ≤ (w + 3000) / 10 ^ 12 + 1.8e-14 * t := by
  have a := (cos_lip (deg x) (dToR (A / 10 ^ 12))).trans (deg_of_int h)
  have b := cos_near (l := [(1000000000000, A)]) hn
  unfold waveS at b
  simp only [List.map_cons, List.map_nil, List.sum_cons, List.sum_nil, add_zero] at b
  have e : (((1000000000000 : ℤ) : ℝ) * cos (dToR ((A : ℝ) / 10 ^ 12))) / 10 ^ 12 = cos (dToR ((A : ℝ) / 10 ^ 12)) := by
    push_cast; ring
  rw [e] at b
  exact near_trans a b

theorem rows_earthB : ∀ s ∈ Data.earthB, ∀ r ∈ s, r.2.1 + r.2.2 ≤ 10 ^ 18 := by decide +kernel

theorem sunX_sinM : nearN (-987704810908) 10000 [sinRow (1000000000000, -2241006034432862)] = true := by decide +kernel
theorem sunX_sin2M : nearN (-308816655603) 10000 [sinRow (1000000000000, -4482012068865724)] = true := by decide +kernel
theorem sunX_sin3M : nearN (891149923532) 10000 [sinRow (1000000000000, -6723018103298585)] = true := by decide +kernel
theorem sunX_cosV : nearN (123543390918) 10000 [cosRow (1000000000000, -2242903353777298)] = true := by decide +kernel
theorem sunX_sinO : nearN (-995647911565) 10000 [sinRow (1000000000000, 264652582176591)] = true := by decide +kernel
theorem sunX_cosK : nearN (-939644045131) 10000 [cosRow (1000000000000, 200008135900000)] = true := by decide +kernel
theorem sunX_sinK : nearN (-342153574363) 10000 [sinRow (1000000000000, 200008135900000)] = true := by decide +kernel
theorem sunX_L : ptNearN 50 (-7218343600) (tail1 (tail0 Data.earthL)) (-3315941474) 100 = true := by decide +kernel
theorem sunX_B : ptNearN 2 (-7218343600) Data.earthB (-360665) 1000 = true := by decide +kernel
theorem sunX_R : ptNearN 2 (-7218343600) Data.earthR (99760852021) 900 = true := by decide +kernel

end Verif
