import Verif.Model.Util
import Verif.Props.TimeOfDay
import Mathlib.Algebra.BigOperators.Group.Finset.Basic
import Mathlib.Algebra.BigOperators.Fin
import Mathlib.Algebra.BigOperators.Ring.Finset

/-!
# C22-C29: angles, sexagesimal numbers, interpolation, polynomials
-/

namespace Verif
open Real

/-! ### C23: reduction to one turn -/

/-- Two angles that differ by whole turns of size `t`. -/
def Congr (t x y : ℝ) : Prop := ∃ k : ℤ, x = y + k * t

theorem rmod_spec (x : ℝ) {y : ℝ} (hy : 0 < y) :
    0 ≤ rmod x y ∧ rmod x y < y ∧ Congr y (rmod x y) x := by
  unfold rmod
  have h1 := Int.floor_le (x / y)
  have h2 := Int.lt_floor_add_one (x / y)
  rw [le_div_iff₀ hy] at h1
  rw [div_lt_iff₀ hy] at h2
  exact ⟨by linarith, by linarith, -⌊x / y⌋, by push_cast; ring⟩

/-- The reduced angle is unique. -/
theorem congr_unique {t x y z : ℝ} (ht : 0 < t) (h1 : Congr t x z) (h2 : Congr t y z)
    (hx0 : 0 ≤ x) (hx1 : x < t) (hy0 : 0 ≤ y) (hy1 : y < t) : x = y := by
  obtain ⟨k, rfl⟩ := h1
  obtain ⟨j, rfl⟩ := h2
  have a : ((k : ℝ) - j) * t < t := by linarith
  have b : -t < ((k : ℝ) - j) * t := by linarith
  have a' : ((k - j : ℤ) : ℝ) < 1 := by push_cast; nlinarith
  have b' : -1 < ((k - j : ℤ) : ℝ) := by push_cast; nlinarith
  have a2 : k - j < 1 := by exact_mod_cast a'
  have b2 : -1 < k - j := by exact_mod_cast b'
  have : k = j := by omega
  rw [this]

theorem pi2_pos : 0 < pi2 := by unfold pi2; positivity

/-- C23: `modpi2` is the unique angle in `[0, 2π)` congruent to its argument. -/
theorem modpi2_spec (x : ℝ) : 0 ≤ modpi2 x ∧ modpi2 x < 2 * π ∧ Congr (2 * π) (modpi2 x) x :=
  rmod_spec x pi2_pos

/-- C23: `mod360` is the unique angle in `[0, 360)` congruent to its argument. -/
theorem mod360_spec (x : ℝ) : 0 ≤ mod360 x ∧ mod360 x < 360 ∧ Congr 360 (mod360 x) x :=
  rmod_spec x (by norm_num)

theorem modpi2_of_mem {x : ℝ} (h0 : 0 ≤ x) (h1 : x < 2 * π) : modpi2 x = x :=
  congr_unique pi2_pos (modpi2_spec x).2.2 ⟨0, by simp⟩ (modpi2_spec x).1 (modpi2_spec x).2.1 h0 h1

theorem modpi2_congr {x y : ℝ} (h : Congr (2 * π) x y) : modpi2 x = modpi2 y := by
  refine congr_unique pi2_pos ?_ (modpi2_spec y).2.2 (modpi2_spec x).1 (modpi2_spec x).2.1
    (modpi2_spec y).1 (modpi2_spec y).2.1
  obtain ⟨k, e⟩ := (modpi2_spec x).2.2
  obtain ⟨j, e2⟩ := h
  exact ⟨k + j, by rw [e, e2]; unfold pi2; push_cast; ring⟩

theorem modpi2_modpi2 (x : ℝ) : modpi2 (modpi2 x) = modpi2 x :=
  modpi2_congr (modpi2_spec x).2.2

theorem modpi2_eq_iff (x y : ℝ) : modpi2 x = modpi2 y ↔ Congr (2 * π) x y := by
  refine ⟨fun h => ?_, modpi2_congr⟩
  obtain ⟨k, e⟩ := (modpi2_spec x).2.2
  obtain ⟨j, e2⟩ := (modpi2_spec y).2.2
  exact ⟨j - k, by rw [h] at e; push_cast; linarith⟩

/-- C23 in binary64, for any positive modulus `y` (`360`, or the float `2π`): the result is between
`0` and `y` inclusive; it is exact for non-negative `x`, and within one rounding error for negative
`x`. -/
theorem floatMod_spec {fl : ℚ → ℚ} (h : FloatLike fl) (x y : ℚ) (hy : 0 < y) (hF : IsF64 y) :
    0 ≤ floatMod fl x y ∧ floatMod fl x y ≤ y ∧
    |floatMod fl x y - (x - y * ⌊x / y⌋)| ≤ y / 2 ^ 53 + 1 / 2 ^ 1074 ∧
    (0 ≤ x → floatMod fl x y = x - y * ⌊x / y⌋ ∧ floatMod fl x y < y) := by
  unfold floatMod
  have pos : 0 ≤ y / 2 ^ 53 + 1 / 2 ^ 1074 := by positivity
  rcases le_or_gt 0 x with hx | hx
  · have q0 : 0 ≤ x / y := by positivity
    have h1 := Int.floor_le (x / y)
    have h2 := Int.lt_floor_add_one (x / y)
    rw [le_div_iff₀ hy] at h1
    rw [div_lt_iff₀ hy] at h2
    simp only [trunc_of_nonneg q0]
    rw [if_neg (by linarith)]
    exact ⟨by linarith, by linarith, by simpa using pos, fun _ => ⟨rfl, by linarith⟩⟩
  · have q0 : x / y < 0 := div_neg_of_neg_of_pos hx hy
    have ht : trunc (x / y) = ⌈x / y⌉ := if_neg (by linarith)
    have h1 := Int.le_ceil (x / y)
    have h2 := Int.ceil_lt_add_one (x / y)
    rw [div_le_iff₀ hy] at h1
    have h2' : (⌈x / y⌉ : ℚ) * y < x + y := by
      have := mul_lt_mul_of_pos_right h2 hy
      rwa [add_mul, div_mul_cancel₀ _ hy.ne', one_mul] at this
    have f1 := Int.floor_le (x / y)
    have f2 := Int.lt_floor_add_one (x / y)
    rw [le_div_iff₀ hy] at f1
    rw [div_lt_iff₀ hy] at f2
    simp only [ht]
    split_ifs with hr
    · have e : (⌈x / y⌉ : ℤ) = ⌊x / y⌋ + 1 := by
        have a1 : ((⌈x / y⌉ : ℤ) : ℚ) < (⌊x / y⌋ : ℚ) + 2 := by nlinarith
        have a2 : ((⌊x / y⌋ : ℤ) : ℚ) < (⌈x / y⌉ : ℚ) := by nlinarith
        have a1' : ⌈x / y⌉ < ⌊x / y⌋ + 2 := by exact_mod_cast a1
        have a2' : ⌊x / y⌋ < ⌈x / y⌉ := by exact_mod_cast a2
        omega
      have e2 : x - y * (⌈x / y⌉ : ℤ) + y = x - y * ⌊x / y⌋ := by rw [e]; push_cast; ring
      rw [e2]
      have b0 : 0 ≤ x - y * ⌊x / y⌋ := by linarith
      have b1 : x - y * ⌊x / y⌋ ≤ y := by linarith
      refine ⟨h.nonneg b0, ?_, ?_, fun h => absurd h (by linarith)⟩
      · have := h.mono b1
        rwa [h.fix y hF] at this
      · refine (h.err _).trans ?_
        rw [abs_of_nonneg b0]
        gcongr
    · have e : x - y * (⌈x / y⌉ : ℤ) = 0 := by
        have : x ≤ y * (⌈x / y⌉ : ℤ) := by linarith
        linarith [not_lt.mp hr]
      have e3 : x / y = (⌈x / y⌉ : ℚ) := by rw [div_eq_iff hy.ne']; linarith
      have e4 : ⌊x / y⌋ = ⌈x / y⌉ := by
        rw [Int.floor_eq_iff]; constructor <;> linarith
      rw [e4, e]
      refine ⟨le_rfl, hy.le, by simpa using pos, fun h => absurd h (by linarith)⟩

/-- C23: in binary64 the upper end itself does occur: any rounding gives `mod360(-2^-60) = 360`. -/
theorem mod360_upper_end {fl : ℚ → ℚ} (h : Rounding fl) : mod360F fl (-1 / 2 ^ 60) = 360 := by
  have ht : trunc (-1 / 2 ^ 60 / 360 : ℚ) = 0 := by
    apply trunc_eq_neg <;> norm_num
  unfold mod360F floatMod
  simp only [ht]
  rw [if_pos (by norm_num)]
  have := h.eq_of_close (-1 / 2 ^ 60 - 360 * ((0 : ℤ) : ℚ) + 360) 6333186975989760 (-44)
    (by norm_num) (by norm_num) (by norm_num) (by rw [abs_lt]; norm_num)
  rw [this]; norm_num

example : mod360 (-30) = 330 :=
  congr_unique (by norm_num : (0 : ℝ) < 360) (mod360_spec (-30)).2.2 ⟨1, by norm_num⟩
    (mod360_spec _).1 (mod360_spec _).2.1 (by norm_num) (by norm_num)

/-! ### C24: difference of angles -/

/-- C24: the difference is right modulo a turn, always. -/
theorem diff_angle_congr (a b : ℝ) : Congr (2 * π) (diffAngle a b) (b - a) := by
  unfold diffAngle pi2
  simp only []
  split_ifs
  · exact ⟨0, by push_cast; ring⟩
  · exact ⟨1, by push_cast; ring⟩
  · exact ⟨-1, by push_cast; ring⟩
  · exact ⟨0, by push_cast; ring⟩

/-- C24: less than a turn apart, the result is the unique representative in `(-π, π]`. -/
theorem diff_angle_range (a b : ℝ) (h : |b - a| < 2 * π) :
    -π < diffAngle a b ∧ diffAngle a b ≤ π := by
  have hp := pi_pos
  rw [abs_lt] at h
  unfold diffAngle pi2
  simp only []
  split_ifs <;> constructor <;> linarith

/-- C24: the documented range is kept exactly up to a difference of one and a half turns. -/
theorem diff_angle_range_iff (a b : ℝ) :
    (-π ≤ diffAngle a b ∧ diffAngle a b ≤ π) ↔ |b - a| ≤ 3 * π := by
  have hp := pi_pos
  rw [abs_le]
  unfold diffAngle pi2
  simp only []
  split_ifs <;> constructor <;> rintro ⟨h1, h2⟩ <;> constructor <;> linarith

theorem repr_unique {x y : ℝ} (h : Congr (2 * π) x y) (hx0 : -π < x) (hx1 : x ≤ π) (hy0 : -π < y)
    (hy1 : y ≤ π) : x = y := by
  obtain ⟨k, rfl⟩ := h
  have hp := pi_pos
  have a' : (k : ℝ) < 1 := by nlinarith
  have b' : -1 < (k : ℝ) := by nlinarith
  have a2 : k < 1 := by exact_mod_cast a'
  have b2 : -1 < k := by exact_mod_cast b'
  have : k = 0 := by omega
  rw [this]; simp

/-- C24: antisymmetric except for opposite angles. -/
theorem diff_angle_antisymm (a b : ℝ) (h : |b - a| < 2 * π) (h1 : diffAngle a b ≠ π) :
    diffAngle b a = -diffAngle a b := by
  obtain ⟨r1, r2⟩ := diff_angle_range a b h
  obtain ⟨s1, s2⟩ := diff_angle_range b a (by rwa [abs_sub_comm])
  refine repr_unique ?_ s1 s2 (by linarith [lt_of_le_of_ne r2 h1]) (by linarith)
  obtain ⟨k, e⟩ := diff_angle_congr a b
  obtain ⟨j, e2⟩ := diff_angle_congr b a
  exact ⟨j + k, by rw [e, e2]; push_cast; ring⟩

/-- C24: opposite angles are `π` apart in both directions. -/
theorem diff_angle_opposite (a : ℝ) : diffAngle a (a + π) = π ∧ diffAngle (a + π) a = π := by
  have hp := pi_pos
  unfold diffAngle pi2
  simp only []
  constructor <;> split_ifs <;> linarith

/-- The hypotheses are met: from 350 to 10 degrees it is 20 degrees forward. -/
example : diffAngle (dToR 350) (dToR 10) = dToR 20 := by
  have hp := pi_pos
  unfold diffAngle dToR pi2
  simp only []
  split_ifs <;> linarith

/-! ### C26: degrees and radians -/

/-- C26: the conversions are inverse to each other, additive, increasing, and 180 degrees are `π`. -/
theorem degree_radian :
    (∀ x, rToD (dToR x) = x) ∧ (∀ x, dToR (rToD x) = x) ∧
    (∀ x y, dToR (x + y) = dToR x + dToR y) ∧ (∀ x y, rToD (x + y) = rToD x + rToD y) ∧
    StrictMono dToR ∧ StrictMono rToD ∧ dToR 180 = π := by
  have hp := pi_pos
  refine ⟨fun x => ?_, fun x => ?_, fun x y => ?_, fun x y => ?_, fun x y h => ?_, fun x y h => ?_, ?_⟩
  · unfold rToD dToR; field_simp
  · unfold rToD dToR; field_simp
  · unfold dToR; ring
  · unfold rToD; ring
  · unfold dToR; gcongr
  · unfold rToD; gcongr
  · unfold dToR; ring

/-- C26: a full turn is the same in both units. -/
theorem dToR_mod360 (x : ℝ) : dToR (mod360 x) = modpi2 (dToR x) := by
  have hp := pi_pos
  obtain ⟨a, b, k, e⟩ := mod360_spec x
  refine congr_unique pi2_pos ⟨k, ?_⟩ (modpi2_spec _).2.2 ?_ ?_ (modpi2_spec _).1 (modpi2_spec _).2.1
  · rw [e]; unfold dToR pi2; ring
  · unfold dToR; positivity
  · unfold dToR pi2
    have : mod360 x * π < 360 * π := by gcongr
    linarith

/-! ### C25: degrees, minutes and seconds -/

theorem abs_trunc_le (x : ℚ) : 0 ≤ (trunc x : ℚ) * x ∧ |(trunc x : ℚ)| ≤ |x| ∧
    |x| < |(trunc x : ℚ)| + 1 ∧ |x - trunc x| = |x| - |(trunc x : ℚ)| := by
  unfold trunc
  split_ifs with h
  · have f0 : 0 ≤ ⌊x⌋ := Int.floor_nonneg.mpr h
    have f0' : (0 : ℚ) ≤ ⌊x⌋ := by exact_mod_cast f0
    have f1 := Int.floor_le x
    have f2 := Int.lt_floor_add_one x
    rw [abs_of_nonneg h, abs_of_nonneg f0', abs_of_nonneg (by linarith)]
    exact ⟨by positivity, f1, f2, rfl⟩
  · rw [not_le] at h
    have f0 : ⌈x⌉ ≤ 0 := Int.ceil_le.mpr (by exact_mod_cast h.le)
    have f0' : (⌈x⌉ : ℚ) ≤ 0 := by exact_mod_cast f0
    have f1 := Int.le_ceil x
    have f2 := Int.ceil_lt_add_one x
    rw [abs_of_neg h, abs_of_nonpos f0', abs_of_nonpos (by linarith)]
    refine ⟨by nlinarith, by linarith, by linarith, by ring⟩

/-- Sign of the fraction left by truncation. -/
theorem sub_trunc_sign (x : ℚ) : (0 ≤ x → 0 ≤ x - trunc x ∧ 0 ≤ (trunc x : ℚ)) ∧
    (x ≤ 0 → x - trunc x ≤ 0 ∧ (trunc x : ℚ) ≤ 0) := by
  unfold trunc
  constructor
  · intro h
    rw [if_pos h]
    exact ⟨by linarith [Int.floor_le x], by exact_mod_cast Int.floor_nonneg.mpr h⟩
  · intro h
    split_ifs with h2
    · have : x = 0 := le_antisymm h h2
      subst this; simp
    · exact ⟨by linarith [Int.le_ceil x], by exact_mod_cast Int.ceil_le.mpr (by exact_mod_cast h)⟩

/-- C25, the components in exact arithmetic: the minutes and seconds are in range and all three
carry the sign of the angle. -/
theorem d_to_dms_spec (x : ℚ) :
    ∃ d m : ℤ, ∃ s : ℚ, dToDms (fun x => x) x = (d, m, s) ∧ x = d + m / 60 + s / 3600 ∧
      |m| ≤ 59 ∧ |s| < 60 ∧
      (0 ≤ x → 0 ≤ d ∧ 0 ≤ m ∧ 0 ≤ s) ∧ (x ≤ 0 → d ≤ 0 ∧ m ≤ 0 ∧ s ≤ 0) := by
  set f := x - trunc x with hf
  obtain ⟨-, -, a3, a4⟩ := abs_trunc_le x
  obtain ⟨-, b2, b3, b4⟩ := abs_trunc_le (f * 60)
  obtain ⟨s1, s2⟩ := sub_trunc_sign x
  obtain ⟨t1, t2⟩ := sub_trunc_sign (f * 60)
  have hf1 : |f| < 1 := by rw [hf, a4]; linarith
  have hm : |(trunc (f * 60) : ℚ)| < 60 := by
    refine b2.trans_lt ?_
    rw [abs_mul]; norm_num; linarith
  refine ⟨trunc x, trunc (f * 60), (f * 60 - trunc (f * 60)) * 60, rfl, ?_, ?_, ?_, ?_, ?_⟩
  · rw [hf]; ring
  · have : |trunc (f * 60)| < 60 := by exact_mod_cast hm
    omega
  · rw [abs_mul, b4, abs_of_pos (by norm_num : (0 : ℚ) < 60)]; linarith
  · intro h
    obtain ⟨u1, u2⟩ := s1 h
    obtain ⟨v1, v2⟩ := t1 (by rw [hf]; linarith)
    exact ⟨by exact_mod_cast u2, by exact_mod_cast v2, by linarith⟩
  · intro h
    obtain ⟨u1, u2⟩ := s2 h
    obtain ⟨v1, v2⟩ := t2 (by rw [hf]; linarith)
    exact ⟨by exact_mod_cast u2, by exact_mod_cast v2, by linarith⟩

/-- What `dms_to_d` means: the sum of the magnitudes, negated when any component is negative. -/
theorem dms_to_d_exact (d m s : ℚ) :
    dmsToD (fun x => x) [d] [m] [s] = .ok (.scalar
      (if d < 0 ∨ m < 0 ∨ s < 0 then -(|d| + |m| / 60 + |s| / 3600)
        else |d| + |m| / 60 + |s| / 3600)) := by
  unfold dmsToD; rw [bcast3_single]; rfl

/-- C25: exact round trip. -/
theorem dms_round_trip (x : ℚ) :
    ∃ d m : ℤ, ∃ s : ℚ, dToDms (fun x => x) x = (d, m, s) ∧
      dmsToD (fun x => x) [(d : ℚ)] [(m : ℚ)] [s] = .ok (.scalar x) := by
  obtain ⟨d, m, s, h1, h2, -, -, h3, h4⟩ := d_to_dms_spec x
  refine ⟨d, m, s, h1, ?_⟩
  rw [dms_to_d_exact]
  congr 2
  rcases le_total 0 x with h | h
  · obtain ⟨p1, p2, p3⟩ := h3 h
    have p1' : (0 : ℚ) ≤ d := by exact_mod_cast p1
    have p2' : (0 : ℚ) ≤ m := by exact_mod_cast p2
    rw [if_neg (by rintro (h | h | h) <;> linarith), abs_of_nonneg p1', abs_of_nonneg p2',
      abs_of_nonneg p3, h2]
  · obtain ⟨p1, p2, p3⟩ := h4 h
    have p1' : (d : ℚ) ≤ 0 := by exact_mod_cast p1
    have p2' : (m : ℚ) ≤ 0 := by exact_mod_cast p2
    rw [abs_of_nonpos p1', abs_of_nonpos p2', abs_of_nonpos p3]
    split_ifs with hc
    · rw [h2]; ring
    · have : (d : ℚ) = 0 ∧ (m : ℚ) = 0 ∧ s = 0 := by
        refine ⟨le_antisymm p1' ?_, le_antisymm p2' ?_, le_antisymm p3 ?_⟩ <;>
          · by_contra hn; rw [not_le] at hn; exact hc (by tauto)
      obtain ⟨e1, e2, e3⟩ := this
      rw [h2, e1, e2, e3]; norm_num

/-- C25: more than one element is refused. -/
theorem dms_to_d_refuses_arrays (fl : ℚ → ℚ) (ds ms ss : List ℚ) (n : ℕ) (hn : 1 < n)
    (hf : Spec.Fits n [ds.length, ms.length, ss.length]) :
    ∃ msg, dmsToD fl ds ms ss = .error (.ValueError msg) := by
  unfold dmsToD
  have hb := bcast3_fits hf
  have hlen : ((stretch n ds).zip ((stretch n ms).zip (stretch n ss))).length = n := by
    simp [stretch_length n ds (hf.1 _ (by simp)), stretch_length n ms (hf.1 _ (by simp)),
      stretch_length n ss (hf.1 _ (by simp))]
  rw [hb]
  generalize (stretch n ds).zip ((stretch n ms).zip (stretch n ss)) = l at *
  rcases l with _ | ⟨a, _ | ⟨b, l⟩⟩
  · exact ⟨_, rfl⟩
  · simp at hlen; omega
  · exact ⟨_, rfl⟩

/-- The hypotheses are met, and the sign may sit in a lower component: minus half a degree. -/
example : dToDms (fun x => x) (-1 / 2) = (0, -30, 0) ∧
    dmsToD (fun x => x) [0] [-30] [0] = .ok (.scalar (-1 / 2)) := by decide +kernel

example : Spec.Fits 2 [([1, 2] : List ℚ).length, ([3] : List ℚ).length, ([0] : List ℚ).length] := by
  constructor <;> simp

/-! ### C25 in binary64 -/

theorem IsF64.fract_le {x : ℚ} (hF : IsF64 x) : |x - trunc x| ≤ 1 - 1 / 2 ^ 53 := by
  obtain ⟨m, e, hm, he, hx⟩ := hF
  obtain ⟨-, a2, a3, a4⟩ := abs_trunc_le x
  rcases le_or_gt 0 e with h1 | h1
  · obtain ⟨k, rfl⟩ := Int.eq_ofNat_of_zero_le h1
    have e1 : x = ((m * 2 ^ k : ℤ) : ℚ) := by rw [hx]; push_cast; rfl
    rw [e1, trunc_intCast, sub_self, abs_zero]; norm_num
  · obtain ⟨k, rfl⟩ : ∃ k : ℕ, e = -(k : ℤ) := ⟨e.natAbs, by omega⟩
    have hp : (0 : ℚ) < 2 ^ k := by positivity
    have e1 : x * 2 ^ k = m := by rw [hx, zpow_neg, zpow_natCast]; field_simp
    rcases le_or_gt k 53 with h2 | h2
    · have e2 : (x - trunc x) * 2 ^ k = ((m - trunc x * 2 ^ k : ℤ) : ℚ) := by
        push_cast; rw [sub_mul, e1]
      have e3 : |x - trunc x| * 2 ^ k = ((|m - trunc x * 2 ^ k| : ℤ) : ℚ) := by
        rw [Int.cast_abs, ← e2, abs_mul, abs_of_pos hp]
      have e4 : |x - trunc x| < 1 := by rw [a4]; linarith
      have e5 : |m - trunc x * 2 ^ k| < 2 ^ k := by
        have : ((|m - trunc x * 2 ^ k| : ℤ) : ℚ) < ((2 ^ k : ℤ) : ℚ) := by
          rw [← e3]; push_cast; nlinarith
        exact_mod_cast this
      have e6 : |x - trunc x| * 2 ^ k ≤ 2 ^ k - 1 := by
        rw [e3]
        have : |m - trunc x * 2 ^ k| ≤ 2 ^ k - 1 := by omega
        exact_mod_cast this
      have e7 : (2 : ℚ) ^ k ≤ 2 ^ 53 := pow_le_pow_right₀ (by norm_num) h2
      have e8 : |x - trunc x| ≤ 1 - 1 / 2 ^ k := by
        rw [← sub_nonneg]
        have : 0 ≤ (1 - 1 / 2 ^ k - |x - trunc x|) * 2 ^ k := by
          rw [sub_mul, sub_mul, div_mul_cancel₀ _ hp.ne']; linarith
        exact nonneg_of_mul_nonneg_left this hp
      have e9 : (1 : ℚ) / 2 ^ 53 ≤ 1 / 2 ^ k := one_div_le_one_div_of_le hp e7
      linarith
    · have h3 : (2 : ℚ) ^ 54 ≤ 2 ^ k := pow_le_pow_right₀ (by norm_num) h2
      have h4 : |x| * 2 ^ k ≤ 2 ^ 53 := by
        rw [← abs_of_pos hp, ← abs_mul, e1]; exact_mod_cast hm
      have h5 : |x| ≤ 1 / 2 := by
        by_contra hc
        rw [not_le] at hc
        nlinarith
      rw [a4]
      have h6 := abs_nonneg (trunc x : ℚ)
      norm_num
      linarith

theorem Rounding.sixty {fl : ℚ → ℚ} (h : Rounding fl) {f : ℚ} (hf : |f| ≤ 1 - 1 / 2 ^ 53) :
    |fl (f * 60)| < 60 := by
  rw [abs_le] at hf
  have e1 := h.eq_of_close (60 - 60 / 2 ^ 53) (60 * 2 ^ 47 - 1) (-47)
    (by norm_num) (by norm_num) (by norm_num) (by rw [abs_lt]; norm_num)
  have e2 := h.eq_of_close (-(60 - 60 / 2 ^ 53)) (-(60 * 2 ^ 47 - 1)) (-47)
    (by norm_num) (by norm_num) (by norm_num) (by rw [abs_lt]; norm_num)
  have m1 : fl (f * 60) ≤ fl (60 - 60 / 2 ^ 53) := h.mono (by linarith)
  have m2 : fl (-(60 - 60 / 2 ^ 53)) ≤ fl (f * 60) := h.mono (by linarith)
  rw [e1] at m1
  rw [e2] at m2
  norm_num at m1 m2
  rw [abs_lt]; constructor <;> linarith

/-- C25 in binary64: minutes and seconds stay below 60, all components carry the sign of the angle,
and together they give the angle to within `2^-52` degrees. -/
theorem d_to_dms_float {fl : ℚ → ℚ} (h : Rounding fl) (x : ℚ) (hF : IsF64 x) :
    ∃ d m : ℤ, ∃ s : ℚ, dToDms fl x = (d, m, s) ∧ |x - (d + m / 60 + s / 3600)| ≤ 1 / 2 ^ 52 ∧
      |m| ≤ 59 ∧ |s| < 60 ∧ d = trunc x ∧
      (0 ≤ x → 0 ≤ d ∧ 0 ≤ m ∧ 0 ≤ s) ∧ (x ≤ 0 → d ≤ 0 ∧ m ≤ 0 ∧ s ≤ 0) := by
  have hL := h.floatLike
  set f := x - trunc x with hf
  have f1 := hF.fract_le
  rw [← hf] at f1
  set M := fl (f * 60) with hM
  have M1 : |M| < 60 := h.sixty f1
  have g1 := (h.rep (f * 60)).fract_le
  rw [← hM] at g1
  set g := M - trunc M with hg
  have S1 : |fl (g * 60)| < 60 := h.sixty g1
  have E1 := hL.err (f * 60)
  have E2 := hL.err (g * 60)
  rw [← hM] at E1
  have nonpos : ∀ {z : ℚ}, z ≤ 0 → fl z ≤ 0 := fun {z} hz => by
    have := hL.le_int (n := 0) (by norm_num) (x := z) (by exact_mod_cast hz)
    exact_mod_cast this
  refine ⟨trunc x, trunc M, fl (g * 60), rfl, ?_, ?_, S1, rfl, ?_, ?_⟩
  · have bf : |f * 60| ≤ 60 := by rw [abs_mul, abs_of_pos (by norm_num : (0 : ℚ) < 60)]; linarith
    have bg : |g * 60| ≤ 60 := by rw [abs_mul, abs_of_pos (by norm_num : (0 : ℚ) < 60)]; linarith
    have E1' : |M - f * 60| ≤ 60 / 2 ^ 53 + 1 / 2 ^ 1074 := E1.trans (by gcongr)
    have E2' : |fl (g * 60) - g * 60| ≤ 60 / 2 ^ 53 + 1 / 2 ^ 1074 := E2.trans (by gcongr)
    have tiny : (1 : ℚ) / 2 ^ 1074 ≤ 1 / 2 ^ 60 :=
      one_div_le_one_div_of_le (by norm_num) (pow_le_pow_right₀ (by norm_num) (by norm_num))
    have e : x - (trunc x + trunc M / 60 + fl (g * 60) / 3600)
        = -(M - f * 60) / 60 - (fl (g * 60) - g * 60) / 3600 := by rw [hg, hf]; ring
    rw [e]
    generalize (1 : ℚ) / 2 ^ 1074 = t at *
    rw [abs_le] at *
    norm_num at *
    constructor <;> linarith
  · have : |(trunc M : ℚ)| < 60 := (abs_trunc_le M).2.1.trans_lt M1
    have : |trunc M| < 60 := by exact_mod_cast this
    omega
  · intro h0
    obtain ⟨u1, u2⟩ := (sub_trunc_sign x).1 h0
    obtain ⟨v1, v2⟩ := (sub_trunc_sign M).1 (hL.nonneg (by linarith))
    exact ⟨by exact_mod_cast u2, by exact_mod_cast v2, hL.nonneg (by linarith)⟩
  · intro h0
    obtain ⟨u1, u2⟩ := (sub_trunc_sign x).2 h0
    obtain ⟨v1, v2⟩ := (sub_trunc_sign M).2 (nonpos (by linarith))
    exact ⟨by exact_mod_cast u2, by exact_mod_cast v2, nonpos (by linarith)⟩

/-- C25 in binary64: the round trip returns the angle to within a few rounding errors. -/
theorem dms_round_trip_float {fl : ℚ → ℚ} (h : Rounding fl) (x : ℚ) (hF : IsF64 x) :
    ∃ d m : ℤ, ∃ s r : ℚ, dToDms fl x = (d, m, s) ∧
      dmsToD fl [(d : ℚ)] [(m : ℚ)] [s] = .ok (.scalar r) ∧ |r - x| ≤ (|x| + 2) / 2 ^ 50 := by
  have hL := h.floatLike
  obtain ⟨d, m, s, h1, h2, hm, hs, hd, h3, h4⟩ := d_to_dms_float h x hF
  have hd' : |(d : ℚ)| ≤ |x| := by rw [hd]; exact (abs_trunc_le x).2.1
  have hm' : |(m : ℚ)| ≤ 59 := by exact_mod_cast hm
  have x0 := abs_nonneg x
  have d0 := abs_nonneg (d : ℚ)
  have m0 := abs_nonneg (m : ℚ)
  have s0 := abs_nonneg s
  refine ⟨d, m, s, _, h1, by unfold dmsToD; rw [bcast3_single], ?_⟩
  have tiny : (1 : ℚ) / 2 ^ 1074 ≤ 1 / 2 ^ 60 :=
    one_div_le_one_div_of_le (by norm_num) (pow_le_pow_right₀ (by norm_num) (by norm_num))
  have key : ∀ z B : ℚ, |z| ≤ B → |fl z - z| ≤ B / 2 ^ 53 + 1 / 2 ^ 60 := fun z B hz =>
    (hL.err z).trans (by gcongr)
  set a := fl (|(m : ℚ)| / 60) with ha
  have A := key (|(m : ℚ)| / 60) 1 (by rw [abs_of_nonneg (by positivity)]; linarith)
  rw [← ha] at A
  have a1 : 0 ≤ a := hL.nonneg (by positivity)
  have a2 : a ≤ 1 := by
    have := hL.le_int (n := 1) (by norm_num) (x := |(m : ℚ)| / 60) (by push_cast; linarith)
    rw [← ha] at this
    simpa using this
  set b := fl (|s| / 3600) with hb
  have B := key (|s| / 3600) 1 (by rw [abs_of_nonneg (by positivity)]; linarith)
  rw [← hb] at B
  have b1 : 0 ≤ b := hL.nonneg (by positivity)
  have b2 : b ≤ 1 := by
    have := hL.le_int (n := 1) (by norm_num) (x := |s| / 3600) (by push_cast; linarith)
    rw [← hb] at this
    simpa using this
  set c := fl (|(d : ℚ)| + a) with hc
  have Cc := key (|(d : ℚ)| + a) (|x| + 1) (by rw [abs_of_nonneg (by positivity)]; linarith)
  rw [← hc] at Cc
  have c1 : 0 ≤ c := hL.nonneg (by positivity)
  have cB : |c + b| ≤ |x| + 2 + (|x| + 2) / 2 ^ 52 := by
    rw [abs_of_nonneg (by positivity)]
    rw [abs_le] at Cc
    norm_num at *
    linarith
  have D := key (c + b) _ cB
  have tot : |fl (c + b) - (|(d : ℚ)| + |(m : ℚ)| / 60 + |s| / 3600)| ≤ (|x| + 2) * (7 / 2) / 2 ^ 52 := by
    rw [abs_le] at *
    norm_num at *
    constructor <;> linarith
  have fin : dmsToD1 fl d m s =
      if (d : ℚ) < 0 ∨ (m : ℚ) < 0 ∨ s < 0 then -fl (c + b) else fl (c + b) := rfl
  rw [fin]
  rcases le_total 0 x with hx | hx
  · obtain ⟨p1, p2, p3⟩ := h3 hx
    have p1' : (0 : ℚ) ≤ d := by exact_mod_cast p1
    have p2' : (0 : ℚ) ≤ m := by exact_mod_cast p2
    rw [if_neg (by rintro (h | h | h) <;> linarith)]
    rw [abs_of_nonneg p1', abs_of_nonneg p2', abs_of_nonneg p3] at tot
    rw [abs_le] at *
    norm_num at *
    constructor <;> linarith
  · obtain ⟨p1, p2, p3⟩ := h4 hx
    have p1' : (d : ℚ) ≤ 0 := by exact_mod_cast p1
    have p2' : (m : ℚ) ≤ 0 := by exact_mod_cast p2
    rw [abs_of_nonpos p1', abs_of_nonpos p2', abs_of_nonpos p3] at tot
    split_ifs with hc
    · rw [abs_le] at *
      norm_num at *
      constructor <;> linarith
    · have : (d : ℚ) = 0 ∧ (m : ℚ) = 0 ∧ s = 0 := by
        refine ⟨le_antisymm p1' ?_, le_antisymm p2' ?_, le_antisymm p3 ?_⟩ <;>
          · by_contra hn; rw [not_le] at hn; exact hc (by tauto)
      obtain ⟨e1, e2, e3⟩ := this
      rw [e1, e2, e3] at tot h2
      rw [abs_le] at *
      norm_num at *
      constructor <;> linarith

/-- The hypotheses are met, e.g. by round-half-even and by 23.4392911 degrees rounded. -/
example : Rounding rne ∧ IsF64 (rne 23.4392911) := ⟨rounding_rne, rounding_rne.rep _⟩

end Verif
