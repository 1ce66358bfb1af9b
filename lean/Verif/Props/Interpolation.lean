import Verif.Spec.Sidereal
import Verif.Props.Angles
import Mathlib.Tactic.LinearCombination

/-!
# C22, C27, C28, C29: sidereal time, interpolation, polynomials
-/

namespace Verif
open Real

/-! ### C29: polynomials -/

theorem horner_eq_sum {R : Type} [CommRing R] (x : R) (cs : List R) :
    horner (fun a => a) x cs = ∑ i : Fin cs.length, cs[i] * x ^ (i : ℕ) := by
  induction cs with
  | nil => simp [horner]
  | cons c cs ih =>
    have hs : ∑ i : Fin (c :: cs).length, (c :: cs)[i] * x ^ (i : ℕ)
        = c + (∑ i : Fin cs.length, cs[i] * x ^ (i : ℕ)) * x := by
      refine (Fin.sum_univ_succ (n := cs.length) (fun i => (c :: cs)[i] * x ^ (i : ℕ))).trans ?_
      rw [Finset.sum_mul]
      simp [pow_succ, mul_assoc]
    rw [hs]
    cases cs with
    | nil => simp [horner]
    | cons d ds => rw [← ih]; rfl

/-- C29: with exact arithmetic in any commutative ring, a non-empty coefficient list gives
`∑ terms[i] * x^i`. -/
theorem polynomial_eq_sum {R : Type} [CommRing R] (terms : List R) (x : R) (h : terms ≠ []) :
    polynomial (fun a => a) terms x = .ok (∑ i : Fin terms.length, terms[i] * x ^ (i : ℕ)) := by
  unfold polynomial
  rw [if_neg (by simpa using h), horner_eq_sum]

/-- C29: without coefficients it raises `ValueError`, whatever the arithmetic. -/
theorem polynomial_empty {R : Type} [CommRing R] (fl : R → R) (x : R) :
    polynomial fl [] x = .error (.ValueError "Coefficient array is empty") := rfl

/-- C29: every rounding; a constant polynomial is exact and a polynomial at `0` is its constant
term up to representability. -/
theorem polynomial_const {R : Type} [CommRing R] (fl : R → R) (c x : R) :
    polynomial fl [c] x = .ok c := rfl

/-- The doctest of the function, with exact arithmetic. -/
example : polynomial (fun a : ℚ => a) [11 / 10, -32 / 10, 33 / 10, 45 / 10] (41 / 10)
    = .ok (3535975 / 10000) := by decide +kernel

/-! ### C27: interpolation from three values -/

/-- C27: outside `-1 < n < 1` the function raises `Error`, whatever the arithmetic and the values. -/
theorem interpolate3_refuses_iff {K : Type} [Field K] [LinearOrder K] (fl : K → K) (n y0 y1 y2 : K) :
    (∃ e, interpolate3 fl n y0 y1 y2 = .error e) ↔ n ≤ -1 ∨ 1 ≤ n := by
  unfold interpolate3
  by_cases h : -1 < n ∧ n < 1
  · rw [if_neg (not_not.mpr h)]
    refine ⟨fun ⟨e, he⟩ => by simp at he, fun hc => ?_⟩
    rcases hc with hc | hc
    · exact absurd h.1 (not_lt.mpr hc)
    · exact absurd h.2 (not_lt.mpr hc)
  · rw [if_pos h]
    refine ⟨fun _ => ?_, fun _ => ⟨_, rfl⟩⟩
    by_contra hc
    rw [not_or, not_le, not_le] at hc
    exact h hc

theorem interpolate3_error {K : Type} [Field K] [LinearOrder K] (fl : K → K) (n y0 y1 y2 : K) {e}
    (h : interpolate3 fl n y0 y1 y2 = .error e) :
    e = .Error "util" "interpolating factor out of range" := by
  unfold interpolate3 at h
  split_ifs at h
  cases h; rfl

/-- C27: inside, it is the value at `n` of every quadratic through the three points, that is of the
only one. -/
theorem interpolate3_quadratic {K : Type} [Field K] [LinearOrder K] [IsStrictOrderedRing K]
    (n y0 y1 y2 A B C : K) (h1 : -1 < n) (h2 : n < 1)
    (e0 : A * (-1) ^ 2 + B * (-1) + C = y0) (e1 : A * 0 ^ 2 + B * 0 + C = y1)
    (e2 : A * 1 ^ 2 + B * 1 + C = y2) :
    interpolate3 (fun a => a) n y0 y1 y2 = .ok (A * n ^ 2 + B * n + C) := by
  unfold interpolate3
  rw [if_neg (by tauto)]
  simp only [Except.ok.injEq]
  rw [← e0, ← e1, ← e2]
  field_simp
  ring

/-- C27: there is exactly one such quadratic. -/
theorem quadratic_unique {K : Type} [Field K] [LinearOrder K] [IsStrictOrderedRing K] (y0 y1 y2 : K) :
    ∃! q : K × K × K, q.1 * (-1) ^ 2 + q.2.1 * (-1) + q.2.2 = y0 ∧
      q.1 * 0 ^ 2 + q.2.1 * 0 + q.2.2 = y1 ∧ q.1 * 1 ^ 2 + q.2.1 * 1 + q.2.2 = y2 := by
  refine ⟨((y0 + y2) / 2 - y1, (y2 - y0) / 2, y1), ⟨by ring, by ring, by ring⟩, ?_⟩
  rintro ⟨a, b, c⟩ ⟨h0, h1, h2⟩
  simp only at h0 h1 h2
  simp only [Prod.mk.injEq]
  refine ⟨?_, ?_, by linear_combination h1⟩
  · linear_combination (h0 + h2) / 2 - h1
  · linear_combination (h2 - h0) / 2

/-- C27: at `n = 0` the middle value is returned. -/
theorem interpolate3_zero (y0 y1 y2 : ℚ) : interpolate3 (fun a => a) 0 y0 y1 y2 = .ok y1 := by
  unfold interpolate3
  rw [if_neg (by norm_num)]
  simp

/-- C27: the same with any rounding, for a representable middle value. -/
theorem interpolate3_zero_float {fl : ℚ → ℚ} (h : FloatLike fl) (y0 y1 y2 : ℚ) (hy : IsF64 y1) :
    interpolate3 fl 0 y0 y1 y2 = .ok y1 := by
  unfold interpolate3
  rw [if_neg (by norm_num)]
  have h0 : fl 0 = 0 := by simpa using h.int (n := 0) (by norm_num)
  simp [h0, h.fix y1 hy]

/-- The hypotheses are met: halfway on `n^2 + 2 n + 3`, sampled at `-1, 0, 1`. -/
example : interpolate3 (fun a : ℚ => a) (1 / 2) 2 3 6 = .ok (17 / 4) := by decide +kernel

/-! ### C28: interpolation of angles -/

/-- C28: same domain check as `interpolate3`. -/
theorem interpolate_angle3_refuses_iff (n y0 y1 y2 : ℝ) :
    (∃ e, interpolateAngle3 n y0 y1 y2 = .error e) ↔ n ≤ -1 ∨ 1 ≤ n := by
  unfold interpolateAngle3
  by_cases h : -1 < n ∧ n < 1
  · rw [if_neg (not_not.mpr h)]
    refine ⟨fun ⟨e, he⟩ => by simp at he, fun hc => ?_⟩
    rcases hc with hc | hc
    · exact absurd h.1 (not_lt.mpr hc)
    · exact absurd h.2 (not_lt.mpr hc)
  · rw [if_pos h]
    refine ⟨fun _ => ?_, fun _ => ⟨_, rfl⟩⟩
    by_contra hc
    rw [not_or, not_le, not_le] at hc
    exact h hc

theorem congr_symm {t x y : ℝ} (h : Congr t x y) : Congr t y x := by
  obtain ⟨k, e⟩ := h; exact ⟨-k, by rw [e]; push_cast; ring⟩

theorem congr_trans {t x y z : ℝ} (h : Congr t x y) (h2 : Congr t y z) : Congr t x z := by
  obtain ⟨k, e⟩ := h; obtain ⟨j, e2⟩ := h2
  exact ⟨j + k, by rw [e, e2]; push_cast; ring⟩

theorem congr_sub {t x y x' y' : ℝ} (h : Congr t x x') (h2 : Congr t y y') :
    Congr t (x - y) (x' - y') := by
  obtain ⟨k, e⟩ := h; obtain ⟨j, e2⟩ := h2
  exact ⟨k - j, by rw [e, e2]; push_cast; ring⟩

theorem congr_add_right {t x y : ℝ} (z : ℝ) (h : Congr t x y) : Congr t (x + z) (y + z) := by
  obtain ⟨k, e⟩ := h; exact ⟨k, by rw [e]; ring⟩

/-- `diff_angle` recovers an unwrapped step of less than half a turn. -/
theorem diff_angle_unwrap {a b u v : ℝ} (ha0 : 0 ≤ a) (ha1 : a < 2 * π) (hb0 : 0 ≤ b)
    (hb1 : b < 2 * π) (hu : Congr (2 * π) a u) (hv : Congr (2 * π) b v) (h0 : -π < v - u)
    (h1 : v - u ≤ π) : diffAngle a b = v - u := by
  obtain ⟨r1, r2⟩ := diff_angle_range a b (by rw [abs_lt]; constructor <;> linarith)
  exact repr_unique (congr_trans (diff_angle_congr a b) (congr_sub hv hu)) r1 r2 h0 h1

/-- C28: for angles `y i` in `[0, 2π)` that are the reductions of an unwrapped sequence `u i` with
steps of less than half a turn and a second difference in `(-π, π]`, the result agrees modulo a turn
with quadratic interpolation of the unwrapped sequence. -/
theorem interpolate_angle3_spec (n u0 u1 u2 y0 y1 y2 : ℝ) (hn0 : -1 < n) (hn1 : n < 1)
    (a0 : 0 ≤ y0) (b0 : y0 < 2 * π) (a1 : 0 ≤ y1) (b1 : y1 < 2 * π) (a2 : 0 ≤ y2) (b2 : y2 < 2 * π)
    (c0 : Congr (2 * π) y0 u0) (c1 : Congr (2 * π) y1 u1) (c2 : Congr (2 * π) y2 u2)
    (s0 : |u1 - u0| < π) (s1 : |u2 - u1| < π)
    (d0 : -π < u2 - 2 * u1 + u0) (d1 : u2 - 2 * u1 + u0 ≤ π) :
    ∃ r q, interpolateAngle3 n y0 y1 y2 = .ok r ∧ interpolate3 (fun a => a) n u0 u1 u2 = .ok q ∧
      Congr (2 * π) r q := by
  rw [abs_lt] at s0 s1
  have ea := diff_angle_unwrap a0 b0 a1 b1 c0 c1 s0.1 s0.2.le
  have eb := diff_angle_unwrap a1 b1 a2 b2 c1 c2 s1.1 s1.2.le
  have ec : diffAngle (u1 - u0) (u2 - u1) = (u2 - u1) - (u1 - u0) := by
    obtain ⟨r1, r2⟩ := diff_angle_range (u1 - u0) (u2 - u1) (by rw [abs_lt]; constructor <;> linarith)
    exact repr_unique (diff_angle_congr _ _) r1 r2 (by linarith) (by linarith)
  unfold interpolateAngle3 interpolate3
  rw [if_neg (by tauto), if_neg (by tauto)]
  refine ⟨_, _, rfl, rfl, ?_⟩
  simp only [ea, eb, ec]
  exact congr_add_right _ c1

/-- C28: the bound on the second difference cannot be dropped.  Steps of `-3π/4` and `3π/4` (unwrapped
values `3π/4, 0, 3π/4`): halfway the true quadratic gives `3π/16`, the code `-π/16`. -/
theorem interpolate_angle3_large_second_difference :
    interpolateAngle3 (1 / 2) (3 * π / 4) 0 (3 * π / 4) = .ok (-(π / 16)) ∧
    interpolate3 (fun a => a) (1 / 2) (3 * π / 4) 0 (3 * π / 4) = .ok (3 * π / 16) ∧
    ¬ Congr (2 * π) (-(π / 16)) (3 * π / 16) := by
  have hp := pi_pos
  have e1 : diffAngle (3 * π / 4) 0 = -(3 * π / 4) := by
    unfold diffAngle pi2; simp only []; split_ifs <;> linarith
  have e2 : diffAngle 0 (3 * π / 4) = 3 * π / 4 := by
    unfold diffAngle pi2; simp only []; split_ifs <;> linarith
  have e3 : diffAngle (-(3 * π / 4)) (3 * π / 4) = -(π / 2) := by
    unfold diffAngle pi2; simp only []; split_ifs <;> linarith
  refine ⟨?_, ?_, ?_⟩
  · unfold interpolateAngle3
    rw [if_neg (by norm_num)]
    simp only [e1, e2, e3, Except.ok.injEq]
    ring
  · unfold interpolate3
    rw [if_neg (by norm_num)]
    simp only [Except.ok.injEq]
    ring
  · intro h
    have := repr_unique h (by linarith) (by linarith) (by linarith) (by linarith)
    linarith

/-- The hypotheses are met across the wrap-around, and the result is not reduced to `[0, 2π)`:
from 350 through 358 to 6 degrees, half a step after 358 the code answers 362 degrees. -/
example : interpolateAngle3 (1 / 2) (dToR 350) (dToR 358) (dToR 6) = .ok (dToR 362) := by
  have hp := pi_pos
  have e1 : diffAngle (dToR 350) (dToR 358) = dToR 8 := by
    unfold diffAngle dToR pi2; simp only []; split_ifs <;> linarith
  have e2 : diffAngle (dToR 358) (dToR 6) = dToR 8 := by
    unfold diffAngle dToR pi2; simp only []; split_ifs <;> linarith
  have e3 : diffAngle (dToR 8) (dToR 8) = 0 := by
    unfold diffAngle pi2; simp only []; split_ifs <;> linarith
  unfold interpolateAngle3
  rw [if_neg (by norm_num)]
  simp only [e1, e2, e3, Except.ok.injEq]
  unfold dToR
  ring

/-! ### C22: sidereal time -/

/-- C22: the result is in `[0, 2π)` and equals the cubic modulo one turn. -/
theorem sidereal_time_spec (jd : ℝ) :
    0 ≤ siderealTimeGreenwich jd ∧ siderealTimeGreenwich jd < 2 * π ∧
    Congr (2 * π) (siderealTimeGreenwich jd) (gmstDegrees jd * (π / 180)) := by
  have e : siderealTimeGreenwich jd = modpi2 (gmstDegrees jd * (π / 180)) := by
    unfold siderealTimeGreenwich gmstDegrees jcent dToR
    simp only []
    congr 1; ring
  rw [e]
  exact modpi2_spec _

/-- C22: at J2000 it is 280.46061837 degrees. -/
theorem sidereal_time_j2000 : siderealTimeGreenwich 2451545 = 280.46061837 * (π / 180) := by
  obtain ⟨h0, h1, h2⟩ := sidereal_time_spec 2451545
  have hp := pi_pos
  have e : gmstDegrees 2451545 = 280.46061837 := by unfold gmstDegrees; norm_num
  rw [e] at h2
  exact congr_unique pi2_pos h2 ⟨0, by simp⟩ h0 h1 (by positivity) (by unfold pi2; nlinarith)

/-- C22: from one day to the next the angle grows by one turn and 0.98564736629 degrees, up to
`3e-6` degrees within 100 Julian centuries of J2000. -/
theorem sidereal_time_daily (jd : ℝ) (h : |jd - 2451545| ≤ 3652500) :
    ∃ δ : ℝ, |δ| ≤ 3e-6 ∧ Congr (2 * π) (siderealTimeGreenwich (jd + 1))
      (siderealTimeGreenwich jd + (0.98564736629 + δ) * (π / 180)) := by
  refine ⟨gmstDegrees (jd + 1) - gmstDegrees jd - 360.98564736629, ?_, ?_⟩
  · unfold gmstDegrees
    rw [abs_le] at h
    set x := jd - 2451545 with hx
    have e : jd + 1 - 2451545 = x + 1 := by rw [hx]; ring
    rw [e]
    obtain ⟨hl, hr⟩ := h
    have q : x ^ 2 ≤ 3652500 ^ 2 := by nlinarith
    have q0 : 0 ≤ x ^ 2 := sq_nonneg x
    have e2 : 280.46061837 + 360.98564736629 * (x + 1) + 0.000387933 * ((x + 1) / 36525) ^ 2
        - ((x + 1) / 36525) ^ 3 / 38710000
        - (280.46061837 + 360.98564736629 * x + 0.000387933 * (x / 36525) ^ 2
        - (x / 36525) ^ 3 / 38710000) - 360.98564736629
        = 0.000387933 / 36525 ^ 2 * (2 * x + 1) - (3 * x ^ 2 + 3 * x + 1) / (38710000 * 36525 ^ 3) := by
      field_simp; ring
    rw [e2, abs_le]
    constructor
    · norm_num at *; linarith
    · norm_num at *; linarith
  · obtain ⟨-, -, k, e⟩ := sidereal_time_spec (jd + 1)
    obtain ⟨-, -, j, e2⟩ := sidereal_time_spec jd
    refine ⟨k - j + 1, ?_⟩
    rw [e, e2]; push_cast
    ring

/-- The hypothesis is met by every date from 8000 BC to AD 12000, such as 10 April 1987. -/
example : |(2446895.5 : ℝ) - 2451545| ≤ 3652500 := by rw [abs_le]; norm_num

end Verif
