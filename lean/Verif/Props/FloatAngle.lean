import Verif.Lemmas.FloatRise
import Verif.Props.FloatUtil

/-!
# C93: `interpolate_angle3` in binary64, for all angles
-/

namespace Verif
open Real

variable {fl : ℚ → ℚ}

/-- The difference of two angles which is not too close to half a turn. -/
theorem diffAngleF_nearPi (hf : FloatLike fl) {a b : ℚ} {g e : ℝ} (ha : |(a : ℝ)| ≤ 10) (hb : |(b : ℝ)| ≤ 10)
    (hw : |(b : ℝ) - a| ≤ 6.3) (hg : |g| ≤ π - 1e-13) (he : e ≤ 2e-14) (h : ∃ k : ℤ, |(b : ℝ) - a - g - k * (2 * π)| ≤ e) :
    Near (diffAngleF fl a b) g (e + 6e-15) := by
  obtain ⟨k, hk⟩ := h
  have e0 : 0 ≤ e := (abs_nonneg _).trans hk
  have p3 := Real.pi_gt_d4
  have p4 := Real.pi_lt_d4
  obtain ⟨p1a, p1b⟩ := abs_le.mp piF_near
  obtain ⟨p2a, p2b⟩ := abs_le.mp pi2F_near
  have S1 : Near (fl (b + pi2F)) (b + 2 * π) 2.2e-15 :=
    ((near_self b).add pi2F_near).rnd hf (M := 16.3)
      ((abs_add_le _ _).trans (by rw [abs_of_pos (by positivity : 0 < 2 * π)]; norm_num at p4 ⊢; linarith))
      (by rw [uuR, wwR]; norm_num)
  have hw2 : |(b : ℝ) + 2 * π - a| ≤ 16.3 := by
    rw [show (b : ℝ) + 2 * π - a = (b - a) + 2 * π by ring]
    exact (abs_add_le _ _).trans (by rw [abs_of_pos (by positivity : 0 < 2 * π)]; norm_num at p4 ⊢; linarith)
  have S2 : Near (fl (fl (b + pi2F) - a)) (b + 2 * π - a) 4.1e-15 :=
    (S1.sub (near_self a)).rnd hf hw2 (by rw [uuR, wwR]; norm_num)
  have R2 : Near (fl (b - a)) (b - a) 1.2e-15 :=
    ((near_self b).sub (near_self a)).rnd hf (hw.trans (by norm_num : (6.3 : ℝ) ≤ 10)) (by rw [uuR, wwR]; norm_num)
  have S3 : Near (fl (fl (fl (b + pi2F) - a) - pi2F)) (b + 2 * π - a - 2 * π) 5.9e-15 :=
    (S2.sub pi2F_near).rnd hf (M := 10) (by rw [show (b : ℝ) + 2 * π - a - 2 * π = b - a by ring]; exact hw.trans (by norm_num))
      (by rw [uuR, wwR]; norm_num)
  obtain ⟨k1, k2⟩ := abs_le.mp hk
  obtain ⟨g1, g2⟩ := abs_le.mp hg
  obtain ⟨w1, w2⟩ := abs_le.mp hw
  norm_num at w1 w2
  norm_num at p1a p1b p2a p2b p3 p4 g1 g2 he
  have kk : k = -1 ∨ k = 0 ∨ k = 1 := by
    have h1 : (-2 : ℝ) < k := by
      by_contra hn
      push Not at hn
      nlinarith
    have h2 : (k : ℝ) < 2 := by
      by_contra hn
      push Not at hn
      nlinarith
    have h1' : -2 < k := by exact_mod_cast h1
    have h2' : k < 2 := by exact_mod_cast h2
    omega
  obtain ⟨s1, s2⟩ := abs_le.mp S2
  obtain ⟨r1, r2⟩ := abs_le.mp R2
  norm_num at s1 s2 r1 r2
  unfold diffAngleF
  simp only
  by_cases hba : b < a
  · rw [if_pos hba]
    have hba' : (b : ℝ) < a := by exact_mod_cast hba
    by_cases hp : fl (fl (b + pi2F) - a) > piF
    · rw [if_pos hp]
      have hp' : (piF : ℝ) < fl (fl (b + pi2F) - a) := by exact_mod_cast hp
      obtain ⟨t1, t2⟩ := abs_le.mp S3
      norm_num at t1 t2
      unfold Near
      rw [abs_le]
      rcases kk with rfl | rfl | rfl
      · exfalso; norm_num at k1 k2; linarith
      · norm_num at k1 k2 ⊢; constructor <;> linarith
      · exfalso; norm_num at k1 k2; linarith
    · rw [if_neg hp]
      have hp' : (fl (fl (b + pi2F) - a) : ℝ) ≤ piF := by exact_mod_cast not_lt.mp hp
      unfold Near
      rw [abs_le]
      rcases kk with rfl | rfl | rfl
      · norm_num at k1 k2 ⊢; constructor <;> linarith
      · exfalso; norm_num at k1 k2; linarith
      · exfalso; norm_num at k1 k2; linarith
  · rw [if_neg hba]
    have hba' : (a : ℝ) ≤ b := by exact_mod_cast not_lt.mp hba
    by_cases hp : fl (b - a) > piF
    · rw [if_pos hp]
      have hp' : (piF : ℝ) < fl (b - a) := by exact_mod_cast hp
      rcases kk with rfl | rfl | rfl
      · exfalso; norm_num at k1 k2; linarith
      · exfalso; norm_num at k1 k2; linarith
      · have R3 : Near (fl (fl (b - a) - pi2F)) (b - a - 2 * π) 4e-15 :=
          (R2.sub pi2F_near).rnd hf (M := 10) (by
            rw [abs_le]; norm_num at k1 k2 ⊢; constructor <;> linarith) (by rw [uuR, wwR]; norm_num)
        obtain ⟨t1, t2⟩ := abs_le.mp R3
        unfold Near
        rw [abs_le]
        norm_num at k1 k2 t1 t2 ⊢; constructor <;> linarith
    · rw [if_neg hp]
      have hp' : (fl (b - a) : ℝ) ≤ piF := by exact_mod_cast not_lt.mp hp
      unfold Near
      rw [abs_le]
      rcases kk with rfl | rfl | rfl
      · exfalso; norm_num at k1 k2; linarith
      · norm_num at k1 k2 ⊢; constructor <;> linarith
      · exfalso; norm_num at k1 k2; linarith

/-- C93: `interpolate_angle3` in binary64.  For angles from 0 to the float `pi2` which are the reductions of a sequence `u` whose steps
and second difference are less than half a turn (by `1e-13`), the result is the quadratic interpolation of that sequence, whole turns
aside, with an error of at most `2e-14`. -/
theorem interpolate_angle3_float (hf : FloatLike fl) {n y0 y1 y2 : ℚ} {u0 u1 u2 : ℝ} (h1 : -1 < n) (h2 : n < 1)
    (a0 : 0 ≤ y0) (b0 : y0 ≤ pi2F) (a1 : 0 ≤ y1) (b1 : y1 ≤ pi2F) (a2 : 0 ≤ y2) (b2 : y2 ≤ pi2F)
    (c0 : Congr (2 * π) y0 u0) (c1 : Congr (2 * π) y1 u1) (c2 : Congr (2 * π) y2 u2)
    (s0 : |u1 - u0| ≤ π - 1e-13) (s1 : |u2 - u1| ≤ π - 1e-13) (d : |u2 - 2 * u1 + u0| ≤ π - 1e-13) :
    ∃ R, interpolateAngle3F fl n y0 y1 y2 = .ok R ∧
      ∃ k : ℤ, |(R : ℝ) - (u1 + n / 2 * ((u2 - u0) + n * (u2 - 2 * u1 + u0)) + k * (2 * π))| ≤ 2e-14 := by
  obtain ⟨k0, e0⟩ := c0
  obtain ⟨k1, e1⟩ := c1
  obtain ⟨k2, e2⟩ := c2
  have p := Real.pi_lt_d4
  norm_num at p
  have P : ((pi2F : ℚ) : ℝ) ≤ 6.29 := by unfold pi2F; push_cast; norm_num
  have rg : ∀ {x : ℚ}, 0 ≤ x → x ≤ pi2F → 0 ≤ (x : ℝ) ∧ (x : ℝ) ≤ 6.29 := by
    intro x h h'
    have h3 : (x : ℝ) ≤ (pi2F : ℚ) := by exact_mod_cast h'
    exact ⟨by exact_mod_cast h, h3.trans P⟩
  obtain ⟨q0, r0⟩ := rg a0 b0
  obtain ⟨q1, r1⟩ := rg a1 b1
  obtain ⟨q2, r2⟩ := rg a2 b2
  have dm : ∀ {x y : ℝ}, 0 ≤ x → x ≤ 6.29 → 0 ≤ y → y ≤ 6.29 → |x| ≤ 10 ∧ |y - x| ≤ 6.3 := by
    intro x y h1 h2 h3 h4
    norm_num at h2 h4
    constructor <;> rw [abs_le] <;> norm_num <;> constructor <;> linarith
  have A : Near (diffAngleF fl y0 y1) (u1 - u0) (0 + 6e-15) :=
    diffAngleF_nearPi hf (dm q0 r0 q1 r1).1 (dm q1 r1 q1 r1).1 (dm q0 r0 q1 r1).2 s0 (by norm_num)
      ⟨k1 - k0, by rw [e1, e0]; push_cast; ring_nf; simp⟩
  have B : Near (diffAngleF fl y1 y2) (u2 - u1) (0 + 6e-15) :=
    diffAngleF_nearPi hf (dm q1 r1 q1 r1).1 (dm q2 r2 q1 r1).1 (dm q1 r1 q2 r2).2 s1 (by norm_num)
      ⟨k2 - k1, by rw [e1, e2]; push_cast; ring_nf; simp⟩
  unfold interpolateAngle3F
  rw [if_neg (by tauto)]
  simp only
  generalize diffAngleF fl y0 y1 = a at *
  generalize diffAngleF fl y1 y2 = b at *
  have A' := A.abs s0
  have B' := B.abs s1
  have t0 : |u1 - u0| ≤ 3.1416 := s0.trans (by norm_num; linarith)
  have t1 : |u2 - u1| ≤ 3.1416 := s1.trans (by norm_num; linarith)
  have td : |u2 - 2 * u1 + u0| ≤ 3.1416 := d.trans (by norm_num; linarith)
  have AB : |(b : ℝ) - a - (u2 - 2 * u1 + u0)| ≤ 1.2e-14 := by
    unfold Near at A B
    rw [show (b : ℝ) - a - (u2 - 2 * u1 + u0) = (b - (u2 - u1)) - (a - (u1 - u0)) by ring]
    exact (abs_sub _ _).trans ((add_le_add B A).trans (by norm_num))
  have C : Near (diffAngleF fl a b) (u2 - 2 * u1 + u0) (1.2e-14 + 6e-15) := by
    refine diffAngleF_nearPi hf (A'.trans (by norm_num; linarith)) (B'.trans (by norm_num; linarith)) ?_ d (by norm_num) ⟨0, ?_⟩
    · rw [show (b : ℝ) - a = ((b : ℝ) - a - (u2 - 2 * u1 + u0)) + (u2 - 2 * u1 + u0) by ring]
      exact (abs_add_le _ _).trans ((add_le_add AB td).trans (by norm_num))
    · simpa using AB
  generalize diffAngleF fl a b = c at *
  have hn' : |(n : ℝ)| ≤ 1 := by
    rw [abs_le]
    have h1 : (-1 : ℝ) < n := by exact_mod_cast h1
    have h2 : (n : ℝ) < 1 := by exact_mod_cast h2
    exact ⟨h1.le, h2.le⟩
  have bAB : |u1 - u0 + (u2 - u1)| ≤ 6.2832 := (abs_add_le _ _).trans ((add_le_add t0 t1).trans (by norm_num))
  have nAB := (A.add B).rnd hf bAB (e' := 1.28e-14) (by rw [uuR, wwR]; norm_num)
  have bNC : |(n : ℝ) * (u2 - 2 * u1 + u0)| ≤ 3.1416 := by
    rw [abs_mul]; exact (mul_le_mul hn' td (abs_nonneg _) (by norm_num)).trans (by norm_num)
  have nNC := ((near_self n).mul C hn' td).rnd hf bNC (e' := 1.84e-14) (by rw [uuR, wwR]; norm_num)
  have bS := (abs_add_le _ _).trans (add_le_add bAB bNC)
  have nS := (nAB.add nNC).rnd hf bS (e' := 3.23e-14) (by rw [uuR, wwR]; norm_num)
  have bN : |(n : ℝ) / (2 : ℚ)| ≤ 0.5 := by
    push_cast; rw [abs_div, abs_of_pos (by norm_num : (0 : ℝ) < 2)]; norm_num; linarith
  have nN := ((near_self n).div_const (k := 2) (by norm_num)).rnd hf bN (e' := 5.6e-17) (by rw [uuR, wwR]; norm_num)
  have bP : |(n : ℝ) / (2 : ℚ) * (u1 - u0 + (u2 - u1) + n * (u2 - 2 * u1 + u0))| ≤ 4.72 := by
    rw [abs_mul]; exact (mul_le_mul bN bS (abs_nonneg _) (by norm_num)).trans (by norm_num)
  have nP := (nN.mul nS bN bS).rnd hf bP (e' := 1.75e-14) (by rw [uuR, wwR]; norm_num)
  have by1 : |(y1 : ℝ)| ≤ 6.29 := by rw [abs_of_nonneg q1]; exact r1
  have nR := ((near_self y1).add nP).rnd hf ((abs_add_le _ _).trans (add_le_add by1 bP)) (e' := 2e-14)
    (by rw [uuR, wwR]; norm_num)
  refine ⟨_, rfl, k1, ?_⟩
  refine le_of_eq_of_le ?_ nR
  rw [e1]
  push_cast
  congr 1
  ring

/-- C93: exactly the factors outside the open interval from -1 to 1 are refused. -/
theorem interpolate_angle3_float_refuses (n y0 y1 y2 : ℚ) :
    (∃ e, interpolateAngle3F fl n y0 y1 y2 = .error e) ↔ n ≤ -1 ∨ 1 ≤ n := by
  unfold interpolateAngle3F
  by_cases h : -1 < n ∧ n < 1
  · rw [if_neg (by tauto)]
    simp only [reduceCtorEq, exists_false, false_iff]
    rintro (h' | h') <;> linarith [h.1, h.2]
  · rw [if_pos h]
    refine ⟨fun _ => ?_, fun _ => ⟨_, rfl⟩⟩
    by_contra hn
    push Not at hn
    exact h ⟨hn.1, hn.2⟩

/-- The hypotheses are met: three angles, the last one after a full turn. -/
example : ∃ R, interpolateAngle3F rne 0.5 6 6.2 0.1 = .ok R ∧
    ∃ k : ℤ, |(R : ℝ) - (6.2 + ((0.5 : ℚ) : ℝ) / 2 * (((0.1 + 2 * π) - 6) + ((0.5 : ℚ) : ℝ) * ((0.1 + 2 * π) - 2 * 6.2 + 6)) +
      k * (2 * π))| ≤ 2e-14 := by
  have p1 := Real.pi_gt_d4
  have p2 := Real.pi_lt_d4
  norm_num at p1 p2
  refine interpolate_angle3_float rounding_rne.floatLike (by norm_num) (by norm_num) (by norm_num) (by unfold pi2F; norm_num)
    (by norm_num) (by unfold pi2F; norm_num) (by norm_num) (by unfold pi2F; norm_num) ⟨0, by norm_num⟩ ⟨0, by norm_num⟩
    ⟨-1, by push_cast; norm_num⟩ ?_ ?_ ?_ <;> rw [abs_le] <;> norm_num <;> constructor <;> linarith

end Verif
