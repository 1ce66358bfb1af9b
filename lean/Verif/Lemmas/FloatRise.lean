import Verif.Model.FloatRise
import Verif.Lemmas.FloatCoord
import Verif.Lemmas.RiseSet

/-!
# Rounding errors of sidereal time, of interpolation and of the hour angle
-/

namespace Verif
open Real

/-- The difference of two angles which is not near half a turn. -/
theorem diffAngleF_nearD {fl : ℚ → ℚ} (hf : FloatLike fl) {a b : ℚ} {g e : ℝ} (ha : |(a : ℝ)| ≤ 10) (hb : |(b : ℝ)| ≤ 10)
    (hw : |(b : ℝ) - a| ≤ 10) (hg : |g| ≤ 2.1) (he : e ≤ 0.1) (h : ∃ k : ℤ, |(b : ℝ) - a - g - k * (2 * π)| ≤ e) :
    Near (diffAngleF fl a b) g (e + 6e-15) := by
  obtain ⟨k, hk⟩ := h
  have e0 : 0 ≤ e := (abs_nonneg _).trans hk
  have p3 := Real.pi_gt_d4
  have p4 := Real.pi_lt_d4
  obtain ⟨p1a, p1b⟩ := abs_le.mp piF_near
  obtain ⟨p2a, p2b⟩ := abs_le.mp pi2F_near
  have S1 : Near (fl (b + pi2F)) (b + 2 * π) 2.2e-15 :=
    ((near_self b).add pi2F_near).rnd hf (M := 16.3)
      ((abs_add_le _ _).trans (by rw [abs_of_pos (by positivity : 0 < 2 * π)]; norm_num at p4 ⊢; linarith))
      (by rw [uuR, wwR]; norm_num)
  have hw2 : |(b : ℝ) + 2 * π - a| ≤ 16.3 := by
    rw [show (b : ℝ) + 2 * π - a = (b - a) + 2 * π by ring]
    exact (abs_add_le _ _).trans (by rw [abs_of_pos (by positivity : 0 < 2 * π)]; norm_num at p4 ⊢; linarith)
  have S2 : Near (fl (fl (b + pi2F) - a)) (b + 2 * π - a) 4.1e-15 :=
    (S1.sub (near_self a)).rnd hf hw2 (by rw [uuR, wwR]; norm_num)
  have R2 : Near (fl (b - a)) (b - a) 1.2e-15 :=
    ((near_self b).sub (near_self a)).rnd hf hw (by rw [uuR, wwR]; norm_num)
  have S3 : Near (fl (fl (fl (b + pi2F) - a) - pi2F)) (b + 2 * π - a - 2 * π) 5.9e-15 :=
    (S2.sub pi2F_near).rnd hf (M := 10) (by rw [show (b : ℝ) + 2 * π - a - 2 * π = b - a by ring]; exact hw)
      (by rw [uuR, wwR]; norm_num)
  obtain ⟨k1, k2⟩ := abs_le.mp hk
  obtain ⟨g1, g2⟩ := abs_le.mp hg
  obtain ⟨w1, w2⟩ := abs_le.mp hw
  norm_num at p1a p1b p2a p2b p3 p4 g1 g2 he
  have kk : k = -1 ∨ k = 0 ∨ k = 1 := by
    have h1 : (-2 : ℝ) < k := by
      by_contra hn
      push Not at hn
      nlinarith
    have h2 : (k : ℝ) < 2 := by
      by_contra hn
      push Not at hn
      nlinarith
    have h1' : -2 < k := by exact_mod_cast h1
    have h2' : k < 2 := by exact_mod_cast h2
    omega
  obtain ⟨s1, s2⟩ := abs_le.mp S2
  obtain ⟨r1, r2⟩ := abs_le.mp R2
  norm_num at s1 s2 r1 r2
  unfold diffAngleF
  simp only
  by_cases hba : b < a
  · rw [if_pos hba]
    have hba' : (b : ℝ) < a := by exact_mod_cast hba
    by_cases hp : fl (fl (b + pi2F) - a) > piF
    · rw [if_pos hp]
      have hp' : (piF : ℝ) < fl (fl (b + pi2F) - a) := by exact_mod_cast hp
      obtain ⟨t1, t2⟩ := abs_le.mp S3
      norm_num at t1 t2
      unfold Near
      rw [abs_le]
      rcases kk with rfl | rfl | rfl
      · exfalso; norm_num at k1 k2; linarith
      · norm_num at k1 k2 ⊢; constructor <;> linarith
      · exfalso; norm_num at k1 k2; linarith
    · rw [if_neg hp]
      have hp' : (fl (fl (b + pi2F) - a) : ℝ) ≤ piF := by exact_mod_cast not_lt.mp hp
      unfold Near
      rw [abs_le]
      rcases kk with rfl | rfl | rfl
      · norm_num at k1 k2 ⊢; constructor <;> linarith
      · exfalso; norm_num at k1 k2; linarith
      · exfalso; norm_num at k1 k2; linarith
  · rw [if_neg hba]
    have hba' : (a : ℝ) ≤ b := by exact_mod_cast not_lt.mp hba
    by_cases hp : fl (b - a) > piF
    · rw [if_pos hp]
      have hp' : (piF : ℝ) < fl (b - a) := by exact_mod_cast hp
      rcases kk with rfl | rfl | rfl
      · exfalso; norm_num at k1 k2; linarith
      · exfalso; norm_num at k1 k2; linarith
      · have R3 : Near (fl (fl (b - a) - pi2F)) (b - a - 2 * π) 4e-15 :=
          (R2.sub pi2F_near).rnd hf (M := 10) (by
            rw [abs_le]; norm_num at k1 k2 ⊢; constructor <;> linarith) (by rw [uuR, wwR]; norm_num)
        obtain ⟨t1, t2⟩ := abs_le.mp R3
        unfold Near
        rw [abs_le]
        norm_num at k1 k2 t1 t2 ⊢; constructor <;> linarith
    · rw [if_neg hp]
      have hp' : (fl (b - a) : ℝ) ≤ piF := by exact_mod_cast not_lt.mp hp
      unfold Near
      rw [abs_le]
      rcases kk with rfl | rfl | rfl
      · exfalso; norm_num at k1 k2; linarith
      · norm_num at k1 k2 ⊢; constructor <;> linarith
      · exfalso; norm_num at k1 k2; linarith

/-- ... and in general, up to whole turns. -/
theorem diffAngleF_nearA {fl : ℚ → ℚ} (hf : FloatLike fl) {b : ℚ} {g e : ℝ} (hb : |(b : ℝ)| ≤ 11) (h : NearA b g e) :
    NearA (diffAngleF fl 0 b) g (e + 6e-15) := by
  obtain ⟨k, hk⟩ := h
  have p4 := Real.pi_lt_d4
  have ha : |(2 * π : ℝ)| ≤ 6.2832 := by rw [abs_of_pos (by positivity)]; norm_num at p4 ⊢; linarith
  have S1 : Near (fl (b + pi2F)) (b + 2 * π) 2.3e-15 :=
    ((near_self b).add pi2F_near).rnd hf (M := 17.3)
      ((abs_add_le _ _).trans (by norm_num at ha ⊢; linarith)) (by rw [uuR, wwR]; norm_num)
  have hw2 : |(b : ℝ) + 2 * π - 0| ≤ 17.3 := by
    rw [sub_zero]
    exact (abs_add_le _ _).trans (by norm_num at ha ⊢; linarith)
  have S2 : Near (fl (fl (b + pi2F) - 0)) (b + 2 * π - 0) 4.3e-15 := by
    have z : Near 0 0 0 := by simp [Near]
    exact (S1.sub z).rnd hf hw2 (by rw [uuR, wwR]; norm_num)
  have R2 : Near (fl (b - 0)) (b - 0) 1.3e-15 := by
    rw [sub_zero, sub_zero]
    exact (near_self b).rnd hf hb (by rw [uuR, wwR]; norm_num)
  have S3 : Near (fl (fl (fl (b + pi2F) - 0) - pi2F)) (b + 2 * π - 0 - 2 * π) 6e-15 :=
    (S2.sub pi2F_near).rnd hf (M := 11) (by rw [show (b : ℝ) + 2 * π - 0 - 2 * π = b by ring]; exact hb)
      (by rw [uuR, wwR]; norm_num)
  have R3 : Near (fl (fl (b - 0) - pi2F)) (b - 0 - 2 * π) 4e-15 :=
    (R2.sub pi2F_near).rnd hf (M := 17.3) (by
      rw [sub_zero]; exact (abs_sub _ _).trans (by norm_num at ha ⊢; linarith)) (by rw [uuR, wwR]; norm_num)
  have fin : ∀ {Z : ℚ} {z d : ℝ} (j : ℤ), Near Z z d → z = b + j * (2 * π) → d ≤ 6e-15 → NearA Z g (e + 6e-15) := by
    intro Z z d j hZ hz hd
    refine ⟨k + j, ?_⟩
    unfold Near at *
    rw [show (Z : ℝ) - (g + ((k + j : ℤ) : ℝ) * (2 * π)) = (b - (g + k * (2 * π))) + (Z - z) by rw [hz]; push_cast; ring]
    exact (abs_add_le _ _).trans (add_le_add hk (hZ.trans hd))
  unfold diffAngleF
  simp only
  split_ifs
  · exact fin 0 S3 (by push_cast; ring) (by norm_num)
  · exact fin 1 S2 (by push_cast; ring) (by norm_num)
  · exact fin (-1) R3 (by push_cast; ring) (by norm_num)
  · exact fin 0 R2 (by push_cast; ring) (by norm_num)

/-- Sidereal time, within 3000 years of J2000. -/
theorem siderealF_near {fl : ℚ → ℚ} (hf : FloatLike fl) {jd : ℚ} (h : |(jd : ℝ) - 2451545| ≤ 1100000) :
    NearA (siderealF fl jd) (gmstDegrees jd * (π / 180)) 7.5e-9 := by
  have hT : |jcent jd| ≤ 30.12 := by
    unfold jcent
    rw [abs_div, abs_of_pos (by norm_num : (0 : ℝ) < 36525), div_le_iff₀ (by norm_num)]
    norm_num; linarith
  have nT := (jcentF_near hf (hT.trans (by norm_num))).mono (e' := 1.5e-14) (by push_cast; rw [uuR]; norm_num)
  unfold siderealF
  simp only
  generalize jcentF fl jd = TF at *
  generalize ht : jcent jd = t at *
  have b2 : |t * t| ≤ 908 := by
    rw [abs_mul]; exact (mul_le_mul hT hT (abs_nonneg _) (by norm_num)).trans (by norm_num)
  have n2 : Near (fl (TF * TF)) (t * t) 1.1e-12 :=
    (nT.mul nT hT hT).rnd hf b2 (by rw [uuR, wwR]; norm_num)
  have b3 : |t * t * t| ≤ 27350 := by
    rw [abs_mul]; exact (mul_le_mul b2 hT (abs_nonneg _) (by norm_num)).trans (by norm_num)
  have n3 : Near (fl (fl (TF * TF) * TF)) (t * t * t) 5.1e-11 :=
    (n2.mul nT b2 hT).rnd hf b3 (by rw [uuR, wwR]; norm_num)
  have b4 : |t * t * t / (38710000 : ℚ)| ≤ 0.001 := by
    push_cast
    rw [abs_div, abs_of_pos (by norm_num : (0 : ℝ) < 38710000), div_le_iff₀ (by norm_num)]
    exact b3.trans (by norm_num)
  have n4 : Near (fl (fl (fl (TF * TF) * TF) / 38710000)) (t * t * t / (38710000 : ℚ)) 1e-17 :=
    (n3.div_const (k := 38710000) (by norm_num)).rnd hf b4 (by rw [uuR, wwR]; push_cast; norm_num)
  have l5 : Near (fl 0.000387933) ((0.000387933 : ℚ) : ℝ) 1e-19 :=
    (lit_near hf _).mono (by rw [uuR, wwR]; push_cast; norm_num [abs_of_pos])
  have b5 : |((0.000387933 : ℚ) : ℝ) * (t * t)| ≤ 0.36 := by
    rw [abs_mul]
    refine (mul_le_mul (le_of_eq (abs_of_pos (by norm_num))) b2 (abs_nonneg _) (by norm_num)).trans (by push_cast; norm_num)
  have n5 : Near (fl (fl 0.000387933 * fl (TF * TF))) (((0.000387933 : ℚ) : ℝ) * (t * t)) 1e-15 :=
    (l5.mul n2 (M := 0.00039) (by rw [abs_of_pos] <;> push_cast <;> norm_num) b2).rnd hf b5 (by rw [uuR, wwR]; norm_num)
  have n6 : Near (fl (jd - 2451545)) ((jd : ℝ) - (2451545 : ℚ)) 1.23e-10 :=
    ((near_self jd).sub (near_self 2451545)).rnd hf (M := 1100000) (by push_cast; exact h) (by rw [uuR, wwR]; norm_num)
  have l7 : Near (fl 360.98564736629) ((360.98564736629 : ℚ) : ℝ) 4.1e-14 :=
    (lit_near hf _).mono (by rw [uuR, wwR]; push_cast; norm_num [abs_of_pos])
  have b7 : |((360.98564736629 : ℚ) : ℝ) * ((jd : ℝ) - (2451545 : ℚ))| ≤ 397100000 := by
    rw [abs_mul]
    have h' : |(jd : ℝ) - (2451545 : ℚ)| ≤ 1100000 := by push_cast; exact h
    refine (mul_le_mul (le_of_eq (abs_of_pos (by norm_num))) h' (abs_nonneg _) (by norm_num)).trans (by push_cast; norm_num)
  have n7 : Near (fl (fl 360.98564736629 * fl (jd - 2451545))) (((360.98564736629 : ℚ) : ℝ) * ((jd : ℝ) - (2451545 : ℚ))) 1.35e-7 :=
    (l7.mul n6 (M := 361) (N := 1100000) (by rw [abs_of_pos] <;> push_cast <;> norm_num) (by push_cast; exact h)).rnd hf b7
      (by rw [uuR, wwR]; norm_num)
  have l8 : Near (fl 280.46061837) ((280.46061837 : ℚ) : ℝ) 3.2e-14 :=
    (lit_near hf _).mono (by rw [uuR, wwR]; push_cast; norm_num [abs_of_pos])
  have b8 : |((280.46061837 : ℚ) : ℝ) + ((360.98564736629 : ℚ) : ℝ) * ((jd : ℝ) - (2451545 : ℚ))| ≤ 397100300 := by
    refine (abs_add_le _ _).trans ?_
    have : |((280.46061837 : ℚ) : ℝ)| ≤ 281 := by rw [abs_of_pos] <;> push_cast <;> norm_num
    linarith
  have n8 := (l8.add n7).rnd hf b8 (e' := 1.8e-7) (by rw [uuR, wwR]; norm_num)
  have b9 := (abs_add_le _ _).trans (add_le_add b8 b5)
  have n9 := (n8.add n5).rnd hf b9 (e' := 2.25e-7) (by rw [uuR, wwR]; norm_num)
  have b10 := (abs_sub _ _).trans (add_le_add b9 b4)
  have n10 := (n9.sub n4).rnd hf b10 (e' := 2.7e-7) (by rw [uuR, wwR]; norm_num)
  have n11 := (dToRF_near hf n10 b10).mono (e' := 6.7e-9) (by rw [uuR, wwR]; norm_num)
  have b11 := (dToR_abs_le _).trans (mul_le_mul_of_nonneg_left b10 (by norm_num : (0 : ℝ) ≤ 0.01746))
  have n12 := (modpi2F_nearA hf n11 (by norm_num) b11).mono (e' := 7.5e-9) (by norm_num)
  have e : dToR (((280.46061837 : ℚ) : ℝ) + ((360.98564736629 : ℚ) : ℝ) * ((jd : ℝ) - (2451545 : ℚ)) +
      ((0.000387933 : ℚ) : ℝ) * (t * t) - t * t * t / (38710000 : ℚ)) = gmstDegrees jd * (π / 180) := by
    unfold dToR gmstDegrees
    rw [← ht]
    unfold jcent
    push_cast
    ring
  rw [e] at n12
  exact n12

/-- Three floats as reals. -/
def castT (y : ℚ × ℚ × ℚ) : ℝ × ℝ × ℝ := (y.1, y.2.1, y.2.2)

/-- Interpolated right ascension. -/
theorem interpolateAngle3F_near {fl : ℚ → ℚ} (hf : FloatLike fl) {y : ℚ × ℚ × ℚ} {u : ℝ × ℝ × ℝ} {n : ℚ}
    (hr : Reduced (castT y) u) (hs : Slow 0.4 0.1 u) (hn : -1 < n ∧ n < 1) :
    ∃ R, interpolateAngle3F fl n y.1 y.2.1 y.2.2 = .ok R ∧ Near R (codeRa (castT y) u n) 1.7e-14 := by
  obtain ⟨⟨a0, a1, ka, ea⟩, ⟨b0, b1, kb, eb⟩, ⟨c0, c1, kc, ec⟩⟩ := hr
  obtain ⟨s1, s2, s3⟩ := hs
  unfold castT at *
  simp only at *
  have p := Real.pi_lt_d4
  have dm : ∀ {x y : ℝ}, 0 ≤ x → x < 2 * π → 0 ≤ y → y < 2 * π → |x| ≤ 10 ∧ |y - x| ≤ 10 := by
    intro x y h1 h2 h3 h4
    norm_num at p
    constructor <;> rw [abs_le] <;> constructor <;> linarith
  have A : Near (diffAngleF fl y.1 y.2.1) (u.2.1 - u.1) (0 + 6e-15) :=
    diffAngleF_nearD hf (dm a0 a1 b0 b1).1 (dm b0 b1 b0 b1).1 (dm a0 a1 b0 b1).2 (s1.trans (by norm_num)) (by norm_num)
      ⟨kb - ka, by rw [eb, ea]; push_cast; ring_nf; simp⟩
  have B : Near (diffAngleF fl y.2.1 y.2.2) (u.2.2 - u.2.1) (0 + 6e-15) :=
    diffAngleF_nearD hf (dm b0 b1 b0 b1).1 (dm c0 c1 b0 b1).1 (dm b0 b1 c0 c1).2 (s2.trans (by norm_num)) (by norm_num)
      ⟨kc - kb, by rw [eb, ec]; push_cast; ring_nf; simp⟩
  unfold interpolateAngle3F
  rw [if_neg (by tauto)]
  simp only
  generalize diffAngleF fl y.1 y.2.1 = a at *
  generalize diffAngleF fl y.2.1 y.2.2 = b at *
  have A' := A.abs s1
  have B' := B.abs s2
  have C : Near (diffAngleF fl a b) (u.2.2 - 2 * u.2.1 + u.1) (1.2e-14 + 6e-15) := by
    refine diffAngleF_nearD hf (A'.trans (by norm_num)) (B'.trans (by norm_num))
      ((abs_sub _ _).trans ((add_le_add B' A').trans (by norm_num))) (s3.trans (by norm_num)) (by norm_num) ⟨0, ?_⟩
    unfold Near at A B
    rw [show (b : ℝ) - a - (u.2.2 - 2 * u.2.1 + u.1) - ((0 : ℤ) : ℝ) * (2 * π) = (b - (u.2.2 - u.2.1)) - (a - (u.2.1 - u.1)) by
      push_cast; ring]
    refine (abs_sub _ _).trans ((add_le_add B A).trans (by norm_num))
  generalize diffAngleF fl a b = c at *
  have hn' : |(n : ℝ)| ≤ 1 := by
    rw [abs_le]
    have h1 : (-1 : ℝ) < n := by exact_mod_cast hn.1
    have h2 : (n : ℝ) < 1 := by exact_mod_cast hn.2
    exact ⟨h1.le, h2.le⟩
  have bAB : |u.2.1 - u.1 + (u.2.2 - u.2.1)| ≤ 0.8 := (abs_add_le _ _).trans ((add_le_add s1 s2).trans (by norm_num))
  have nAB := (A.add B).rnd hf bAB (e' := 1.22e-14) (by rw [uuR, wwR]; norm_num)
  have bNC : |(n : ℝ) * (u.2.2 - 2 * u.2.1 + u.1)| ≤ 0.1 := by
    rw [abs_mul]; exact (mul_le_mul hn' s3 (abs_nonneg _) (by norm_num)).trans (by norm_num)
  have nNC := ((near_self n).mul C hn' s3).rnd hf bNC (e' := 1.81e-14) (by rw [uuR, wwR]; norm_num)
  have bS := (abs_add_le _ _).trans (add_le_add bAB bNC)
  have nS := (nAB.add nNC).rnd hf bS (e' := 3.05e-14) (by rw [uuR, wwR]; norm_num)
  have bN : |(n : ℝ) / (2 : ℚ)| ≤ 0.5 := by
    push_cast; rw [abs_div, abs_of_pos (by norm_num : (0 : ℝ) < 2)]; norm_num; linarith
  have nN := ((near_self n).div_const (k := 2) (by norm_num)).rnd hf bN (e' := 1e-16) (by rw [uuR, wwR]; norm_num)
  have bP : |(n : ℝ) / (2 : ℚ) * (u.2.1 - u.1 + (u.2.2 - u.2.1) + n * (u.2.2 - 2 * u.2.1 + u.1))| ≤ 0.46 := by
    rw [abs_mul]; exact (mul_le_mul bN bS (abs_nonneg _) (by norm_num)).trans (by norm_num)
  have nP := (nN.mul nS bN bS).rnd hf bP (e' := 1.55e-14) (by rw [uuR, wwR]; norm_num)
  have by1 : |(y.2.1 : ℝ)| ≤ 6.2832 := by rw [abs_of_nonneg b0]; norm_num at p ⊢; linarith
  have nR := ((near_self y.2.1).add nP).rnd hf ((abs_add_le _ _).trans (add_le_add by1 bP)) (e' := 1.7e-14)
    (by rw [uuR, wwR]; norm_num)
  refine ⟨_, rfl, ?_⟩
  have e : codeRa ((y.1 : ℝ), (y.2.1 : ℝ), (y.2.2 : ℝ)) u n =
      y.2.1 + n / (2 : ℚ) * (u.2.1 - u.1 + (u.2.2 - u.2.1) + n * (u.2.2 - 2 * u.2.1 + u.1)) := by
    unfold codeRa parabola
    push_cast
    ring
  rw [e]
  exact nR

theorem rsK1F_near {fl : ℚ → ℚ} (hf : FloatLike fl) : Near (rsK1F fl) rsK1 2.5e-15 := by
  have := radF_near hf 360.985647
  unfold rsK1F rsK1
  push_cast at this
  exact this.mono (by rw [uuR, wwR]; norm_num [abs_of_pos])

/-- The hour angle of one pass, before its reduction. -/
theorem hourF_near {fl : ℚ → ℚ} (hf : FloatLike fl) {y : ℚ × ℚ × ℚ} {u : ℝ × ℝ × ℝ} {TH m dT lon : ℚ} {mu eT : ℝ}
    (hr : Reduced (castT y) u) (hs : Slow 0.4 0.1 u) (hl : |(lon : ℝ)| ≤ π)
    (hTH : NearA TH (y.2.1 + lon - 2 * π * mu) eT) (eT1 : eT ≤ 0.01) (rTH : 0 ≤ TH ∧ TH ≤ pi2F) (hm : |(m : ℝ)| ≤ 1.201)
    (hn : -1 < fl (m + dT) ∧ fl (m + dT) < 1) :
    |(m : ℝ) + dT| ≤ 1.2 ∧
    ∃ R, interpolateAngle3F fl (fl (m + dT)) y.1 y.2.1 y.2.2 = .ok R ∧
      NearA (fl (fl (modpi2F fl pi2F (fl (TH + fl (rsK1F fl * m))) - lon) - R)) (localH (castT y) u dT mu m) (eT + 3e-14) ∧
      |(fl (fl (modpi2F fl pi2F (fl (TH + fl (rsK1F fl * m))) - lon) - R) : ℝ)| ≤ 10 := by
  have p3 := Real.pi_gt_d4
  have p4 := Real.pi_lt_d4
  have hk := rsK1_bounds
  have eT0 : 0 ≤ eT := hTH.choose_spec.nonneg
  norm_num at p3 p4 hk
  -- the interpolating factor
  have n1 : (-1 : ℝ) < fl (m + dT) := by exact_mod_cast hn.1
  have n2 : (fl (m + dT) : ℝ) < 1 := by exact_mod_cast hn.2
  have eN := hf.errR (m + dT)
  push_cast at eN
  rw [uuR, wwR] at eN
  have hmd : |(m : ℝ) + dT| ≤ 1.1 := by
    have := abs_sub_abs_le_abs_sub ((m : ℝ) + dT) (fl (m + dT))
    rw [abs_sub_comm] at this
    have h1 : |(fl (m + dT) : ℝ)| ≤ 1 := abs_le.mpr ⟨n1.le, n2.le⟩
    norm_num at eN ⊢
    linarith
  have eN' : |(fl (m + dT) : ℝ) - (m + dT)| ≤ 1.3e-16 := by
    refine eN.trans ?_
    norm_num at hmd ⊢
    linarith
  obtain ⟨R, eR, nR⟩ := interpolateAngle3F_near hf hr hs hn
  have lip := parabola_lip hs (r := 1.1) (n := fl (m + dT)) (n' := m + dT)
    (by rw [abs_le]; norm_num; constructor <;> linarith) hmd
  have nR' : Near R (codeRa (castT y) u (m + dT)) 1.72e-14 := by
    unfold Near at *
    have e : (R : ℝ) - codeRa (castT y) u (m + dT) = (R - codeRa (castT y) u (fl (m + dT))) +
        (parabola u (fl (m + dT)) - parabola u (m + dT)) := by unfold codeRa; ring
    rw [e]
    refine (abs_add_le _ _).trans ?_
    norm_num at nR lip eN' ⊢
    linarith
  have pn := parabola_near hs (n := m + dT) hmd
  have bR : |codeRa (castT y) u (m + dT) - y.2.1| ≤ 0.51 := by
    unfold codeRa castT
    rw [show (y.2.1 : ℝ) - u.2.1 + parabola u (m + dT) - y.2.1 = parabola u (m + dT) - u.2.1 by ring]
    refine pn.trans (by norm_num)
  -- the angle
  have nK := (rsK1F_near hf).mul (near_self m) (M := 6.301) (N := 1.201) (by rw [abs_of_pos (by linarith)]; norm_num; linarith) hm
  have bK : |rsK1 * m| ≤ 7.568 := by
    rw [abs_mul, abs_of_pos (by linarith)]
    exact (mul_le_mul (by linarith : rsK1 ≤ 6301 / 1000) hm (abs_nonneg _) (by norm_num)).trans (by norm_num)
  have nK' := nK.rnd hf bK (e' := 4e-15) (by rw [uuR, wwR]; norm_num)
  obtain ⟨a1, a2⟩ := hTH.add_fl hf (range_abs rTH) nK' bK
  have a1' := a1.mono (e' := eT + 5.6e-15) (by rw [uuR, wwR]; norm_num; linarith)
  have a3 := (a1'.modpi2F hf (M := 14) (by norm_num at eT1 ⊢; linarith) (a2.trans (by rw [uuR, wwR]; norm_num))).mono
    (e' := eT + 9.2e-15) (by norm_num; linarith)
  have rg := modpi2F_range hf (fl (TH + fl (rsK1F fl * m)))
  generalize modpi2F fl pi2F (fl (TH + fl (rsK1F fl * m))) = W at *
  have W0 : (0 : ℝ) ≤ W := by exact_mod_cast rg.1
  have W1 : (W : ℝ) ≤ pi2F := by exact_mod_cast rg.2
  have W2 := pi2F_lt
  obtain ⟨l1, l2⟩ := abs_le.mp hl
  have y0 := hr.2.1.1
  have y1 := hr.2.1.2.1
  unfold castT at y0 y1
  simp only at y0 y1
  obtain ⟨q1, q2⟩ := abs_le.mp bR
  obtain ⟨r1, r2⟩ := abs_le.mp nR'
  norm_num at W2 q1 q2 r1 r2
  have bW : |(W : ℝ) - lon| ≤ 9.425 := by rw [abs_le]; norm_num; constructor <;> linarith
  have nW : Near (fl (W - lon)) ((W : ℝ) - lon) 1.1e-15 :=
    ((near_self W).sub (near_self lon)).rnd hf bW (by rw [uuR, wwR]; norm_num)
  obtain ⟨v1, v2⟩ := abs_le.mp nW
  norm_num at v1 v2
  have bX : |(W : ℝ) - lon - codeRa (castT y) u (m + dT)| ≤ 9.95 := by rw [abs_le]; norm_num; constructor <;> linarith
  have nX := (nW.sub nR').rnd hf bX (e' := 2e-14) (by rw [uuR, wwR]; norm_num)
  refine ⟨hmd.trans (by norm_num), R, eR, ?_, ?_⟩
  · obtain ⟨k, hk⟩ := a3
    refine ⟨k, ?_⟩
    unfold Near at *
    generalize (fl (fl (W - lon) - R) : ℝ) = X at *
    rw [show X - (localH (castT y) u dT mu m + k * (2 * π)) = (X - (W - lon - codeRa (castT y) u (m + dT))) +
      (W - (y.2.1 + lon - 2 * π * mu + rsK1 * m + k * (2 * π))) by unfold localH castT; ring]
    refine (abs_add_le _ _).trans ?_
    norm_num at nX hk ⊢
    linarith
  · have := nX.abs bX
    refine this.trans (by norm_num)

end Verif
