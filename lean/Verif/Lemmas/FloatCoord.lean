import Verif.Model.FloatCoord
import Verif.Lemmas.FloatSun
import Verif.Props.Coordinates

/-!
# Rounding errors of `coordinates.py`
-/

namespace Verif
open Real

theorem abs_arcsin_le {t q : ℝ} (ht : |t| ≤ q) (hq : q ≤ 1) : |arcsin t| ≤ π / 2 * q := by
  have p := Real.pi_pos
  have key : ∀ {s : ℝ}, 0 ≤ s → s ≤ q → arcsin s ≤ π / 2 * q := by
    intro s h0 h1
    have a0 : 0 ≤ arcsin s := Real.arcsin_nonneg.mpr h0
    have a1 := Real.arcsin_le_pi_div_two s
    have := Real.mul_le_sin a0 a1
    rw [Real.sin_arcsin (by linarith) (by linarith)] at this
    have h2 : 2 / π * arcsin s ≤ q := this.trans h1
    rw [div_mul_eq_mul_div, div_le_iff₀ p] at h2
    linarith
  rcases le_total 0 t with h | h
  · rw [abs_of_nonneg (Real.arcsin_nonneg.mpr h)]
    exact key h ((le_abs_self t).trans ht)
  · rw [abs_of_nonpos (Real.arcsin_nonpos.mpr h), ← Real.arcsin_neg]
    exact key (by linarith) ((neg_le_abs t).trans ht)

/-- The argument of a disturbed complex number. -/
theorem arg_near {w W : ℂ} {q : ℝ} (hw : w ≠ 0) (h : ‖W - w‖ ≤ q * ‖w‖) (hq : q ≤ 1 / 2) :
    W ≠ 0 ∧ ∃ k : ℤ, |Complex.arg W - (Complex.arg w + k * (2 * π))| ≤ π / 2 * (q / (1 - q)) := by
  have w0 : 0 < ‖w‖ := norm_pos_iff.mpr hw
  have q0 : 0 ≤ q := by
    by_contra hn
    have : q * ‖w‖ < 0 := mul_neg_of_neg_of_pos (by linarith) w0
    linarith [norm_nonneg (W - w)]
  obtain ⟨z, hz⟩ : ∃ z, z = (W - w) / w := ⟨_, rfl⟩
  have eW : W = w * (1 + z) := by rw [hz]; field_simp; ring
  have nz : ‖z‖ ≤ q := by rw [hz, norm_div, div_le_iff₀ w0]; exact h
  have re : 0 < (1 + z).re := by
    have := Complex.abs_re_le_norm z
    have := neg_abs_le z.re
    simp only [Complex.add_re, Complex.one_re]; linarith
  have ne : 1 + z ≠ 0 := by intro e; rw [e] at re; simp at re
  have W0 : W ≠ 0 := by rw [eW]; exact mul_ne_zero hw ne
  refine ⟨W0, ?_⟩
  have nb : 1 - q ≤ ‖1 + z‖ := by
    have := norm_sub_le (1 + z) z
    simp only [add_sub_cancel_right, norm_one] at this
    linarith
  have d0 : 0 < 1 - q := by linarith
  have im : |(1 + z).im / ‖1 + z‖| ≤ q / (1 - q) := by
    rw [abs_div, abs_of_nonneg (norm_nonneg _)]
    refine div_le_div₀ q0 ?_ d0 nb
    simp only [Complex.add_im, Complex.one_im, zero_add]
    exact (Complex.abs_im_le_norm z).trans nz
  have ar : |Complex.arg (1 + z)| ≤ π / 2 * (q / (1 - q)) := by
    rw [Complex.arg_of_re_nonneg re.le]
    exact abs_arcsin_le im (by rw [div_le_one d0]; linarith)
  have ang := Complex.arg_mul_coe_angle hw ne
  rw [← eW] at ang
  have : ((Complex.arg W : ℝ) : Real.Angle) = ((Complex.arg w + Complex.arg (1 + z) : ℝ) : Real.Angle) := by
    rw [ang]; simp
  obtain ⟨k, e⟩ := Real.Angle.angle_eq_iff_two_pi_dvd_sub.mp this
  refine ⟨k, ?_⟩
  rw [show Complex.arg W - (Complex.arg w + k * (2 * π)) = Complex.arg (1 + z) by linarith]
  exact ar

/-- Arc sines of neighbouring values. -/
theorem arcsin_near {Z z : ℝ} (hZ : |Z| ≤ 1) (hz : |z| ≤ 1) :
    cos (arcsin z) * |arcsin Z - arcsin z| ≤ π * |Z - z| := by
  obtain ⟨h1, h2⟩ := abs_le.mp hZ
  obtain ⟨h3, h4⟩ := abs_le.mp hz
  have eZ := Real.sin_arcsin h1 h2
  have ez := Real.sin_arcsin h3 h4
  have a1 := Real.neg_pi_div_two_le_arcsin Z
  have a2 := Real.arcsin_le_pi_div_two Z
  have a3 := Real.neg_pi_div_two_le_arcsin z
  have a4 := Real.arcsin_le_pi_div_two z
  have c1 := Real.cos_arcsin_nonneg Z
  have c2 := Real.cos_arcsin_nonneg z
  generalize arcsin Z = D at *
  generalize arcsin z = d at *
  have p := Real.pi_pos
  rw [← eZ, ← ez, Real.sin_sub_sin, abs_mul, abs_mul, abs_two]
  have m : cos d / 2 ≤ |cos ((D + d) / 2)| := by
    have e := Real.cos_add_cos D d
    have l1 : |cos ((D - d) / 2)| ≤ 1 := Real.abs_cos_le_one _
    have l2 : cos D + cos d ≤ 2 * |cos ((D + d) / 2)| := by
      rw [e]
      refine (le_abs_self _).trans ?_
      rw [abs_mul, abs_mul, abs_two]
      exact mul_le_of_le_one_right (by positivity) l1
    linarith
  have s : 2 / π * (|D - d| / 2) ≤ |sin ((D - d) / 2)| := by
    have key : ∀ {x : ℝ}, 0 ≤ x → x ≤ π / 2 → 2 / π * x ≤ |sin x| := fun h0 h1 =>
      (Real.mul_le_sin h0 h1).trans (le_abs_self _)
    rcases le_total 0 (D - d) with h | h
    · rw [abs_of_nonneg h]; exact key (by linarith) (by linarith)
    · rw [abs_of_nonpos h, ← abs_neg (sin _), ← Real.sin_neg, ← neg_div]
      exact key (by linarith) (by linarith)
  have : cos d / 2 * (2 / π * (|D - d| / 2)) ≤ |cos ((D + d) / 2)| * |sin ((D - d) / 2)| :=
    mul_le_mul m s (by positivity) (abs_nonneg _)
  have e : cos d / 2 * (2 / π * (|D - d| / 2)) * π = cos d * |D - d| / 2 := by field_simp
  have := mul_le_mul_of_nonneg_right this p.le
  rw [e] at this
  nlinarith

/-- Right ascension and declination (or the like) from disturbed values. -/
theorem dir_near {fl : ℚ → ℚ} {lib : TrigLib} {N : ℕ} (hl : lib.Good fl N) {k x y Z a b : ℝ} {X Y ZF : ℚ} (hk : 0 < k)
    (h : (k * x) ^ 2 + (k * y) ^ 2 + Z ^ 2 = 1) (nX : Near X x a) (nY : Near Y y b) (nZ : Near ZF Z 5e-15)
    (hab : k * (a + b) ≤ 7.2e-15) :
    (2e-14 ≤ cos (arcsin Z) → NearA (lib.atan2F Y X) (arctan2 y x) (2e-14 / cos (arcsin Z))) ∧
    (1e-7 ≤ cos (arcsin Z) → ∃ d, lib.asinF ZF = some d ∧ |(d : ℝ) - arcsin Z| ≤ 1.7e-14 / cos (arcsin Z)) ∧
    (∀ d, lib.asinF ZF = some d → |sin (d : ℝ) - Z| ≤ 6e-15) := by
  have z1 : |Z| ≤ 1 := (sq_le_one_iff_abs_le_one Z).mp (by nlinarith [sq_nonneg (k * x), sq_nonneg (k * y)])
  have e : cos (arcsin Z) = k * ‖(⟨x, y⟩ : ℂ)‖ := by
    rw [Real.cos_arcsin, Complex.norm_def, Complex.normSq_mk]
    have : 1 - Z ^ 2 = k ^ 2 * (x * x + y * y) := by linarith
    rw [this, Real.sqrt_mul (sq_nonneg k), Real.sqrt_sq hk.le]
  have c1 := Real.cos_le_one (arcsin Z)
  generalize hc : cos (arcsin Z) = c at *
  have a0 := nX.nonneg
  have b0 := nY.nonneg
  have hd : ‖(⟨X, Y⟩ : ℂ) - ⟨x, y⟩‖ ≤ a + b := by
    refine (Complex.norm_le_abs_re_add_abs_im _).trans ?_
    exact add_le_add nX nY
  have main : ∀ q : ℝ, 0 < c → 7.2e-15 / c ≤ q → q ≤ 1 / 2 →
      NearA (lib.atan2F Y X) (arctan2 y x) (π / 2 * (q / (1 - q)) + 1 / 2 ^ 50) := by
    intro q c0 h1 h2
    have w0 : 0 < ‖(⟨x, y⟩ : ℂ)‖ := by
      rw [e] at c0
      exact pos_of_mul_pos_right c0 hk.le
    have hq : ‖(⟨X, Y⟩ : ℂ) - ⟨x, y⟩‖ ≤ q * ‖(⟨x, y⟩ : ℂ)‖ := by
      refine hd.trans ?_
      rw [div_le_iff₀ c0, e] at h1
      have : k * (a + b) ≤ k * (q * ‖(⟨x, y⟩ : ℂ)‖) := by linarith
      exact le_of_mul_le_mul_left this hk
    obtain ⟨g1, n, g2⟩ := arg_near (norm_pos_iff.mp w0) hq h2
    have ne : X ≠ 0 ∨ Y ≠ 0 := by
      by_contra hn
      push Not at hn
      apply g1
      rw [hn.1, hn.2]
      simp [Complex.ext_iff]
    obtain ⟨j, g3⟩ := hl.atan2 Y X ne
    refine ⟨n + j, ?_⟩
    unfold Near
    have g2' : |arctan2 (Y : ℝ) X - (arctan2 y x + n * (2 * π))| ≤ π / 2 * (q / (1 - q)) := g2
    rw [show (lib.atan2F Y X : ℝ) - (arctan2 y x + ((n + j : ℤ) : ℝ) * (2 * π)) =
      (arctan2 (Y : ℝ) X - (arctan2 y x + n * (2 * π))) + (lib.atan2F Y X - (arctan2 (Y : ℝ) X + j * (2 * π))) by
        push_cast; ring]
    exact (abs_add_le _ _).trans (add_le_add g2' g3)
  have hp := Real.pi_lt_d4
  have hp0 := Real.pi_pos
  refine ⟨fun hc7 => ?_, fun hc7 => ?_, ?_⟩
  · have c0 : 0 < c := lt_of_lt_of_le (by norm_num) hc7
    refine (main (7.2e-15 / c) c0 le_rfl ?_).mono ?_
    · rw [div_le_iff₀ c0]; norm_num at hc7 ⊢; linarith
    · have q1 : 7.2e-15 / c ≤ 0.36 := by rw [div_le_iff₀ c0]; norm_num at hc7 ⊢; linarith
      have i1 : 1 ≤ 1 / c := by rw [le_div_iff₀ c0]; linarith
      have e1 : 7.2e-15 / c = 7.2e-15 * (1 / c) := by ring
      have e2 : (2e-14 : ℝ) / c = 2e-14 * (1 / c) := by ring
      have q2 : 7.2e-15 / c / (1 - 7.2e-15 / c) ≤ 1.126e-14 * (1 / c) := by
        rw [div_le_iff₀ (by norm_num at q1 ⊢; linarith), e1]
        rw [e1] at q1
        have : (0 : ℝ) ≤ 1 / c := by linarith
        generalize 1 / c = i at *
        norm_num at q1 ⊢
        nlinarith
      have q3 : π / 2 * (7.2e-15 / c / (1 - 7.2e-15 / c)) ≤ 1.5708 * (1.126e-14 * (1 / c)) :=
        mul_le_mul (by norm_num at hp ⊢; linarith) q2 (div_nonneg (by positivity) (by norm_num at q1 ⊢; linarith))
          (by norm_num)
      rw [e2]
      generalize 1 / c = i at *
      norm_num at q3 ⊢
      linarith
  · have c0 : 0 < c := lt_of_lt_of_le (by norm_num) hc7
    have sq : c ^ 2 = 1 - Z ^ 2 := by rw [← hc, Real.cos_arcsin, Real.sq_sqrt]; nlinarith [abs_le.mp z1]
    have zb : |Z| ≤ 1 - 5e-15 := by
      have c2 : (1e-14 : ℝ) ≤ c ^ 2 := by norm_num at hc7 ⊢; nlinarith
      rw [← sq_abs Z] at sq
      have := abs_nonneg Z
      norm_num at c2 ⊢
      nlinarith
    have f1 := nZ.abs zb
    have f2 : |ZF| ≤ 1 := by
      have : |(ZF : ℝ)| ≤ 1 := f1.trans (by norm_num)
      exact_mod_cast this
    obtain ⟨d, g1, g2⟩ := hl.asin ZF f2
    refine ⟨d, g1, ?_⟩
    have n2 := arcsin_near (Z := (ZF : ℝ)) (z := Z) (by exact_mod_cast f2) z1
    rw [hc] at n2
    unfold Near at nZ
    rw [le_div_iff₀ c0]
    have t : |(d : ℝ) - arcsin Z| ≤ |(d : ℝ) - arcsin ZF| + |arcsin ZF - arcsin Z| := abs_sub_le _ _ _
    have m1 : |(d : ℝ) - arcsin ZF| * c ≤ 1 / 2 ^ 50 := by
      refine (mul_le_mul g2 c1 c0.le (by norm_num)).trans (by norm_num)
    have m2 : π * |(ZF : ℝ) - Z| ≤ 3.1416 * 5e-15 := mul_le_mul hp.le nZ (abs_nonneg _) (by norm_num)
    have m3 := mul_le_mul_of_nonneg_right t c0.le
    rw [mul_comm c] at n2
    norm_num at m1 m2 m3 ⊢
    linarith
  · intro d hd'
    have f2 : |ZF| ≤ 1 := by
      by_contra hn
      rw [hl.asin_nan ZF (not_le.mp hn)] at hd'
      exact absurd hd' (by simp)
    obtain ⟨d', g1, g2⟩ := hl.asin ZF f2
    rw [hd', Option.some.injEq] at g1
    subst g1
    have f2' : |(ZF : ℝ)| ≤ 1 := by exact_mod_cast f2
    obtain ⟨f3, f4⟩ := abs_le.mp f2'
    have s := Real.abs_sin_sub_sin_le (d : ℝ) (arcsin ZF)
    rw [Real.sin_arcsin f3 f4] at s
    have := abs_sub_le (sin (d : ℝ)) ZF Z
    unfold Near at nZ
    norm_num at g2 nZ ⊢
    linarith

/-! ### The products -/

theorem prod1_near {fl : ℚ → ℚ} (hf : FloatLike fl) {S C : ℚ} {s c : ℝ} (h1 : Near S s (1 / 2 ^ 50))
    (h2 : Near C c (1 / 2 ^ 50)) (b1 : |s| ≤ 1) (b2 : |c| ≤ 1) :
    |s * c| ≤ 1 ∧ Near (fl (S * C)) (s * c) 1.9e-15 := by
  have b : |s * c| ≤ 1 := by rw [abs_mul]; exact mul_le_one₀ b1 (abs_nonneg _) b2
  exact ⟨b, (h1.mul h2 b1 b2).rnd hf b (by rw [uuR, wwR]; norm_num)⟩

theorem prodT_near {fl : ℚ → ℚ} (hf : FloatLike fl) {T G : ℚ} {t g : ℝ} (h1 : Near T t (1 / 2 ^ 50 * (1 + |t|)))
    (h2 : Near G g (1 / 2 ^ 50)) (b2 : |g| ≤ 1) :
    |t * g| ≤ |t| ∧ Near (fl (T * G)) (t * g) (1.9e-15 * (1 + |t|)) := by
  have t0 := abs_nonneg t
  have b : |t * g| ≤ |t| := by rw [abs_mul]; exact mul_le_of_le_one_right t0 b2
  refine ⟨b, (h1.mul h2 le_rfl b2).rnd hf b ?_⟩
  generalize |t| = q at *
  rw [uuR, wwR]; norm_num; linarith

theorem prod3_near {fl : ℚ → ℚ} (hf : FloatLike fl) {A B C : ℚ} {a b c : ℝ} (h1 : Near A a (1 / 2 ^ 50))
    (h2 : Near B b (1 / 2 ^ 50)) (h3 : Near C c (1 / 2 ^ 50)) (b1 : |a| ≤ 1) (b2 : |b| ≤ 1) (b3 : |c| ≤ 1) :
    |a * b * c| ≤ 1 ∧ Near (fl (fl (A * B) * C)) (a * b * c) 2.95e-15 := by
  obtain ⟨p1, p2⟩ := prod1_near hf h1 h2 b1 b2
  have b : |a * b * c| ≤ 1 := by rw [abs_mul]; exact mul_le_one₀ p1 (abs_nonneg _) b3
  exact ⟨b, (p2.mul h3 p1 b3).rnd hf b (by rw [uuR, wwR]; norm_num)⟩

theorem sumT_near {fl : ℚ → ℚ} (hf : FloatLike fl) {P Q : ℚ} {p q t : ℝ} (b1 : |p| ≤ 1) (b2 : |q| ≤ |t|)
    (h1 : Near P p 1.9e-15) (h2 : Near Q q (1.9e-15 * (1 + |t|))) :
    Near (fl (P + Q)) (p + q) (4e-15 * (1 + |t|)) ∧ Near (fl (P - Q)) (p - q) (4e-15 * (1 + |t|)) := by
  have a1 : |p + q| ≤ 1 + |t| := (abs_add_le _ _).trans (add_le_add b1 b2)
  have a2 : |p - q| ≤ 1 + |t| := (abs_sub _ _).trans (add_le_add b1 b2)
  have t0 := abs_nonneg t
  refine ⟨(h1.add h2).rnd hf a1 ?_, (h1.sub h2).rnd hf a2 ?_⟩ <;>
  · generalize |t| = q at *
    rw [uuR, wwR]; norm_num; linarith

theorem sumZ_near {fl : ℚ → ℚ} (hf : FloatLike fl) {P Q : ℚ} {p q : ℝ} (b1 : |p| ≤ 1) (b2 : |q| ≤ 1)
    (h1 : Near P p 1.9e-15) (h2 : Near Q q 2.95e-15) (hs : |p + q| ≤ 1) : Near (fl (P + Q)) (p + q) 5e-15 :=
  (h1.add h2).rnd hf hs (by rw [uuR, wwR]; norm_num)

theorem sumZ_near' {fl : ℚ → ℚ} (hf : FloatLike fl) {P Q : ℚ} {p q : ℝ} (b1 : |p| ≤ 1) (b2 : |q| ≤ 1)
    (h1 : Near P p 1.9e-15) (h2 : Near Q q 2.95e-15) (hs : |p - q| ≤ 1) : Near (fl (P - Q)) (p - q) 5e-15 :=
  (h1.sub h2).rnd hf hs (by rw [uuR, wwR]; norm_num)

theorem cos_tan_le {b : ℝ} (hb : 0 < cos b) : cos b * (1 + |tan b|) ≤ 1.4143 := by
  have : cos b * |tan b| = |sin b| := by
    rw [Real.tan_eq_sin_div_cos, abs_div, abs_of_pos hb]; field_simp
  rw [mul_add, mul_one, this]
  have s := Real.sin_sq_add_cos_sq b
  rw [← sq_abs (sin b)] at s
  have := abs_nonneg (sin b)
  generalize |sin b| = x at *
  generalize cos b = y at *
  norm_num
  nlinarith [sq_nonneg (x - y)]

end Verif
