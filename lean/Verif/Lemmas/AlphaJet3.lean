import Verif.Lemmas.EquJet3
import Verif.Lemmas.EquJet

/-!
# Lemmas: three derivatives of the right ascension along a path given in ecliptic coordinates
-/

namespace Verif
open Real

/-- The tangent of a function. -/
theorem Jet3.tan {b b1 b2 b3 : ℝ → ℝ} (j : Jet3 b b1 b2 b3) (h : ∀ x, Real.cos (b x) ≠ 0) :
    Jet3 (fun x => Real.tan (b x)) (fun x => (1 + Real.tan (b x) ^ 2) * b1 x)
      (fun x => (1 + Real.tan (b x) ^ 2) * (b2 x + 2 * Real.tan (b x) * b1 x ^ 2))
      (fun x => (1 + Real.tan (b x) ^ 2) * (b3 x + 6 * Real.tan (b x) * b1 x * b2 x +
        (6 * Real.tan (b x) ^ 2 + 2) * b1 x ^ 3)) := by
  have t : ∀ x, HasDerivAt (fun x => Real.tan (b x)) ((1 + Real.tan (b x) ^ 2) * b1 x) x := fun x => by
    refine ((Real.hasDerivAt_tan (h x)).comp x (j.d1 x)).congr_deriv ?_
    rw [one_div, ← Real.inv_one_add_tan_sq (h x), inv_inv]
  refine ⟨t, fun x => ?_, fun x => ?_⟩
  · refine ((((t x).pow 2).const_add 1).mul (j.d2 x)).congr_deriv ?_
    simp only [Pi.pow_apply]; push_cast; ring
  · refine ((((t x).pow 2).const_add 1).mul ((j.d3 x).add (((t x).const_mul 2).mul ((j.d2 x).pow 2)))).congr_deriv ?_
    simp only [Pi.pow_apply, Pi.mul_apply, Pi.add_apply]; push_cast; ring

/-- Quotient. -/
theorem quot_derivs {N N1 N2 D D1 D2 : ℝ → ℝ} (n1 : ∀ x, HasDerivAt N (N1 x) x) (n2 : ∀ x, HasDerivAt N1 (N2 x) x)
    (d1 : ∀ x, HasDerivAt D (D1 x) x) (d2 : ∀ x, HasDerivAt D1 (D2 x) x) (h : ∀ x, D x ≠ 0) (x : ℝ) :
    HasDerivAt (fun x => N x / D x) ((N1 x * D x - N x * D1 x) / D x ^ 2) x ∧
    HasDerivAt (fun x => (N1 x * D x - N x * D1 x) / D x ^ 2)
      ((N2 x * D x - N x * D2 x) / D x ^ 2 - 2 * D1 x * (N1 x * D x - N x * D1 x) / D x ^ 3) x := by
  refine ⟨(n1 x).div (d1 x) (h x), ?_⟩
  have n := ((n2 x).mul (d1 x)).sub ((n1 x).mul (d2 x))
  have d := (d1 x).pow 2
  refine (n.div d (pow_ne_zero 2 (h x))).congr_deriv ?_
  simp only [Pi.mul_apply, Pi.sub_apply, Pi.pow_apply]
  have := h x
  field_simp
  push_cast
  ring

theorem quot_bounds {N N1 N2 D D1 D2 : ℝ} (hN : |N| ≤ 0.2733) (hN1 : |N1| ≤ 0.01695) (hN2 : |N2| ≤ 0.00745) (hD : 0.758 ≤ D)
    (hD1 : |D1| ≤ 0.0863) (hD2 : |D2| ≤ 0.0488) :
    |N / D| ≤ 0.361 ∧ |(N1 * D - N * D1) / D ^ 2| ≤ 0.064 ∧
    |(N2 * D - N * D2) / D ^ 2 - 2 * D1 * (N1 * D - N * D1) / D ^ 3| ≤ 0.048 := by
  have D0 : 0 < D := by norm_num at hD; linarith
  have i : D⁻¹ ≤ 1.3193 := (inv_anti₀ (by norm_num) hD).trans (by norm_num)
  have i0 : 0 < D⁻¹ := inv_pos.mpr D0
  refine ⟨?_, ?_, ?_⟩
  · rw [div_eq_mul_inv, abs_mul, abs_of_pos i0]
    calc |N| * D⁻¹ ≤ 0.2733 * 1.3193 := by gcongr
      _ ≤ 0.361 := by norm_num
  · rw [show (N1 * D - N * D1) / D ^ 2 = N1 * D⁻¹ - N * D1 * D⁻¹ ^ 2 by field_simp]
    refine (abs_sub _ _).trans ?_
    simp only [abs_mul, abs_pow, abs_of_pos i0]
    calc |N1| * D⁻¹ + |N| * |D1| * D⁻¹ ^ 2 ≤ 0.01695 * 1.3193 + 0.2733 * 0.0863 * 1.3193 ^ 2 := by gcongr
      _ ≤ 0.064 := by norm_num
  · rw [show (N2 * D - N * D2) / D ^ 2 - 2 * D1 * (N1 * D - N * D1) / D ^ 3 =
      N2 * D⁻¹ - N * D2 * D⁻¹ ^ 2 - (2 * D1 * N1 * D⁻¹ ^ 2 - 2 * D1 * (N * D1) * D⁻¹ ^ 3) by field_simp]
    refine (abs_sub _ _).trans ((add_le_add (abs_sub _ _) (abs_sub _ _)).trans ?_)
    simp only [abs_mul, abs_pow, abs_of_pos i0, abs_of_pos (by norm_num : (0 : ℝ) < 2)]
    calc |N2| * D⁻¹ + |N| * |D2| * D⁻¹ ^ 2 + (2 * |D1| * |N1| * D⁻¹ ^ 2 + 2 * |D1| * (|N| * |D1|) * D⁻¹ ^ 3) ≤
        0.00745 * 1.3193 + 0.2733 * 0.0488 * 1.3193 ^ 2 +
          (2 * 0.0863 * 0.01695 * 1.3193 ^ 2 + 2 * 0.0863 * (0.2733 * 0.0863) * 1.3193 ^ 3) := by gcongr
      _ ≤ 0.048 := by norm_num

theorem tan_jet_bounds {s b b1 b2 b3 : ℝ} (hs : |s| ≤ 0.4055) (h0 : |b| ≤ 0.1065) (h1 : |b1| ≤ 0.0251) (h2 : |b2| ≤ 0.00675)
    (h3 : |b3| ≤ 0.00211) :
    |tan b * s| ≤ 0.0435 ∧ |s * ((1 + tan b ^ 2) * b1)| ≤ 0.0103 ∧
    |s * ((1 + tan b ^ 2) * (b2 + 2 * tan b * b1 ^ 2))| ≤ 0.00283 ∧
    |s * ((1 + tan b ^ 2) * (b3 + 6 * tan b * b1 * b2 + (6 * tan b ^ 2 + 2) * b1 ^ 3))| ≤ 0.00093 := by
  have t : |tan b| ≤ 0.10712 := by
    have c := one_sub_sq_div_two_le_cos (x := b)
    have q : b ^ 2 ≤ 0.1065 ^ 2 := by rw [← sq_abs]; gcongr
    have k : 0.9943 ≤ cos b := by norm_num at q ⊢; linarith
    have k0 : 0 < cos b := by norm_num at k; linarith
    rw [tan_eq_sin_div_cos, abs_div, abs_of_pos k0, div_le_iff₀ k0]
    have := (abs_sin_le_abs (x := b)).trans h0
    norm_num at this k ⊢
    linarith
  have n1 := abs_nonneg b1
  have n2 := abs_nonneg b2
  have n0 := abs_nonneg (tan b)
  have p : 0 < 1 + tan b ^ 2 := by positivity
  have p2 : 0 < 6 * tan b ^ 2 + 2 := by positivity
  refine ⟨?_, ?_, ?_, ?_⟩
  · rw [abs_mul]
    calc |tan b| * |s| ≤ 0.10712 * 0.4055 := by gcongr
      _ ≤ 0.0435 := by norm_num
  · rw [abs_mul, abs_mul, abs_of_pos p, ← sq_abs (tan b)]
    calc |s| * ((1 + |tan b| ^ 2) * |b1|) ≤ 0.4055 * ((1 + 0.10712 ^ 2) * 0.0251) := by gcongr
      _ ≤ 0.0103 := by norm_num
  · rw [abs_mul, abs_mul, abs_of_pos p, ← sq_abs (tan b)]
    have : |b2 + 2 * tan b * b1 ^ 2| ≤ 0.00675 + 2 * 0.10712 * 0.0251 ^ 2 := by
      refine (abs_add_le _ _).trans ?_
      simp only [abs_mul, abs_pow, abs_of_pos (by norm_num : (0 : ℝ) < 2)]
      gcongr
    calc |s| * ((1 + |tan b| ^ 2) * |b2 + 2 * tan b * b1 ^ 2|) ≤
        0.4055 * ((1 + 0.10712 ^ 2) * (0.00675 + 2 * 0.10712 * 0.0251 ^ 2)) := by gcongr
      _ ≤ 0.00283 := by norm_num
  · rw [abs_mul, abs_mul, abs_of_pos p, ← sq_abs (tan b)]
    have : |b3 + 6 * tan b * b1 * b2 + (6 * |tan b| ^ 2 + 2) * b1 ^ 3| ≤
        0.00211 + 6 * 0.10712 * 0.0251 * 0.00675 + (6 * 0.10712 ^ 2 + 2) * 0.0251 ^ 3 := by
      refine (abs_add_le _ _).trans (add_le_add ((abs_add_le _ _).trans (add_le_add h3 ?_)) ?_)
      · simp only [abs_mul, abs_of_pos (by norm_num : (0 : ℝ) < 6)]
        gcongr
      · rw [abs_mul, abs_of_pos (by positivity : 0 < 6 * |tan b| ^ 2 + 2), abs_pow]
        gcongr
    calc |s| * ((1 + |tan b| ^ 2) * |b3 + 6 * tan b * b1 * b2 + (6 * |tan b| ^ 2 + 2) * b1 ^ 3|) ≤
        0.4055 * ((1 + 0.10712 ^ 2) * (0.00211 + 6 * 0.10712 * 0.0251 * 0.00675 +
          (6 * 0.10712 ^ 2 + 2) * 0.0251 ^ 3)) := by gcongr
      _ ≤ 0.00093 := by norm_num

/-- Numerator of the rate of the right ascension, with its derivatives, in terms of S = sin l and C = cos l. -/
theorem num_bounds {c l1 l2 l3 t t1 t2 t3 S C : ℝ} (c0 : 0 ≤ c) (c1 : c ≤ 0.93) (hS : |S| ≤ 1) (hC : |C| ≤ 1)
    (hl1 : |l1| ≤ 0.27) (hl2 : |l2| ≤ 0.0112) (hl3 : |l3| ≤ 0.0037) (ht : |t| ≤ 0.0435) (ht1 : |t1| ≤ 0.0103)
    (ht2 : |t2| ≤ 0.00283) (ht3 : |t3| ≤ 0.00093) :
    |l1 * (c - t * S) - t1 * C| ≤ 0.2733 ∧
    |l2 * (c - t * S) - l1 ^ 2 * (t * C) - t2 * C| ≤ 0.01695 ∧
    |l3 * (c - t * S) - l2 * (t1 * S + t * C * l1) - 2 * l1 * l2 * (t * C) - l1 ^ 2 * (t1 * C - t * S * l1) - t3 * C + t2 * S * l1| ≤
      0.00745 := by
  have a : |c - t * S| ≤ 0.93 + 0.0435 * 1 := by
    refine (abs_sub _ _).trans ?_
    rw [abs_mul, abs_of_nonneg c0]; gcongr
  generalize c - t * S = w at a
  have z2 : (0 : ℝ) < 2 := by norm_num
  refine ⟨?_, ?_, ?_⟩
  · refine (abs_sub _ _).trans ?_
    simp only [abs_mul]
    calc |l1| * |w| + |t1| * |C| ≤ 0.27 * (0.93 + 0.0435 * 1) + 0.0103 * 1 := by gcongr
      _ ≤ 0.2733 := by norm_num
  · refine (abs_sub _ _).trans ((add_le_add_left (abs_sub _ _) _).trans ?_)
    simp only [abs_mul, abs_pow]
    calc |l2| * |w| + |l1| ^ 2 * (|t| * |C|) + |t2| * |C| ≤
        0.0112 * (0.93 + 0.0435 * 1) + 0.27 ^ 2 * (0.0435 * 1) + 0.00283 * 1 := by gcongr
      _ ≤ 0.01695 := by norm_num
  · have e1 : |t1 * S + t * C * l1| ≤ 0.0103 * 1 + 0.0435 * 1 * 0.27 := by
      refine (abs_add_le _ _).trans ?_
      simp only [abs_mul]; gcongr
    have e2 : |t1 * C - t * S * l1| ≤ 0.0103 * 1 + 0.0435 * 1 * 0.27 := by
      refine (abs_sub _ _).trans ?_
      simp only [abs_mul]; gcongr
    generalize t1 * S + t * C * l1 = u at e1
    generalize t1 * C - t * S * l1 = v at e2
    refine (abs_add_le _ _).trans ((add_le_add_left ((abs_sub _ _).trans (add_le_add_left ((abs_sub _ _).trans
      (add_le_add_left ((abs_sub _ _).trans (add_le_add_left (abs_sub _ _) _)) _)) _)) _).trans ?_)
    simp only [abs_mul, abs_pow, abs_of_pos z2]
    calc |l3| * |w| + |l2| * |u| + 2 * |l1| * |l2| * (|t| * |C|) + |l1| ^ 2 * |v| + |t3| * |C| + |t2| * |S| * |l1| ≤
        0.0037 * (0.93 + 0.0435 * 1) + 0.0112 * (0.0103 * 1 + 0.0435 * 1 * 0.27) + 2 * 0.27 * 0.0112 * (0.0435 * 1) +
          0.27 ^ 2 * (0.0103 * 1 + 0.0435 * 1 * 0.27) + 0.00093 * 1 + 0.00283 * 1 * 0.27 := by gcongr
      _ ≤ 0.00745 := by norm_num

/-- Denominator and its derivatives. -/
theorem den_bounds {c l1 l2 t t1 t2 S C : ℝ} (c0 : 0.9142 ≤ c) (c1 : c ≤ 0.93) (hq : S ^ 2 + C ^ 2 = 1) (hS : |S| ≤ 1)
    (hC : |C| ≤ 1) (hl1 : |l1| ≤ 0.27) (hl2 : |l2| ≤ 0.0112) (ht : |t| ≤ 0.0435) (ht1 : |t1| ≤ 0.0103)
    (ht2 : |t2| ≤ 0.00283) :
    0.758 ≤ C ^ 2 + (c * S - t) ^ 2 ∧
    |-(1 - c ^ 2) * (2 * S * C) * l1 - 2 * c * (t1 * S + t * C * l1) + 2 * t * t1| ≤ 0.0863 ∧
    |-(1 - c ^ 2) * (2 * (C ^ 2 - S ^ 2) * l1 ^ 2 + 2 * S * C * l2) -
      2 * c * (t2 * S + 2 * t1 * C * l1 + t * (C * l2 - S * l1 ^ 2)) + 2 * (t1 ^ 2 + t * t2)| ≤ 0.0488 := by
  have z2 : (0 : ℝ) < 2 := by norm_num
  have cp : 0 < c := by norm_num at c0; linarith
  have k : |-(1 - c ^ 2)| ≤ 1 - 0.9142 ^ 2 := by
    rw [abs_neg, abs_of_nonneg (by norm_num at c1; nlinarith)]
    have : (0.9142 : ℝ) ^ 2 ≤ c ^ 2 := by gcongr
    linarith
  have sc : |2 * S * C| ≤ 1 := abs_le.mpr ⟨by nlinarith [sq_nonneg (S + C)], by nlinarith [sq_nonneg (S - C)]⟩
  have cs : |C ^ 2 - S ^ 2| ≤ 1 := abs_le.mpr ⟨by nlinarith [sq_nonneg C], by nlinarith [sq_nonneg S]⟩
  refine ⟨?_, ?_, ?_⟩
  · have h1 : (c - |t|) ^ 2 ≥ (0.9142 - 0.0435) ^ 2 := by
      have : (0.9142 - 0.0435 : ℝ) ≤ c - |t| := by linarith
      exact pow_le_pow_left₀ (by norm_num) this 2
    have h2 : C ^ 2 + (c * S - t) ^ 2 ≥ C ^ 2 + (c * |S| - |t|) ^ 2 := by
      have : S * t ≤ |S| * |t| := by rw [← abs_mul]; exact le_abs_self _
      nlinarith [sq_abs S, sq_abs t]
    have h3 : C ^ 2 + (c * |S| - |t|) ^ 2 ≥ (c - |t|) ^ 2 := by
      have e : C ^ 2 = 1 - |S| ^ 2 := by rw [sq_abs]; linarith
      rw [e]
      have n := abs_nonneg S
      have m := abs_nonneg t
      -- (1 - y) ((1 + y) (1 - c²) + 2 c t)
      have p : 0 ≤ (1 - |S|) * ((1 + |S|) * (1 - c ^ 2) + 2 * c * |t|) := by
        have : 0 ≤ 1 - c ^ 2 := by norm_num at c1; nlinarith
        have := sub_nonneg.mpr hS
        positivity
      nlinarith [p]
    norm_num at h1 ⊢
    linarith
  · have e1 : |t1 * S + t * C * l1| ≤ 0.0103 * 1 + 0.0435 * 1 * 0.27 := by
      refine (abs_add_le _ _).trans ?_
      simp only [abs_mul]; gcongr
    generalize t1 * S + t * C * l1 = u at e1
    generalize 2 * S * C = v at sc
    refine (abs_add_le _ _).trans ((add_le_add_left (abs_sub _ _) _).trans ?_)
    generalize -(1 - c ^ 2) = w at k
    simp only [abs_mul, abs_of_pos z2, abs_of_pos cp]
    calc |w| * |v| * |l1| + 2 * c * |u| + 2 * |t| * |t1| ≤
        (1 - 0.9142 ^ 2) * 1 * 0.27 + 2 * 0.93 * (0.0103 * 1 + 0.0435 * 1 * 0.27) + 2 * 0.0435 * 0.0103 := by
          have := abs_nonneg w
          have := abs_nonneg v
          have : (0 : ℝ) ≤ 1 - 0.9142 ^ 2 := by norm_num
          gcongr
      _ ≤ 0.0863 := by norm_num
  · have e1 : |2 * (C ^ 2 - S ^ 2) * l1 ^ 2 + 2 * S * C * l2| ≤ 2 * 1 * 0.27 ^ 2 + 1 * 0.0112 := by
      refine (abs_add_le _ _).trans ?_
      rw [abs_mul (2 * S * C)]
      generalize 2 * S * C = v at sc
      simp only [abs_mul, abs_pow, abs_of_pos z2]; gcongr
    have e2 : |C * l2 - S * l1 ^ 2| ≤ 1 * 0.0112 + 1 * 0.27 ^ 2 := by
      refine (abs_sub _ _).trans ?_
      simp only [abs_mul, abs_pow]; gcongr
    have e3 : |t2 * S + 2 * t1 * C * l1 + t * (C * l2 - S * l1 ^ 2)| ≤
        0.00283 * 1 + 2 * 0.0103 * 1 * 0.27 + 0.0435 * (1 * 0.0112 + 1 * 0.27 ^ 2) := by
      generalize C * l2 - S * l1 ^ 2 = u at e2
      refine (abs_add_le _ _).trans ((add_le_add_left (abs_add_le _ _) _).trans ?_)
      simp only [abs_mul, abs_of_pos z2]; gcongr
    have e4 : |t1 ^ 2 + t * t2| ≤ 0.0103 ^ 2 + 0.0435 * 0.00283 := by
      refine (abs_add_le _ _).trans ?_
      simp only [abs_mul, abs_pow]; gcongr
    generalize 2 * (C ^ 2 - S ^ 2) * l1 ^ 2 + 2 * S * C * l2 = u at e1
    generalize t2 * S + 2 * t1 * C * l1 + t * (C * l2 - S * l1 ^ 2) = v at e3
    generalize t1 ^ 2 + t * t2 = w at e4
    generalize -(1 - c ^ 2) = y at k
    refine (abs_add_le _ _).trans ((add_le_add_left (abs_sub _ _) _).trans ?_)
    simp only [abs_mul, abs_of_pos z2, abs_of_pos cp]
    calc |y| * |u| + 2 * c * |v| + 2 * |w| ≤
        (1 - 0.9142 ^ 2) * (2 * 1 * 0.27 ^ 2 + 1 * 0.0112) +
          2 * 0.93 * (0.00283 * 1 + 2 * 0.0103 * 1 * 0.27 + 0.0435 * (1 * 0.0112 + 1 * 0.27 ^ 2)) +
          2 * (0.0103 ^ 2 + 0.0435 * 0.00283) := by
          have : (0 : ℝ) ≤ 1 - 0.9142 ^ 2 := by norm_num
          gcongr
      _ ≤ 0.0488 := by norm_num

theorem alX_pos_moon {c t : ℝ} (c0 : 0.9142 ≤ c) (c1 : c ≤ 0.93) (ht : |t| ≤ 0.0435) (x : ℝ) :
    0 < 1 - (1 - c) * sin x ^ 2 - t * sin x := by
  have s1 := abs_sin_le_one x
  have q : |t * sin x| ≤ 0.0435 := by
    rw [abs_mul]
    exact (mul_le_of_le_one_right (abs_nonneg _) s1).trans ht
  have s2 : sin x ^ 2 ≤ 1 := sin_sq_le_one x
  obtain ⟨q1, q2⟩ := abs_le.mp q
  norm_num at c0 c1 q1 q2
  nlinarith [sq_nonneg (sin x)]

/-- Right ascension along a path: the first derivative. -/
theorem alpha_path_deriv {c x l1 t1 : ℝ} {l t : ℝ → ℝ} (hl : HasDerivAt l l1 x) (ht : HasDerivAt t t1 x)
    (X0 : 0 < 1 - (1 - c) * sin (l x) ^ 2 - t x * sin (l x)) (D0 : 0 < alD c (t x) (l x)) :
    HasDerivAt (fun x => alphaI c (t x) (l x))
      ((l1 * (c - t x * sin (l x)) - t1 * cos (l x)) / (cos (l x) ^ 2 + (c * sin (l x) - t x) ^ 2)) x := by
  have hs := hl.sin
  have hk := hl.cos
  have hY := hk.mul ((hs.const_mul (c - 1)).sub ht)
  have hX := (((hs.pow 2).const_mul (1 - c)).const_sub 1).sub (ht.mul hs)
  have h := hl.add (hY.div hX X0.ne').arctan
  refine h.congr_deriv ?_
  have e : cos (l x) ^ 2 = 1 - sin (l x) ^ 2 := by linarith [sin_sq_add_cos_sq (l x)]
  simp only [Pi.mul_apply, Pi.sub_apply, Pi.div_apply, Pi.pow_apply]
  have d : alD c (t x) (l x) = (1 - (1 - c) * sin (l x) ^ 2 - t x * sin (l x)) ^ 2 +
      (cos (l x) * ((c - 1) * sin (l x) - t x)) ^ 2 := by
    unfold alD
    linear_combination (1 - ((c - 1) * sin (l x) - t x) ^ 2) * e
  have n : l1 * (c - t x * sin (l x)) - t1 * cos (l x) = l1 * alD c (t x) (l x) +
      ((-sin (l x) * l1 * ((c - 1) * sin (l x) - t x) + cos (l x) * ((c - 1) * (cos (l x) * l1) - t1)) *
      (1 - (1 - c) * sin (l x) ^ 2 - t x * sin (l x)) - cos (l x) * ((c - 1) * sin (l x) - t x) *
        (-((1 - c) * (2 * sin (l x) * (cos (l x) * l1))) - (t1 * sin (l x) + t x * (cos (l x) * l1)))) := by
    unfold alD
    linear_combination l1 * (-(c - 1) * (1 - (1 - c) * sin (l x) ^ 2 - t x * sin (l x)) +
      ((c - 1) * sin (l x) - t x) * (-((1 - c) * (2 * sin (l x))) - t x) - 1) * e
  rw [show cos (l x) ^ 2 + (c * sin (l x) - t x) ^ 2 = alD c (t x) (l x) from rfl, n, add_div,
    mul_div_cancel_right₀ _ D0.ne']
  congr 1
  rw [d] at D0 ⊢
  generalize hX' : 1 - (1 - c) * sin (l x) ^ 2 - t x * sin (l x) = X at *
  have X1 : X ≠ 0 := X0.ne'
  have D1 := D0.ne'
  rw [← mul_div_assoc]
  have D3 : 1 + (cos (l x) * ((c - 1) * sin (l x) - t x) / X) ^ 2 =
      (X ^ 2 + (cos (l x) * ((c - 1) * sin (l x) - t x)) ^ 2) / X ^ 2 := by field_simp
  rw [D3]
  field_simp
  push_cast
  ring

/-- The right ascension along the path. -/
theorem alpha_jet {l l1 l2 l3 b b1 b2 b3 : ℝ → ℝ} (p : MoonPath l l1 l2 l3 b b1 b2 b3) {c s : ℝ} (o : Obl c s) :
    ∃ f1 f2 f3, Jet3 (fun x => alphaI c (tan (b x) * s) (l x)) f1 f2 f3 ∧
      (∀ x, |f1 x| ≤ 0.361) ∧ (∀ x, |f2 x| ≤ 0.064) ∧ ∀ x, |f3 x| ≤ 0.048 := by
  have cb : ∀ x, cos (b x) ≠ 0 := fun x => by
    have h := abs_le.mp (p.b0 x)
    have := pi_gt_three
    norm_num at h
    exact (cos_pos_of_mem_Ioo ⟨by linarith [h.1], by linarith [h.2]⟩).ne'
  obtain ⟨t, t1, t2, t3, ht, jt, hb⟩ : ∃ t t1 t2 t3 : ℝ → ℝ, (fun x => tan (b x) * s) = t ∧ Jet3 t t1 t2 t3 ∧
      ∀ x, |t x| ≤ 0.0435 ∧ |t1 x| ≤ 0.0103 ∧ |t2 x| ≤ 0.00283 ∧ |t3 x| ≤ 0.00093 := by
    refine ⟨_, _, _, _, rfl, ?_, fun x => tan_jet_bounds o.s1 (p.b0 x) (p.b1 x) (p.b2 x) (p.b3 x)⟩
    have j := (p.jb.tan cb).smul s
    convert j using 1
    funext x; ring
  have e : (fun x => alphaI c (tan (b x) * s) (l x)) = fun x => alphaI c (t x) (l x) := by
    funext x; rw [← ht]
  rw [e]
  clear e ht
  have nb := fun x => num_bounds (by have := o.c0; norm_num at this; linarith) o.c1 (abs_sin_le_one (l x)) (abs_cos_le_one (l x))
    (p.l1 x) (p.l2 x) (p.l3 x) (hb x).1 (hb x).2.1 (hb x).2.2.1 (hb x).2.2.2
  have db := fun x => den_bounds o.c0 o.c1 (sin_sq_add_cos_sq (l x)) (abs_sin_le_one (l x)) (abs_cos_le_one (l x))
    (p.l1 x) (p.l2 x) (hb x).1 (hb x).2.1 (hb x).2.2.1
  have D0 : ∀ x, 0 < cos (l x) ^ 2 + (c * sin (l x) - t x) ^ 2 := fun x => lt_of_lt_of_le (by norm_num) (db x).1
  have qb := fun x => quot_bounds (nb x).1 (nb x).2.1 (nb x).2.2 (db x).1 (db x).2.1 (db x).2.2
  have S := fun x => (p.jl.d1 x).sin
  have C := fun x => (p.jl.d1 x).cos
  have q := quot_derivs
    (N := fun x => l1 x * (c - t x * sin (l x)) - t1 x * cos (l x))
    (N1 := fun x => l2 x * (c - t x * sin (l x)) - l1 x ^ 2 * (t x * cos (l x)) - t2 x * cos (l x))
    (N2 := fun x => l3 x * (c - t x * sin (l x)) - l2 x * (t1 x * sin (l x) + t x * cos (l x) * l1 x) -
      2 * l1 x * l2 x * (t x * cos (l x)) - l1 x ^ 2 * (t1 x * cos (l x) - t x * sin (l x) * l1 x) - t3 x * cos (l x) +
      t2 x * sin (l x) * l1 x)
    (D := fun x => cos (l x) ^ 2 + (c * sin (l x) - t x) ^ 2)
    (D1 := fun x => -(1 - c ^ 2) * (2 * sin (l x) * cos (l x)) * l1 x - 2 * c * (t1 x * sin (l x) + t x * cos (l x) * l1 x) +
      2 * t x * t1 x)
    (D2 := fun x => -(1 - c ^ 2) * (2 * (cos (l x) ^ 2 - sin (l x) ^ 2) * l1 x ^ 2 + 2 * sin (l x) * cos (l x) * l2 x) -
      2 * c * (t2 x * sin (l x) + 2 * t1 x * cos (l x) * l1 x + t x * (cos (l x) * l2 x - sin (l x) * l1 x ^ 2)) +
      2 * (t1 x ^ 2 + t x * t2 x))
    (fun x => by
      refine (((p.jl.d2 x).mul (((jt.d1 x).mul (S x)).const_sub c)).sub ((jt.d2 x).mul (C x))).congr_deriv ?_
      simp only [Pi.mul_apply]; ring)
    (fun x => by
      refine ((((p.jl.d3 x).mul (((jt.d1 x).mul (S x)).const_sub c)).sub (((p.jl.d2 x).pow 2).mul ((jt.d1 x).mul (C x)))).sub
        ((jt.d3 x).mul (C x))).congr_deriv ?_
      simp only [Pi.mul_apply, Pi.pow_apply]; push_cast; ring)
    (fun x => by
      refine (((C x).pow 2).add ((((S x).const_mul c).sub (jt.d1 x)).pow 2)).congr_deriv ?_
      simp only [Pi.sub_apply]; push_cast; ring)
    (fun x => by
      refine ((((((S x).const_mul 2).mul (C x)).const_mul (-(1 - c ^ 2))).mul (p.jl.d2 x)).sub
        ((((jt.d2 x).mul (S x)).add (((jt.d1 x).mul (C x)).mul (p.jl.d2 x))).const_mul (2 * c)) |>.add
        (((jt.d1 x).const_mul 2).mul (jt.d2 x))).congr_deriv ?_
      simp only [Pi.mul_apply]; ring)
    (fun x => (D0 x).ne')
  exact ⟨_, _, _, ⟨fun x => alpha_path_deriv (p.jl.d1 x) (jt.d1 x) (alX_pos_moon o.c0 o.c1 (hb x).1 (l x)) (D0 x),
    fun x => (q x).1, fun x => (q x).2⟩, fun x => (qb x).1, fun x => (qb x).2.1, fun x => (qb x).2.2⟩

end Verif
