import Verif.Lemmas.PoissonJet
import Mathlib.Analysis.SpecialFunctions.Trigonometric.ArctanDeriv
import Mathlib.Analysis.SpecialFunctions.Trigonometric.InverseDeriv
import Mathlib.Analysis.SpecialFunctions.Sqrt

/-!
# Lemmas about right ascension and declination as functions of the ecliptic longitude
-/

namespace Verif
open Real

/-! ### Right ascension -/

/-- Right ascension, unreduced, of a point of longitude `x`; `c` is the cosine of the obliquity, `t` its sine times the
tangent of the latitude. -/
noncomputable def alphaI (c t x : ℝ) : ℝ :=
  x + arctan (cos x * ((c - 1) * sin x - t) / (1 - (1 - c) * sin x ^ 2 - t * sin x))

noncomputable def alN (c t x : ℝ) : ℝ := c - t * sin x
noncomputable def alN1 (t x : ℝ) : ℝ := -(t * cos x)
noncomputable def alN2 (t x : ℝ) : ℝ := t * sin x
noncomputable def alD (c t x : ℝ) : ℝ := cos x ^ 2 + (c * sin x - t) ^ 2
noncomputable def alD1 (c t x : ℝ) : ℝ := -2 * (1 - c ^ 2) * (sin x * cos x) - 2 * c * t * cos x
noncomputable def alD2 (c t x : ℝ) : ℝ := -2 * (1 - c ^ 2) * (cos x ^ 2 - sin x ^ 2) + 2 * c * t * sin x

/-- Its derivatives. -/
noncomputable def al1 (c t x : ℝ) : ℝ := alN c t x / alD c t x
noncomputable def al2 (c t x : ℝ) : ℝ := (alN1 t x * alD c t x - alN c t x * alD1 c t x) / alD c t x ^ 2
noncomputable def al3 (c t x : ℝ) : ℝ :=
  (alN2 t x * alD c t x - alN c t x * alD2 c t x) / alD c t x ^ 2 -
    2 * alD1 c t x * (alN1 t x * alD c t x - alN c t x * alD1 c t x) / alD c t x ^ 3

section
variable {c t : ℝ}

theorem alX_pos (hc : 0.9105 ≤ c) (hc1 : c ≤ 1) (ht : |t| ≤ 0.00001) (x : ℝ) :
    0 < 1 - (1 - c) * sin x ^ 2 - t * sin x := by
  have s1 := abs_sin_le_one x
  have q : |t * sin x| ≤ 0.00001 := by
    rw [abs_mul]
    exact (mul_le_of_le_one_right (abs_nonneg _) s1).trans ht
  have s2 : sin x ^ 2 ≤ 1 := sin_sq_le_one x
  obtain ⟨q1, q2⟩ := abs_le.mp q
  norm_num at hc q1 q2
  nlinarith [sq_nonneg (sin x)]

theorem alD_bounds (hc : 0.9105 ≤ c) (hc1 : c ≤ 1) (ht : |t| ≤ 0.00001) (x : ℝ) :
    0.8289 ≤ alD c t x ∧ alD c t x ≤ 1.0001 := by
  unfold alD
  obtain ⟨a, b⟩ := abs_le.mp (abs_sin_le_one x)
  obtain ⟨t1, t2⟩ := abs_le.mp ht
  have e := sin_sq_add_cos_sq x
  generalize sin x = S at *
  generalize cos x = C at *
  norm_num at hc t1 t2 ⊢
  have c2 : 0.829 ≤ c ^ 2 := by norm_num; nlinarith
  have c3 : c ^ 2 ≤ 1 := by nlinarith
  have k : |c * S * t| ≤ 0.00001 := by
    rw [abs_mul]
    have : |c * S| ≤ 1 := by
      rw [abs_mul, abs_of_nonneg (by linarith : 0 ≤ c)]
      have : |S| ≤ 1 := abs_le.mpr ⟨a, b⟩
      nlinarith [abs_nonneg S]
    calc |c * S| * |t| ≤ 1 * 0.00001 := mul_le_mul this ht (abs_nonneg _) (by norm_num)
      _ = _ := by norm_num
  obtain ⟨k1, k2⟩ := abs_le.mp k
  norm_num at k1 k2 c2
  have t3 : t ^ 2 ≤ 0.00001 := by norm_num; nlinarith
  norm_num at t3
  constructor <;> nlinarith [sq_nonneg S, sq_nonneg t]

theorem al_small (ht : |t| ≤ 0.00001) (x : ℝ) : |alN1 t x| ≤ 0.00001 ∧ |alN2 t x| ≤ 0.00001 := by
  unfold alN1 alN2
  rw [abs_neg, abs_mul, abs_mul]
  exact ⟨(mul_le_of_le_one_right (abs_nonneg _) (abs_cos_le_one x)).trans ht,
    (mul_le_of_le_one_right (abs_nonneg _) (abs_sin_le_one x)).trans ht⟩

theorem alN_bound (hc : 0.9105 ≤ c) (hc1 : c ≤ 1) (ht : |t| ≤ 0.00001) (x : ℝ) : |alN c t x| ≤ 1.00001 := by
  obtain ⟨a, b⟩ := abs_le.mp (al_small ht x).2
  unfold alN2 at a b
  unfold alN
  norm_num at hc a b ⊢
  rw [abs_le]; constructor <;> linarith

theorem alD12_bound (hc : 0.9105 ≤ c) (hc1 : c ≤ 1) (ht : |t| ≤ 0.00001) (x : ℝ) :
    |alD1 c t x| ≤ 0.1711 ∧ |alD2 c t x| ≤ 0.3421 := by
  have g1 : 1 - c ^ 2 ≤ 0.171 := by norm_num at hc ⊢; nlinarith
  have g0 : 0 ≤ 1 - c ^ 2 := by norm_num at hc; nlinarith
  have c0 : 0 ≤ c := by norm_num at hc; linarith
  have m : ∀ y, |y| ≤ 1 → |2 * c * t * y| ≤ 0.00002 := by
    intro y hy
    rw [abs_mul, abs_mul, abs_mul, abs_of_nonneg c0, abs_of_pos (by norm_num : (0 : ℝ) < 2)]
    have h1 : c * |t| ≤ 1 * 0.00001 := mul_le_mul hc1 ht (abs_nonneg _) (by norm_num)
    have h2 : (2 * c * |t|) * |y| ≤ 2 * c * |t| := mul_le_of_le_one_right (by positivity) hy
    norm_num at h1 ⊢; linarith
  obtain ⟨m1, m2⟩ := abs_le.mp (m _ (abs_cos_le_one x))
  obtain ⟨m3, m4⟩ := abs_le.mp (m _ (abs_sin_le_one x))
  have e := sin_sq_add_cos_sq x
  have p : |sin x * cos x| ≤ 1 / 2 := by
    rw [abs_le]; constructor <;> nlinarith [sq_nonneg (sin x - cos x), sq_nonneg (sin x + cos x)]
  obtain ⟨p1, p2⟩ := abs_le.mp p
  have q : |cos x ^ 2 - sin x ^ 2| ≤ 1 := by
    rw [abs_le]; constructor <;> nlinarith [sq_nonneg (sin x), sq_nonneg (cos x)]
  obtain ⟨q1, q2⟩ := abs_le.mp q
  unfold alD1 alD2
  norm_num at m1 m2 m3 m4 g1
  constructor
  · generalize sin x * cos x = w at *
    rw [abs_le]; norm_num; constructor <;> nlinarith
  · generalize cos x ^ 2 - sin x ^ 2 = w at *
    rw [abs_le]; norm_num; constructor <;> nlinarith

theorem alphaI_deriv (hc : 0.9105 ≤ c) (hc1 : c ≤ 1) (ht : |t| ≤ 0.00001) (x : ℝ) :
    HasDerivAt (alphaI c t) (al1 c t x) x := by
  have X0 := alX_pos hc hc1 ht x
  have D0 : 0 < alD c t x := by have := (alD_bounds hc hc1 ht x).1; norm_num at this; linarith
  have hs := hasDerivAt_sin x
  have hk := hasDerivAt_cos x
  have hY := hk.mul ((hs.const_mul (c - 1)).sub_const t)
  have hX := (((hs.pow 2).const_mul (1 - c)).const_sub 1).sub (hs.const_mul t)
  have h := (hasDerivAt_id x).add (hY.div hX X0.ne').arctan
  refine h.congr_deriv ?_
  have e : cos x ^ 2 = 1 - sin x ^ 2 := by linarith [sin_sq_add_cos_sq x]
  simp only [Pi.mul_apply, Pi.sub_apply, Pi.div_apply, Pi.pow_apply]
  unfold al1
  have d : alD c t x = (1 - (1 - c) * sin x ^ 2 - t * sin x) ^ 2 + (cos x * ((c - 1) * sin x - t)) ^ 2 := by
    unfold alD
    linear_combination (1 - ((c - 1) * sin x - t) ^ 2) * e
  have n : alN c t x = alD c t x + ((-sin x * ((c - 1) * sin x - t) + cos x * ((c - 1) * cos x)) *
      (1 - (1 - c) * sin x ^ 2 - t * sin x) - cos x * ((c - 1) * sin x - t) *
        (-((1 - c) * (2 * sin x * cos x)) - t * cos x)) := by
    unfold alN alD
    linear_combination (-(c - 1) * (1 - (1 - c) * sin x ^ 2 - t * sin x) +
      ((c - 1) * sin x - t) * (-((1 - c) * (2 * sin x)) - t) - 1) * e
  rw [n, add_div, div_self D0.ne']
  congr 1
  rw [d] at D0 ⊢
  generalize hX' : 1 - (1 - c) * sin x ^ 2 - t * sin x = X at *
  have X1 : X ≠ 0 := X0.ne'
  have D1 := D0.ne'
  have D2 : 1 + (cos x * ((c - 1) * sin x - t) / X) ^ 2 ≠ 0 := by positivity
  have D3 : 1 + (cos x * ((c - 1) * sin x - t) / X) ^ 2 =
      (X ^ 2 + (cos x * ((c - 1) * sin x - t)) ^ 2) / X ^ 2 := by field_simp
  rw [D3]
  field_simp
  push_cast
  ring

theorem alN_deriv (c t x : ℝ) : HasDerivAt (alN c t) (alN1 t x) x :=
  (((hasDerivAt_sin x).const_mul t).const_sub c).congr_deriv (by unfold alN1; ring)
theorem alN1_deriv (t x : ℝ) : HasDerivAt (alN1 t) (alN2 t x) x :=
  (((hasDerivAt_cos x).const_mul t).neg).congr_deriv (by unfold alN2; ring)
theorem alD_deriv (c t x : ℝ) : HasDerivAt (alD c t) (alD1 c t x) x :=
  (((hasDerivAt_cos x).pow 2).add ((((hasDerivAt_sin x).const_mul c).sub_const t).pow 2)).congr_deriv
    (by unfold alD1; simp; ring)
theorem alD1_deriv (c t x : ℝ) : HasDerivAt (alD1 c t) (alD2 c t x) x :=
  ((((hasDerivAt_sin x).mul (hasDerivAt_cos x)).const_mul (-2 * (1 - c ^ 2))).sub
    ((hasDerivAt_cos x).const_mul (2 * c * t))).congr_deriv (by unfold alD2; ring)

theorem al1_deriv {x : ℝ} (h : alD c t x ≠ 0) : HasDerivAt (al1 c t) (al2 c t x) x :=
  (alN_deriv c t x).div (alD_deriv c t x) h

theorem al2_deriv {x : ℝ} (h : alD c t x ≠ 0) : HasDerivAt (al2 c t) (al3 c t x) x := by
  have n := ((alN1_deriv t x).mul (alD_deriv c t x)).sub ((alN_deriv c t x).mul (alD1_deriv c t x))
  have d := (alD_deriv c t x).pow 2
  refine (n.div d (pow_ne_zero 2 h)).congr_deriv ?_
  simp only [Pi.mul_apply, Pi.sub_apply, Pi.pow_apply]
  unfold al3
  field_simp
  push_cast
  ring

theorem al_bounds (hc : 0.9105 ≤ c) (hc1 : c ≤ 1) (ht : |t| ≤ 0.00001) (x : ℝ) :
    |al1 c t x| ≤ 1.21 ∧ |al2 c t x| ≤ 0.25 ∧ |al3 c t x| ≤ 0.61 := by
  obtain ⟨d1, d2⟩ := alD_bounds hc hc1 ht x
  have n0 := alN_bound hc hc1 ht x
  obtain ⟨n1, n2⟩ := al_small ht x
  obtain ⟨e1, e2⟩ := alD12_bound hc hc1 ht x
  unfold al1 al2 al3
  generalize alD c t x = D at *
  generalize alN c t x = N at *
  generalize alN1 t x = N1 at *
  generalize alN2 t x = N2 at *
  generalize alD1 c t x = E1 at *
  generalize alD2 c t x = E2 at *
  norm_num at d1 d2
  have D0 : 0 < D := by linarith
  have a : ∀ {u v : ℝ}, |u| ≤ 0.00001 → |v| ≤ 0.3421 → |u * D - N * v| ≤ 0.000011 + 1.00001 * |v| := by
    intro u v hu hv
    refine (abs_sub _ _).trans ?_
    rw [abs_mul, abs_mul, abs_of_pos D0]
    have h1 : |u| * D ≤ 0.00001 * 1.0001 := mul_le_mul hu (by norm_num; linarith) D0.le (by norm_num)
    have h2 := mul_le_mul_of_nonneg_right n0 (abs_nonneg v)
    norm_num at h1 h2 ⊢; linarith
  have a1 := a n1 (e1.trans (by norm_num))
  have a2 := a n2 e2
  have D2 : 0.687 ≤ D ^ 2 := by norm_num; nlinarith
  have D3 : 0.5695 ≤ D ^ 3 := by
    have : D ^ 3 = D * D ^ 2 := by ring
    norm_num at D2 ⊢; nlinarith
  norm_num at n0 e1 e2 a1 a2 D2 D3
  have a1' : |N1 * D - N * E1| ≤ 0.17112 := by norm_num; linarith
  refine ⟨?_, ?_, ?_⟩
  · rw [abs_div, abs_of_pos D0, div_le_iff₀ D0]; norm_num; linarith
  · rw [abs_div, abs_of_pos (by positivity : 0 < D ^ 2), div_le_iff₀ (by positivity)]; norm_num; linarith
  · have t1 : |(N2 * D - N * E2) / D ^ 2| ≤ 0.4981 := by
      rw [abs_div, abs_of_pos (by positivity : 0 < D ^ 2), div_le_iff₀ (by positivity)]; norm_num; linarith
    have t2 : |2 * E1 * (N1 * D - N * E1) / D ^ 3| ≤ 0.103 := by
      rw [abs_div, abs_of_pos (by positivity : 0 < D ^ 3), div_le_iff₀ (by positivity), abs_mul, abs_mul,
        abs_of_pos (by norm_num : (0 : ℝ) < 2)]
      have := mul_le_mul e1 a1' (abs_nonneg _) (by norm_num)
      norm_num at this ⊢; nlinarith
    refine (abs_sub _ _).trans ((add_le_add t1 t2).trans (by norm_num))

/-- The right ascension grows at most 1.0985 times as fast as the longitude. -/
theorem al1_bound (hc : 0.9105 ≤ c) (hc1 : c ≤ 1) (ht : |t| ≤ 0.00001) (x : ℝ) : |al1 c t x| ≤ 1.0985 := by
  have D0 : 0 < alD c t x := by have := (alD_bounds hc hc1 ht x).1; norm_num at this; linarith
  unfold al1
  rw [abs_div, abs_of_pos D0, div_le_iff₀ D0]
  have m := (al_small ht x).2
  unfold alN2 at m
  have e := sin_sq_add_cos_sq x
  norm_num at hc
  have k : |c * (t * sin x)| ≤ 0.00001 := by
    rw [abs_mul, abs_of_nonneg (by linarith : 0 ≤ c)]
    exact (mul_le_of_le_one_left (abs_nonneg _) hc1).trans m
  unfold alN alD
  obtain ⟨m1, m2⟩ := abs_le.mp m
  obtain ⟨k1, k2⟩ := abs_le.mp k
  have d : cos x ^ 2 + (c * sin x - t) ^ 2 =
      c ^ 2 + (1 - c ^ 2) * cos x ^ 2 - 2 * (c * (t * sin x)) + t ^ 2 := by linear_combination c ^ 2 * e
  have g : 0 ≤ (1 - c ^ 2) * cos x ^ 2 := mul_nonneg (by nlinarith) (sq_nonneg _)
  rw [d]
  have t2 := sq_nonneg t
  generalize (1 - c ^ 2) * cos x ^ 2 = G at *
  generalize c * (t * sin x) = K at *
  generalize t * sin x = M at *
  norm_num at m1 m2 k1 k2 ⊢
  rw [abs_le]
  constructor <;> nlinarith

/-- The right ascension of a longitude that is nearly a parabola is nearly a parabola. -/
theorem alpha_parab {g : ℝ → ℝ} {v q : ℝ} (h : Parab g v q 1.5e-7) (hv : |v| ≤ 0.0181) (hq : |q| ≤ 9e-6)
    (hg : ∀ n, |n| ≤ 1 → |g n - g 0| ≤ 0.0181) (hc : 0.9105 ≤ c) (hc1 : c ≤ 1) (ht : |t| ≤ 0.00001) :
    ∃ v' q', Parab (fun n => alphaI c t (g n)) v' q' 8.4e-7 ∧ |v'| ≤ 0.01989 ∧ |q'| ≤ 0.00006 := by
  have D0 : ∀ x, alD c t x ≠ 0 := fun x => by
    have := (alD_bounds hc hc1 ht x).1; norm_num at this; exact (by linarith : (0 : ℝ) < alD c t x).ne'
  have b := al_bounds hc hc1 ht
  have p := h.comp hg hv hq (f := alphaI c t) (f1 := al1 c t) (f2 := al2 c t) (f3 := al3 c t)
    (fun x _ => alphaI_deriv hc hc1 ht x) (fun x _ => al1_deriv (D0 x)) (fun x _ => al2_deriv (D0 x))
    (b _).1 (b _).2.1 (fun x _ => (b x).2.2)
  refine ⟨_, _, fun n hn => (p n hn).trans (by norm_num), ?_, ?_⟩
  · rw [abs_mul]
    exact (mul_le_mul (al1_bound hc hc1 ht _) hv (abs_nonneg _) (by norm_num)).trans (by norm_num)
  · refine (abs_add_le _ _).trans ?_
    rw [abs_mul, abs_mul, abs_pow, abs_div, abs_of_pos (by norm_num : (0 : ℝ) < 2)]
    have h1 := mul_le_mul (b (g 0)).1 hq (abs_nonneg _) (by norm_num)
    have h2 : |v| ^ 2 ≤ 0.0181 ^ 2 := by gcongr
    have h3 : |al2 c t (g 0)| / 2 * |v| ^ 2 ≤ 0.25 / 2 * 0.0181 ^ 2 :=
      mul_le_mul (by have := (b (g 0)).2.1; linarith) h2 (by positivity) (by norm_num)
    norm_num at h1 h3 ⊢; linarith

end

/-! ### Declination -/

theorem asin_derivs {x : ℝ} (h : |x| ≤ 0.43) :
    HasDerivAt arcsin (√(1 - x ^ 2))⁻¹ x ∧
    HasDerivAt (fun x => (√(1 - x ^ 2))⁻¹) (x * ((√(1 - x ^ 2))⁻¹) ^ 3) x ∧
    HasDerivAt (fun x => x * ((√(1 - x ^ 2))⁻¹) ^ 3) (((√(1 - x ^ 2))⁻¹) ^ 3 + 3 * x ^ 2 * ((√(1 - x ^ 2))⁻¹) ^ 5) x := by
  obtain ⟨a, b⟩ := abs_le.mp h
  norm_num at a b
  have w : 0 < 1 - x ^ 2 := by nlinarith
  have r := Real.sqrt_pos.mpr w
  have d0 := (((hasDerivAt_id x).pow 2).const_sub 1).sqrt w.ne'
  have d1 : HasDerivAt (fun x => (√(1 - x ^ 2))⁻¹) (x * ((√(1 - x ^ 2))⁻¹) ^ 3) x := by
    refine (d0.inv r.ne').congr_deriv ?_
    simp only [id, Pi.pow_apply]
    push_cast
    field_simp
  refine ⟨?_, d1, ?_⟩
  · exact (hasDerivAt_arcsin (by linarith) (by linarith)).congr_deriv (one_div _)
  · refine ((hasDerivAt_id x).mul (d1.pow 3)).congr_deriv ?_
    simp only [id, Pi.pow_apply]
    push_cast
    ring

theorem asin_bounds {x : ℝ} (h : |x| ≤ 0.43) : |(√(1 - x ^ 2))⁻¹| ≤ 1.11 ∧
    |x * ((√(1 - x ^ 2))⁻¹) ^ 3| ≤ 0.59 ∧
    |((√(1 - x ^ 2))⁻¹) ^ 3 + 3 * x ^ 2 * ((√(1 - x ^ 2))⁻¹) ^ 5| ≤ 2.35 := by
  have x2 : x ^ 2 ≤ 0.43 ^ 2 := by rw [← sq_abs]; gcongr
  norm_num at x2
  have r : 0.9 ≤ √(1 - x ^ 2) := by
    rw [Real.le_sqrt' (by norm_num)]; norm_num; linarith
  have r2 : 0.902 ≤ √(1 - x ^ 2) := by
    rw [Real.le_sqrt' (by norm_num)]; norm_num; linarith
  have r0 : 0 < √(1 - x ^ 2) := by norm_num at r; linarith
  have i : (√(1 - x ^ 2))⁻¹ ≤ 1.109 := by
    rw [inv_le_comm₀ r0 (by norm_num)]
    refine le_trans ?_ r2; norm_num
  have i0 : 0 < (√(1 - x ^ 2))⁻¹ := by positivity
  generalize (√(1 - x ^ 2))⁻¹ = w at *
  have w3 : w ^ 3 ≤ 1.109 ^ 3 := by gcongr
  have w5 : w ^ 5 ≤ 1.109 ^ 5 := by gcongr
  refine ⟨?_, ?_, ?_⟩
  · rw [abs_of_pos i0]; norm_num at i ⊢; linarith
  · rw [abs_mul, abs_of_pos (by positivity : 0 < w ^ 3)]
    exact (mul_le_mul h w3 (by positivity) (by norm_num)).trans (by norm_num)
  · rw [abs_of_nonneg (by positivity)]
    have : x ^ 2 * w ^ 5 ≤ 1849 / 10000 * 1.109 ^ 5 := mul_le_mul x2 w5 (by positivity) (by norm_num)
    norm_num at w3 this ⊢; linarith

/-- The declination changes at most as fast as the longitude times the sine of the obliquity, almost. -/
theorem decl_rate {k a : ℝ} (ha : |a| ≤ 0.414) (hk : |k| ≤ 0.0001) (x : ℝ) :
    |(√(1 - (k + a * sin x) ^ 2))⁻¹ * (a * cos x)| ≤ 1.0002 * |a| := by
  have k2 : |k * (a * sin x)| ≤ 0.0001 * 0.414 := by
    rw [abs_mul, abs_mul]
    exact mul_le_mul hk ((mul_le_of_le_one_right (abs_nonneg _) (abs_sin_le_one x)).trans ha) (by positivity)
      (by norm_num)
  have kk : k ^ 2 ≤ 0.0001 ^ 2 := by rw [← sq_abs]; gcongr
  have aa : a ^ 2 ≤ 0.414 ^ 2 := by rw [← sq_abs]; gcongr
  have e := sin_sq_add_cos_sq x
  obtain ⟨k3, k4⟩ := abs_le.mp k2
  norm_num at k3 k4 kk aa
  have d : 1 - (k + a * sin x) ^ 2 = 1 - k ^ 2 - 2 * (k * (a * sin x)) - a ^ 2 * sin x ^ 2 := by ring
  have s0 := sq_nonneg (sin x)
  have m : a ^ 2 * sin x ^ 2 ≤ 0.1714 * sin x ^ 2 := mul_le_mul_of_nonneg_right (by norm_num; linarith) s0
  have key : cos x ^ 2 ≤ 1.0002 ^ 2 * (1 - (k + a * sin x) ^ 2) := by
    rw [d]
    have := sin_sq_le_one x
    generalize a ^ 2 * sin x ^ 2 = W at *
    generalize k * (a * sin x) = K at *
    norm_num at m ⊢; nlinarith
  have w : 0 < 1 - (k + a * sin x) ^ 2 := by
    rw [d]
    have := sin_sq_le_one x
    generalize a ^ 2 * sin x ^ 2 = W at *
    generalize k * (a * sin x) = K at *
    norm_num at m ⊢; linarith
  have r := Real.sqrt_pos.mpr w
  rw [abs_mul, abs_mul, abs_of_pos (inv_pos.mpr r), inv_mul_le_iff₀ r]
  have c : |cos x| ≤ 1.0002 * √(1 - (k + a * sin x) ^ 2) := by
    refine abs_le_of_sq_le_sq ?_ (by positivity)
    rw [mul_pow, Real.sq_sqrt w.le]; exact key
  have := mul_le_mul_of_nonneg_left c (abs_nonneg a)
  linarith

/-- The declination of a longitude that is nearly a parabola is nearly a parabola. -/
theorem delta_parab {g : ℝ → ℝ} {v q k a : ℝ} (h : Parab g v q 1.5e-7) (hv : |v| ≤ 0.0181) (hq : |q| ≤ 9e-6)
    (hg : ∀ n, |n| ≤ 1 → |g n - g 0| ≤ 0.0181) (ha : |a| ≤ 0.414) (hk : |k| ≤ 0.0001) :
    ∃ v' q', Parab (fun n => arcsin (k + a * sin (g n))) v' q' 1.2e-6 ∧ |v'| ≤ 0.01811 * |a| ∧ |q'| ≤ 0.0001 := by
  have d1 : ∀ x, HasDerivAt (fun x => k + a * sin x) (a * cos x) x := fun x =>
    ((hasDerivAt_sin x).const_mul a).const_add k
  have d2 : ∀ x, HasDerivAt (fun x => a * cos x) (-(a * sin x)) x := fun x =>
    ((hasDerivAt_cos x).const_mul a).congr_deriv (by ring)
  have d3 : ∀ x, HasDerivAt (fun x => -(a * sin x)) (-(a * cos x)) x := fun x =>
    ((hasDerivAt_sin x).const_mul a).neg
  have bs : ∀ x, |a * sin x| ≤ 0.414 := fun x => by
    rw [abs_mul]; exact (mul_le_of_le_one_right (abs_nonneg _) (abs_sin_le_one x)).trans ha
  have bc : ∀ x, |a * cos x| ≤ 0.414 := fun x => by
    rw [abs_mul]; exact (mul_le_of_le_one_right (abs_nonneg _) (abs_cos_le_one x)).trans ha
  have p := h.comp hg hv hq (f := fun x => k + a * sin x) (f1 := fun x => a * cos x) (f2 := fun x => -(a * sin x))
    (f3 := fun x => -(a * cos x)) (M2 := 0.414) (fun x _ => d1 x) (fun x _ => d2 x) (fun x _ => d3 x)
    (bc _) (by rw [abs_neg]; exact bs _) (fun x _ => by rw [abs_neg]; exact bc x)
  have pv : |a * cos (g 0) * v| ≤ 0.0075 := by
    rw [abs_mul]; exact (mul_le_mul (bc _) hv (abs_nonneg _) (by norm_num)).trans (by norm_num)
  have pq : |a * cos (g 0) * q + -(a * sin (g 0)) / 2 * v ^ 2| ≤ 0.000072 := by
    refine (abs_add_le _ _).trans ?_
    rw [abs_mul _ q, abs_mul _ (v ^ 2), abs_pow, abs_div, abs_neg, abs_of_pos (by norm_num : (0 : ℝ) < 2)]
    have h1 := mul_le_mul (bc (g 0)) hq (abs_nonneg _) (by norm_num)
    have h2 : |v| ^ 2 ≤ 0.0181 ^ 2 := by gcongr
    have h3 : |a * sin (g 0)| / 2 * |v| ^ 2 ≤ 0.414 / 2 * 0.0181 ^ 2 :=
      mul_le_mul (by have := bs (g 0); linarith) h2 (by positivity) (by norm_num)
    norm_num at h1 h3 ⊢; linarith
  have pz : ∀ n, |n| ≤ 1 → |(k + a * sin (g n)) - (k + a * sin (g 0))| ≤ 0.0075 := by
    intro n hn
    rw [show (k + a * sin (g n)) - (k + a * sin (g 0)) = a * (sin (g n) - sin (g 0)) by ring, abs_mul]
    refine (mul_le_mul ha ((abs_sin_sub_le _ _).trans (hg n hn)) (abs_nonneg _) (by norm_num)).trans (by norm_num)
  have p' : Parab (fun n => k + a * sin (g n)) (a * cos (g 0) * v)
      (a * cos (g 0) * q + -(a * sin (g 0)) / 2 * v ^ 2) 5.5e-7 := fun n hn => (p n hn).trans (by norm_num)
  have z0 : ∀ x, |x - (k + a * sin (g 0))| ≤ 0.0075 → |x| ≤ 0.43 := by
    intro x hx
    obtain ⟨x1, x2⟩ := abs_le.mp hx
    obtain ⟨y1, y2⟩ := abs_le.mp (bs (g 0))
    obtain ⟨k1, k2⟩ := abs_le.mp hk
    norm_num at x1 x2 y1 y2 k1 k2
    rw [abs_le]; norm_num; constructor <;> linarith
  have zz := z0 _ (by rw [sub_self, abs_zero]; norm_num)
  have P := p'.comp pz pv pq (f := arcsin) (fun x hx => (asin_derivs (z0 x hx)).1)
    (fun x hx => (asin_derivs (z0 x hx)).2.1) (fun x hx => (asin_derivs (z0 x hx)).2.2)
    (asin_bounds zz).1 (asin_bounds zz).2.1 (fun x hx => (asin_bounds (z0 x hx)).2.2)
  refine ⟨_, _, fun n hn => (P n hn).trans (by norm_num), ?_, ?_⟩
  · rw [← mul_assoc, abs_mul]
    exact (mul_le_mul (decl_rate ha hk _) hv (abs_nonneg _) (by positivity)).trans (by
      have := abs_nonneg a; norm_num; linarith)
  · refine (abs_add_le _ _).trans ?_
    have h1 := mul_le_mul (asin_bounds zz).1 pq (abs_nonneg _) (by norm_num)
    rw [← abs_mul] at h1
    have h2 : |a * cos (g 0) * v| ^ 2 ≤ 0.0075 ^ 2 := by gcongr
    have h3 := (asin_bounds zz).2.1
    generalize (k + a * sin (g 0)) * ((√(1 - (k + a * sin (g 0)) ^ 2))⁻¹) ^ 3 = W at *
    rw [abs_mul (W / 2), abs_pow, abs_div, abs_of_pos (by norm_num : (0 : ℝ) < 2)]
    have h4 : |W| / 2 * |a * cos (g 0) * v| ^ 2 ≤ 0.59 / 2 * 0.0075 ^ 2 :=
      mul_le_mul (by linarith) h2 (by positivity) (by norm_num)
    norm_num at h1 h4 ⊢; linarith

/-! ### Together: the direction -/

theorem alpha_direction_of {e b x : ℝ} (X0 : 0 < 1 - (1 - cos e) * sin x ^ 2 - tan b * sin e * sin x)
    (D0 : 0 < alD (cos e) (tan b * sin e) x) (hb : 0 < cos b) :
    direction (alphaI (cos e) (tan b * sin e) x) (arcsin (sin b * cos e + cos b * sin e * sin x)) =
      turnX e (direction x b) := by
  have ec : cos x ^ 2 = 1 - sin x ^ 2 := by linarith [sin_sq_add_cos_sq x]
  have tb : tan b * cos b = sin b := by rw [tan_eq_sin_div_cos]; field_simp
  set c := cos e with hcdef
  set s := sin e with hsdef
  set t := tan b * s with htdef
  set X := 1 - (1 - c) * sin x ^ 2 - t * sin x with hX
  set Y := cos x * ((c - 1) * sin x - t) with hY
  have d : alD c t x = X ^ 2 + Y ^ 2 := by
    unfold alD
    rw [hX, hY]
    linear_combination (1 - ((c - 1) * sin x - t) ^ 2) * ec
  have R0 : 0 < √(alD c t x) := Real.sqrt_pos.mpr D0
  have sq : √(1 + (Y / X) ^ 2) = √(alD c t x) / X := by
    have : 1 + (Y / X) ^ 2 = alD c t x / X ^ 2 := by rw [d]; field_simp
    rw [this, Real.sqrt_div' _ (by positivity), Real.sqrt_sq X0.le]
  have ca : cos (alphaI c t x) = cos x / √(alD c t x) := by
    unfold alphaI
    rw [cos_add, cos_arctan, sin_arctan, ← hX, ← hY, sq]
    field_simp
    rw [hX, hY]
    ring
  have sa : sin (alphaI c t x) = (c * sin x - t) / √(alD c t x) := by
    unfold alphaI
    rw [sin_add, cos_arctan, sin_arctan, ← hX, ← hY, sq]
    field_simp
    rw [hX, hY]
    linear_combination ((c - 1) * sin x - t) * ec
  set Z := sin b * c + cos b * s * sin x with hZ
  have u : 1 - Z ^ 2 = cos b ^ 2 * alD c t x := by
    have e1 := sin_sq_add_cos_sq e
    have e2 := sin_sq_add_cos_sq b
    have e3 := sin_sq_add_cos_sq x
    have ct : cos b * t = sin b * s := by rw [htdef]; linear_combination s * tb
    unfold alD
    have : cos b ^ 2 * (cos x ^ 2 + (c * sin x - t) ^ 2) =
        (cos b * cos x) ^ 2 + (cos b * sin x * c - sin b * s) ^ 2 := by
      rw [← ct]; ring
    rw [this, hZ]
    linear_combination (-(cos b * sin x) ^ 2 - sin b ^ 2) * e1 - e2 - (cos b ^ 2) * e3
  have z1 : Z ^ 2 ≤ 1 := by nlinarith [mul_pos (pow_pos hb 2) D0]
  have z2 := abs_le.mp ((sq_le_one_iff_abs_le_one Z).mp z1)
  have cd : cos (arcsin Z) = cos b * √(alD c t x) := by
    rw [Real.cos_arcsin, u, Real.sqrt_mul (sq_nonneg _), Real.sqrt_sq hb.le]
  unfold direction turnX
  simp only
  rw [ca, sa, cd, Real.sin_arcsin z2.1 z2.2]
  ext
  · simp only; field_simp
  · simp only; field_simp; rw [htdef]; linear_combination -s * tb
  · simp only; rw [hZ]; ring

theorem alpha_direction {e b : ℝ} (hc : 0.9105 ≤ cos e) (ht : |tan b * sin e| ≤ 0.00001) (hb : 0 < cos b) (x : ℝ) :
    direction (alphaI (cos e) (tan b * sin e) x) (arcsin (sin b * cos e + cos b * sin e * sin x)) =
      turnX e (direction x b) :=
  alpha_direction_of (alX_pos hc (cos_le_one e) ht x)
    (by have := (alD_bounds hc (cos_le_one e) ht x).1; norm_num at this; linarith) hb

end Verif
