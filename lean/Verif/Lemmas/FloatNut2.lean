import Verif.Lemmas.FloatNut

/-!
# Rounding errors of the nutation
-/

namespace Verif
open Real

/-- The five angles, with their errors. -/
structure AnglesNear (c : ℚ × ℚ × ℚ × ℚ × ℚ) (T : ℝ) : Prop where
  b1 : 0 ≤ c.1 ∧ c.1 ≤ pi2F
  b2 : 0 ≤ c.2.1 ∧ c.2.1 ≤ pi2F
  b3 : 0 ≤ c.2.2.1 ∧ c.2.2.1 ≤ pi2F
  b4 : 0 ≤ c.2.2.2.1 ∧ c.2.2.2.1 ≤ pi2F
  b5 : 0 ≤ c.2.2.2.2 ∧ c.2.2.2.2 ≤ pi2F
  n1 : NearA c.1 (polyR kD T) 5.6e-10
  n2 : NearA c.2.1 (polyR kM T) 5.6e-10
  n3 : NearA c.2.2.1 (polyR kM1 T) 5.6e-10
  n4 : NearA c.2.2.2.1 (polyR kF T) 5.6e-10
  n5 : NearA c.2.2.2.2 (polyR ko T) 5.6e-10

theorem nutConstantsF_near {fl : ℚ → ℚ} (hf : FloatLike fl) {jd : ℚ} (h : |jcent jd| ≤ 60) :
    AnglesNear (nutConstantsF fl (jcentF fl jd)) (jcent jd) := by
  unfold nutConstantsF
  refine ⟨modpi2F_range hf _, modpi2F_range hf _, modpi2F_range hf _, modpi2F_range hf _, modpi2F_range hf _,
    ?_, ?_, ?_, ?_, ?_⟩
  · rw [← degD_eq]; exact angle_near hf h degD_ok
  · rw [← degM_eq]; exact angle_near hf h degM_ok
  · rw [← degM1_eq]; exact angle_near hf h degM1_ok
  · rw [← degF_eq]; exact angle_near hf h degF_ok
  · rw [← dego_eq]; exact angle_near hf h dego_ok

/-- A product with a small integer. -/
theorem prod_near {fl : ℚ → ℚ} (hf : FloatLike fl) {c : ℚ} (h : 0 ≤ c ∧ c ≤ pi2F) {t : ℤ} (ht : |t| ≤ 9) :
    |(c : ℝ) * t| ≤ 57 ∧ Near (fl (c * t)) ((c : ℝ) * t) 1e-14 := by
  have h0 : (0 : ℝ) ≤ c := by exact_mod_cast h.1
  have h1 : (c : ℝ) ≤ 6.29 := by
    have : c ≤ 6.29 := h.2.trans (by norm_num [pi2F])
    have := (Rat.cast_le (K := ℝ)).mpr this; push_cast at this; exact this
  have ht' : |(t : ℝ)| ≤ 9 := by exact_mod_cast ht
  have a : |(c : ℝ) * t| ≤ 57 := by
    rw [abs_mul, abs_of_nonneg h0]
    refine (mul_le_mul h1 ht' (abs_nonneg _) (by norm_num)).trans (by norm_num)
  refine ⟨a, ?_⟩
  have n : Near (c * t) ((c : ℝ) * t) 0 := by simp [Near]
  exact n.rnd hf a (by rw [uuR, wwR]; norm_num)

theorem dev_le {c : ℚ} {x : ℝ} {k t : ℤ} (h : Near c (x + k * (2 * π)) 5.6e-10) :
    |(c : ℝ) * t - (x * t + (k * t : ℤ) * (2 * π))| ≤ 5.6e-10 * |(t : ℝ)| := by
  push_cast
  rw [show (c : ℝ) * t - (x * t + k * t * (2 * π)) = (c - (x + k * (2 * π))) * t by ring, abs_mul]
  exact mul_le_mul_of_nonneg_right h (abs_nonneg _)

/-- Checks the multiples in a row. -/
def rowOk (r : NutRow) : Bool :=
  decide (|r.1| + |r.2.1| + |r.2.2.1| + |r.2.2.2.1| + |r.2.2.2.2.1| ≤ 9)

theorem rows_ok : ∀ r ∈ Data.nutationTable, rowOk r = true := by decide +kernel

theorem nutArgF_near {fl : ℚ → ℚ} (hf : FloatLike fl) {c : ℚ × ℚ × ℚ × ℚ × ℚ} {T : ℝ} (h : AnglesNear c T)
    {r : NutRow} (hr : rowOk r = true) :
    NearA (nutArgF fl c r.1 r.2.1 r.2.2.1 r.2.2.2.1 r.2.2.2.2.1) (nutArg T r) 6e-9 := by
  obtain ⟨c1, c2, c3, c4, c5⟩ := c
  obtain ⟨t1, t2, t3, t4, t5, rest⟩ := r
  obtain ⟨b1, b2, b3, b4, b5, ⟨k1, n1⟩, ⟨k2, n2⟩, ⟨k3, n3⟩, ⟨k4, n4⟩, ⟨k5, n5⟩⟩ := h
  unfold rowOk at hr
  simp only [decide_eq_true_eq] at hr b1 b2 b3 b4 b5 n1 n2 n3 n4 n5
  have z1 := abs_nonneg t1
  have z2 := abs_nonneg t2
  have z3 := abs_nonneg t3
  have z4 := abs_nonneg t4
  have z5 := abs_nonneg t5
  obtain ⟨a1, p1⟩ := prod_near hf b1 (t := t1) (by omega)
  obtain ⟨a2, p2⟩ := prod_near hf b2 (t := t2) (by omega)
  obtain ⟨a3, p3⟩ := prod_near hf b3 (t := t3) (by omega)
  obtain ⟨a4, p4⟩ := prod_near hf b4 (t := t4) (by omega)
  obtain ⟨a5, p5⟩ := prod_near hf b5 (t := t5) (by omega)
  have s2 := (abs_add_le ((c1 : ℝ) * t1) (c2 * t2)).trans (add_le_add a1 a2)
  have q2 := (p1.add p2).rnd hf s2 (e' := 5e-14) (by rw [uuR, wwR]; norm_num)
  have s3 := (abs_add_le ((c1 : ℝ) * t1 + c2 * t2) (c3 * t3)).trans (add_le_add s2 a3)
  have q3 := (q2.add p3).rnd hf s3 (e' := 1e-13) (by rw [uuR, wwR]; norm_num)
  have s4 := (abs_add_le ((c1 : ℝ) * t1 + c2 * t2 + c3 * t3) (c4 * t4)).trans (add_le_add s3 a4)
  have q4 := (q3.add p4).rnd hf s4 (e' := 2e-13) (by rw [uuR, wwR]; norm_num)
  have s5 := (abs_add_le ((c1 : ℝ) * t1 + c2 * t2 + c3 * t3 + c4 * t4) (c5 * t5)).trans (add_le_add s4 a5)
  have q5 := (q4.add p5).rnd hf s5 (e' := 3e-13) (by rw [uuR, wwR]; norm_num)
  have d1 := dev_le (t := t1) n1
  have d2 := dev_le (t := t2) n2
  have d3 := dev_le (t := t3) n3
  have d4 := dev_le (t := t4) n4
  have d5 := dev_le (t := t5) n5
  have hr' : |(t1 : ℝ)| + |(t2 : ℝ)| + |(t3 : ℝ)| + |(t4 : ℝ)| + |(t5 : ℝ)| ≤ 9 := by exact_mod_cast hr
  refine ⟨k1 * t1 + k2 * t2 + k3 * t3 + k4 * t4 + k5 * t5, ?_⟩
  unfold nutArg nutArgF
  simp only
  unfold Near at q5 ⊢
  generalize fl (fl (fl (fl (fl (c1 * t1) + fl (c2 * t2)) + fl (c3 * t3)) + fl (c4 * t4)) + fl (c5 * t5)) = X at *
  generalize polyR kD T = x1 at *
  generalize polyR kM T = x2 at *
  generalize polyR kM1 T = x3 at *
  generalize polyR kF T = x4 at *
  generalize polyR ko T = x5 at *
  push_cast at d1 d2 d3 d4 d5 ⊢
  clear n1 n2 n3 n4 n5 p1 p2 p3 p4 p5 q2 q3 q4 s2 s3 s4 s5 a1 a2 a3 a4 a5
  have key : (X : ℝ) - (x1 * t1 + x2 * t2 + x3 * t3 + x4 * t4 + x5 * t5 +
      (k1 * t1 + k2 * t2 + k3 * t3 + k4 * t4 + k5 * t5) * (2 * π)) =
      (X - (c1 * t1 + c2 * t2 + c3 * t3 + c4 * t4 + c5 * t5)) +
      (c1 * t1 - (x1 * t1 + k1 * t1 * (2 * π))) + (c2 * t2 - (x2 * t2 + k2 * t2 * (2 * π))) +
      (c3 * t3 - (x3 * t3 + k3 * t3 * (2 * π))) + (c4 * t4 - (x4 * t4 + k4 * t4 * (2 * π))) +
      (c5 * t5 - (x5 * t5 + k5 * t5 * (2 * π))) := by ring
  rw [key]
  generalize (c1 : ℝ) * t1 - (x1 * t1 + k1 * t1 * (2 * π)) = g1 at *
  generalize (c2 : ℝ) * t2 - (x2 * t2 + k2 * t2 * (2 * π)) = g2 at *
  generalize (c3 : ℝ) * t3 - (x3 * t3 + k3 * t3 * (2 * π)) = g3 at *
  generalize (c4 : ℝ) * t4 - (x4 * t4 + k4 * t4 * (2 * π)) = g4 at *
  generalize (c5 : ℝ) * t5 - (x5 * t5 + k5 * t5 * (2 * π)) = g5 at *
  generalize (X : ℝ) - (c1 * t1 + c2 * t2 + c3 * t3 + c4 * t4 + c5 * t5) = g0 at *
  have := abs_add_le (g0 + g1 + g2 + g3 + g4) g5
  have := abs_add_le (g0 + g1 + g2 + g3) g4
  have := abs_add_le (g0 + g1 + g2) g3
  have := abs_add_le (g0 + g1) g2
  have := abs_add_le g0 g1
  norm_num at *
  linarith

/-! ### The sums -/

theorem sin_shift {x : ℝ} (k : ℤ) : sin (x + k * (2 * π)) = sin x := Real.sin_add_int_mul_two_pi x k
theorem cos_shift {x : ℝ} (k : ℤ) : cos (x + k * (2 * π)) = cos x := Real.cos_add_int_mul_two_pi x k

theorem NearA.cos {cosF : ℚ → ℚ} (hc : CosLike cosF) {a : ℚ} {x e : ℝ} (ha : NearA a x e) :
    Near (cosF a) (cos x) (e + 8 * uu) := by
  obtain ⟨k, h⟩ := ha
  have := h.cos hc
  rwa [cos_shift] at this

theorem NearA.sin {sinF : ℚ → ℚ} (hc : ∀ x : ℚ, |(sinF x : ℝ) - Real.sin x| ≤ 1 / 2 ^ 50) {a : ℚ} {x e : ℝ}
    (ha : NearA a x e) : Near (sinF a) (sin x) (e + 8 * uu) := by
  obtain ⟨k, ha⟩ := ha
  have h := hc a
  have l : |Real.sin a - Real.sin (x + k * (2 * π))| ≤ |(a : ℝ) - (x + k * (2 * π))| := Real.abs_sin_sub_sin_le _ _
  rw [sin_shift] at l
  have c : |(sinF a : ℝ) - Real.sin x| ≤ |(sinF a : ℝ) - Real.sin a| + |Real.sin a - Real.sin x| := abs_sub_le _ _ _
  have e8 : (8 * uu : ℝ) = 1 / 2 ^ 50 := by unfold uu; norm_num
  unfold Near at *
  rw [e8]
  linarith

/-- A coefficient of the nutation. -/
theorem nutCoeff_near {fl : ℚ → ℚ} (hf : FloatLike fl) {TF : ℚ} {T : ℝ} (hT : |T| ≤ 60)
    (h : Near TF T (126 * uu : ℚ)) {K t : ℤ} {M : ℝ} (hM : |(K : ℝ) / 10000| + |(t : ℝ) / 100000| * 60 ≤ M) (hM1 : M ≤ 100) :
    |(K : ℝ) / 10000 + t / 100000 * T| ≤ M ∧
      Near (nutCoeffF fl K t TF) ((K : ℝ) / 10000 + t / 100000 * T) 1e-13 := by
  have k0 := abs_nonneg ((K : ℝ) / 10000)
  have t0 := abs_nonneg ((t : ℝ) / 100000)
  have a2 : |(t : ℝ) / 100000 * T| ≤ |(t : ℝ) / 100000| * 60 := by
    rw [abs_mul]; exact mul_le_mul_of_nonneg_left hT t0
  have a3 : |(K : ℝ) / 10000 + t / 100000 * T| ≤ M := (abs_add_le _ _).trans ((add_le_add le_rfl a2).trans hM)
  refine ⟨a3, ?_⟩
  have n1 := lit_near hf ((K : ℚ) / 10000)
  have n2 := lit_near hf ((t : ℚ) / 100000)
  push_cast at n1 n2
  have n3 := (n2.mul h le_rfl hT).fl hf a2
  have n4 := (n1.add n3).fl hf a3
  unfold nutCoeffF
  refine n4.mono ?_
  have t1 : |(t : ℝ) / 100000| ≤ 5 / 3 := by linarith
  have k1 : |(K : ℝ) / 10000| ≤ 100 := by linarith
  generalize |(t : ℝ) / 100000| = a at *
  generalize |(K : ℝ) / 10000| = b at *
  push_cast
  rw [uuR, wwR]
  norm_num at *
  linarith

end Verif
