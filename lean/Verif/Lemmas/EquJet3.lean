import Mathlib.Analysis.SpecialFunctions.Trigonometric.InverseDeriv
import Verif.Lemmas.Jet3
import Verif.Spec.Sphere

/-!
# Lemmas: three derivatives of right ascension and declination along a path given in ecliptic coordinates
-/

namespace Verif
open Real

theorem Jet3.sin {f f1 f2 f3 : ℝ → ℝ} (j : Jet3 f f1 f2 f3) :
    Jet3 (fun x => Real.sin (f x)) (fun x => Real.cos (f x) * f1 x) (fun x => Real.cos (f x) * f2 x - Real.sin (f x) * f1 x ^ 2)
      (fun x => Real.cos (f x) * (f3 x - f1 x ^ 3) - 3 * Real.sin (f x) * f1 x * f2 x) := by
  refine ⟨fun x => (j.d1 x).sin, fun x => ?_, fun x => ?_⟩
  · exact ((j.d1 x).cos.mul (j.d2 x)).congr_deriv (by ring)
  · exact (((j.d1 x).cos.mul (j.d3 x)).sub ((j.d1 x).sin.mul ((j.d2 x).pow 2))).congr_deriv
      (by simp only [Pi.pow_apply]; push_cast; ring)

theorem sinJet_bounds {S C a b c A B D : ℝ} (hS : |S| ≤ 1) (hC : |C| ≤ 1) (ha : |a| ≤ A) (hb : |b| ≤ B) (hc : |c| ≤ D) :
    |C * a| ≤ A ∧ |C * b - S * a ^ 2| ≤ B + A ^ 2 ∧ |C * (c - a ^ 3) - 3 * S * a * b| ≤ D + A ^ 3 + 3 * A * B := by
  have A0 := (abs_nonneg _).trans ha
  have m : ∀ {u v V : ℝ}, |u| ≤ 1 → |v| ≤ V → |u * v| ≤ V := fun hu hv => by
    rw [abs_mul]; exact (mul_le_of_le_one_left (abs_nonneg _) hu).trans hv
  have a2 : |a ^ 2| ≤ A ^ 2 := by rw [abs_pow]; gcongr
  have a3 : |a ^ 3| ≤ A ^ 3 := by rw [abs_pow]; gcongr
  refine ⟨m hC ha, (abs_sub _ _).trans (add_le_add (m hC hb) (m hS a2)), ?_⟩
  refine (abs_sub _ _).trans (add_le_add (m hC ((abs_sub _ _).trans (add_le_add hc a3))) ?_)
  rw [show 3 * S * a * b = S * (3 * a * b) by ring]
  refine m hS ?_
  rw [abs_mul, abs_mul, abs_of_pos (by norm_num : (0 : ℝ) < 3)]
  gcongr

theorem Jet3.arcsin {z z1 z2 z3 : ℝ → ℝ} (j : Jet3 z z1 z2 z3) (h : ∀ x, |z x| < 1) :
    Jet3 (fun x => Real.arcsin (z x)) (fun x => z1 x * (√(1 - z x ^ 2))⁻¹)
      (fun x => z2 x * (√(1 - z x ^ 2))⁻¹ + z x * z1 x ^ 2 * ((√(1 - z x ^ 2))⁻¹) ^ 3)
      (fun x => z3 x * (√(1 - z x ^ 2))⁻¹ + 3 * z x * z1 x * z2 x * ((√(1 - z x ^ 2))⁻¹) ^ 3 +
        z1 x ^ 3 * (((√(1 - z x ^ 2))⁻¹) ^ 3 + 3 * z x ^ 2 * ((√(1 - z x ^ 2))⁻¹) ^ 5)) := by
  have w : ∀ x, 0 < 1 - z x ^ 2 := fun x => by
    have := h x
    rw [← sq_abs]
    nlinarith [abs_nonneg (z x)]
  have r : ∀ x, HasDerivAt (fun x => (√(1 - z x ^ 2))⁻¹) (z x * z1 x * ((√(1 - z x ^ 2))⁻¹) ^ 3) x := fun x => by
    have s := (((j.d1 x).pow 2).const_sub 1).sqrt (by simp only [Pi.pow_apply]; exact (w x).ne')
    have q := Real.sqrt_pos.mpr (w x)
    refine (s.inv (by simp only [Pi.pow_apply]; exact q.ne')).congr_deriv ?_
    simp only [Pi.pow_apply]
    generalize √(1 - z x ^ 2) = u at *
    field_simp
    push_cast; ring
  refine ⟨fun x => ?_, fun x => ?_, fun x => ?_⟩
  · obtain ⟨a, b⟩ := abs_lt.mp (h x)
    exact ((Real.hasDerivAt_arcsin (by linarith) (by linarith)).comp x (j.d1 x)).congr_deriv (by rw [one_div]; ring)
  · exact ((j.d2 x).mul (r x)).congr_deriv (by ring)
  · have a := ((j.d3 x).mul (r x)).add (((j.d1 x).mul ((j.d2 x).pow 2)).mul ((r x).pow 3))
    refine a.congr_deriv ?_
    simp only [Pi.pow_apply, Pi.mul_apply]
    push_cast
    ring

/-- The path: ecliptic longitude and latitude with derivatives. -/
structure MoonPath (l l1 l2 l3 b b1 b2 b3 : ℝ → ℝ) : Prop where
  jl : Jet3 l l1 l2 l3
  jb : Jet3 b b1 b2 b3
  l1 : ∀ x, |l1 x| ≤ 0.27
  l2 : ∀ x, |l2 x| ≤ 0.0112
  l3 : ∀ x, |l3 x| ≤ 0.0037
  b0 : ∀ x, |b x| ≤ 0.1065
  b1 : ∀ x, |b1 x| ≤ 0.0251
  b2 : ∀ x, |b2 x| ≤ 0.00675
  b3 : ∀ x, |b3 x| ≤ 0.00211

/-- Cosine and sine of the obliquity. -/
structure Obl (c s : ℝ) : Prop where
  c0 : 0.9142 ≤ c
  c1 : c ≤ 0.93
  s1 : |s| ≤ 0.4055

theorem arcsin_jet_bounds {z z1 z2 z3 r : ℝ} (hz : |z| ≤ 0.5046) (h1 : |z1| ≤ 0.1431) (h2 : |z2| ≤ 0.0495)
    (h3 : |z3| ≤ 0.0217) (r0 : 0 < r) (hr : r ≤ 1.1586) : |z1 * r| ≤ 0.166 ∧ |z2 * r + z * z1 ^ 2 * r ^ 3| ≤ 0.074 ∧
    |z3 * r + 3 * z * z1 * z2 * r ^ 3 + z1 ^ 3 * (r ^ 3 + 3 * z ^ 2 * r ^ 5)| ≤ 0.0512 := by
  have n1 := abs_nonneg z1
  have n2 := abs_nonneg z2
  have n0 := abs_nonneg z
  refine ⟨?_, ?_, ?_⟩
  · rw [abs_mul, abs_of_pos r0]
    calc |z1| * r ≤ 0.1431 * 1.1586 := by gcongr
      _ ≤ 0.166 := by norm_num
  · refine (abs_add_le _ _).trans ?_
    simp only [abs_mul, abs_pow, abs_of_pos r0]
    calc |z2| * r + |z| * |z1| ^ 2 * r ^ 3 ≤ 0.0495 * 1.1586 + 0.5046 * 0.1431 ^ 2 * 1.1586 ^ 3 := by gcongr
      _ ≤ 0.074 := by norm_num
  · refine (abs_add_le _ _).trans ((add_le_add (abs_add_le _ _) le_rfl).trans ?_)
    rw [abs_mul z3, abs_mul (z1 ^ 3), abs_of_pos (by positivity : 0 < r ^ 3 + 3 * z ^ 2 * r ^ 5)]
    simp only [abs_mul, abs_pow, abs_of_pos r0, abs_of_pos (by norm_num : (0 : ℝ) < 3)]
    rw [← sq_abs z]
    calc |z3| * r + 3 * |z| * |z1| * |z2| * r ^ 3 + |z1| ^ 3 * (r ^ 3 + 3 * |z| ^ 2 * r ^ 5) ≤
        0.0217 * 1.1586 + 3 * 0.5046 * 0.1431 * 0.0495 * 1.1586 ^ 3 +
        0.1431 ^ 3 * (1.1586 ^ 3 + 3 * 0.5046 ^ 2 * 1.1586 ^ 5) := by gcongr
      _ ≤ 0.0512 := by norm_num

/-- The declination along the path. -/
theorem delta_jet {l l1 l2 l3 b b1 b2 b3 : ℝ → ℝ} (p : MoonPath l l1 l2 l3 b b1 b2 b3) {c s : ℝ} (o : Obl c s) :
    ∃ f1 f2 f3, Jet3 (fun x => arcsin (sin (b x) * c + cos (b x) * s * sin (l x))) f1 f2 f3 ∧
      ∀ x, |sin (b x) * c + cos (b x) * s * sin (l x)| ≤ 0.5046 ∧ |f1 x| ≤ 0.166 ∧ |f2 x| ≤ 0.074 ∧ |f3 x| ≤ 0.0512 := by
  have c0 : 0 ≤ c := by have := o.c0; norm_num at this; linarith
  have ac : |c| ≤ 0.93 := by rw [abs_of_nonneg c0]; exact o.c1
  have jz := ((p.jb.sin.smul c).add (((p.jl.add p.jb).sin.smul (s / 2)).add ((p.jl.sub p.jb).sin.smul (s / 2))))
  have e : ∀ x, c * sin (b x) + (s / 2 * sin (l x + b x) + s / 2 * sin (l x - b x)) =
      sin (b x) * c + cos (b x) * s * sin (l x) := fun x => by rw [sin_add, sin_sub]; ring
  simp only [e] at jz
  have bz : ∀ x, |sin (b x) * c + cos (b x) * s * sin (l x)| ≤ 0.5046 := by
    intro x
    refine (abs_add_le _ _).trans ?_
    rw [abs_mul, abs_mul, abs_mul]
    have h1 := abs_sin_le_abs (x := b x)
    have h2 := p.b0 x
    have h3 := mul_le_mul (h1.trans h2) ac (abs_nonneg _) (by norm_num)
    have h4 := mul_le_mul (mul_le_mul (abs_cos_le_one (b x)) o.s1 (abs_nonneg _) (by norm_num)) (abs_sin_le_one (l x))
      (abs_nonneg _) (by norm_num)
    norm_num at h3 h4 ⊢; linarith
  have J := jz.arcsin (fun x => lt_of_le_of_lt (bz x) (by norm_num))
  refine ⟨_, _, _, J, fun x => ⟨bz x, ?_⟩⟩
  have q1 := sinJet_bounds (abs_sin_le_one (b x)) (abs_cos_le_one (b x)) (p.b1 x) (p.b2 x) (p.b3 x)
  have q2 := sinJet_bounds (abs_sin_le_one (l x + b x)) (abs_cos_le_one (l x + b x))
    ((abs_add_le _ _).trans (add_le_add (p.l1 x) (p.b1 x))) ((abs_add_le _ _).trans (add_le_add (p.l2 x) (p.b2 x)))
    ((abs_add_le _ _).trans (add_le_add (p.l3 x) (p.b3 x)))
  have q3 := sinJet_bounds (abs_sin_le_one (l x - b x)) (abs_cos_le_one (l x - b x))
    ((abs_sub _ _).trans (add_le_add (p.l1 x) (p.b1 x))) ((abs_sub _ _).trans (add_le_add (p.l2 x) (p.b2 x)))
    ((abs_sub _ _).trans (add_le_add (p.l3 x) (p.b3 x)))
  have lin : ∀ {u v w U V K : ℝ}, |u| ≤ U → |v| ≤ V → |w| ≤ V → 0.93 * U + 0.4055 * V ≤ K →
      |c * u + (s / 2 * v + s / 2 * w)| ≤ K := by
    intro u v w U V K hu hv hw hk
    refine (abs_add_le _ _).trans ((add_le_add le_rfl (abs_add_le _ _)).trans (le_trans ?_ hk))
    have V0 := (abs_nonneg _).trans hv
    have s2 : |s / 2| ≤ 0.4055 / 2 := by rw [abs_div, abs_of_pos (by norm_num : (0 : ℝ) < 2)]; gcongr; exact o.s1
    rw [abs_mul, abs_mul, abs_mul]
    have m1 := mul_le_mul ac hu (abs_nonneg _) (by norm_num)
    have m2 := mul_le_mul s2 hv (abs_nonneg _) (by norm_num)
    have m3 := mul_le_mul s2 hw (abs_nonneg _) (by norm_num)
    linarith
  refine arcsin_jet_bounds (bz x) (lin q1.1 q2.1 q3.1 (by norm_num)) (lin q1.2.1 q2.2.1 q3.2.1 (by norm_num))
    (lin q1.2.2 q2.2.2 q3.2.2 (by norm_num)) ?_ ?_
  · have := bz x
    clear * - this
    generalize sin (b x) * c + cos (b x) * s * sin (l x) = Z at *
    have : Z ^ 2 ≤ 0.5046 ^ 2 := by rw [← sq_abs]; gcongr
    exact inv_pos.mpr (Real.sqrt_pos.mpr (by norm_num at this ⊢; linarith))
  · have := bz x
    clear * - this
    generalize sin (b x) * c + cos (b x) * s * sin (l x) = Z at *
    have : Z ^ 2 ≤ 0.5046 ^ 2 := by rw [← sq_abs]; gcongr
    have r : 0.8633 ≤ √(1 - Z ^ 2) := by
      rw [Real.le_sqrt' (by norm_num)]; norm_num at this ⊢; linarith
    refine (inv_anti₀ (by norm_num) r).trans (by norm_num)

end Verif
