import Verif.Lemmas.Taylor2
import Mathlib.Analysis.Real.Pi.Bounds
import Mathlib.Analysis.SpecialFunctions.Complex.Arg
import Mathlib.Analysis.SpecialFunctions.Trigonometric.Bounds
import Mathlib.Analysis.SpecialFunctions.Trigonometric.Deriv

/-!
# Lemmas about second differences: of functions with a bounded second derivative, of points moving in space in
polar coordinates, and of the argument of complex numbers
-/

namespace Verif
open Real

/-- Taylor's formula of the first order, on the right, one side. -/
theorem taylor1_side {f f1 f2 : ℝ → ℝ} {r A : ℝ} (h1 : ∀ x, 0 ≤ x → x ≤ r → HasDerivAt f (f1 x) x)
    (h2 : ∀ x, 0 ≤ x → x ≤ r → HasDerivAt f1 (f2 x) x) (hA : ∀ x, 0 ≤ x → x ≤ r → f2 x ≤ A) :
    ∀ x, 0 ≤ x → x ≤ r → f x ≤ f 0 + f1 0 * x + A / 2 * x ^ 2 := by
  have p1 : ∀ (x : ℝ), HasDerivAt (fun x : ℝ => x) 1 x := fun x => hasDerivAt_id x
  have a2 : ∀ x, 0 ≤ x → x ≤ r → 0 ≤ f1 0 + A * x - f1 x := by
    refine nonneg_of_deriv (g := fun x => A - f2 x) (fun x x0 xr => ?_) (by ring) (fun x x0 xr => ?_)
    · have := (((p1 x).const_mul A).const_add (f1 0)).sub (h2 x x0 xr)
      exact this.congr_deriv (by ring)
    · have := hA x x0 xr; linarith
  have a1 : ∀ x, 0 ≤ x → x ≤ r → 0 ≤ f 0 + f1 0 * x + A / 2 * x ^ 2 - f x := by
    refine nonneg_of_deriv (g := fun x => f1 0 + A * x - f1 x) (fun x x0 xr => ?_) (by ring) a2
    have := ((((p1 x).const_mul (f1 0)).const_add (f 0)).add (((p1 x).pow 2).const_mul (A / 2))).sub (h1 x x0 xr)
    exact this.congr_deriv (by simp; ring)
  intro x x0 xr
  have := a1 x x0 xr
  linarith

/-- First and second differences of a function with bounded derivatives, for unequal steps. -/
theorem second_diff {f f1 f2 : ℝ → ℝ} {K V A a b c : ℝ} (h1 : ∀ x, HasDerivAt f (f1 x) x)
    (h2 : ∀ x, HasDerivAt f1 (f2 x) x) (hV : ∀ x, |x| ≤ K → |f1 x| ≤ V) (hA : ∀ x, |x| ≤ K → |f2 x| ≤ A)
    (ha : |a| ≤ K) (hb : |b| ≤ K) (hc : |c| ≤ K) (ab : a ≤ b) (bc : b ≤ c) :
    f b - f a ≤ V * (b - a) ∧ f c - f b ≤ V * (c - b) ∧
    f c - 2 * f b + f a ≤ A / 2 * ((c - b) ^ 2 + (b - a) ^ 2) + V * |(c - b) - (b - a)| := by
  have mid : ∀ {x u v : ℝ}, |u| ≤ K → |v| ≤ K → u ≤ x → x ≤ v → |x| ≤ K := by
    intro x u v hu hv h h'
    rw [abs_le] at *; constructor <;> linarith
  have step : ∀ {u v : ℝ}, |u| ≤ K → |v| ≤ K → u ≤ v → f v - f u ≤ V * (v - u) := by
    intro u v hu hv huv
    have := nonneg_of_deriv (f := fun x => V * x - (f (u + x) - f u)) (g := fun x => V - f1 (u + x)) (r := v - u)
      (fun x x0 xr => by
        have := ((hasDerivAt_id x).const_mul V).sub (((h1 (u + x)).comp_const_add u x).sub_const (f u))
        exact this.congr_deriv (by simp))
      (by simp) (fun x x0 xr => by
        have := (abs_le.mp (hV (u + x) (mid hu hv (by linarith) (by linarith)))).2; linarith)
      (v - u) (by linarith) le_rfl
    simp only [add_sub_cancel] at this
    linarith
  refine ⟨step ha hb ab, step hb hc bc, ?_⟩
  have r := taylor1_side (f := fun x => f (b + x)) (f1 := fun x => f1 (b + x)) (f2 := fun x => f2 (b + x)) (r := c - b)
    (A := A) (fun x _ _ => (h1 (b + x)).comp_const_add b x) (fun x _ _ => (h2 (b + x)).comp_const_add b x)
    (fun x x0 xr => (abs_le.mp (hA (b + x) (mid hb hc (by linarith) (by linarith)))).2) (c - b) (by linarith) le_rfl
  have l := taylor1_side (f := fun x => f (b - x)) (f1 := fun x => -f1 (b - x)) (f2 := fun x => f2 (b - x)) (r := b - a)
    (A := A) (fun x _ _ => (h1 (b - x)).comp_const_sub b x)
    (fun x _ _ => by
      have := ((h2 (b - x)).comp_const_sub b x).neg
      rwa [neg_neg] at this)
    (fun x x0 xr => (abs_le.mp (hA (b - x) (mid ha hb (by linarith) (by linarith)))).2) (b - a) (by linarith) le_rfl
  simp only [add_sub_cancel, add_zero, sub_zero, sub_sub_cancel] at r l
  have m : f1 b * ((c - b) - (b - a)) ≤ V * |(c - b) - (b - a)| := by
    refine (le_abs_self _).trans ?_
    rw [abs_mul]
    exact mul_le_mul_of_nonneg_right (hV b hb) (abs_nonneg _)
  linarith

/-- Distance of a function with a bounded second derivative from its chord, on one side. -/
theorem chord_diff {f f1 f2 : ℝ → ℝ} {K A a b c : ℝ} (h1 : ∀ x, |x| ≤ K → HasDerivAt f (f1 x) x)
    (h2 : ∀ x, |x| ≤ K → HasDerivAt f1 (f2 x) x) (hA : ∀ x, |x| ≤ K → |f2 x| ≤ A)
    (ha : |a| ≤ K) (hb : |b| ≤ K) (hc : |c| ≤ K) (ab : a ≤ b) (bc : b ≤ c) :
    (b - a) * f c + (c - b) * f a - (c - a) * f b ≤ A / 2 * ((c - b) * (b - a) * (c - a)) := by
  have mid : ∀ {x u v : ℝ}, |u| ≤ K → |v| ≤ K → u ≤ x → x ≤ v → |x| ≤ K := by
    intro x u v hu hv h h'
    rw [abs_le] at *; constructor <;> linarith
  have r := taylor1_side (f := fun x => f (b + x)) (f1 := fun x => f1 (b + x)) (f2 := fun x => f2 (b + x)) (r := c - b)
    (A := A) (fun x x0 xr => (h1 (b + x) (mid hb hc (by linarith) (by linarith))).comp_const_add b x)
    (fun x x0 xr => (h2 (b + x) (mid hb hc (by linarith) (by linarith))).comp_const_add b x)
    (fun x x0 xr => (abs_le.mp (hA (b + x) (mid hb hc (by linarith) (by linarith)))).2) (c - b) (by linarith) le_rfl
  have l := taylor1_side (f := fun x => f (b - x)) (f1 := fun x => -f1 (b - x)) (f2 := fun x => f2 (b - x)) (r := b - a)
    (A := A) (fun x x0 xr => (h1 (b - x) (mid ha hb (by linarith) (by linarith))).comp_const_sub b x)
    (fun x x0 xr => by
      have := ((h2 (b - x) (mid ha hb (by linarith) (by linarith))).comp_const_sub b x).neg
      rwa [neg_neg] at this)
    (fun x x0 xr => (abs_le.mp (hA (b - x) (mid ha hb (by linarith) (by linarith)))).2) (b - a) (by linarith) le_rfl
  simp only [add_sub_cancel, add_zero, sub_zero, sub_sub_cancel] at r l
  have r' := mul_le_mul_of_nonneg_left r (sub_nonneg.mpr ab)
  have l' := mul_le_mul_of_nonneg_left l (sub_nonneg.mpr bc)
  nlinarith

/-! ### Points moving in space -/

/-- Component of the unit vector of longitude `l` and latitude `b`, and its partial derivatives. -/
noncomputable def jP (x y z l b : ℝ) : ℝ := x * (cos b * cos l) + y * (cos b * sin l) + z * sin b
noncomputable def jQ (x y l b : ℝ) : ℝ := -(x * (cos b * sin l)) + y * (cos b * cos l)
noncomputable def jS (x y z l b : ℝ) : ℝ := -(x * (sin b * cos l)) - y * (sin b * sin l) + z * cos b
noncomputable def jQL (x y l b : ℝ) : ℝ := -(x * (cos b * cos l)) - y * (cos b * sin l)
noncomputable def jQB (x y l b : ℝ) : ℝ := x * (sin b * sin l) - y * (sin b * cos l)

theorem jet_deriv {r l b : ℝ → ℝ} {r' l' b' t : ℝ} (x y z : ℝ) (hr : HasDerivAt r r' t) (hl : HasDerivAt l l' t)
    (hb : HasDerivAt b b' t) : HasDerivAt (fun t => r t * jP x y z (l t) (b t))
      (r' * jP x y z (l t) (b t) + r t * (l' * jQ x y (l t) (b t) + b' * jS x y z (l t) (b t))) t := by
  have P := (((hb.cos.mul hl.cos).const_mul x).add ((hb.cos.mul hl.sin).const_mul y)).add (hb.sin.const_mul z)
  exact (hr.mul P).congr_deriv (by simp only [jP, jQ, jS, Pi.add_apply, Pi.mul_apply]; ring)

theorem jet_deriv2 {r l b r1 l1 b1 : ℝ → ℝ} {r2 l2 b2 t : ℝ} (x y z : ℝ) (hr : HasDerivAt r (r1 t) t)
    (hl : HasDerivAt l (l1 t) t) (hb : HasDerivAt b (b1 t) t) (hr1 : HasDerivAt r1 r2 t)
    (hl1 : HasDerivAt l1 l2 t) (hb1 : HasDerivAt b1 b2 t) :
    HasDerivAt (fun t => r1 t * jP x y z (l t) (b t) + r t * (l1 t * jQ x y (l t) (b t) + b1 t * jS x y z (l t) (b t)))
      (r2 * jP x y z (l t) (b t) + 2 * r1 t * (l1 t * jQ x y (l t) (b t) + b1 t * jS x y z (l t) (b t)) +
        r t * (l2 * jQ x y (l t) (b t) + b2 * jS x y z (l t) (b t) + l1 t ^ 2 * jQL x y (l t) (b t) +
          2 * (l1 t * b1 t) * jQB x y (l t) (b t) - b1 t ^ 2 * jP x y z (l t) (b t))) t := by
  have A := jet_deriv x y z hr1 hl hb
  have Q := ((hb.cos.mul hl.sin).const_mul x).neg.add ((hb.cos.mul hl.cos).const_mul y)
  have S := (((hb.sin.mul hl.cos).const_mul x).neg.sub ((hb.sin.mul hl.sin).const_mul y)).add (hb.cos.const_mul z)
  have B := hr.mul ((hl1.mul Q).add (hb1.mul S))
  refine (A.add B).congr_deriv ?_
  simp only [jP, jQ, jS, jQL, jQB, Pi.add_apply, Pi.mul_apply, Pi.neg_apply, Pi.sub_apply]
  ring

theorem jet_unit {x y z : ℝ} (h : x ^ 2 + y ^ 2 + z ^ 2 ≤ 1) (l b : ℝ) :
    jP x y z l b ^ 2 + jQ x y l b ^ 2 + jS x y z l b ^ 2 ≤ 1 ∧ jQL x y l b ^ 2 ≤ 1 ∧ jQB x y l b ^ 2 ≤ 1 := by
  have sb := sin_sq_add_cos_sq b
  have sl := sin_sq_add_cos_sq l
  unfold jP jQ jS jQL jQB
  generalize cos b = cb at *
  generalize sin b = sb' at *
  generalize cos l = cl at *
  generalize sin l = sl' at *
  have e1 : (x * (cb * cl) + y * (cb * sl') + z * sb') ^ 2 + (-(x * (sb' * cl)) - y * (sb' * sl') + z * cb) ^ 2 =
      (sb' ^ 2 + cb ^ 2) * ((x * cl + y * sl') ^ 2 + z ^ 2) := by ring
  have e2 : (x * cl + y * sl') ^ 2 + (-x * sl' + y * cl) ^ 2 = (x ^ 2 + y ^ 2) * (sl' ^ 2 + cl ^ 2) := by ring
  rw [sb, one_mul] at e1
  rw [sl, mul_one] at e2
  have c1 : cb ^ 2 ≤ 1 := by nlinarith
  have s1 : sb' ^ 2 ≤ 1 := by nlinarith
  refine ⟨?_, ?_, ?_⟩
  · have e3 : (-(x * (cb * sl')) + y * (cb * cl)) ^ 2 = cb ^ 2 * (-x * sl' + y * cl) ^ 2 := by ring
    have := mul_le_of_le_one_left (sq_nonneg (-x * sl' + y * cl)) c1
    nlinarith
  · have e3 : (-(x * (cb * cl)) - y * (cb * sl')) ^ 2 = cb ^ 2 * (x * cl + y * sl') ^ 2 := by ring
    have := mul_le_of_le_one_left (sq_nonneg (x * cl + y * sl')) c1
    nlinarith [sq_nonneg (-x * sl' + y * cl), sq_nonneg z]
  · have e3 : (x * (sb' * sl') - y * (sb' * cl)) ^ 2 = sb' ^ 2 * (-x * sl' + y * cl) ^ 2 := by ring
    have := mul_le_of_le_one_left (sq_nonneg (-x * sl' + y * cl)) s1
    nlinarith [sq_nonneg (x * cl + y * sl'), sq_nonneg z]

/-- Bound of the velocity. -/
theorem jet_speed {P Q S r R r1 l1 b1 R1 L1 B1 V : ℝ} (h : P ^ 2 + Q ^ 2 + S ^ 2 ≤ 1) (hr : |r| ≤ R) (h1 : |r1| ≤ R1)
    (h2 : |l1| ≤ L1) (h3 : |b1| ≤ B1) (hV : 0 ≤ V) (k : R1 ^ 2 + R ^ 2 * (L1 ^ 2 + B1 ^ 2) ≤ V ^ 2) :
    |r1 * P + r * (l1 * Q + b1 * S)| ≤ V := by
  refine abs_le_of_sq_le_sq ?_ hV
  have q : ∀ {u U : ℝ}, |u| ≤ U → u ^ 2 ≤ U ^ 2 := fun h => by
    rw [← sq_abs]; exact pow_le_pow_left₀ (abs_nonneg _) h 2
  have cs : (r1 * P + r * (l1 * Q + b1 * S)) ^ 2 ≤
      (r1 ^ 2 + (r * l1) ^ 2 + (r * b1) ^ 2) * (P ^ 2 + Q ^ 2 + S ^ 2) := by
    nlinarith [sq_nonneg (r1 * Q - r * l1 * P), sq_nonneg (r1 * S - r * b1 * P), sq_nonneg (r * l1 * S - r * b1 * Q)]
  have m1 : (r * l1) ^ 2 ≤ R ^ 2 * L1 ^ 2 := by rw [mul_pow]; exact mul_le_mul (q hr) (q h2) (sq_nonneg _) (sq_nonneg _)
  have m2 : (r * b1) ^ 2 ≤ R ^ 2 * B1 ^ 2 := by rw [mul_pow]; exact mul_le_mul (q hr) (q h3) (sq_nonneg _) (sq_nonneg _)
  have m3 := q h1
  have := mul_le_of_le_one_right (by positivity : 0 ≤ r1 ^ 2 + (r * l1) ^ 2 + (r * b1) ^ 2) h
  linarith

/-- Bound of the acceleration. -/
theorem jet_accel {P Q S QL QB r R r1 l1 b1 r2 l2 b2 R1 L1 B1 R2 L2 B2 : ℝ} (hP : |P| ≤ 1) (hQ : |Q| ≤ 1) (hS : |S| ≤ 1)
    (hQL : |QL| ≤ 1) (hQB : |QB| ≤ 1) (hr : |r| ≤ R) (h1 : |r1| ≤ R1) (h2 : |l1| ≤ L1) (h3 : |b1| ≤ B1) (h4 : |r2| ≤ R2)
    (h5 : |l2| ≤ L2) (h6 : |b2| ≤ B2) :
    |r2 * P + 2 * r1 * (l1 * Q + b1 * S) + r * (l2 * Q + b2 * S + l1 ^ 2 * QL + 2 * (l1 * b1) * QB - b1 ^ 2 * P)| ≤
      R2 + 2 * R1 * (L1 + B1) + R * (L2 + B2 + (L1 + B1) ^ 2) := by
  have m : ∀ {u U v W : ℝ}, |u| ≤ U → |v| ≤ W → |u * v| ≤ U * W := fun hu hv => by
    rw [abs_mul]; exact mul_le_mul hu hv (abs_nonneg _) ((abs_nonneg _).trans hu)
  have a : ∀ {u U v W : ℝ}, |u| ≤ U → |v| ≤ W → |u + v| ≤ U + W := fun hu hv => (abs_add_le _ _).trans (add_le_add hu hv)
  have t2 : |(2 : ℝ)| ≤ 2 := by norm_num
  have q : ∀ {u U : ℝ}, |u| ≤ U → |u ^ 2| ≤ U ^ 2 := fun h => by
    rw [abs_pow]; exact pow_le_pow_left₀ (abs_nonneg _) h 2
  have nb : |-(b1 ^ 2 * P)| ≤ B1 ^ 2 * 1 := by rw [abs_neg]; exact m (q h3) hP
  have := a (a (m h4 hP) (m (m t2 h1) (a (m h2 hQ) (m h3 hS))))
    (m hr (a (a (a (a (m h5 hQ) (m h6 hS)) (m (q h2) hQL)) (m (m t2 (m h2 h3)) hQB)) nb))
  refine (le_of_eq ?_).trans (this.trans (le_of_eq ?_))
  · ring_nf
  · ring

/-! ### Arguments of complex numbers -/

theorem arg_small {P : ℂ} {k c : ℝ} (h : ‖P - 1‖ ≤ k) (hc0 : 0 < c) (hc1 : c ≤ 1) (hk : k ≤ c - c ^ 3 / 4) :
    |P.arg| ≤ c := by
  have hp := Real.pi_gt_three
  have c3 : 0 < c ^ 3 := by positivity
  have re : 1 - k ≤ P.re := by
    have := (abs_le.mp (Complex.abs_re_le_norm (P - 1))).1
    simp only [Complex.sub_re, Complex.one_re] at this
    linarith
  have r0 : 0 < P.re := by linarith
  have half : |P.arg| < π / 2 := Complex.abs_arg_lt_pi_div_two_iff.mpr (.inl r0)
  have n0 : P ≠ 0 := fun h => by rw [h] at r0; simp at r0
  have s : |sin P.arg| ≤ k := by
    refine abs_le_of_sq_le_sq ?_ ((norm_nonneg _).trans h)
    have e1 : ‖P‖ * cos P.arg = P.re := Complex.norm_mul_cos_arg P
    have e2 : ‖P‖ * sin P.arg = P.im := Complex.norm_mul_sin_arg P
    have e3 : ‖P - 1‖ ^ 2 = (P.re - 1) ^ 2 + P.im ^ 2 := by
      rw [← Complex.normSq_eq_norm_sq, Complex.normSq_apply]; simp; ring
    have e4 : ‖P - 1‖ ^ 2 ≤ k ^ 2 := pow_le_pow_left₀ (norm_nonneg _) h 2
    rw [e3, ← e1, ← e2] at e4
    have t := sin_sq_add_cos_sq P.arg
    nlinarith [sq_nonneg (‖P‖ - cos P.arg)]
  by_contra hn
  push Not at hn
  have sa : sin |P.arg| = |sin P.arg| := by
    rcases abs_cases P.arg with ⟨e, h0⟩ | ⟨e, h0⟩
    · rw [e, abs_of_nonneg (sin_nonneg_of_nonneg_of_le_pi h0 (Complex.arg_le_pi P))]
    · rw [e, sin_neg, abs_of_nonpos]
      exact sin_nonpos_of_nonpos_of_neg_pi_le h0.le (Complex.neg_pi_lt_arg P).le
  have mono : sin c < sin |P.arg| := sin_lt_sin_of_lt_of_le_pi_div_two (by linarith) half.le hn
  have := sin_gt_sub_cube hc0
  rw [sa] at mono
  linarith

/-- First and second differences of the argument. -/
theorem args_slow {w0 w1 w2 : ℂ} {r V E C : ℝ} (hr : 0 < r) (h1 : r ≤ ‖w1‖) (ha : ‖w2 - w1‖ ≤ V) (hb : ‖w1 - w0‖ ≤ V)
    (hE : ‖w2 - 2 * w1 + w0‖ ≤ E) (k1 : V ≤ 0.25 * r) (k2 : V ^ 2 + E * r ≤ (C - C ^ 3 / 4) * r ^ 2)
    (C0 : 0 < C) (C1 : C ≤ 1) :
    |(w2 / w1).arg| ≤ 0.26 ∧ |(w0 / w1).arg| ≤ 0.26 ∧ |(w2 / w1).arg + (w0 / w1).arg| ≤ C ∧
      w0 ≠ 0 ∧ w1 ≠ 0 ∧ w2 ≠ 0 := by
  have hn : 0 < ‖w1‖ := lt_of_lt_of_le hr h1
  have n1 : w1 ≠ 0 := norm_pos_iff.mp hn
  have V0 : 0 ≤ V := (norm_nonneg _).trans ha
  have E0 : 0 ≤ E := (norm_nonneg _).trans hE
  have d2 : ‖w2 / w1 - 1‖ ≤ 0.25 := by
    rw [show w2 / w1 - 1 = (w2 - w1) / w1 by field_simp, norm_div, div_le_iff₀ hn]
    norm_num at k1 ⊢; linarith
  have d0 : ‖w0 / w1 - 1‖ ≤ 0.25 := by
    rw [show w0 / w1 - 1 = -((w1 - w0) / w1) by field_simp; ring, norm_neg, norm_div, div_le_iff₀ hn]
    norm_num at k1 ⊢; linarith
  have ne : ∀ {w : ℂ}, ‖w / w1 - 1‖ ≤ 0.25 → w ≠ 0 := by
    intro w h e
    rw [e] at h; norm_num at h
  have dp : ‖w2 / w1 * (w0 / w1) - 1‖ ≤ C - C ^ 3 / 4 := by
    have e : w2 / w1 * (w0 / w1) - 1 = (w2 - 2 * w1 + w0) / w1 - (w2 - w1) / w1 * ((w1 - w0) / w1) := by
      field_simp; ring
    rw [e]
    refine (norm_sub_le _ _).trans ?_
    rw [norm_mul, norm_div, norm_div, norm_div]
    have a1 : ‖w2 - 2 * w1 + w0‖ / ‖w1‖ ≤ E / r := div_le_div₀ E0 hE hr h1
    have a2 : ‖w2 - w1‖ / ‖w1‖ ≤ V / r := div_le_div₀ V0 ha hr h1
    have a3 : ‖w1 - w0‖ / ‖w1‖ ≤ V / r := div_le_div₀ V0 hb hr h1
    refine (add_le_add a1 (mul_le_mul a2 a3 (by positivity) (by positivity))).trans ?_
    rw [show E / r + V / r * (V / r) = (V ^ 2 + E * r) / r ^ 2 by field_simp; ring, div_le_iff₀ (by positivity)]
    exact k2
  have b2 := arg_small d2 (c := 0.26) (by norm_num) (by norm_num) (by norm_num)
  have b0 := arg_small d0 (c := 0.26) (by norm_num) (by norm_num) (by norm_num)
  have bp := arg_small dp C0 C1 le_rfl
  refine ⟨b2, b0, ?_, ne d0, n1, ne d2⟩
  rw [Complex.arg_mul (div_ne_zero (ne d2) n1) (div_ne_zero (ne d0) n1)] at bp
  · exact bp
  · have hp := Real.pi_gt_three
    rw [abs_le] at b2 b0
    norm_num at b2 b0
    constructor <;> linarith

end Verif
