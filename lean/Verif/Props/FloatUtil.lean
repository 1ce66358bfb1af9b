import Verif.Model.FloatUtil
import Verif.Lemmas.FloatNut
import Verif.Props.Interpolation

/-!
# C93: `util.py` in binary64, for all arguments
-/

namespace Verif
open Real

variable {fl : ℚ → ℚ}

/-! ### Polynomials -/

/-- One step of Horner's rule. -/
theorem horner_step (hf : FloatLike fl) {h H S G c x t : ℚ} (hG : 1 ≤ G) (hS : |H| ≤ S) (e : |h - H| ≤ (G - 1) * S)
    (ht : t = 1 / 2 ^ 1020) :
    |fl (c + fl (h * x)) - (c + H * x)| ≤ ((1 + 1 / 2 ^ 53) ^ 2 * G - 1) * (|c| + t + S * |x|) := by
  obtain ⟨u, hu⟩ : ∃ u : ℚ, u = 1 / 2 ^ 53 := ⟨_, rfl⟩
  rw [← hu]
  have u0 : 0 < u := by rw [hu]; norm_num
  have w : (1 : ℚ) / 2 ^ 1074 = u * (t / 2) := by
    rw [hu, ht, show (2 : ℚ) ^ 1074 = 2 ^ 53 * (2 ^ 1020 * 2) by rw [← pow_succ, ← pow_add]]
    field_simp
  have t0 : 0 < t := by rw [ht]; positivity
  have e1 := hf.err (h * x)
  have e2 := hf.err (c + fl (h * x))
  rw [w] at e1 e2
  have hd : ∀ y : ℚ, |y| / 2 ^ 53 = u * |y| := fun y => by rw [hu]; ring
  rw [hd] at e1 e2
  have S0 : 0 ≤ S := (abs_nonneg _).trans hS
  have x0 := abs_nonneg x
  have ah : |h| ≤ G * S := by
    have := abs_add_le (h - H) H
    rw [sub_add_cancel] at this
    linarith
  have ahx : |h * x| ≤ G * S * |x| := by rw [abs_mul]; exact mul_le_mul_of_nonneg_right ah x0
  have p1 : |h * x - H * x| ≤ (G - 1) * S * |x| := by
    rw [← sub_mul, abs_mul]; exact mul_le_mul_of_nonneg_right e x0
  have p2 : |fl (h * x) - H * x| ≤ ((1 + u) * G - 1) * S * |x| + u * (t / 2) := by
    have := abs_sub_le (fl (h * x)) (h * x) (H * x)
    have m := mul_le_mul_of_nonneg_left ahx u0.le
    linarith
  have p3 : |fl (h * x)| ≤ (1 + u) * G * S * |x| + u * (t / 2) := by
    have := abs_add_le (fl (h * x) - h * x) (h * x)
    rw [sub_add_cancel] at this
    have m := mul_le_mul_of_nonneg_left ahx u0.le
    linarith
  have p4 : |c + fl (h * x)| ≤ |c| + ((1 + u) * G * S * |x| + u * (t / 2)) :=
    (abs_add_le _ _).trans (by linarith)
  have m := mul_le_mul_of_nonneg_left p4 u0.le
  have p5 := abs_sub_le (fl (c + fl (h * x))) (c + fl (h * x)) (c + H * x)
  rw [add_sub_add_left_eq_sub] at p5
  have g : 2 * u ≤ (1 + u) ^ 2 * G - 1 := by nlinarith
  have c0 := abs_nonneg c
  have k1 : 2 * u * (|c| + t) ≤ ((1 + u) ^ 2 * G - 1) * (|c| + t) := mul_le_mul_of_nonneg_right g (by linarith)
  have u1 : u ≤ 1 := by rw [hu]; norm_num
  have k2 : u * (u * (t / 2)) ≤ u * (t / 2) := by
    refine mul_le_mul_of_nonneg_left ?_ u0.le
    exact mul_le_of_le_one_left (by linarith) u1
  have k3 : 0 ≤ u * |c| := mul_nonneg u0.le c0
  have k4 : 0 < u * t := mul_pos u0 t0
  linarith

theorem horner_abs (x t : ℚ) (ht : 0 ≤ t) (cs : List ℚ) :
    |horner (fun a => a) x cs| ≤ horner (fun a => a) |x| (cs.map fun c => |c| + t) := by
  induction cs with
  | nil => simp [horner]
  | cons c cs ih =>
    rcases cs with _ | ⟨d, ds⟩
    · simp only [List.map_cons, List.map_nil, horner]; linarith
    · simp only [List.map_cons, horner] at ih ⊢
      have := abs_add_le c (horner (fun a => a) x (d :: ds) * x)
      rw [abs_mul] at this
      have m := mul_le_mul_of_nonneg_right ih (abs_nonneg x)
      linarith

theorem horner_err (hf : FloatLike fl) (x : ℚ) (c : ℚ) (cs : List ℚ) :
    |horner fl x (c :: cs) - horner (fun a => a) x (c :: cs)| ≤ ((1 + 1 / 2 ^ 53) ^ (2 * cs.length) - 1) *
      horner (fun a => a) |x| ((c :: cs).map fun c => |c| + 1 / 2 ^ 1020) := by
  induction cs generalizing c with
  | nil => simp [horner]
  | cons d ds ih =>
    have h := horner_step hf (c := c) (x := x) (t := 1 / 2 ^ 1020) (one_le_pow₀ (by norm_num))
      (horner_abs x (1 / 2 ^ 1020) (by positivity) (d :: ds)) (ih d) rfl
    rw [← pow_add, show 2 + 2 * ds.length = 2 * (d :: ds).length by simp; ring] at h
    exact h

/-- C93: `polynomial` in binary64, for every number of coefficients and every argument: the relative error, measured by
the sum of the absolute values of the terms, is at most `(1 + u)^(2 n) - 1` with `n` the degree and `u = 2⁻⁵³`.  (The
smallest numbers only add `2⁻¹⁰²⁰` to the coefficients.) -/
theorem polynomial_float (hf : FloatLike fl) (terms : List ℚ) (x : ℚ) (h : terms ≠ []) :
    ∃ p, polynomial fl terms x = .ok p ∧
      |p - ∑ i : Fin terms.length, terms[i] * x ^ (i : ℕ)| ≤
        ((1 + 1 / 2 ^ 53) ^ (2 * (terms.length - 1)) - 1) *
          ∑ i : Fin terms.length, (|terms[i]| + 1 / 2 ^ 1020) * |x| ^ (i : ℕ) := by
  rcases terms with _ | ⟨c, cs⟩
  · exact absurd rfl h
  · refine ⟨horner fl x (c :: cs), by simp [polynomial], ?_⟩
    have e := horner_err hf x c cs
    rw [horner_eq_sum] at e
    have k := horner_eq_sum |x| ((c :: cs).map fun c => |c| + 1 / 2 ^ 1020)
    rw [k] at e
    simp only [List.length_cons, Nat.add_sub_cancel]
    refine e.trans (le_of_eq ?_)
    congr 1
    refine Fintype.sum_equiv (finCongr (by simp)) _ _ fun i => ?_
    rw [Fin.getElem_fin, List.getElem_map]
    rfl

/-! ### Degrees and radians -/

theorem flR (hf : FloatLike fl) (x : ℚ) : |(fl x : ℝ) - x| ≤ |(x : ℝ)| * (1 / 2 ^ 53) + 1 / 2 ^ 1074 := by
  have := hf.err x
  have h : ((|fl x - x| : ℚ) : ℝ) ≤ ((|x| / 2 ^ 53 + 1 / 2 ^ 1074 : ℚ) : ℝ) := Rat.cast_le.2 this
  rw [Rat.cast_abs, Rat.cast_sub, Rat.cast_add, Rat.cast_div, Rat.cast_div, Rat.cast_pow, Rat.cast_pow, Rat.cast_abs,
    Rat.cast_one, Rat.cast_ofNat] at h
  rwa [div_eq_mul_one_div |(x : ℝ)|] at h

/-- Two rounded operations with a constant between. -/
theorem two_ops {X Y x p q a : ℝ} (h1 : |X - x * p| ≤ |x * p| * (1 / 2 ^ 53) + 1 / 2 ^ 1074)
    (h2 : |Y - X * q| ≤ |X * q| * (1 / 2 ^ 53) + 1 / 2 ^ 1074) (hq : 0 < q) (q1 : q ≤ 1) (hp : 0 < p) (ha : 0 < a)
    (hpa : |p * q - a| ≤ a * (0.4 / 2 ^ 53)) : |Y - x * a| ≤ 2.5 / 2 ^ 53 * (|x| * a) + 1 / 2 ^ 1072 := by
  obtain ⟨u, hu⟩ : ∃ u : ℝ, u = 1 / 2 ^ 53 := ⟨_, rfl⟩
  obtain ⟨w, hw⟩ : ∃ w : ℝ, w = 1 / 2 ^ 1074 := ⟨_, rfl⟩
  rw [← hu, ← hw] at h1 h2
  have u0 : 0 < u := by rw [hu]; positivity
  have u1 : u ≤ 1 / 1000 := by rw [hu]; norm_num
  have w0 : 0 < w := by rw [hw]; positivity
  have w4 : (1 : ℝ) / 2 ^ 1072 = 4 * w := by
    rw [hw, show (2 : ℝ) ^ 1074 = 2 ^ 1072 * 2 ^ 2 by rw [← pow_add]]
    field_simp; norm_num
  rw [w4]
  have x0 := abs_nonneg x
  rw [abs_mul, abs_of_pos hp] at h1
  rw [abs_mul, abs_of_pos hq] at h2
  have pq := abs_le.1 hpa
  rw [show (0.4 : ℝ) / 2 ^ 53 = 0.4 * u by rw [hu]; ring] at pq
  have e1 : |X * q - x * (p * q)| ≤ |x| * (p * q) * u + w := by
    rw [show X * q - x * (p * q) = (X - x * p) * q by ring, abs_mul, abs_of_pos hq]
    have := mul_le_mul_of_nonneg_right h1 hq.le
    have := mul_le_of_le_one_right w0.le q1
    nlinarith
  have e2 : |X| * q ≤ |x| * (p * q) * (1 + u) + w := by
    have := abs_add_le (X * q - x * (p * q)) (x * (p * q))
    rw [sub_add_cancel, abs_mul X, abs_of_pos hq, abs_mul x, abs_of_pos (mul_pos hp hq)] at this
    linarith
  have e3 : |x * (p * q) - x * a| ≤ |x| * a * (0.4 * u) := by
    rw [← mul_sub, abs_mul, mul_assoc]
    refine mul_le_mul_of_nonneg_left ?_ x0
    rw [show a * (0.4 * u) = a * (0.4 / 2 ^ 53) by rw [hu]; ring]
    exact hpa
  have e4 : |x| * (p * q) ≤ |x| * a * (1 + 0.4 * u) := by
    rw [mul_assoc]
    exact mul_le_mul_of_nonneg_left (by linarith) x0
  have xa : 0 ≤ |x| * a := mul_nonneg x0 ha.le
  have t1 := abs_sub_le Y (X * q) (x * a)
  have t2 := abs_sub_le (X * q) (x * (p * q)) (x * a)
  have m2 := mul_le_mul_of_nonneg_right e2 u0.le
  have m4 := mul_le_mul_of_nonneg_right e4 u0.le
  have m5 := mul_le_mul_of_nonneg_right e4 (mul_nonneg u0.le u0.le)
  have wu : w * u ≤ w := mul_le_of_le_one_right w0.le (by linarith)
  rw [show (2.5 : ℝ) / 2 ^ 53 = 2.5 * u by rw [hu]; ring]
  have s : |x| * a * u * u ≤ |x| * a * u * (1 / 1000) := mul_le_mul_of_nonneg_left u1 (mul_nonneg xa u0.le)
  have s3 : |x| * a * u * u * u ≤ |x| * a * u * u * (1 / 1000) :=
    mul_le_mul_of_nonneg_left u1 (mul_nonneg (mul_nonneg xa u0.le) u0.le)
  have s0 : 0 ≤ |x| * a * u := mul_nonneg xa u0.le
  nlinarith

/-- C93: `d_to_r` in binary64, for every argument: relative error at most `2.5 u`. -/
theorem d_to_r_float (hf : FloatLike fl) (d : ℚ) :
    |(dToRF fl d : ℝ) - d * (π / 180)| ≤ 2.5 / 2 ^ 53 * (|(d : ℝ)| * (π / 180)) + 1 / 2 ^ 1072 := by
  have h1 := flR hf (d * piF)
  have h2 := flR hf (fl (d * piF) / 180)
  push_cast at h1 h2
  rw [div_eq_mul_inv (_ : ℝ)] at h2
  have p0 := Real.pi_pos
  have pF : (0 : ℝ) < piF := by unfold piF; norm_num
  have n := abs_le.1 piF_near
  have p3 := Real.pi_gt_d4
  refine two_ops h1 h2 (by norm_num) (by norm_num) pF (by positivity) ?_
  rw [show (piF : ℝ) * 180⁻¹ - π / 180 = (piF - π) / 180 by ring, abs_div, abs_of_pos (by norm_num : (0 : ℝ) < 180)]
  rw [show π / 180 * (0.4 / 2 ^ 53) = π * (0.4 / 2 ^ 53) / 180 by ring]
  refine div_le_div_of_nonneg_right ?_ (by norm_num)
  rw [abs_le]
  norm_num at n p3 ⊢
  constructor <;> linarith

/-- C93: `r_to_d` likewise. -/
theorem r_to_d_float (hf : FloatLike fl) (r : ℚ) :
    |(rToDF fl r : ℝ) - r * (180 / π)| ≤ 2.5 / 2 ^ 53 * (|(r : ℝ)| * (180 / π)) + 1 / 2 ^ 1072 := by
  have h1 := flR hf (r * 180)
  have h2 := flR hf (fl (r * 180) / piF)
  push_cast at h1 h2
  rw [div_eq_mul_inv (_ : ℝ)] at h2
  have p0 := Real.pi_pos
  have pF : (3 : ℝ) < piF := by unfold piF; norm_num
  have n := abs_le.1 piF_near
  have p3 := Real.pi_gt_d4
  refine two_ops h1 h2 (by positivity) (by rw [inv_le_one₀ (by linarith)]; linarith) (by norm_num) (by positivity) ?_
  have : (180 : ℝ) * (piF : ℝ)⁻¹ - 180 / π = 180 / π * ((π - piF) / piF) := by
    have : (piF : ℝ) ≠ 0 := by linarith
    field_simp
  rw [this, abs_mul, abs_of_pos (by positivity : 0 < 180 / π)]
  refine mul_le_mul_of_nonneg_left ?_ (by positivity)
  rw [abs_div, abs_of_pos (by linarith : (0 : ℝ) < piF), div_le_iff₀ (by linarith)]
  rw [abs_le]
  norm_num at n p3 ⊢
  constructor <;> linarith

/-- C93: degrees to radians and back, for every argument: relative error at most `5.1 u`. -/
theorem r_to_d_d_to_r_float (hf : FloatLike fl) (d : ℚ) :
    |(rToDF fl (dToRF fl d) : ℝ) - d| ≤ 5.1 / 2 ^ 53 * |(d : ℝ)| + 1 / 2 ^ 1064 := by
  have h1 := d_to_r_float hf d
  have h2 := r_to_d_float hf (dToRF fl d)
  generalize rToDF fl (dToRF fl d) = z at *
  generalize ((dToRF fl d : ℚ) : ℝ) = y at *
  generalize (d : ℝ) = x at *
  obtain ⟨u, hu⟩ : ∃ u : ℝ, u = 1 / 2 ^ 53 := ⟨_, rfl⟩
  obtain ⟨w, hw⟩ : ∃ w : ℝ, w = 1 / 2 ^ 1072 := ⟨_, rfl⟩
  rw [← hw] at h1 h2
  have u0 : 0 < u := by rw [hu]; positivity
  have u1 : u ≤ 1 / 1000 := by rw [hu]; norm_num
  have w0 : 0 < w := by rw [hw]; positivity
  have w4 : (1 : ℝ) / 2 ^ 1064 = 256 * w := by
    rw [hw, show (2 : ℝ) ^ 1072 = 2 ^ 1064 * 2 ^ 8 by rw [← pow_add]]
    field_simp; norm_num
  rw [show (2.5 : ℝ) / 2 ^ 53 = 2.5 * u by rw [hu]; ring] at h1 h2
  rw [w4, show (5.1 : ℝ) / 2 ^ 53 = 5.1 * u by rw [hu]; ring]
  have p0 := Real.pi_pos
  have p3 := Real.pi_gt_d4
  have q : 180 / π ≤ 58 := by rw [div_le_iff₀ p0]; norm_num at p3 ⊢; linarith
  have q0 : 0 < 180 / π := by positivity
  have e1 : |y * (180 / π) - x| ≤ 2.5 * u * |x| + 58 * w := by
    rw [show y * (180 / π) - x = (y - x * (π / 180)) * (180 / π) by field_simp, abs_mul, abs_of_pos q0]
    have := mul_le_mul_of_nonneg_right h1 q0.le
    have e : (2.5 * u * (|x| * (π / 180)) + w) * (180 / π) = 2.5 * u * |x| + w * (180 / π) := by field_simp
    rw [e] at this
    have := mul_le_mul_of_nonneg_left q w0.le
    linarith
  have e2 : |y| * (180 / π) ≤ |x| + (2.5 * u * |x| + 58 * w) := by
    have := abs_add_le (y * (180 / π) - x) x
    rw [sub_add_cancel, abs_mul, abs_of_pos q0] at this
    linarith
  have t := abs_sub_le (z : ℝ) (y * (180 / π)) x
  have m := mul_le_mul_of_nonneg_left e2 (by positivity : 0 ≤ 2.5 * u)
  have x0 := abs_nonneg x
  have s : u * u * |x| ≤ 1 / 1000 * (u * |x|) := by
    rw [mul_assoc]; exact mul_le_mul_of_nonneg_right u1 (mul_nonneg u0.le x0)
  have s2 : u * w ≤ w := mul_le_of_le_one_left w0.le (by linarith)
  have s3 := mul_nonneg u0.le x0
  nlinarith

/-! ### Differences of angles -/

theorem isF64_piF : IsF64 piF := by
  refine ⟨884279719003555, -48, by norm_num, by norm_num, ?_⟩
  unfold piF
  norm_num [zpow_neg]

theorem isF64_pi2F : IsF64 pi2F := by
  refine ⟨884279719003555, -47, by norm_num, by norm_num, ?_⟩
  unfold pi2F
  norm_num [zpow_neg]

/-- C93: `diff_angle` in binary64: two angles between 0 and `pi2` (both included) have a difference between `-pi` and
`pi`. -/
theorem diff_angle_float_range (hf : FloatLike fl) {a b : ℚ} (a0 : 0 ≤ a) (a1 : a ≤ pi2F) (b0 : 0 ≤ b) (b1 : b ≤ pi2F) :
    |diffAngleF fl a b| ≤ piF := by
  have p2 : pi2F = 2 * piF := by unfold pi2F piF; norm_num
  have p0 : 0 < piF := by unfold piF; norm_num
  have key : ∀ r : ℚ, 0 ≤ r → r ≤ 3 * piF → |if r > piF then fl (r - pi2F) else r| ≤ piF := by
    intro r r0 r3
    split_ifs with h
    · rw [abs_le]
      constructor
      · have := hf.mono (show -piF ≤ r - pi2F by linarith)
        rwa [hf.fix _ isF64_piF.neg] at this
      · have := hf.mono (show r - pi2F ≤ piF by linarith)
        rwa [hf.fix _ isF64_piF] at this
    · rw [abs_of_nonneg r0]; exact not_lt.1 h
  unfold diffAngleF
  refine key _ ?_ ?_
  · split_ifs with h
    · have := hf.mono (show pi2F ≤ b + pi2F by linarith)
      rw [hf.fix _ isF64_pi2F] at this
      exact hf.nonneg (by linarith)
    · exact hf.nonneg (by linarith)
  · split_ifs with h
    · have e1 := abs_le.1 (hf.err' (b + pi2F))
      have e2 := abs_le.1 (hf.err' (fl (b + pi2F) - a))
      have q1 : |b + pi2F| ≤ 4 * piF := by rw [abs_of_nonneg (by linarith)]; linarith
      have u := uu_pos
      have hw : ww ≤ piF := by unfold ww piF; norm_num
      have hu : uu ≤ 1 / 100 := by unfold uu; norm_num
      have m1 : uu * (|b + pi2F| + ww) ≤ 1 / 100 * (5 * piF) := mul_le_mul hu (by linarith) (by have := ww_pos; positivity) (by norm_num)
      have q2 : |fl (b + pi2F) - a| ≤ 4 * piF := by
        rw [abs_le]; constructor <;> linarith [e1.1, e1.2]
      have m2 : uu * (|fl (b + pi2F) - a| + ww) ≤ 1 / 100 * (5 * piF) := mul_le_mul hu (by linarith) (by have := ww_pos; positivity) (by norm_num)
      linarith [e1.2, e2.2]
    · have := hf.mono (show b - a ≤ pi2F by linarith)
      rw [hf.fix _ isF64_pi2F] at this
      linarith

/-- C93: and it is their difference up to a multiple of a turn and `6e-15`; also for angles outside the first turn. -/
theorem diff_angle_float_congr (hf : FloatLike fl) {a b : ℚ} (ha : |(a : ℝ)| ≤ 10) (hb : |(b : ℝ)| ≤ 10)
    (hw : |(b : ℝ) - a| ≤ 10) : ∃ k : ℤ, |(diffAngleF fl a b : ℝ) - (b - a + k * (2 * π))| ≤ 6e-15 := by
  have p4 := Real.pi_lt_d4
  have S1 : Near (fl (b + pi2F)) (b + 2 * π) 2.2e-15 :=
    ((near_self b).add pi2F_near).rnd hf (M := 16.3)
      ((abs_add_le _ _).trans (by rw [abs_of_pos (by positivity : 0 < 2 * π)]; norm_num at p4 ⊢; linarith))
      (by rw [uuR, wwR]; norm_num)
  have hw2 : |(b : ℝ) + 2 * π - a| ≤ 16.3 := by
    rw [show (b : ℝ) + 2 * π - a = (b - a) + 2 * π by ring]
    exact (abs_add_le _ _).trans (by rw [abs_of_pos (by positivity : 0 < 2 * π)]; norm_num at p4 ⊢; linarith)
  have S2 : Near (fl (fl (b + pi2F) - a)) (b + 2 * π - a) 4.1e-15 :=
    (S1.sub (near_self a)).rnd hf hw2 (by rw [uuR, wwR]; norm_num)
  have R2 : Near (fl (b - a)) (b - a) 1.2e-15 :=
    ((near_self b).sub (near_self a)).rnd hf hw (by rw [uuR, wwR]; norm_num)
  have S3 : Near (fl (fl (fl (b + pi2F) - a) - pi2F)) (b + 2 * π - a - 2 * π) 5.9e-15 :=
    (S2.sub pi2F_near).rnd hf (M := 10) (by rw [show (b : ℝ) + 2 * π - a - 2 * π = b - a by ring]; exact hw)
      (by rw [uuR, wwR]; norm_num)
  have R3 : Near (fl (fl (b - a) - pi2F)) (b - a - 2 * π) 4e-15 :=
    (R2.sub pi2F_near).rnd hf (M := 16.3) ((abs_sub _ _).trans (by
      rw [abs_of_pos (by positivity : 0 < 2 * π)]; norm_num at p4 ⊢; linarith)) (by rw [uuR, wwR]; norm_num)
  unfold Near at *
  unfold diffAngleF
  simp only
  split_ifs
  · refine ⟨0, le_trans (le_of_eq ?_) (S3.trans (by norm_num))⟩
    congr 1; push_cast; ring
  · refine ⟨1, le_trans (le_of_eq ?_) (S2.trans (by norm_num))⟩
    congr 1; push_cast; ring
  · refine ⟨-1, le_trans (le_of_eq ?_) (R3.trans (by norm_num))⟩
    congr 1; push_cast; ring
  · refine ⟨0, le_trans (le_of_eq ?_) (R2.trans (by norm_num))⟩
    congr 1; push_cast; ring

/-! ### Interpolation from three values -/

theorem near3 (hf : FloatLike fl) {X x e m M u v : ℚ} (hu : u = 1 / 2 ^ 53) (hv : v = 1 / 2 ^ 1074) (h : |X - x| ≤ e) (hx : |X| ≤ m)
    (hm : u * m + v ≤ M) : |fl X - x| ≤ e + M := by
  have a := hf.err X
  have b := abs_sub_le (fl X) X x
  rw [← hv, div_eq_mul_one_div |X|, ← hu, mul_comm] at a
  have c := mul_le_mul_of_nonneg_left hx (by rw [hu]; positivity : 0 ≤ u)
  linarith

/-- C93: `interpolate3` in binary64, for all values: the error is at most `24 u` times a bound of the three values. -/
theorem interpolate3_float (hf : FloatLike fl) {n y0 y1 y2 M : ℚ} (h1 : -1 < n) (h2 : n < 1) (hM : 1 / 2 ^ 1000 ≤ M)
    (h0 : |y0| ≤ M) (hy1 : |y1| ≤ M) (hy2 : |y2| ≤ M) :
    ∃ v, interpolate3 fl n y0 y1 y2 = .ok v ∧
      |v - (y1 + n / 2 * ((y2 - y0) + n * (y0 - 2 * y1 + y2)))| ≤ 24 / 2 ^ 53 * M := by
  unfold interpolate3
  rw [if_neg (by tauto)]
  refine ⟨_, rfl, ?_⟩
  obtain ⟨u, hu⟩ : ∃ u : ℚ, u = 1 / 2 ^ 53 := ⟨_, rfl⟩
  obtain ⟨v, hv⟩ : ∃ v : ℚ, v = 1 / 2 ^ 1074 := ⟨_, rfl⟩
  have u0 : 0 < u := by rw [hu]; positivity
  have u1 : u ≤ 1 / 1000 := by rw [hu]; norm_num
  have M0 : 0 < M := lt_of_lt_of_le (by positivity) hM
  have w : v ≤ 1 / 1000 * (u * M) := by
    rw [hv, hu]
    have : (1 : ℚ) / 1000 * (1 / 2 ^ 53 * (1 / 2 ^ 1000)) ≤ 1 / 1000 * (1 / 2 ^ 53 * M) := by gcongr
    refine le_trans ?_ this
    rw [show (1 : ℚ) / 2 ^ 1074 = 1 / 2 ^ 21 * (1 / 2 ^ 53 * (1 / 2 ^ 1000)) by
      rw [one_div_mul_one_div, one_div_mul_one_div, ← pow_add, ← pow_add]]
    exact mul_le_mul_of_nonneg_right (by norm_num) (by positivity)
  have uM : 0 < u * M := mul_pos u0 M0
  have uuM : u * (u * M) ≤ 1 / 1000 * (u * M) := mul_le_mul_of_nonneg_right u1 uM.le
  rw [show (24 : ℚ) / 2 ^ 53 * M = 24 * (u * M) by rw [hu]; ring]
  obtain ⟨a1, a2⟩ := abs_le.1 h0
  obtain ⟨b1, b2⟩ := abs_le.1 hy1
  obtain ⟨c1, c2⟩ := abs_le.1 hy2
  have uM1 : u * M ≤ 1 / 1000 * M := mul_le_mul_of_nonneg_right u1 M0.le
  have mM : ∀ k : ℚ, u * (k * M) = k * (u * M) := fun k => by ring
  -- the differences
  have A := near3 hf (X := y1 - y0) (x := y1 - y0) (e := 0) (m := 2 * M) (M := 2.01 * (u * M)) hu hv (by simp)
    (by rw [abs_le]; constructor <;> linarith) (by rw [mM]; norm_num; linarith)
  have B := near3 hf (X := y2 - y1) (x := y2 - y1) (e := 0) (m := 2 * M) (M := 2.01 * (u * M)) hu hv (by simp)
    (by rw [abs_le]; constructor <;> linarith) (by rw [mM]; norm_num; linarith)
  generalize fl (y1 - y0) = a at *
  generalize fl (y2 - y1) = b at *
  rw [zero_add] at A B
  obtain ⟨A1, A2⟩ := abs_le.1 A
  obtain ⟨B1, B2⟩ := abs_le.1 B
  norm_num at A1 A2 B1 B2
  have C := near3 hf (X := b - a) (x := y0 - 2 * y1 + y2) (e := 4.02 * (u * M)) (m := 4.1 * M) (M := 4.11 * (u * M)) hu hv
    (by rw [abs_le]; norm_num; constructor <;> linarith) (by rw [abs_le]; norm_num; constructor <;> linarith)
    (by rw [mM]; norm_num; linarith)
  have S := near3 hf (X := a + b) (x := y2 - y0) (e := 4.02 * (u * M)) (m := 2.1 * M) (M := 2.11 * (u * M)) hu hv
    (by rw [abs_le]; norm_num; constructor <;> linarith) (by rw [abs_le]; norm_num; constructor <;> linarith)
    (by rw [mM]; norm_num; linarith)
  generalize fl (b - a) = c at *
  generalize fl (a + b) = s at *
  have n1 : |n| ≤ 1 := (abs_lt.2 ⟨h1, h2⟩).le
  have hc : |c| ≤ 4.1 * M := by
    obtain ⟨C1, C2⟩ := abs_le.1 C
    norm_num at C1 C2
    rw [abs_le]; norm_num; constructor <;> linarith
  have D := near3 hf (X := n * c) (x := n * (y0 - 2 * y1 + y2)) (e := 8.13 * (u * M)) (m := 4.1 * M) (M := 4.11 * (u * M)) hu hv
    (by
      rw [← mul_sub, abs_mul]
      refine (mul_le_of_le_one_left (abs_nonneg _) n1).trans (C.trans ?_)
      norm_num; linarith)
    (by rw [abs_mul]; exact (mul_le_of_le_one_left (abs_nonneg _) n1).trans hc)
    (by rw [mM]; norm_num; linarith)
  have dB : |n * (y0 - 2 * y1 + y2)| ≤ 4 * M := by
    rw [abs_mul]
    refine (mul_le_of_le_one_left (abs_nonneg _) n1).trans ?_
    rw [abs_le]; constructor <;> linarith
  generalize n * (y0 - 2 * y1 + y2) = d' at *
  generalize fl (n * c) = d at *
  obtain ⟨S1, S2⟩ := abs_le.1 S
  obtain ⟨D1, D2⟩ := abs_le.1 D
  obtain ⟨E1, E2⟩ := abs_le.1 dB
  norm_num at S1 S2 D1 D2
  have T := near3 hf (X := s + d) (x := y2 - y0 + d') (e := 18.38 * (u * M)) (m := 6.1 * M) (M := 6.11 * (u * M)) hu hv
    (by rw [abs_le]; norm_num; constructor <;> linarith) (by rw [abs_le]; norm_num; constructor <;> linarith)
    (by rw [mM]; norm_num; linarith)
  have tB : |y2 - y0 + d'| ≤ 6 * M := by rw [abs_le]; constructor <;> linarith
  generalize y2 - y0 + d' = t' at *
  generalize fl (s + d) = t at *
  -- the half of the factor
  have n2 : |n / 2| ≤ 1 / 2 := by rw [abs_div, abs_of_pos (by norm_num : (0 : ℚ) < 2)]; linarith
  have H : |fl (n / 2) - n / 2| ≤ u * (1 / 2) + v := by
    have a := hf.err (n / 2)
    rw [← hv, div_eq_mul_one_div |n / 2|, ← hu, mul_comm] at a
    exact a.trans (by have := mul_le_mul_of_nonneg_left n2 u0.le; linarith)
  have w2 : v ≤ 1 / 1000 * u := by
    rw [hv, hu]
    have : (2 : ℚ) ^ 1074 = 2 ^ 1021 * 2 ^ 53 := by rw [← pow_add]
    rw [this, one_div, mul_inv, one_div, one_div]
    refine mul_le_mul_of_nonneg_right ?_ (by positivity)
    refine inv_anti₀ (by norm_num) ?_
    calc (1000 : ℚ) ≤ 2 ^ 10 := by norm_num
      _ ≤ 2 ^ 1021 := pow_le_pow_right₀ (by norm_num) (by norm_num)
  have H' : |fl (n / 2) - n / 2| ≤ 0.501 * u := by norm_num at H w2 ⊢; linarith
  have tA : |t| ≤ 6.1 * M := by
    obtain ⟨T1, T2⟩ := abs_le.1 T
    obtain ⟨F1, F2⟩ := abs_le.1 tB
    norm_num at T1 T2
    rw [abs_le]; norm_num; constructor <;> linarith
  generalize fl (n / 2) = q at *
  have P : |q * t - n / 2 * t'| ≤ 15.5 * (u * M) := by
    rw [show q * t - n / 2 * t' = (q - n / 2) * t + n / 2 * (t - t') by ring]
    refine (abs_add_le _ _).trans ?_
    rw [abs_mul, abs_mul]
    have e1 : |q - n / 2| * |t| ≤ 0.501 * u * (6.1 * M) := mul_le_mul H' tA (abs_nonneg _) (by positivity)
    have e2 : |n / 2| * |t - t'| ≤ 1 / 2 * (18.38 * (u * M) + 6.11 * (u * M)) :=
      mul_le_mul n2 T (abs_nonneg _) (by norm_num)
    norm_num at e1 e2 ⊢
    linarith
  have pB : |n / 2 * t'| ≤ 3 * M := by
    rw [abs_mul]
    have := mul_le_mul n2 tB (abs_nonneg _) (by norm_num)
    linarith
  obtain ⟨P1, P2⟩ := abs_le.1 P
  obtain ⟨G1, G2⟩ := abs_le.1 pB
  norm_num at P1 P2
  have Q := near3 hf (X := q * t) (x := n / 2 * t') (e := 15.5 * (u * M)) (m := 3.1 * M) (M := 3.11 * (u * M)) hu hv
    P (by rw [abs_le]; norm_num; constructor <;> linarith) (by rw [mM]; norm_num; linarith)
  generalize n / 2 * t' = p' at *
  generalize fl (q * t) = p at *
  obtain ⟨Q1, Q2⟩ := abs_le.1 Q
  norm_num at Q1 Q2
  have R := near3 hf (X := y1 + p) (x := y1 + p') (e := 18.61 * (u * M)) (m := 4.1 * M) (M := 4.11 * (u * M)) hu hv
    (by rw [abs_le]; norm_num; constructor <;> linarith) (by rw [abs_le]; norm_num; constructor <;> linarith)
    (by rw [mM]; norm_num; linarith)
  refine R.trans ?_
  norm_num
  linarith

/-! ### The hypotheses are met -/

/-- A polynomial of degree two, with round to nearest even. -/
example (p : ℚ) (h : polynomial rne [1, 2, 3] 10 = .ok p) : |p - (1 + 2 * 10 + 3 * 10 ^ 2)| ≤
    ((1 + 1 / 2 ^ 53) ^ (2 * (3 - 1)) - 1) *
      ∑ i : Fin 3, (|([1, 2, 3] : List ℚ)[i]| + 1 / 2 ^ 1020) * |10| ^ (i : ℕ) := by
  obtain ⟨q, h', e⟩ := polynomial_float rounding_rne.floatLike [1, 2, 3] 10 (List.cons_ne_nil _ _)
  obtain rfl : q = p := by rw [h] at h'; injection h' with h'; exact h'.symm
  refine le_trans (le_of_eq ?_) e
  rw [show (∑ i : Fin ([1, 2, 3] : List ℚ).length, ([1, 2, 3] : List ℚ)[i] * (10 : ℚ) ^ (i : ℕ)) =
    ∑ i : Fin 3, ([1, 2, 3] : List ℚ)[i] * (10 : ℚ) ^ (i : ℕ) from rfl, Fin.sum_univ_three]
  simp

/-- Two angles on both sides of zero. -/
example : |diffAngleF rne 6 (1 / 4)| ≤ piF ∧
    ∃ k : ℤ, |(diffAngleF rne 6 (1 / 4) : ℝ) - (((1 / 4 : ℚ) : ℝ) - ((6 : ℚ) : ℝ) + k * (2 * π))| ≤ 6e-15 :=
  ⟨diff_angle_float_range rounding_rne.floatLike (by norm_num) (by unfold pi2F; norm_num) (by norm_num)
      (by unfold pi2F; norm_num),
    diff_angle_float_congr rounding_rne.floatLike (by norm_num) (by norm_num) (by norm_num)⟩

/-- Meeus' example 3.a. -/
example : ∃ v, interpolate3 rne 0.18125 0.884226 0.877366 0.870531 = .ok v ∧
    |v - (0.877366 + 0.18125 / 2 * ((0.870531 - 0.884226) + 0.18125 * (0.884226 - 2 * 0.877366 + 0.870531)))| ≤
      24 / 2 ^ 53 * 1 :=
  interpolate3_float rounding_rne.floatLike (by norm_num) (by norm_num) (by
    rw [div_le_one (by positivity)]; exact one_le_pow₀ (by norm_num)) (by norm_num [abs_of_pos])
    (by norm_num [abs_of_pos]) (by norm_num [abs_of_pos])

end Verif
