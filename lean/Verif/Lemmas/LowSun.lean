import Verif.Lemmas.SunAberration
import Verif.Lemmas.SunPublished

/-!
# Low precision Sun and the series of the Earth: a wave against its expansion
-/

namespace Verif
open Real

set_option exponentiation.threshold 500
set_option maxRecDepth 100000

theorem step_le {t X x y a b : ℝ} (ht : |t| ≤ X) (hx : |x| ≤ a) (hy : |y| ≤ b) : |x + t * y| ≤ a + X * b := by
  refine (abs_add_le _ _).trans (add_le_add hx ?_)
  rw [abs_mul]
  exact mul_le_mul ht hy (abs_nonneg _) ((abs_nonneg _).trans ht)

/-- A sum of waves with the powers of `t` against a single wave with the phase shift `s`. -/
theorem wave_match (A0 A1 A2 A3 β1 β2 β3 C s ψ t : ℝ) :
    |A0 * cos ψ + t * (A1 * cos (ψ + β1) + t * (A2 * cos (ψ + β2) + t * (A3 * cos (ψ + β3)))) - C * cos (ψ + s)| ≤
      |A0 + t * (A1 * cos β1 + t * (A2 * cos β2 + t * (A3 * cos β3))) - C * cos s| +
      |t * (A1 * sin β1 + t * (A2 * sin β2 + t * (A3 * sin β3))) - C * sin s| := by
  have e : A0 * cos ψ + t * (A1 * cos (ψ + β1) + t * (A2 * cos (ψ + β2) + t * (A3 * cos (ψ + β3)))) - C * cos (ψ + s) =
      (A0 + t * (A1 * cos β1 + t * (A2 * cos β2 + t * (A3 * cos β3))) - C * cos s) * cos ψ -
      (t * (A1 * sin β1 + t * (A2 * sin β2 + t * (A3 * sin β3))) - C * sin s) * sin ψ := by
    simp only [cos_add]; ring
  rw [e]
  refine (abs_sub _ _).trans ?_
  rw [abs_mul, abs_mul]
  exact add_le_add (mul_le_of_le_one_right (abs_nonneg _) (abs_cos_le_one _))
    (mul_le_of_le_one_right (abs_nonneg _) (abs_sin_le_one _))

theorem amp_near {A1 A2 A3 x1 x2 x3 y1 y2 y3 t X δ : ℝ} (h1 : 0 ≤ A1) (h2 : 0 ≤ A2) (h3 : 0 ≤ A3) (ht : |t| ≤ X)
    (e1 : |x1 - y1| ≤ δ) (e2 : |x2 - y2| ≤ δ) (e3 : |x3 - y3| ≤ δ) :
    |t * (A1 * x1 + t * (A2 * x2 + t * (A3 * x3))) - t * (A1 * y1 + t * (A2 * y2 + t * (A3 * y3)))| ≤
      X * (A1 * δ + X * (A2 * δ + X * (A3 * δ))) := by
  have k : ∀ {A x y : ℝ}, 0 ≤ A → |x - y| ≤ δ → |A * (x - y)| ≤ A * δ := by
    intro A x y hA h; rw [abs_mul, abs_of_nonneg hA]; exact mul_le_mul_of_nonneg_left h hA
  have := step_le ht (show |(0 : ℝ)| ≤ 0 by simp) (step_le ht (k h1 e1) (step_le ht (k h2 e2) (k h3 e3)))
  rw [show t * (A1 * x1 + t * (A2 * x2 + t * (A3 * x3))) - t * (A1 * y1 + t * (A2 * y2 + t * (A3 * y3))) =
    0 + t * (A1 * (x1 - y1) + t * (A2 * (x2 - y2) + t * (A3 * (x3 - y3)))) by ring]
  linarith

/-- The amplitude of the low precision wave and the phase shift replaced by polynomials. -/
theorem wave_poly {A0 A1 A2 A3 β1 β2 β3 C1 C2 C3 S1 S2 S3 c0 c1 c2 k l C s t X δ ε η Q c : ℝ}
    (h1 : 0 ≤ A1) (h2 : 0 ≤ A2) (h3 : 0 ≤ A3) (ht : |t| ≤ X)
    (k1 : |cos β1 - C1| ≤ δ) (k2 : |cos β2 - C2| ≤ δ) (k3 : |cos β3 - C3| ≤ δ)
    (l1 : |sin β1 - S1| ≤ δ) (l2 : |sin β2 - S2| ≤ δ) (l3 : |sin β3 - S3| ≤ δ)
    (hs : |s + (k * t + l * t ^ 2)| ≤ ε) (hC : |C - (c0 + c1 * t + c2 * t ^ 2)| ≤ η)
    (hc : |c0| + X * (|c1| + X * |c2|) ≤ c) (hq : X * (|k| + X * |l|) ≤ Q) (hQ : Q ≤ 1) :
    |A0 + t * (A1 * cos β1 + t * (A2 * cos β2 + t * (A3 * cos β3))) - C * cos s| ≤
      |A0 - c0| + X * (|A1 * C1 - c1| + X * (|A2 * C2 - c2 + c0 * k ^ 2 / 2| + X * (|A3 * C3 + c0 * k * l + c1 * k ^ 2 / 2| +
      X * (|c0 * l ^ 2 / 2 + c1 * k * l + c2 * k ^ 2 / 2| + X * (|c1 * l ^ 2 / 2 + c2 * k * l| + X * |c2 * l ^ 2 / 2|))))) +
      X * (A1 * δ + X * (A2 * δ + X * (A3 * δ))) + (η + c * (ε + Q ^ 4 * (5 / 96))) ∧
    |t * (A1 * sin β1 + t * (A2 * sin β2 + t * (A3 * sin β3))) - C * sin s| ≤
      X * (|A1 * S1 + c0 * k| + X * (|A2 * S2 + c0 * l + c1 * k| + X * (|A3 * S3 + c1 * l + c2 * k - c0 * k ^ 3 / 6| +
      X * (|c2 * l - (3 * c0 * k ^ 2 * l + c1 * k ^ 3) / 6| + X * (|(3 * c0 * k * l ^ 2 + 3 * c1 * k ^ 2 * l + c2 * k ^ 3) / 6| +
      X * (|(c0 * l ^ 3 + 3 * c1 * k * l ^ 2 + 3 * c2 * k ^ 2 * l) / 6| + X * (|(c1 * l ^ 3 + 3 * c2 * k * l ^ 2) / 6| +
      X * |c2 * l ^ 3 / 6|))))))) +
      X * (A1 * δ + X * (A2 * δ + X * (A3 * δ))) + (η + c * (ε + Q ^ 4 * (5 / 96))) := by
  have qe : k * t + l * t ^ 2 = 0 + t * (k + t * l) := by ring
  have q1 : |k * t + l * t ^ 2| ≤ Q := by
    rw [qe]
    have := step_le ht (show |(0 : ℝ)| ≤ 0 by simp) (step_le ht (le_refl |k|) (le_refl |l|))
    linarith
  have ca : |c0 + c1 * t + c2 * t ^ 2| ≤ c := by
    rw [show c0 + c1 * t + c2 * t ^ 2 = c0 + t * (c1 + t * c2) by ring]
    exact (step_le ht le_rfl (step_le ht le_rfl le_rfl)).trans hc
  have c00 : 0 ≤ c := (abs_nonneg _).trans ca
  have q4 : |k * t + l * t ^ 2| ^ 4 * (5 / 96) ≤ Q ^ 4 * (5 / 96) :=
    mul_le_mul_of_nonneg_right (pow_le_pow_left₀ (abs_nonneg _) q1 4) (by norm_num)
  have cosb := (Real.cos_bound (q1.trans hQ)).trans q4
  have q5 : |k * t + l * t ^ 2| ^ 5 / 100 ≤ |k * t + l * t ^ 2| ^ 4 * (5 / 96) := by
    have := pow_le_pow_of_le_one (abs_nonneg (k * t + l * t ^ 2)) (q1.trans hQ) (show 4 ≤ 5 by norm_num)
    have := pow_nonneg (abs_nonneg (k * t + l * t ^ 2)) 4
    linarith
  have sinb := (Real.sin_bound (q1.trans hQ)).trans (q5.trans q4)
  have cs : |cos s - cos (k * t + l * t ^ 2)| ≤ ε := by
    rw [← cos_neg (k * t + l * t ^ 2)]
    refine (abs_cos_sub_cos_le _ _).trans ?_
    rwa [sub_neg_eq_add]
  have ss : |sin s - -sin (k * t + l * t ^ 2)| ≤ ε := by
    rw [← sin_neg]
    refine (abs_sin_sub_sin_le _ _).trans ?_
    rwa [sub_neg_eq_add]
  generalize hq' : k * t + l * t ^ 2 = q at *
  have rep : ∀ {u v w : ℝ}, |u| ≤ 1 → |u - v| ≤ ε → |v - w| ≤ Q ^ 4 * (5 / 96) →
      |C * u - (c0 + c1 * t + c2 * t ^ 2) * w| ≤ η + c * (ε + Q ^ 4 * (5 / 96)) := by
    intro u v w hu huv hvw
    rw [show C * u - (c0 + c1 * t + c2 * t ^ 2) * w = (C - (c0 + c1 * t + c2 * t ^ 2)) * u +
      (c0 + c1 * t + c2 * t ^ 2) * ((u - v) + (v - w)) by ring]
    refine (abs_add_le _ _).trans (add_le_add ?_ ?_)
    · rw [abs_mul]; exact (mul_le_of_le_one_right (abs_nonneg _) hu).trans hC
    · rw [abs_mul]
      exact mul_le_mul ca ((abs_add_le _ _).trans (add_le_add huv hvw)) (abs_nonneg _) c00
  have r1 := rep (abs_cos_le_one s) cs cosb
  have r2 := rep (v := -sin q) (w := -(q - q ^ 3 / 6)) (abs_sin_le_one s) ss (by
    rw [show -sin q - -(q - q ^ 3 / 6) = -(sin q - (q - q ^ 3 / 6)) by ring, abs_neg]; exact sinb)
  have a1 := amp_near h1 h2 h3 ht k1 k2 k3
  have a2 := amp_near h1 h2 h3 ht l1 l2 l3
  generalize t * (A1 * cos β1 + t * (A2 * cos β2 + t * (A3 * cos β3))) = x1 at *
  generalize t * (A1 * sin β1 + t * (A2 * sin β2 + t * (A3 * sin β3))) = x2 at *
  generalize C * cos s = y1 at *
  generalize C * sin s = y2 at *
  have p1 : |A0 + t * (A1 * C1 + t * (A2 * C2 + t * (A3 * C3))) - (c0 + c1 * t + c2 * t ^ 2) * (1 - q ^ 2 / 2)| ≤
      |A0 - c0| + X * (|A1 * C1 - c1| + X * (|A2 * C2 - c2 + c0 * k ^ 2 / 2| + X * (|A3 * C3 + c0 * k * l + c1 * k ^ 2 / 2| +
      X * (|c0 * l ^ 2 / 2 + c1 * k * l + c2 * k ^ 2 / 2| + X * (|c1 * l ^ 2 / 2 + c2 * k * l| + X * |c2 * l ^ 2 / 2|))))) := by
    rw [← hq', show A0 + t * (A1 * C1 + t * (A2 * C2 + t * (A3 * C3))) - (c0 + c1 * t + c2 * t ^ 2) * (1 - (k * t + l * t ^ 2) ^ 2 / 2) =
      (A0 - c0) + t * ((A1 * C1 - c1) + t * ((A2 * C2 - c2 + c0 * k ^ 2 / 2) + t * ((A3 * C3 + c0 * k * l + c1 * k ^ 2 / 2) +
      t * ((c0 * l ^ 2 / 2 + c1 * k * l + c2 * k ^ 2 / 2) + t * ((c1 * l ^ 2 / 2 + c2 * k * l) + t * (c2 * l ^ 2 / 2)))))) by ring]
    exact step_le ht le_rfl (step_le ht le_rfl (step_le ht le_rfl (step_le ht le_rfl (step_le ht le_rfl
      (step_le ht le_rfl le_rfl)))))
  have p2 : |t * (A1 * S1 + t * (A2 * S2 + t * (A3 * S3))) - (c0 + c1 * t + c2 * t ^ 2) * -(q - q ^ 3 / 6)| ≤
      0 + X * (|A1 * S1 + c0 * k| + X * (|A2 * S2 + c0 * l + c1 * k| + X * (|A3 * S3 + c1 * l + c2 * k - c0 * k ^ 3 / 6| +
      X * (|c2 * l - (3 * c0 * k ^ 2 * l + c1 * k ^ 3) / 6| + X * (|(3 * c0 * k * l ^ 2 + 3 * c1 * k ^ 2 * l + c2 * k ^ 3) / 6| +
      X * (|(c0 * l ^ 3 + 3 * c1 * k * l ^ 2 + 3 * c2 * k ^ 2 * l) / 6| + X * (|(c1 * l ^ 3 + 3 * c2 * k * l ^ 2) / 6| +
      X * |c2 * l ^ 3 / 6|))))))) := by
    rw [← hq', show t * (A1 * S1 + t * (A2 * S2 + t * (A3 * S3))) - (c0 + c1 * t + c2 * t ^ 2) *
      -((k * t + l * t ^ 2) - (k * t + l * t ^ 2) ^ 3 / 6) =
      0 + t * ((A1 * S1 + c0 * k) + t * ((A2 * S2 + c0 * l + c1 * k) + t * ((A3 * S3 + c1 * l + c2 * k - c0 * k ^ 3 / 6) +
      t * ((c2 * l - (3 * c0 * k ^ 2 * l + c1 * k ^ 3) / 6) + t * (-((3 * c0 * k * l ^ 2 + 3 * c1 * k ^ 2 * l + c2 * k ^ 3) / 6) +
      t * (-((c0 * l ^ 3 + 3 * c1 * k * l ^ 2 + 3 * c2 * k ^ 2 * l) / 6) + t * (-((c1 * l ^ 3 + 3 * c2 * k * l ^ 2) / 6) +
      t * (-(c2 * l ^ 3 / 6))))))))) by ring]
    exact step_le ht (by simp) (step_le ht le_rfl (step_le ht le_rfl (step_le ht le_rfl (step_le ht le_rfl
      (step_le ht (abs_neg _).le (step_le ht (abs_neg _).le (step_le ht (abs_neg _).le (abs_neg _).le)))))))
  constructor
  · rw [show A0 + x1 - y1 = (A0 + t * (A1 * C1 + t * (A2 * C2 + t * (A3 * C3))) - (c0 + c1 * t + c2 * t ^ 2) * (1 - q ^ 2 / 2)) +
      (x1 - t * (A1 * C1 + t * (A2 * C2 + t * (A3 * C3)))) - (y1 - (c0 + c1 * t + c2 * t ^ 2) * (1 - q ^ 2 / 2)) by ring]
    exact (abs_sub _ _).trans (add_le_add ((abs_add_le _ _).trans (add_le_add p1 a1)) r1)
  · rw [show x2 - y2 = (t * (A1 * S1 + t * (A2 * S2 + t * (A3 * S3))) - (c0 + c1 * t + c2 * t ^ 2) * -(q - q ^ 3 / 6)) +
      (x2 - t * (A1 * S1 + t * (A2 * S2 + t * (A3 * S3)))) - (y2 - (c0 + c1 * t + c2 * t ^ 2) * -(q - q ^ 3 / 6)) by ring]
    rw [zero_add] at p2
    exact (abs_sub _ _).trans (add_le_add ((abs_add_le _ _).trans (add_le_add p2 a2)) r2)

/-! ### The annual and half-annual waves of the longitude of the Earth -/

theorem rad_near {b t : ℝ} {A : ℤ} (h : |b * (180 * 10 ^ 12) - A * π| ≤ t * 3) : |b * 180 / π * 10 ^ 12 - A| ≤ t := by
  have p := Real.pi_gt_three
  have p0 : 0 < π := Real.pi_pos
  have h0 : 0 ≤ t * 3 := (abs_nonneg _).trans h
  rw [show b * 180 / π * 10 ^ 12 - A = (b * (180 * 10 ^ 12) - A * π) / π by field_simp, abs_div, abs_of_pos p0, div_le_iff₀ p0]
  nlinarith

theorem deg_rad (b : ℝ) : deg (b * 180 / π) = b := by
  have p0 : π ≠ 0 := Real.pi_pos.ne'
  unfold deg; field_simp

theorem lowX_ca1 : nearN (-407966729107) 10000 [cosRow (1000000000000, -114077171745957)] = true := by decide +kernel
theorem lowX_sa1 : nearN (-912996795143) 10000 [sinRow (1000000000000, -114077171745957)] = true := by decide +kernel
theorem lowX_ca2 : nearN (-898011489493) 10000 [cosRow (1000000000000, -206102094927914)] = true := by decide +kernel
theorem lowX_sa2 : nearN 439972004494 10000 [sinRow (1000000000000, -206102094927914)] = true := by decide +kernel
theorem lowX_ca3 : nearN 385925787810 10000 [cosRow (1000000000000, 67298773667939)] = true := by decide +kernel
theorem lowX_sa3 : nearN 922529829493 10000 [sinRow (1000000000000, 67298773667939)] = true := by decide +kernel
theorem lowX_ch1 : nearN (-407924425072) 10000 [cosRow (1000000000000, -114074516952889)] = true := by decide +kernel
theorem lowX_sh1 : nearN (-913015697253) 10000 [sinRow (1000000000000, -114074516952889)] = true := by decide +kernel
theorem lowX_ch2 : nearN (-815489675383) 10000 [cosRow (1000000000000, -215364191310890)] = true := by decide +kernel
theorem lowX_sh2 : nearN 578771621059 10000 [sinRow (1000000000000, -215364191310890)] = true := by decide +kernel
theorem lowX_ch3 : nearN 651249351517 10000 [cosRow (1000000000000, 49364136016486)] = true := by decide +kernel
theorem lowX_sh3 : nearN 758863810014 10000 [sinRow (1000000000000, 49364136016486)] = true := by decide +kernel

theorem lowX_a1 : |cos (-1.99102224833) - (-0.407966729107)| ≤ 1.4e-8 ∧ |sin (-1.99102224833) - (-0.912996795143)| ≤ 1.4e-8 := by
  have p1 := pi_gt_d20
  have p2 := pi_lt_d20
  have h : |((-1.99102224833) : ℝ) * 180 / π * 10 ^ 12 - ((-114077171745957 : ℤ) : ℝ)| ≤ 1 := by
    refine rad_near ?_
    rw [abs_le]; push_cast; norm_num at p1 p2 ⊢
    constructor <;> linarith
  have a := cosDeg_near h lowX_ca1
  have b := sinDeg_near h lowX_sa1
  rw [deg_rad] at a b
  push_cast at a b
  norm_num at a b ⊢
  exact ⟨by linarith, by linarith⟩

theorem lowX_a2 : |cos (-3.59716015175) - (-0.898011489493)| ≤ 1.4e-8 ∧ |sin (-3.59716015175) - 0.439972004494| ≤ 1.4e-8 := by
  have p1 := pi_gt_d20
  have p2 := pi_lt_d20
  have h : |((-3.59716015175) : ℝ) * 180 / π * 10 ^ 12 - ((-206102094927914 : ℤ) : ℝ)| ≤ 1 := by
    refine rad_near ?_
    rw [abs_le]; push_cast; norm_num at p1 p2 ⊢
    constructor <;> linarith
  have a := cosDeg_near h lowX_ca2
  have b := sinDeg_near h lowX_sa2
  rw [deg_rad] at a b
  push_cast at a b
  norm_num at a b ⊢
  exact ⟨by linarith, by linarith⟩

theorem lowX_a3 : |cos 1.17458518306 - 0.385925787810| ≤ 1.4e-8 ∧ |sin 1.17458518306 - 0.922529829493| ≤ 1.4e-8 := by
  have p1 := pi_gt_d20
  have p2 := pi_lt_d20
  have h : |(1.17458518306 : ℝ) * 180 / π * 10 ^ 12 - ((67298773667939 : ℤ) : ℝ)| ≤ 1 := by
    refine rad_near ?_
    rw [abs_le]; push_cast; norm_num at p1 p2 ⊢
    constructor <;> linarith
  have a := cosDeg_near h lowX_ca3
  have b := sinDeg_near h lowX_sa3
  rw [deg_rad] at a b
  push_cast at a b
  norm_num at a b ⊢
  exact ⟨by linarith, by linarith⟩

theorem lowX_h1 : |cos (-1.99097591345) - (-0.407924425072)| ≤ 1.4e-8 ∧ |sin (-1.99097591345) - (-0.913015697253)| ≤ 1.4e-8 := by
  have p1 := pi_gt_d20
  have p2 := pi_lt_d20
  have h : |((-1.99097591345) : ℝ) * 180 / π * 10 ^ 12 - ((-114074516952889 : ℤ) : ℝ)| ≤ 1 := by
    refine rad_near ?_
    rw [abs_le]; push_cast; norm_num at p1 p2 ⊢
    constructor <;> linarith
  have a := cosDeg_near h lowX_ch1
  have b := sinDeg_near h lowX_sh1
  rw [deg_rad] at a b
  push_cast at a b
  norm_num at a b ⊢
  exact ⟨by linarith, by linarith⟩

theorem lowX_h2 : |cos (-3.75881422927) - (-0.815489675383)| ≤ 1.4e-8 ∧ |sin (-3.75881422927) - 0.578771621059| ≤ 1.4e-8 := by
  have p1 := pi_gt_d20
  have p2 := pi_lt_d20
  have h : |((-3.75881422927) : ℝ) * 180 / π * 10 ^ 12 - ((-215364191310890 : ℤ) : ℝ)| ≤ 1 := by
    refine rad_near ?_
    rw [abs_le]; push_cast; norm_num at p1 p2 ⊢
    constructor <;> linarith
  have a := cosDeg_near h lowX_ch2
  have b := sinDeg_near h lowX_sh2
  rw [deg_rad] at a b
  push_cast at a b
  norm_num at a b ⊢
  exact ⟨by linarith, by linarith⟩

theorem lowX_h3 : |cos 0.86156670589 - 0.651249351517| ≤ 1.4e-8 ∧ |sin 0.86156670589 - 0.758863810014| ≤ 1.4e-8 := by
  have p1 := pi_gt_d20
  have p2 := pi_lt_d20
  have h : |(0.86156670589 : ℝ) * 180 / π * 10 ^ 12 - ((49364136016486 : ℤ) : ℝ)| ≤ 1 := by
    refine rad_near ?_
    rw [abs_le]; push_cast; norm_num at p1 p2 ⊢
    constructor <;> linarith
  have a := cosDeg_near h lowX_ch3
  have b := sinDeg_near h lowX_sh3
  rw [deg_rad] at a b
  push_cast at a b
  norm_num at a b ⊢
  exact ⟨by linarith, by linarith⟩

theorem cos_sub_turn (x : ℝ) : cos (x - (π / 2 + 2 * π)) = sin x := by
  rw [show x - (π / 2 + 2 * π) = x - π / 2 - 2 * π by ring, cos_sub_two_pi, cos_sub_pi_div_two]

/-- The first term of the low precision equation of the centre against the annual waves, `t` in millennia, within 1000 years. -/
theorem annual_match1 {t : ℝ} (ht : |t| ≤ 1) :
    |0.03341656456 * cos (4.66925680417 + 6283.0758499914 * t) + t * (0.00206058863 * cos (2.67823455584 + 6283.0758499914 * t) +
      t * (0.00008719837 * cos (1.07209665242 + 6283.0758499914 * t) + t * (0.00000289226 * cos (5.84384198723 + 6283.0758499914 * t)))) -
      deg (1.914602 - 0.04817 * t - 0.0014 * t ^ 2) * sin (deg (357.5291092 + 359990.502909 * t - 0.01536 * t ^ 2 + t ^ 3 / 24490))| ≤ 0.0000030 := by
  have p1 := pi_gt_d20
  have p2 := pi_lt_d20
  obtain ⟨t0, t1⟩ := abs_le.mp ht
  obtain ⟨k1, l1⟩ := lowX_a1
  obtain ⟨k2, l2⟩ := lowX_a2
  obtain ⟨k3, l3⟩ := lowX_a3
  have hs : |(deg (357.5291092 + 359990.502909 * t - 0.01536 * t ^ 2 + t ^ 3 / 24490)) - π / 2 - (4.66925680417 + 6283.0758499914 * t) + (0.056298319125 * t + 0.000268082573 * t ^ 2)| ≤ 8e-6 := by
    have e : (deg (357.5291092 + 359990.502909 * t - 0.01536 * t ^ 2 + t ^ 3 / 24490)) - π / 2 - (4.66925680417 + 6283.0758499914 * t) + (0.056298319125 * t + 0.000268082573 * t ^ 2) =
        (357.5291092 * (π / 180) - π / 2 - 4.66925680417) + t * ((359990.502909 * (π / 180) - 6283.0758499914 + 0.056298319125) +
        t * ((0.000268082573 + (-0.01536) * (π / 180)) + t * ((1 / 24490) * (π / 180)))) := by
      unfold deg; ring
    rw [e]
    refine (step_le ht (a := 7e-6) ?_ (step_le ht (a := 1e-12) ?_ (step_le ht (a := 1e-12) ?_
      (b := 7.2e-7) ?_))).trans (by norm_num)
    all_goals
      rw [abs_le]
      norm_num at p1 p2 ⊢
      try (constructor <;> linarith)
  have hC : |deg (1.914602 - 0.04817 * t - 0.0014 * t ^ 2) - (0.033416108765 + (-0.000840725101) * t + (-0.000024434610) * t ^ 2)| ≤ 1e-11 := by
    have e : deg (1.914602 - 0.04817 * t - 0.0014 * t ^ 2) - (0.033416108765 + (-0.000840725101) * t + (-0.000024434610) * t ^ 2) =
        (1.914602 * (π / 180) - 0.033416108765) + t * (((-0.04817) * (π / 180) - (-0.000840725101)) + t * ((-0.0014) * (π / 180) - (-0.000024434610))) := by
      unfold deg; ring
    rw [e]
    refine (step_le ht (a := 1e-12) ?_ (step_le ht (a := 1e-12) ?_ (b := 1e-12) ?_)).trans (by norm_num)
    all_goals
      rw [abs_le]
      norm_num at p1 p2 ⊢
      try (constructor <;> linarith)
  obtain ⟨u, v⟩ := wave_poly (A0 := 0.03341656456) (A1 := 0.00206058863) (A2 := 0.00008719837) (A3 := 0.00000289226) (Q := 0.0569 * 1) (c := 0.0352)
    (by norm_num) (by norm_num) (by norm_num) ht k1 k2 k3 l1 l2 l3 hs hC (by norm_num) (by norm_num) (by norm_num)
  have w := wave_match 0.03341656456 0.00206058863 0.00008719837 0.00000289226 (-1.99102224833) (-3.59716015175) 1.17458518306 (deg (1.914602 - 0.04817 * t - 0.0014 * t ^ 2))
    ((deg (357.5291092 + 359990.502909 * t - 0.01536 * t ^ 2 + t ^ 3 / 24490)) - π / 2 - (4.66925680417 + 6283.0758499914 * t)) (4.66925680417 + 6283.0758499914 * t) t
  rw [show 4.66925680417 + 6283.0758499914 * t + (-1.99102224833) = 2.67823455584 + 6283.0758499914 * t by ring,
    show 4.66925680417 + 6283.0758499914 * t + (-3.59716015175) = 1.07209665242 + 6283.0758499914 * t by ring,
    show 4.66925680417 + 6283.0758499914 * t + 1.17458518306 = 5.84384198723 + 6283.0758499914 * t by ring,
    show 4.66925680417 + 6283.0758499914 * t + ((deg (357.5291092 + 359990.502909 * t - 0.01536 * t ^ 2 + t ^ 3 / 24490)) - π / 2 - (4.66925680417 + 6283.0758499914 * t)) = deg (357.5291092 + 359990.502909 * t - 0.01536 * t ^ 2 + t ^ 3 / 24490) - π / 2 by ring,
    cos_sub_pi_div_two] at w
  refine w.trans ((add_le_add u v).trans ?_)
  norm_num

/-- The first term of the low precision equation of the centre against the annual waves, `t` in millennia, within 2000 years. -/
theorem annual_match2 {t : ℝ} (ht : |t| ≤ 2) :
    |0.03341656456 * cos (4.66925680417 + 6283.0758499914 * t) + t * (0.00206058863 * cos (2.67823455584 + 6283.0758499914 * t) +
      t * (0.00008719837 * cos (1.07209665242 + 6283.0758499914 * t) + t * (0.00000289226 * cos (5.84384198723 + 6283.0758499914 * t)))) -
      deg (1.914602 - 0.04817 * t - 0.0014 * t ^ 2) * sin (deg (357.5291092 + 359990.502909 * t - 0.01536 * t ^ 2 + t ^ 3 / 24490))| ≤ 0.0000100 := by
  have p1 := pi_gt_d20
  have p2 := pi_lt_d20
  obtain ⟨t0, t1⟩ := abs_le.mp ht
  obtain ⟨k1, l1⟩ := lowX_a1
  obtain ⟨k2, l2⟩ := lowX_a2
  obtain ⟨k3, l3⟩ := lowX_a3
  have hs : |(deg (357.5291092 + 359990.502909 * t - 0.01536 * t ^ 2 + t ^ 3 / 24490)) - π / 2 - (4.66925680417 + 6283.0758499914 * t) + (0.056298319125 * t + 0.000268082573 * t ^ 2)| ≤ 1.3e-5 := by
    have e : (deg (357.5291092 + 359990.502909 * t - 0.01536 * t ^ 2 + t ^ 3 / 24490)) - π / 2 - (4.66925680417 + 6283.0758499914 * t) + (0.056298319125 * t + 0.000268082573 * t ^ 2) =
        (357.5291092 * (π / 180) - π / 2 - 4.66925680417) + t * ((359990.502909 * (π / 180) - 6283.0758499914 + 0.056298319125) +
        t * ((0.000268082573 + (-0.01536) * (π / 180)) + t * ((1 / 24490) * (π / 180)))) := by
      unfold deg; ring
    rw [e]
    refine (step_le ht (a := 7e-6) ?_ (step_le ht (a := 1e-12) ?_ (step_le ht (a := 1e-12) ?_
      (b := 7.2e-7) ?_))).trans (by norm_num)
    all_goals
      rw [abs_le]
      norm_num at p1 p2 ⊢
      try (constructor <;> linarith)
  have hC : |deg (1.914602 - 0.04817 * t - 0.0014 * t ^ 2) - (0.033416108765 + (-0.000840725101) * t + (-0.000024434610) * t ^ 2)| ≤ 1e-11 := by
    have e : deg (1.914602 - 0.04817 * t - 0.0014 * t ^ 2) - (0.033416108765 + (-0.000840725101) * t + (-0.000024434610) * t ^ 2) =
        (1.914602 * (π / 180) - 0.033416108765) + t * (((-0.04817) * (π / 180) - (-0.000840725101)) + t * ((-0.0014) * (π / 180) - (-0.000024434610))) := by
      unfold deg; ring
    rw [e]
    refine (step_le ht (a := 1e-12) ?_ (step_le ht (a := 1e-12) ?_ (b := 1e-12) ?_)).trans (by norm_num)
    all_goals
      rw [abs_le]
      norm_num at p1 p2 ⊢
      try (constructor <;> linarith)
  obtain ⟨u, v⟩ := wave_poly (A0 := 0.03341656456) (A1 := 0.00206058863) (A2 := 0.00008719837) (A3 := 0.00000289226) (Q := 0.0569 * 2) (c := 0.0352)
    (by norm_num) (by norm_num) (by norm_num) ht k1 k2 k3 l1 l2 l3 hs hC (by norm_num) (by norm_num) (by norm_num)
  have w := wave_match 0.03341656456 0.00206058863 0.00008719837 0.00000289226 (-1.99102224833) (-3.59716015175) 1.17458518306 (deg (1.914602 - 0.04817 * t - 0.0014 * t ^ 2))
    ((deg (357.5291092 + 359990.502909 * t - 0.01536 * t ^ 2 + t ^ 3 / 24490)) - π / 2 - (4.66925680417 + 6283.0758499914 * t)) (4.66925680417 + 6283.0758499914 * t) t
  rw [show 4.66925680417 + 6283.0758499914 * t + (-1.99102224833) = 2.67823455584 + 6283.0758499914 * t by ring,
    show 4.66925680417 + 6283.0758499914 * t + (-3.59716015175) = 1.07209665242 + 6283.0758499914 * t by ring,
    show 4.66925680417 + 6283.0758499914 * t + 1.17458518306 = 5.84384198723 + 6283.0758499914 * t by ring,
    show 4.66925680417 + 6283.0758499914 * t + ((deg (357.5291092 + 359990.502909 * t - 0.01536 * t ^ 2 + t ^ 3 / 24490)) - π / 2 - (4.66925680417 + 6283.0758499914 * t)) = deg (357.5291092 + 359990.502909 * t - 0.01536 * t ^ 2 + t ^ 3 / 24490) - π / 2 by ring,
    cos_sub_pi_div_two] at w
  refine w.trans ((add_le_add u v).trans ?_)
  norm_num

/-- The second term of the published equation of the centre against the half-annual waves, `t` in millennia, within 1000 years. -/
theorem half_match1 {t : ℝ} (ht : |t| ≤ 1) :
    |0.00034894275 * cos (4.62610241759 + 12566.1516999828 * t) + t * (0.00004303430 * cos (2.63512650414 + 12566.1516999828 * t) +
      t * (0.00000309125 * cos (0.86728818832 + 12566.1516999828 * t) + t * (0.00000016819 * cos (5.48766912348 + 12566.1516999828 * t)))) -
      deg (0.019993 - 0.00101 * t) * sin (2 * deg (357.5291092 + 359990.502909 * t - 0.01536 * t ^ 2 + t ^ 3 / 24490))| ≤ 0.0000007 := by
  have p1 := pi_gt_d20
  have p2 := pi_lt_d20
  obtain ⟨t0, t1⟩ := abs_le.mp ht
  obtain ⟨k1, l1⟩ := lowX_h1
  obtain ⟨k2, l2⟩ := lowX_h2
  obtain ⟨k3, l3⟩ := lowX_h3
  have hs : |(2 * deg (357.5291092 + 359990.502909 * t - 0.01536 * t ^ 2 + t ^ 3 / 24490)) - (π / 2 + 2 * π) - (4.62610241759 + 12566.1516999828 * t) + (0.112596638250 * t + 0.000536165146 * t ^ 2)| ≤ 3.8e-5 := by
    have e : (2 * deg (357.5291092 + 359990.502909 * t - 0.01536 * t ^ 2 + t ^ 3 / 24490)) - (π / 2 + 2 * π) - (4.62610241759 + 12566.1516999828 * t) + (0.112596638250 * t + 0.000536165146 * t ^ 2) =
        (715.0582184 * (π / 180) - (π / 2 + 2 * π) - 4.62610241759) + t * ((719981.005818 * (π / 180) - 12566.1516999828 + 0.112596638250) +
        t * ((0.000536165146 + (-0.03072) * (π / 180)) + t * ((2 / 24490) * (π / 180)))) := by
      unfold deg; ring
    rw [e]
    refine (step_le ht (a := 3.63e-5) ?_ (step_le ht (a := 1e-12) ?_ (step_le ht (a := 1e-12) ?_
      (b := 1.44e-6) ?_))).trans (by norm_num)
    all_goals
      rw [abs_le]
      norm_num at p1 p2 ⊢
      try (constructor <;> linarith)
  have hC : |deg (0.019993 - 0.00101 * t) - (0.000348943677 + (-0.000017627825) * t + 0 * t ^ 2)| ≤ 1e-11 := by
    have e : deg (0.019993 - 0.00101 * t) - (0.000348943677 + (-0.000017627825) * t + 0 * t ^ 2) =
        (0.019993 * (π / 180) - 0.000348943677) + t * (((-0.00101) * (π / 180) - (-0.000017627825)) + t * (0 * (π / 180) - 0)) := by
      unfold deg; ring
    rw [e]
    refine (step_le ht (a := 1e-12) ?_ (step_le ht (a := 1e-12) ?_ (b := 1e-12) ?_)).trans (by norm_num)
    all_goals
      rw [abs_le]
      norm_num at p1 p2 ⊢
      try (constructor <;> linarith)
  obtain ⟨u, v⟩ := wave_poly (A0 := 0.00034894275) (A1 := 0.00004303430) (A2 := 0.00000309125) (A3 := 0.00000016819) (Q := 0.1137 * 1) (c := 0.000385)
    (by norm_num) (by norm_num) (by norm_num) ht k1 k2 k3 l1 l2 l3 hs hC (by norm_num) (by norm_num) (by norm_num)
  have w := wave_match 0.00034894275 0.00004303430 0.00000309125 0.00000016819 (-1.99097591345) (-3.75881422927) 0.86156670589 (deg (0.019993 - 0.00101 * t))
    ((2 * deg (357.5291092 + 359990.502909 * t - 0.01536 * t ^ 2 + t ^ 3 / 24490)) - (π / 2 + 2 * π) - (4.62610241759 + 12566.1516999828 * t)) (4.62610241759 + 12566.1516999828 * t) t
  rw [show 4.62610241759 + 12566.1516999828 * t + (-1.99097591345) = 2.63512650414 + 12566.1516999828 * t by ring,
    show 4.62610241759 + 12566.1516999828 * t + (-3.75881422927) = 0.86728818832 + 12566.1516999828 * t by ring,
    show 4.62610241759 + 12566.1516999828 * t + 0.86156670589 = 5.48766912348 + 12566.1516999828 * t by ring,
    show 4.62610241759 + 12566.1516999828 * t + ((2 * deg (357.5291092 + 359990.502909 * t - 0.01536 * t ^ 2 + t ^ 3 / 24490)) - (π / 2 + 2 * π) - (4.62610241759 + 12566.1516999828 * t)) = 2 * deg (357.5291092 + 359990.502909 * t - 0.01536 * t ^ 2 + t ^ 3 / 24490) - (π / 2 + 2 * π) by ring,
    cos_sub_turn] at w
  refine w.trans ((add_le_add u v).trans ?_)
  norm_num

/-- The second term of the published equation of the centre against the half-annual waves, `t` in millennia, within 2000 years. -/
theorem half_match2 {t : ℝ} (ht : |t| ≤ 2) :
    |0.00034894275 * cos (4.62610241759 + 12566.1516999828 * t) + t * (0.00004303430 * cos (2.63512650414 + 12566.1516999828 * t) +
      t * (0.00000309125 * cos (0.86728818832 + 12566.1516999828 * t) + t * (0.00000016819 * cos (5.48766912348 + 12566.1516999828 * t)))) -
      deg (0.019993 - 0.00101 * t) * sin (2 * deg (357.5291092 + 359990.502909 * t - 0.01536 * t ^ 2 + t ^ 3 / 24490))| ≤ 0.0000030 := by
  have p1 := pi_gt_d20
  have p2 := pi_lt_d20
  obtain ⟨t0, t1⟩ := abs_le.mp ht
  obtain ⟨k1, l1⟩ := lowX_h1
  obtain ⟨k2, l2⟩ := lowX_h2
  obtain ⟨k3, l3⟩ := lowX_h3
  have hs : |(2 * deg (357.5291092 + 359990.502909 * t - 0.01536 * t ^ 2 + t ^ 3 / 24490)) - (π / 2 + 2 * π) - (4.62610241759 + 12566.1516999828 * t) + (0.112596638250 * t + 0.000536165146 * t ^ 2)| ≤ 4.8e-5 := by
    have e : (2 * deg (357.5291092 + 359990.502909 * t - 0.01536 * t ^ 2 + t ^ 3 / 24490)) - (π / 2 + 2 * π) - (4.62610241759 + 12566.1516999828 * t) + (0.112596638250 * t + 0.000536165146 * t ^ 2) =
        (715.0582184 * (π / 180) - (π / 2 + 2 * π) - 4.62610241759) + t * ((719981.005818 * (π / 180) - 12566.1516999828 + 0.112596638250) +
        t * ((0.000536165146 + (-0.03072) * (π / 180)) + t * ((2 / 24490) * (π / 180)))) := by
      unfold deg; ring
    rw [e]
    refine (step_le ht (a := 3.63e-5) ?_ (step_le ht (a := 1e-12) ?_ (step_le ht (a := 1e-12) ?_
      (b := 1.44e-6) ?_))).trans (by norm_num)
    all_goals
      rw [abs_le]
      norm_num at p1 p2 ⊢
      try (constructor <;> linarith)
  have hC : |deg (0.019993 - 0.00101 * t) - (0.000348943677 + (-0.000017627825) * t + 0 * t ^ 2)| ≤ 1e-11 := by
    have e : deg (0.019993 - 0.00101 * t) - (0.000348943677 + (-0.000017627825) * t + 0 * t ^ 2) =
        (0.019993 * (π / 180) - 0.000348943677) + t * (((-0.00101) * (π / 180) - (-0.000017627825)) + t * (0 * (π / 180) - 0)) := by
      unfold deg; ring
    rw [e]
    refine (step_le ht (a := 1e-12) ?_ (step_le ht (a := 1e-12) ?_ (b := 1e-12) ?_)).trans (by norm_num)
    all_goals
      rw [abs_le]
      norm_num at p1 p2 ⊢
      try (constructor <;> linarith)
  obtain ⟨u, v⟩ := wave_poly (A0 := 0.00034894275) (A1 := 0.00004303430) (A2 := 0.00000309125) (A3 := 0.00000016819) (Q := 0.1137 * 2) (c := 0.000385)
    (by norm_num) (by norm_num) (by norm_num) ht k1 k2 k3 l1 l2 l3 hs hC (by norm_num) (by norm_num) (by norm_num)
  have w := wave_match 0.00034894275 0.00004303430 0.00000309125 0.00000016819 (-1.99097591345) (-3.75881422927) 0.86156670589 (deg (0.019993 - 0.00101 * t))
    ((2 * deg (357.5291092 + 359990.502909 * t - 0.01536 * t ^ 2 + t ^ 3 / 24490)) - (π / 2 + 2 * π) - (4.62610241759 + 12566.1516999828 * t)) (4.62610241759 + 12566.1516999828 * t) t
  rw [show 4.62610241759 + 12566.1516999828 * t + (-1.99097591345) = 2.63512650414 + 12566.1516999828 * t by ring,
    show 4.62610241759 + 12566.1516999828 * t + (-3.75881422927) = 0.86728818832 + 12566.1516999828 * t by ring,
    show 4.62610241759 + 12566.1516999828 * t + 0.86156670589 = 5.48766912348 + 12566.1516999828 * t by ring,
    show 4.62610241759 + 12566.1516999828 * t + ((2 * deg (357.5291092 + 359990.502909 * t - 0.01536 * t ^ 2 + t ^ 3 / 24490)) - (π / 2 + 2 * π) - (4.62610241759 + 12566.1516999828 * t)) = 2 * deg (357.5291092 + 359990.502909 * t - 0.01536 * t ^ 2 + t ^ 3 / 24490) - (π / 2 + 2 * π) by ring,
    cos_sub_turn] at w
  refine w.trans ((add_le_add u v).trans ?_)
  norm_num

/-! ### The other terms -/

/-- Rows of the mean motion, of the year and of half a year. -/
def isLow (r : Term) : Bool := r.2.2 == 0 || r.2.2 == 628307584999140 || r.2.2 == 1256615169998280

def lowMain : List (List Term) :=
  [[(175347045673, 0, 0), (3341656456, 466925680417, 628307584999140), (34894275, 462610241759, 1256615169998280)],
  [(628331966747491, 0, 0), (206058863, 267823455584, 628307584999140), (4303430, 263512650414, 1256615169998280)],
  [(52918870, 0, 0), (8719837, 107209665242, 628307584999140), (309125, 86728818832, 1256615169998280)],
  [(289226, 584384198723, 628307584999140), (34955, 0, 0), (16819, 548766912348, 1256615169998280)],
  [(114084, 314159265359, 0), (7717, 413446589358, 628307584999140), (765, 383803776214, 1256615169998280)],
  [(878, 314159265359, 0), (172, 276579069510, 628307584999140), (28, 221496423926, 1256615169998280)]]

theorem low_parts : part isLow Data.earthL = lowMain ∧
    pAmpl 1 (part (fun r => !isLow r) Data.earthL) ≤ 31650161 ∧ pAmpl 2 (part (fun r => !isLow r) Data.earthL) ≤ 33758115 := by
  decide +kernel

theorem low_tail {T : ℕ} {t : ℝ} (ht : |t| ≤ T) :
    |pval (lowMain.drop 4) t| ≤ (122566 + T * 1078) / 10 ^ 11 := by
  refine (pval_abs _ ht).trans (le_of_eq ?_)
  have : pAmpl T (lowMain.drop 4) = 122566 + T * 1078 := by
    simp [lowMain, pAmpl, ampl]
  rw [this]; push_cast; ring

theorem low_head (t : ℝ) : pval lowMain t =
    (1.75347045673 + 6283.31966747491 * t + 0.00052918870 * t ^ 2 + 0.00000034955 * t ^ 3) +
    (0.03341656456 * cos (4.66925680417 + 6283.0758499914 * t) + t * (0.00206058863 * cos (2.67823455584 + 6283.0758499914 * t) +
      t * (0.00008719837 * cos (1.07209665242 + 6283.0758499914 * t) + t * (0.00000289226 * cos (5.84384198723 + 6283.0758499914 * t))))) +
    (0.00034894275 * cos (4.62610241759 + 12566.1516999828 * t) + t * (0.00004303430 * cos (2.63512650414 + 12566.1516999828 * t) +
      t * (0.00000309125 * cos (0.86728818832 + 12566.1516999828 * t) + t * (0.00000016819 * cos (5.48766912348 + 12566.1516999828 * t))))) +
    t ^ 4 * pval (lowMain.drop 4) t := by
  unfold lowMain
  simp only [List.drop_succ_cons, List.drop_zero]
  rw [pval, pval, pval, pval]
  generalize pval [_, _] t = z
  simp only [seriesVal, vsopTerm, List.map_cons, List.map_nil, List.sum_cons, List.sum_nil]
  push_cast
  norm_num
  ring

end Verif
