import Verif.Lemmas.LaneEquinox
import Verif.Lemmas.Equinox
import Verif.Props.SunLow

/-!
# The longitude of the Sun at the results of `equinox_approx`: the errors
-/

namespace Verif
open Real Finset

set_option exponentiation.threshold 500

/-! ## The planetary series -/

/-- Sum of amplitudes. -/
def vN1 : ℕ → List (List Term) → ℕ
  | _, [] => 0
  | m, s :: c => m * (s.map fun r => r.1 + 1).sum + vN1 (3 * m) c

/-- Sum of amplitudes times squares of frequencies. -/
def vN2 : ℕ → List (List Term) → ℕ
  | _, [] => 0
  | m, s :: c => m * (s.map fun r => r.1 * r.2.2 ^ 2).sum + vN2 (3 * m) c

/-- Sum of the factors. -/
def vN0 : ℕ → List (List Term) → ℕ
  | _, [] => 0
  | m, _ :: c => m + vN0 (3 * m) c

theorem vErr_eq (c : List (List Term)) : ∀ m,
    vErr m c = 1.4e-7 * (vN1 m c : ℝ) + 1.1e-36 * (vN2 m c : ℝ) + 1e-15 * (vN0 m c : ℝ) := by
  induction c with
  | nil => intro m; simp [vErr, vN1, vN2, vN0]
  | cons s c ih =>
    intro m
    have e : (s.map rowE).sum = 1.4e-7 * (((s.map fun r => r.1 + 1).sum : ℕ) : ℝ) +
        1.1e-36 * (((s.map fun r => r.1 * r.2.2 ^ 2).sum : ℕ) : ℝ) := by
      induction s with
      | nil => simp
      | cons r s ih =>
        simp only [List.map_cons, List.sum_cons, Nat.cast_add, ih]
        unfold rowE
        push_cast
        ring
    rw [vErr, vN1, vN2, vN0, ih, e, Nat.cast_add, Nat.cast_add, Nat.cast_add, Nat.cast_mul, Nat.cast_mul]
    ring

theorem vErr_earth : (leftTot 1500 1 (tail1 (tail0 Data.earthL)) : ℝ) +
    vErr 1 (tail1 (tail0 Data.earthL)) ≤ 274500 := by
  have h0 : leftTot 1500 1 (tail1 (tail0 Data.earthL)) ≤ 271500 := by decide +kernel
  have h1 : vN1 1 (tail1 (tail0 Data.earthL)) ≤ 5 * 10 ^ 9 := by decide +kernel
  have h2 : vN2 1 (tail1 (tail0 Data.earthL)) ≤ 2 * 10 ^ 39 := by decide +kernel
  have h3 : vN0 1 (tail1 (tail0 Data.earthL)) ≤ 1000 := by decide +kernel
  have g0 : (leftTot 1500 1 (tail1 (tail0 Data.earthL)) : ℝ) ≤ 271500 := by exact_mod_cast h0
  have g1 : (vN1 1 (tail1 (tail0 Data.earthL)) : ℝ) ≤ 5 * 10 ^ 9 := by exact_mod_cast h1
  have g2 : (vN2 1 (tail1 (tail0 Data.earthL)) : ℝ) ≤ 2 * 10 ^ 39 := by exact_mod_cast h2
  have g3 : (vN0 1 (tail1 (tail0 Data.earthL)) : ℝ) ≤ 1000 := by exact_mod_cast h3
  rw [vErr_eq]
  generalize (leftTot 1500 1 (tail1 (tail0 Data.earthL)) : ℝ) = a at *
  generalize (vN1 1 (tail1 (tail0 Data.earthL)) : ℝ) = b at *
  generalize (vN2 1 (tail1 (tail0 Data.earthL)) : ℝ) = c at *
  generalize (vN0 1 (tail1 (tail0 Data.earthL)) : ℝ) = d at *
  norm_num at *
  linarith

/-! ## Tables in degrees -/

theorem degS_abs (l : List DRow) (u : ℝ) : |degS l u| ≤ ((l.map fun r => r.1).sum : ℕ) := by
  unfold degS
  induction l with
  | nil => simp
  | cons r l ih =>
    simp only [List.map_cons, List.sum_cons, Nat.cast_add]
    refine (abs_add_le _ _).trans (add_le_add ?_ ih)
    rw [abs_mul, abs_of_nonneg (Nat.cast_nonneg _)]
    exact mul_le_of_le_one_right (Nat.cast_nonneg _) (abs_cos_le_one _)

theorem degS_lip (l : List DRow) (u v : ℝ) :
    |degS l u - degS l v| ≤ ((l.map fun r => r.1 * r.2.2.natAbs).sum : ℕ) * (π / 180 / 10 ^ 23 * |u - v|) := by
  unfold degS
  induction l with
  | nil => simp
  | cons r l ih =>
    simp only [List.map_cons, List.sum_cons, Nat.cast_add]
    rw [add_sub_add_comm, add_mul]
    refine (abs_add_le _ _).trans (add_le_add ?_ ih)
    rw [← mul_sub, abs_mul, abs_of_nonneg (Nat.cast_nonneg _), Nat.cast_mul, mul_assoc]
    refine mul_le_mul_of_nonneg_left ((abs_cos_sub_le _ _).trans (le_of_eq ?_)) (Nat.cast_nonneg _)
    have : dToR ((r.2.1 + r.2.2 * u) / 10 ^ 23) - dToR ((r.2.1 + r.2.2 * v) / 10 ^ 23) =
        r.2.2 * (π / 180 / 10 ^ 23 * (u - v)) := by unfold dToR; ring
    rw [this, abs_mul, abs_mul, abs_of_pos (by positivity : 0 < π / 180 / 10 ^ 23), Nat.cast_natAbs,
      Int.cast_abs]

/-! ## The periodic correction -/

theorem corr_eq (jd : ℝ) : equinoxCorrection jd =
    0.00001 * degS corrRows (jcent jd * 10 ^ 11) / (1 + degS denRows (jcent jd * 10 ^ 11) / 10 ^ 4) := by
  have e1 : ∀ l : List (ℤ × ℤ × ℤ), (∀ r ∈ l, 0 ≤ r.1) →
      (l.map fun r => (r.1 : ℝ) * cos (dToR (r.2.1 / 1000) + dToR (r.2.2 / 1000) * jcent jd)).sum =
      degS (l.map fun r => (r.1.toNat, r.2.1 * 100000000000000000000, r.2.2 * 1000000000))
        (jcent jd * 10 ^ 11) := by
    intro l hl
    unfold degS
    induction l with
    | nil => rfl
    | cons r l ih =>
      simp only [List.map_cons, List.sum_cons]
      rw [ih fun r hr => hl r (List.mem_cons_of_mem _ hr)]
      congr 1
      have h0 := Int.toNat_of_nonneg (hl r List.mem_cons_self)
      have h1 : ((r.1.toNat : ℕ) : ℝ) = r.1 := by exact_mod_cast congrArg (fun z : ℤ => (z : ℝ)) h0
      rw [h1]
      congr 2
      unfold dToR
      push_cast
      ring
  have e2 : degS denRows (jcent jd * 10 ^ 11) = 334 * cos (dToR (35999.373 * jcent jd - 2.47)) +
      7 * cos (2 * dToR (35999.373 * jcent jd - 2.47)) := by
    have a1 : dToR (((-247000000000000000000000 : ℤ) + (35999373000000000 : ℤ) * (jcent jd * 10 ^ 11)) / 10 ^ 23) =
        dToR (35999.373 * jcent jd - 2.47) := by unfold dToR; push_cast; ring
    have a2 : dToR (((-494000000000000000000000 : ℤ) + (71998746000000000 : ℤ) * (jcent jd * 10 ^ 11)) / 10 ^ 23) =
        2 * dToR (35999.373 * jcent jd - 2.47) := by unfold dToR; push_cast; ring
    unfold degS denRows
    simp only [List.map_cons, List.map_nil, List.sum_cons, List.sum_nil, add_zero]
    rw [a1, a2]
    norm_num
  unfold equinoxCorrection
  simp only
  rw [e1 _ (by decide +kernel), e2]
  unfold corrRows
  congr 1
  ring

theorem den_pos (u : ℝ) : 0.9659 ≤ 1 + degS denRows u / 10 ^ 4 := by
  have h := degS_abs denRows u
  have n : (denRows.map fun r => r.1).sum = 341 := by decide +kernel
  rw [n] at h
  have := neg_le_of_abs_le h
  norm_num at this ⊢
  linarith

theorem corr_abs (u : ℝ) : |degS corrRows u| ≤ 1978 := by
  have h := degS_abs corrRows u
  have n : (corrRows.map fun r => r.1).sum = 1978 := by decide +kernel
  rw [n] at h
  exact h

theorem corr_lip (u w : ℝ) :
    |degS corrRows u / (1 + degS denRows u / 10 ^ 4) - degS corrRows w / (1 + degS denRows w / 10 ^ 4)| ≤
      2.105e-5 * |u - w| := by
  have p := pi_lt_d6
  have h1 := degS_lip corrRows u w
  have h2 := degS_lip denRows u w
  have n1 : (corrRows.map fun r => r.1 * r.2.2.natAbs).sum = 113497466944000000000 := by decide +kernel
  have n2 : (denRows.map fun r => r.1 * r.2.2.natAbs).sum = 12527781804000000000 := by decide +kernel
  rw [n1] at h1
  rw [n2] at h2
  have m0 := abs_nonneg (u - w)
  generalize |u - w| = m at *
  have k : π / 180 / 10 ^ 23 * m ≤ 3.141593 / 180 / 10 ^ 23 * m := by gcongr
  have g1 : |degS corrRows u - degS corrRows w| ≤ 1.981e-5 * m := by
    refine h1.trans ((mul_le_mul_of_nonneg_left k (Nat.cast_nonneg _)).trans ?_)
    norm_num; linarith
  have g2 : |degS denRows u - degS denRows w| ≤ 2.19e-6 * m := by
    refine h2.trans ((mul_le_mul_of_nonneg_left k (Nat.cast_nonneg _)).trans ?_)
    norm_num; linarith
  have d1 := den_pos u
  have d2 := den_pos w
  have s := corr_abs w
  generalize degS corrRows u = S at *
  generalize degS corrRows w = S' at *
  generalize degS denRows u = D at *
  generalize degS denRows w = D' at *
  obtain ⟨q, hq⟩ : ∃ q, q = 1 + D / 10 ^ 4 := ⟨_, rfl⟩
  obtain ⟨q', hq'⟩ : ∃ q', q' = 1 + D' / 10 ^ 4 := ⟨_, rfl⟩
  rw [← hq] at d1 ⊢
  rw [← hq'] at d2 ⊢
  have q0 : 0 < q := lt_of_lt_of_le (by norm_num) d1
  have q0' : 0 < q' := lt_of_lt_of_le (by norm_num) d2
  have e : S / q - S' / q' = (S - S') / q + S' * ((D' - D) / 10 ^ 4) / (q * q') := by
    have : (D' - D) / 10 ^ 4 = q' - q := by rw [hq, hq']; ring
    rw [this]
    field_simp
    ring
  rw [e]
  refine (abs_add_le _ _).trans ?_
  have a1 : |(S - S') / q| ≤ 1.981e-5 * m / 0.9659 := by
    rw [abs_div, abs_of_pos q0]
    exact div_le_div₀ (by positivity) g1 (by norm_num) d1
  have a2 : |S' * ((D' - D) / 10 ^ 4) / (q * q')| ≤ 1978 * (2.19e-6 * m / 10 ^ 4) / (0.9659 * 0.9659) := by
    rw [abs_div, abs_of_pos (mul_pos q0 q0'), abs_mul, abs_div, abs_sub_comm D' D,
      abs_of_pos (by norm_num : (0 : ℝ) < 10 ^ 4)]
    refine div_le_div₀ (by positivity) (mul_le_mul s (div_le_div_of_nonneg_right g2 (by norm_num))
      (by positivity) (by norm_num)) (by norm_num) (mul_le_mul d1 d2 (by norm_num) q0.le)
  refine (add_le_add a1 a2).trans ?_
  norm_num
  linarith

theorem corr_near {u w : ℝ} (h : |u - w| ≤ 42985) :
    |degS corrRows u / (1 + degS denRows u / 10 ^ 4) - degS corrRows w / (1 + degS denRows w / 10 ^ 4)| ≤
      0.905 := by
  refine (corr_lip u w).trans ?_
  norm_num
  linarith

/-- The correction used in a lane. -/
theorem lane_corr {u : ℝ} {vs vd : ℤ} (hs : |(vs : ℝ) / 2 ^ 56 - degS corrRows u| ≤ 2.6e-4)
    (hd : |(vd : ℝ) / 2 ^ 56 - degS denRows u| ≤ 4.2e-5) :
    |((10000000000000000 * vs / (720575940379279360000 + vd) : ℤ) : ℝ) -
      10 ^ 12 * (degS corrRows u / (1 + degS denRows u / 10 ^ 4))| ≤ 10 ^ 9 := by
  have d1 := den_pos u
  have s := corr_abs u
  generalize degS corrRows u = S at *
  generalize degS denRows u = D at *
  obtain ⟨y, hy⟩ : ∃ y, y = (vs : ℝ) / 2 ^ 56 := ⟨_, rfl⟩
  obtain ⟨w, hw⟩ : ∃ w, w = (vd : ℝ) / 2 ^ 56 := ⟨_, rfl⟩
  rw [← hy] at hs
  rw [← hw] at hd
  have ey : (vs : ℝ) = y * 2 ^ 56 := by rw [hy]; field_simp
  have ew : (vd : ℝ) = w * 2 ^ 56 := by rw [hw]; field_simp
  obtain ⟨q, hq⟩ : ∃ q, q = 1 + D / 10 ^ 4 := ⟨_, rfl⟩
  rw [← hq] at d1 ⊢
  have q0 : 0 < q := lt_of_lt_of_le (by norm_num) d1
  obtain ⟨w1, w2⟩ := abs_le.1 hd
  have eD : D = 10 ^ 4 * (q - 1) := by rw [hq]; ring
  have r1 : 9650 ≤ 10 ^ 4 + w := by rw [eD] at w1; norm_num at w1 d1 ⊢; linarith
  have r0 : 0 < 10 ^ 4 + w := lt_of_lt_of_le (by norm_num) r1
  have pos : (0 : ℤ) < 720575940379279360000 + vd := by
    have : (0 : ℝ) < ((720575940379279360000 + vd : ℤ) : ℝ) := by
      push_cast
      rw [ew, show (720575940379279360000 : ℝ) + w * 2 ^ 56 = (10 ^ 4 + w) * 2 ^ 56 by norm_num; ring]
      positivity
    exact_mod_cast this
  have f := ediv_near (10000000000000000 * vs) pos
  have e : ((10000000000000000 * vs : ℤ) : ℝ) / ((720575940379279360000 + vd : ℤ) : ℝ) =
      10 ^ 16 * y / (10 ^ 4 + w) := by
    push_cast
    rw [ew, ey, show (720575940379279360000 : ℝ) + w * 2 ^ 56 = (10 ^ 4 + w) * 2 ^ 56 by norm_num; ring]
    field_simp
    norm_num
    ring
  rw [e] at f
  generalize ((10000000000000000 * vs / (720575940379279360000 + vd) : ℤ) : ℝ) = z at *
  have e2 : 10 ^ 16 * y / (10 ^ 4 + w) - 10 ^ 12 * (S / q) =
      10 ^ 16 * ((y - S) / (10 ^ 4 + w)) + 10 ^ 12 * (S * (D - w) / ((10 ^ 4 + w) * q)) := by
    rw [eD]
    field_simp
    ring
  have a1 : |(y - S) / (10 ^ 4 + w)| ≤ 2.6e-4 / 9650 := by
    rw [abs_div, abs_of_pos r0]
    exact div_le_div₀ (by norm_num) hs (by norm_num) r1
  have a2 : |S * (D - w) / ((10 ^ 4 + w) * q)| ≤ 1978 * 4.2e-5 / (9650 * 0.9659) := by
    rw [abs_div, abs_of_pos (mul_pos r0 q0), abs_mul, abs_sub_comm D w]
    exact div_le_div₀ (by norm_num) (mul_le_mul s hd (abs_nonneg _) (by norm_num)) (by norm_num)
      (mul_le_mul r1 d1 (by norm_num) r0.le)
  have t := abs_sub_le z (10 ^ 16 * y / (10 ^ 4 + w)) (10 ^ 12 * (S / q))
  rw [e2] at t
  have t2 := abs_add_le (10 ^ 16 * ((y - S) / (10 ^ 4 + w))) (10 ^ 12 * (S * (D - w) / ((10 ^ 4 + w) * q)))
  rw [abs_mul, abs_mul, abs_of_pos (by norm_num : (0 : ℝ) < 10 ^ 16),
    abs_of_pos (by norm_num : (0 : ℝ) < 10 ^ 12)] at t2
  norm_num at a1 a2 t t2 f ⊢
  linarith

/-! ## The nutation -/

/-- The five arguments are close to linear functions. -/
def LinOK (q : Lin) (T : ℝ) : Prop :=
  |polyR kD T - dToR ((q.aD + q.bD * T) / 10 ^ 12)| ≤ dToR 0.028 ∧
  |polyR kM T - dToR ((q.aM + q.bM * T) / 10 ^ 12)| ≤ dToR 0.0022 ∧
  |polyR kM1 T - dToR ((q.aP + q.bP * T) / 10 ^ 12)| ≤ dToR 0.1205 ∧
  |polyR kF T - dToR ((q.aF + q.bF * T) / 10 ^ 12)| ≤ dToR 0.0486 ∧
  |polyR ko T - dToR ((q.aO + q.bO * T) / 10 ^ 12)| ≤ dToR 0.0284

theorem poly_lin (a0 a1 a2 a3 a4 A B t m e : ℝ)
    (h0 : |a0 + a1 * t + a2 * t ^ 2 + a3 * t ^ 3 + a4 * t ^ 4 - (A + B * t)| ≤ m)
    (h2 : |a0 + a1 * t + a2 * t ^ 2 + a3 * t ^ 3 + a4 * t ^ 4 - (A + B * t) +
      26.3169 * (a2 + 3 * a3 * t + 6 * a4 * t ^ 2)| ≤ m)
    (he : m + 5.13 * |a1 + 2 * a2 * t + 3 * a3 * t ^ 2 + 4 * a4 * t ^ 3 - B| +
      135.1 * |a3 + 4 * a4 * t| + 692.6 * |a4| ≤ e) {T : ℝ} (hT : |T - t| ≤ 5.13) :
    |polyR [dToR a0, dToR a1, dToR a2, dToR a3, dToR a4] T - dToR (A + B * T)| ≤ dToR e := by
  obtain ⟨s, hs⟩ : ∃ s, s = T - t := ⟨_, rfl⟩
  rw [← hs] at hT
  have eT : T = t + s := by rw [hs]; ring
  obtain ⟨r0, e0⟩ : ∃ r0, r0 = a0 + a1 * t + a2 * t ^ 2 + a3 * t ^ 3 + a4 * t ^ 4 - (A + B * t) := ⟨_, rfl⟩
  obtain ⟨r1, e1⟩ : ∃ r1, r1 = a1 + 2 * a2 * t + 3 * a3 * t ^ 2 + 4 * a4 * t ^ 3 - B := ⟨_, rfl⟩
  obtain ⟨r2, e2⟩ : ∃ r2, r2 = a2 + 3 * a3 * t + 6 * a4 * t ^ 2 := ⟨_, rfl⟩
  obtain ⟨r3, e3⟩ : ∃ r3, r3 = a3 + 4 * a4 * t := ⟨_, rfl⟩
  have key : polyR [dToR a0, dToR a1, dToR a2, dToR a3, dToR a4] T - dToR (A + B * T) =
      dToR ((r0 + r2 * s ^ 2) + r1 * s + r3 * s ^ 3 + a4 * s ^ 4) := by
    rw [e0, e1, e2, e3, eT]
    simp only [polyR, horner]
    unfold dToR
    ring
  rw [← e0] at h0
  rw [← e0, ← e2] at h2
  rw [← e1, ← e3] at he
  rw [key, dToR_abs]
  have s2 : s ^ 2 ≤ 26.3169 := by
    rw [← sq_abs]
    exact (pow_le_pow_left₀ (abs_nonneg _) hT 2).trans (by norm_num)
  have s3 : |s| ^ 3 ≤ 135.1 := (pow_le_pow_left₀ (abs_nonneg _) hT 3).trans (by norm_num)
  have s4 : |s| ^ 4 ≤ 692.6 := (pow_le_pow_left₀ (abs_nonneg _) hT 4).trans (by norm_num)
  have b0 : |r0 + r2 * s ^ 2| ≤ m := by
    obtain ⟨x1, x2⟩ := abs_le.1 h0
    obtain ⟨y1, y2⟩ := abs_le.1 h2
    have n := sq_nonneg s
    have e : r0 + r2 * s ^ 2 = (1 - s ^ 2 / 26.3169) * r0 + s ^ 2 / 26.3169 * (r0 + 26.3169 * r2) := by
      norm_num; ring
    have p1 : 0 ≤ s ^ 2 / 26.3169 := by positivity
    have p2 : 0 ≤ 1 - s ^ 2 / 26.3169 := by
      rw [sub_nonneg, div_le_one (by norm_num)]; exact s2
    rw [e, abs_le]
    generalize s ^ 2 / 26.3169 = v at *
    generalize r0 + 26.3169 * r2 = w at *
    constructor <;> nlinarith
  have tot : |(r0 + r2 * s ^ 2) + r1 * s + r3 * s ^ 3 + a4 * s ^ 4| ≤ e := by
    refine (abs_add_le _ _).trans ?_
    have t1 := abs_add_le (r0 + r2 * s ^ 2 + r1 * s) (r3 * s ^ 3)
    have t2 := abs_add_le (r0 + r2 * s ^ 2) (r1 * s)
    have q1 : |r1 * s| ≤ 5.13 * |r1| := by
      rw [abs_mul, mul_comm]; exact mul_le_mul_of_nonneg_right hT (abs_nonneg _)
    have q3 : |r3 * s ^ 3| ≤ 135.1 * |r3| := by
      rw [abs_mul, abs_pow, mul_comm]; exact mul_le_mul_of_nonneg_right s3 (abs_nonneg _)
    have q4 : |a4 * s ^ 4| ≤ 692.6 * |a4| := by
      rw [abs_mul, abs_pow, mul_comm]; exact mul_le_mul_of_nonneg_right s4 (abs_nonneg _)
    linarith
  unfold dToR
  have := Real.pi_pos
  gcongr

/-- A row of the nutation. -/
theorem nutRow_eq (q : Lin) (k : ℤ) (r : NutRow) (T : ℝ) :
    ((nutRow q k r).1 : ℝ) * cos (dToR (((nutRow q k r).2.1 + (nutRow q k r).2.2 * (T * 10 ^ 11)) / 10 ^ 23)) =
      k * sin (dToR ((q.aD + q.bD * T) / 10 ^ 12) * r.1 + dToR ((q.aM + q.bM * T) / 10 ^ 12) * r.2.1 +
        dToR ((q.aP + q.bP * T) / 10 ^ 12) * r.2.2.1 + dToR ((q.aF + q.bF * T) / 10 ^ 12) * r.2.2.2.1 +
        dToR ((q.aO + q.bO * T) / 10 ^ 12) * r.2.2.2.2.1) := by
  generalize hθ : dToR ((q.aD + q.bD * T) / 10 ^ 12) * r.1 + dToR ((q.aM + q.bM * T) / 10 ^ 12) * r.2.1 +
        dToR ((q.aP + q.bP * T) / 10 ^ 12) * r.2.2.1 + dToR ((q.aF + q.bF * T) / 10 ^ 12) * r.2.2.2.1 +
        dToR ((q.aO + q.bO * T) / 10 ^ 12) * r.2.2.2.2.1 = θ
  have e : dToR (((nutRow q k r).2.1 + (nutRow q k r).2.2 * (T * 10 ^ 11)) / 10 ^ 23) =
      θ + dToR (quart k / 10 ^ 23) := by
    rw [← hθ]
    unfold nutRow dToR
    push_cast
    ring
  rw [e]
  cases k with
  | ofNat n =>
    have e1 : dToR ((quart (Int.ofNat n) : ℝ) / 10 ^ 23) = -(π / 2) := by
      unfold quart dToR; push_cast; ring
    rw [e1, ← sub_eq_add_neg, cos_sub_pi_div_two]
    unfold nutRow
    simp
  | negSucc n =>
    have e1 : dToR ((quart (Int.negSucc n) : ℝ) / 10 ^ 23) = π / 2 := by
      unfold quart dToR; push_cast; ring
    rw [e1, cos_add_pi_div_two]
    unfold nutRow
    simp [Int.natAbs_negSucc]
    ring

/-- Bound of the error of the linear arguments, in units of `1e-4` degree. -/
def nutW (k : ℤ) (r : NutRow) : ℕ :=
  k.natAbs * (280 * r.1.natAbs + 22 * r.2.1.natAbs + 1205 * r.2.2.1.natAbs + 486 * r.2.2.2.1.natAbs +
    284 * r.2.2.2.2.1.natAbs)

theorem sin_lip (x y : ℝ) : |sin x - sin y| ≤ |x - y| := by
  have := abs_cos_sub_le (x - π / 2) (y - π / 2)
  rw [cos_sub_pi_div_two, cos_sub_pi_div_two] at this
  rwa [show x - π / 2 - (y - π / 2) = x - y by ring] at this

theorem nutRow_near {q : Lin} {T : ℝ} (h : LinOK q T) (k : ℤ) (r : NutRow) :
    |k * sin (nutArg T r) - ((nutRow q k r).1 : ℝ) *
      cos (dToR (((nutRow q k r).2.1 + (nutRow q k r).2.2 * (T * 10 ^ 11)) / 10 ^ 23))| ≤
      dToR (nutW k r / 10 ^ 4) := by
  rw [nutRow_eq, ← mul_sub, abs_mul]
  obtain ⟨h1, h2, h3, h4, h5⟩ := h
  refine (mul_le_mul_of_nonneg_left (sin_lip _ _) (abs_nonneg _)).trans ?_
  unfold nutArg
  generalize polyR kD T = x1 at *
  generalize polyR kM T = x2 at *
  generalize polyR kM1 T = x3 at *
  generalize polyR kF T = x4 at *
  generalize polyR ko T = x5 at *
  generalize dToR ((q.aD + q.bD * T) / 10 ^ 12) = y1 at *
  generalize dToR ((q.aM + q.bM * T) / 10 ^ 12) = y2 at *
  generalize dToR ((q.aP + q.bP * T) / 10 ^ 12) = y3 at *
  generalize dToR ((q.aF + q.bF * T) / 10 ^ 12) = y4 at *
  generalize dToR ((q.aO + q.bO * T) / 10 ^ 12) = y5 at *
  have c : ∀ (x y e : ℝ) (n : ℤ), |x - y| ≤ e → |(x - y) * n| ≤ e * n.natAbs := by
    intro x y e n hxy
    rw [abs_mul, Nat.cast_natAbs, Int.cast_abs]
    exact mul_le_mul_of_nonneg_right hxy (abs_nonneg _)
  have g1 := c _ _ _ r.1 h1
  have g2 := c _ _ _ r.2.1 h2
  have g3 := c _ _ _ r.2.2.1 h3
  have g4 := c _ _ _ r.2.2.2.1 h4
  have g5 := c _ _ _ r.2.2.2.2.1 h5
  have ek : (|(k : ℝ)|) = (k.natAbs : ℝ) := by rw [Nat.cast_natAbs, Int.cast_abs]
  have e : x1 * r.1 + x2 * r.2.1 + x3 * r.2.2.1 + x4 * r.2.2.2.1 + x5 * r.2.2.2.2.1 -
      (y1 * r.1 + y2 * r.2.1 + y3 * r.2.2.1 + y4 * r.2.2.2.1 + y5 * r.2.2.2.2.1) =
      (x1 - y1) * r.1 + (x2 - y2) * r.2.1 + (x3 - y3) * r.2.2.1 + (x4 - y4) * r.2.2.2.1 +
      (x5 - y5) * r.2.2.2.2.1 := by ring
  have b : |(x1 - y1) * r.1 + (x2 - y2) * r.2.1 + (x3 - y3) * r.2.2.1 + (x4 - y4) * r.2.2.2.1 +
      (x5 - y5) * r.2.2.2.2.1| ≤ dToR 0.028 * r.1.natAbs + dToR 0.0022 * r.2.1.natAbs +
      dToR 0.1205 * r.2.2.1.natAbs + dToR 0.0486 * r.2.2.2.1.natAbs + dToR 0.0284 * r.2.2.2.2.1.natAbs := by
    refine (abs_add_le _ _).trans (add_le_add ?_ g5)
    refine (abs_add_le _ _).trans (add_le_add ?_ g4)
    refine (abs_add_le _ _).trans (add_le_add ?_ g3)
    exact (abs_add_le _ _).trans (add_le_add g1 g2)
  rw [e, ek]
  refine (mul_le_mul_of_nonneg_left b (Nat.cast_nonneg _)).trans (le_of_eq ?_)
  unfold nutW dToR
  push_cast
  ring

theorem nut_sum {q : Lin} {T : ℝ} (h : LinOK q T) (k : NutRow → ℤ) (thr : ℕ) (l : List NutRow) :
    |(l.map fun r => (k r : ℝ) * sin (nutArg T r)).sum -
      degS ((l.filter fun r => Nat.ble thr (k r).natAbs).map fun r => nutRow q (k r) r) (T * 10 ^ 11)| ≤
      (((l.filter fun r => !Nat.ble thr (k r).natAbs).map fun r => (k r).natAbs).sum : ℕ) +
      dToR ((((l.filter fun r => Nat.ble thr (k r).natAbs).map fun r => nutW (k r) r).sum : ℕ) / 10 ^ 4) := by
  unfold degS
  induction l with
  | nil => simp [dToR]
  | cons r l ih =>
    by_cases hk : Nat.ble thr (k r).natAbs = true
    · rw [List.filter_cons_of_pos (p := fun r : NutRow => Nat.ble thr (k r).natAbs) hk,
        List.filter_cons_of_neg (p := fun r : NutRow => !Nat.ble thr (k r).natAbs) (by simp [hk])]
      simp only [List.map_cons, List.sum_cons]
      have n := nutRow_near h (k r) r
      rw [add_sub_add_comm]
      refine (abs_add_le _ _).trans ((add_le_add n ih).trans (le_of_eq ?_))
      unfold dToR
      rw [Nat.cast_add]
      ring
    · rw [List.filter_cons_of_neg (p := fun r : NutRow => Nat.ble thr (k r).natAbs) hk,
        List.filter_cons_of_pos (p := fun r : NutRow => !Nat.ble thr (k r).natAbs) (by simp [hk])]
      simp only [List.map_cons, List.sum_cons]
      rw [add_sub_assoc, Nat.cast_add, add_assoc]
      refine (abs_add_le _ _).trans (add_le_add ?_ ih)
      rw [abs_mul, Nat.cast_natAbs, Int.cast_abs]
      exact mul_le_of_le_one_right (abs_nonneg _) (abs_sin_le_one _)

/-- The nutation in longitude, in units of `1e-4` second. -/
theorem nut_near {q : Lin} {T : ℝ} (h : LinOK q T) (hT : |T| ≤ 31) :
    |10 ^ 4 * nutPsi T - (degS (nutRows0 q) (T * 10 ^ 11) + T / 10 * degS (nutRows1 q) (T * 10 ^ 11))| ≤
      450 := by
  have a := nut_sum h (fun r => r.2.2.2.2.2.1) 20 Data.nutationTable
  have b := nut_sum h (fun r => r.2.2.2.2.2.2.1) 5 Data.nutationTable
  have a1 : ((Data.nutationTable.filter fun r : NutRow => !Nat.ble 20 r.2.2.2.2.2.1.natAbs).map
    fun r => r.2.2.2.2.2.1.natAbs).sum = 244 := by decide +kernel
  have b1 : ((Data.nutationTable.filter fun r : NutRow => !Nat.ble 5 r.2.2.2.2.2.2.1.natAbs).map
    fun r => r.2.2.2.2.2.2.1.natAbs).sum = 14 := by decide +kernel
  have a2 : ((Data.nutationTable.filter fun r : NutRow => Nat.ble 20 r.2.2.2.2.2.1.natAbs).map
    fun r => nutW r.2.2.2.2.2.1 r).sum ≤ 88000000 := by decide +kernel
  have b2 : ((Data.nutationTable.filter fun r : NutRow => Nat.ble 5 r.2.2.2.2.2.2.1.natAbs).map
    fun r => nutW r.2.2.2.2.2.2.1 r).sum ≤ 600000 := by decide +kernel
  rw [a1] at a
  rw [b1] at b
  have e : 10 ^ 4 * nutPsi T = (Data.nutationTable.map fun r : NutRow =>
      (r.2.2.2.2.2.1 : ℝ) * sin (nutArg T r)).sum + T / 10 * (Data.nutationTable.map fun r : NutRow =>
      (r.2.2.2.2.2.2.1 : ℝ) * sin (nutArg T r)).sum := by
    unfold nutPsi
    generalize Data.nutationTable = l
    induction l with
    | nil => simp
    | cons r l ih =>
      simp only [List.map_cons, List.sum_cons]
      rw [mul_add, ih]
      ring
  rw [e]
  unfold nutRows0 nutRows1
  have c : ∀ n m : ℕ, n ≤ m → dToR ((n : ℝ) / 10 ^ 4) ≤ (m : ℝ) * 1.7454e-6 := by
    intro n m hn
    have : (n : ℝ) ≤ m := by exact_mod_cast hn
    unfold dToR
    have p := pi_lt_d6
    have p0 := Real.pi_pos
    calc (n : ℝ) / 10 ^ 4 * π / 180 ≤ (m : ℝ) / 10 ^ 4 * 3.141593 / 180 := by gcongr
      _ ≤ (m : ℝ) * 1.7454e-6 := by norm_num; nlinarith [Nat.cast_nonneg (α := ℝ) m]
  have a3 := c _ _ a2
  have b3 := c _ _ b2
  generalize (Data.nutationTable.map fun r : NutRow => (r.2.2.2.2.2.1 : ℝ) * sin (nutArg T r)).sum = x at *
  generalize (Data.nutationTable.map fun r : NutRow => (r.2.2.2.2.2.2.1 : ℝ) * sin (nutArg T r)).sum = y at *
  generalize degS _ (T * 10 ^ 11) = x' at *
  generalize degS _ (T * 10 ^ 11) = y' at *
  have t : |T / 10| ≤ 3.1 := by
    rw [abs_div, abs_of_pos (by norm_num : (0 : ℝ) < 10)]; norm_num; linarith
  have z := mul_le_mul t b (abs_nonneg _) (by norm_num)
  rw [← abs_mul] at z
  rw [show x + T / 10 * y - (x' + T / 10 * y') = (x - x') + T / 10 * (y - y') by ring]
  refine (abs_add_le _ _).trans ((add_le_add a z).trans ?_)
  norm_num at a3 b3 ⊢
  linarith

/-! ## The longitude -/

/-- The number compared in a lane. -/
theorem lane_total {x n0 n1 hh r : ℤ} {T : ℕ} {a b P E : ℝ}
    (hx : |(x : ℝ) / 36525000000000000000000| ≤ 3)
    (h0 : |(n0 : ℝ) / 2 ^ 56 - a| ≤ 0.025) (h1 : |(n1 : ℝ) / 2 ^ 56 - b| ≤ 3e-4)
    (hP : |(hh : ℝ) / 2 ^ 56 - P| ≤ E) (hr : |(r : ℝ)| ≤ 20000)
    (h : |hh + 12635086232855042288074620928 +
        45276089780943541618206966808576 * x / 36525000000000000000000 +
        (10 * (n0 + x * n1 / 36525000000000000000000) - 148295465278778185351168) * 4848136811095360 /
          1000000000000000 - r * 11318780403245504441215985672077180928 / 1000000000| ≤ T) :
    |P + 175347045673 + 628331966747491 * (x / 36525000000000000000000) +
      48.4813681109536 * (a + x / 36525000000000000000000 * b - 205801.3) - r * (π / 2) * 10 ^ 11| ≤
      T / 2 ^ 56 + E + 3 := by
  have hR : |((hh + 12635086232855042288074620928 +
        45276089780943541618206966808576 * x / 36525000000000000000000 +
        (10 * (n0 + x * n1 / 36525000000000000000000) - 148295465278778185351168) * 4848136811095360 /
          1000000000000000 - r * 11318780403245504441215985672077180928 / 1000000000 : ℤ) : ℝ)| ≤ T := by
    exact_mod_cast h
  have f1 := ediv_near (45276089780943541618206966808576 * x) (b := 36525000000000000000000) (by norm_num)
  have f2 := ediv_near (x * n1) (b := 36525000000000000000000) (by norm_num)
  have f3 := ediv_near ((10 * (n0 + x * n1 / 36525000000000000000000) - 148295465278778185351168) *
    4848136811095360) (b := 1000000000000000) (by norm_num)
  have f4 := ediv_near (r * 11318780403245504441215985672077180928) (b := 1000000000) (by norm_num)
  have p1 := pi_gt_d20
  have p2 := pi_lt_d20
  simp only [Int.cast_add, Int.cast_sub, Int.cast_mul, Int.cast_ofNat] at hR f1 f2 f3 f4
  generalize (((45276089780943541618206966808576 * x) / 36525000000000000000000 : ℤ) : ℝ) = q1 at *
  generalize (((x * n1) / 36525000000000000000000 : ℤ) : ℝ) = q2 at *
  generalize (((10 * (n0 + x * n1 / 36525000000000000000000) - 148295465278778185351168) *
    4848136811095360 / 1000000000000000 : ℤ) : ℝ) = q3 at *
  generalize ((r * 11318780403245504441215985672077180928 / 1000000000 : ℤ) : ℝ) = q4 at *
  rw [mul_div_assoc] at f1
  rw [mul_div_right_comm] at f2
  generalize (x : ℝ) / 36525000000000000000000 = τ at *
  obtain ⟨y0, e0⟩ : ∃ y, y = (n0 : ℝ) / 2 ^ 56 := ⟨_, rfl⟩
  obtain ⟨y1, e1⟩ : ∃ y, y = (n1 : ℝ) / 2 ^ 56 := ⟨_, rfl⟩
  obtain ⟨yh, eh⟩ : ∃ y, y = (hh : ℝ) / 2 ^ 56 := ⟨_, rfl⟩
  have g0 : (n0 : ℝ) = y0 * 2 ^ 56 := by rw [e0]; field_simp
  have g1 : (n1 : ℝ) = y1 * 2 ^ 56 := by rw [e1]; field_simp
  have gh : (hh : ℝ) = yh * 2 ^ 56 := by rw [eh]; field_simp
  rw [← e0] at h0
  rw [← e1] at h1
  rw [← eh] at hP
  rw [g0] at f3
  rw [g1] at f2
  rw [gh] at hR
  have hb := mul_le_mul hx h1 (abs_nonneg _) (by norm_num)
  rw [← abs_mul] at hb
  have k : |(r : ℝ) * (314159265358979323846 / 10 ^ 20 - π)| ≤ 20000 * 1e-19 := by
    rw [abs_mul]
    refine mul_le_mul hr ?_ (abs_nonneg _) (by norm_num)
    rw [abs_le]; norm_num at p1 p2 ⊢; constructor <;> linarith
  have e : P + 175347045673 + 628331966747491 * τ + 48.4813681109536 * (a + τ * b - 205801.3) -
      r * (π / 2) * 10 ^ 11 =
      (yh * 2 ^ 56 + 12635086232855042288074620928 + q1 + q3 - q4) / 2 ^ 56 - (yh - P) -
      (q1 - 45276089780943541618206966808576 * τ) / 2 ^ 56 -
      (q3 - (10 * (y0 * 2 ^ 56 + q2) - 148295465278778185351168) * 4848136811095360 / 1000000000000000) / 2 ^ 56 +
      (q4 - r * 11318780403245504441215985672077180928 / 1000000000) / 2 ^ 56 -
      48.4813681109536 * (y0 - a) - 48.4813681109536 * (τ * (y1 - b)) -
      48.4813681109536 * ((q2 - τ * (y1 * 2 ^ 56)) / 2 ^ 56) +
      (r * (314159265358979323846 / 10 ^ 20 - π)) / 2 * 10 ^ 11 := by
    norm_num
    ring
  rw [e]
  have i0 : |(yh * 2 ^ 56 + 12635086232855042288074620928 + q1 + q3 - q4) / 2 ^ 56| ≤ (T : ℝ) / 2 ^ 56 := by
    rw [abs_div, abs_of_pos (by positivity : (0 : ℝ) < 2 ^ 56)]
    exact div_le_div_of_nonneg_right hR (by positivity)
  have c56 : ∀ {y : ℝ}, |y| ≤ 1 → |y / 2 ^ 56| ≤ 1e-16 := by
    intro y hy
    rw [abs_div, abs_of_pos (by positivity : (0 : ℝ) < 2 ^ 56), div_le_iff₀ (by positivity)]
    exact hy.trans (by norm_num)
  have i1 := c56 f1
  have i2 := c56 f2
  have i3 := c56 f3
  have i4 := c56 f4
  generalize (yh * 2 ^ 56 + 12635086232855042288074620928 + q1 + q3 - q4) / 2 ^ 56 = w0 at *
  generalize (q1 - 45276089780943541618206966808576 * τ) / 2 ^ 56 = w1 at *
  generalize (q3 - (10 * (y0 * 2 ^ 56 + q2) - 148295465278778185351168) * 4848136811095360 /
    1000000000000000) / 2 ^ 56 = w2 at *
  generalize (q4 - r * 11318780403245504441215985672077180928 / 1000000000) / 2 ^ 56 = w3 at *
  generalize (q2 - τ * (y1 * 2 ^ 56)) / 2 ^ 56 = w4 at *
  generalize (r : ℝ) * (314159265358979323846 / 10 ^ 20 - π) = w5 at *
  generalize τ * (y1 - b) = w6 at *
  generalize (T : ℝ) / 2 ^ 56 = t at *
  obtain ⟨a0, b0⟩ := abs_le.1 i0
  obtain ⟨a1, b1⟩ := abs_le.1 i1
  obtain ⟨a2, b2⟩ := abs_le.1 i2
  obtain ⟨a3, b3⟩ := abs_le.1 i3
  obtain ⟨a4, b4⟩ := abs_le.1 i4
  obtain ⟨a5, b5⟩ := abs_le.1 k
  obtain ⟨a6, b6⟩ := abs_le.1 hb
  obtain ⟨a7, b7⟩ := abs_le.1 h0
  obtain ⟨a8, b8⟩ := abs_le.1 hP
  rw [abs_le]
  norm_num at a1 b1 a2 b2 a3 b3 a4 b4 a5 b5 a6 b6 a7 b7 ⊢
  constructor <;> linarith

theorem fk_near {jd : ℝ} (h : |millennia jd| ≤ 6) :
    |fkDelta jd (sunApp jd) (-poisson Data.earthB (millennia jd)) + arcsec 0.09033| ≤ 1e-9 := by
  obtain ⟨-, -, -, -, -, b1⟩ := earth6 _ _ h h
  unfold fkDelta
  generalize poisson Data.earthB (millennia jd) = B at *
  generalize fkArg jd (sunApp jd) = u
  have tz : |tan (-B)| ≤ 0.000022 := by
    have := tan_lip (b := -B) (c := 0) (by rw [abs_neg]; norm_num at b1 ⊢; linarith) (by norm_num)
    rw [tan_zero, sub_zero, sub_zero, abs_neg] at this
    norm_num at this b1 ⊢; linarith
  have c2 : |cos u + sin u| ≤ 2 := by
    refine (abs_add_le _ _).trans ?_
    linarith [abs_cos_le_one u, abs_sin_le_one u]
  rw [fk2_eq, show arcsec (-0.09033) = -arcsec 0.09033 by unfold arcsec; ring,
    show ∀ x y : ℝ, -x + y + x = y by intros; ring, abs_mul, abs_mul, abs_of_pos fk3_bound.1]
  have q : fk3 * |cos u + sin u| * |tan (-B)| ≤ 2e-7 * 2 * 0.000022 :=
    mul_le_mul (mul_le_mul fk3_bound.2 c2 (abs_nonneg _) (by norm_num)) tz (abs_nonneg _) (by norm_num)
  exact q.trans (by norm_num)

/-- The apparent longitude as series, nutation and constants. -/
theorem sunLambda_parts {jd : ℝ} (h : |millennia jd| ≤ 6) :
    |sunLambda jd - (pval Data.earthL (millennia jd) + π + nutationInLongitude jd - arcsec 20.58013)| ≤
      2.571e-6 := by
  obtain ⟨-, -, -, r1, r2, b1⟩ := earth6 _ _ h h
  have r0 : 0 < poisson Data.earthR (millennia jd) := lt_of_lt_of_le (by norm_num) r1
  have ab : |aberrationLow (poisson Data.earthR (millennia jd)) + arcsec 20.4898| ≤ 2.57e-6 := by
    rw [(aberration_low_value _ r0).1]
    generalize poisson Data.earthR (millennia jd) = R at *
    have e : -arcsec (20.4898 / R) + arcsec 20.4898 = arcsec (20.4898 * ((R - 1) / R)) := by
      unfold arcsec
      field_simp
      ring
    have k : |(R - 1) / R| ≤ 0.02586 := by
      rw [abs_div, abs_of_pos r0, div_le_iff₀ r0, abs_le]
      norm_num at r1 r2 ⊢
      constructor <;> linarith
    rw [e, abs_arcsec, abs_mul, abs_of_pos (by norm_num : (0 : ℝ) < 20.4898)]
    unfold arcsec
    have p := pi_lt_d6
    have p0 := Real.pi_pos
    calc 20.4898 * |(R - 1) / R| * (π / 648000) ≤ 20.4898 * 0.02586 * (3.141593 / 648000) := by gcongr
      _ ≤ 2.57e-6 := by norm_num
  have fk := fk_near h
  unfold sunLambda
  generalize fkDelta jd (sunApp jd) (-poisson Data.earthB (millennia jd)) = f at *
  unfold sunApp
  rw [poisson_eq_pval, show arcsec 20.58013 = arcsec 20.4898 + arcsec 0.09033 by unfold arcsec; ring]
  generalize aberrationLow (poisson Data.earthR (millennia jd)) = g at *
  rw [show ∀ a p n g f x y : ℝ, a + p + (n + g) + f - (a + p + n - (x + y)) = (g + x) + (f + y) by
    intros; ring]
  refine (abs_add_le _ _).trans ((add_le_add ab fk).trans ?_)
  norm_num

theorem head_earth (t : ℝ) : 10 ^ 11 * pval Data.earthL t = 10 ^ 11 * pval (tail1 (tail0 Data.earthL)) t +
    175347045673 + 628331966747491 * t := by
  rw [pval_head0 (c := Data.earthL) (a := 175347045673) (by decide +kernel),
    pval_head1 (c := tail0 Data.earthL) (a := 628331966747491) (by decide +kernel)]
  push_cast
  ring

/-- Conversion of `1e-4` second into `1e-11`. -/
theorem asec_near : |10 ^ 7 * (π / 648000) - 48.4813681109536| ≤ 1e-12 := by
  have p1 := pi_gt_d20
  have p2 := pi_lt_d20
  rw [abs_le]
  norm_num at p1 p2 ⊢
  constructor <;> linarith

theorem block_lambda {U H a b c d e z h : ℤ} {q : Lin} {T n : ℕ} {ex : List ℕ}
    (hb : blockN U H q a b c d e z h T ex n = true) (hn : n ≤ 1024)
    (hq : ∀ j < n, LinOK q ((U + j * H) / 10 ^ 11)) {j : ℕ} (hj : j < n) (hx : j ∉ ex) (hr : |((h + 4 * j : ℤ) : ℝ)| ≤ 20000)
    {jd : ℝ} (hjd : jd = ((((e * (z + j) + d) * (z + j) + c) * (z + j) + b) * (z + j) + a : ℤ) / 10 ^ 17 + 2451545) :
    |millennia (jd + equinoxCorrection jd)| ≤ 5.9 ∧
    |(h + 4 * j) * (π / 2) + π - sunLambda (jd + equinoxCorrection jd)| ≤ (T / 2 ^ 56 + 592000) / 10 ^ 11 := by
  unfold blockN at hb
  rw [withBlk_spec] at hb
  obtain ⟨s, hs, es⟩ := withSums_spec U H q
  rw [es] at hb
  have hl := allP_spec hb j hj
  rw [pickT_eq hx] at hl
  obtain ⟨x, vs, vd, n0, n1, hh, ex', x1, x2, x3, w1, w2, w3, w4, w5, w6⟩ :=
    laneN_spec (k := ⟨U, H, a, b, c, d, e, z, h⟩) hs (lt_of_lt_of_le hj hn) hl
  have tot := lane_total x3 w3 w4 w5 hr w6
  have hqj := hq j hj
  obtain ⟨u, hu⟩ : ∃ u : ℝ, u = U + j * H := ⟨_, rfl⟩
  have bn1 : |degS (nutRows1 q) u| ≤ 2000 := by
    refine (degS_abs _ _).trans ?_
    have l : ((nutRows1 q).map fun r => r.1).sum ≤ degA (nutRows1 q) := by
      unfold degA
      exact List.sum_le_sum fun r _ => Nat.le_succ _
    exact_mod_cast l.trans (degA_nut1 q)
  have bn0 : |degS (nutRows0 q) u| ≤ 200000 := by
    refine (degS_abs _ _).trans ?_
    have l : ((nutRows0 q).map fun r => r.1).sum ≤ degA (nutRows0 q) := by
      unfold degA
      exact List.sum_le_sum fun r _ => Nat.le_succ _
    exact_mod_cast l.trans (degA_nut0 q)
  obtain ⟨N, hN⟩ : ∃ N : ℤ, N = (((e * (z + j) + d) * (z + j) + c) * (z + j) + b) * (z + j) + a := ⟨_, rfl⟩
  have eN : (⟨U, H, a, b, c, d, e, z, h⟩ : Blk).poly (z + j) = N := by rw [hN]; rfl
  rw [← hN] at hjd
  simp only [eN, ← hu] at ex' x1 x2 w1 w2 tot hqj
  have er : ((h + 4 * j : ℤ) : ℝ) = h + 4 * j := by push_cast; ring
  rw [er] at tot
  -- the time
  have cu := lane_corr w1 w2
  have c1 : jcent jd * 10 ^ 11 = N / 36525000000 := by
    rw [hjd]; unfold jcent; ring
  have c2 : |u - N / 36525000000| ≤ 42985 := by
    rw [show u - N / 36525000000 = -((N - u * 36525000000) / 36525000000) by field_simp; ring, abs_neg,
      abs_div, abs_of_pos (by norm_num : (0 : ℝ) < 36525000000), div_le_iff₀ (by norm_num)]
    exact x2.trans (by norm_num)
  have c3 := corr_near c2
  have c4 : equinoxCorrection jd = 0.00001 * (degS corrRows (N / 36525000000) /
      (1 + degS denRows (N / 36525000000) / 10 ^ 4)) := by
    rw [corr_eq, c1, mul_div_assoc]
  have exR : (x : ℝ) = N + ((10000000000000000 * vs / (720575940379279360000 + vd) : ℤ) : ℝ) := by
    rw [ex']; push_cast; ring
  have near : |(jd + equinoxCorrection jd) - (x / 10 ^ 17 + 2451545)| ≤ 9.06e-6 := by
    rw [c4, exR, hjd]
    generalize ((10000000000000000 * vs / (720575940379279360000 + vd) : ℤ) : ℝ) = v at *
    generalize degS corrRows u / (1 + degS denRows u / 10 ^ 4) = g at *
    generalize degS corrRows (N / 36525000000) / (1 + degS denRows (N / 36525000000) / 10 ^ 4) = g' at *
    rw [abs_le] at *
    norm_num at cu c3 ⊢
    constructor <;> linarith [cu.1, cu.2, c3.1, c3.2]
  clear cu c3 c4 exR ex' w1 w2 x2 c1 c2 hjd
  generalize jd + equinoxCorrection jd = A at *
  have mx : millennia (x / 10 ^ 17 + 2451545) = x / 36525000000000000000000 := by
    unfold millennia; ring
  have mA : |millennia A - millennia (x / 10 ^ 17 + 2451545)| ≤ 2.481e-11 := by
    rw [show millennia A - millennia (x / 10 ^ 17 + 2451545) = (A - (x / 10 ^ 17 + 2451545)) / 365250 by
      unfold millennia; ring, abs_div, abs_of_pos (by norm_num : (0 : ℝ) < 365250), div_le_iff₀ (by norm_num)]
    exact near.trans (by norm_num)
  have x6 : |millennia (x / 10 ^ 17 + 2451545)| ≤ 6 := by rw [mx]; linarith
  have a59 : |millennia A| ≤ 5.9 := by
    have := abs_add_le (millennia A - millennia (x / 10 ^ 17 + 2451545)) (millennia (x / 10 ^ 17 + 2451545))
    rw [sub_add_cancel, mx] at this
    rw [mx] at mA
    norm_num at this mA ⊢; linarith
  refine ⟨a59, ?_⟩
  have lam := sunLambda_rate (x := A) (y := x / 10 ^ 17 + 2451545) (a59.trans (by norm_num)) x6
  have parts := sunLambda_parts x6
  -- the nutation
  have eT : jcent (u * 1e-12 * 365250 + 2451545) = u / 10 ^ 11 := by unfold jcent; ring
  have mu : millennia (u * 1e-12 * 365250 + 2451545) = u * 1e-12 := by unfold millennia; ring
  have du : |millennia (x / 10 ^ 17 + 2451545) - millennia (u * 1e-12 * 365250 + 2451545)| ≤ 7.119e-8 := by
    rw [mx, mu, show x / 36525000000000000000000 - u * 1e-12 =
      ((x : ℝ) - u * 36525000000) / 36525000000000000000000 by ring, abs_div,
      abs_of_pos (by norm_num : (0 : ℝ) < 36525000000000000000000), div_le_iff₀ (by norm_num)]
    exact x1.trans (by norm_num)
  have u3 : |u * 1e-12| ≤ 3.01 := by
    have := abs_add_le (millennia (u * 1e-12 * 365250 + 2451545) - millennia (x / 10 ^ 17 + 2451545))
      (millennia (x / 10 ^ 17 + 2451545))
    rw [sub_add_cancel, abs_sub_comm, mu, mx] at this
    rw [mu, mx] at du
    norm_num at this du ⊢; linarith
  have nl := nutation_lip x6 (y := u * 1e-12 * 365250 + 2451545) (by rw [mu]; norm_num at u3 ⊢; linarith)
  rw [nutationInLongitude_eq (u * 1e-12 * 365250 + 2451545), dToR_sec, eT] at nl
  have nn := nut_near hqj (by
    rw [show u / 10 ^ 11 = 10 * (u * 1e-12) by ring, abs_mul, abs_of_pos (by norm_num : (0 : ℝ) < 10)]
    norm_num at u3 ⊢; linarith)
  rw [div_mul_cancel₀ _ (by norm_num : (10 : ℝ) ^ 11 ≠ 0)] at nn
  rw [show arcsec (nutPsi (u / 10 ^ 11)) = 10 ^ 4 * nutPsi (u / 10 ^ 11) * (10 ^ 7 * (π / 648000)) / 10 ^ 11 by
    unfold arcsec; ring] at nl
  have as : arcsec 20.58013 = 205801.3 * (10 ^ 7 * (π / 648000)) / 10 ^ 11 := by unfold arcsec; ring
  rw [as, mx] at parts
  rw [mx] at lam mA
  rw [mx, mu] at du
  rw [mx, mu] at nl
  have hd := head_earth (x / 36525000000000000000000)
  have ve := vErr_earth
  have sn := asec_near
  have us : u / 10 ^ 11 / 10 = u * 1e-12 := by ring
  rw [us] at nn
  clear eT mu mx as w3 w4 w5 w6 hqj near x1 hl hb es hs hq
  generalize (x : ℝ) / 36525000000000000000000 = τ at *
  generalize 10 ^ 7 * (π / 648000) = κ at *
  generalize 10 ^ 4 * nutPsi (u / 10 ^ 11) = ψ at *
  generalize degS (nutRows0 q) u = d0 at *
  generalize degS (nutRows1 q) u = d1 at *
  generalize pval Data.earthL τ = L at *
  generalize 10 ^ 11 * pval (tail1 (tail0 Data.earthL)) τ = L' at *
  generalize (leftTot 1500 1 (tail1 (tail0 Data.earthL)) : ℝ) + vErr 1 (tail1 (tail0 Data.earthL)) = E at *
  generalize nutationInLongitude (x / 10 ^ 17 + 2451545) = ν at *
  generalize sunLambda (x / 10 ^ 17 + 2451545) = l at *
  generalize sunLambda A = l' at *
  generalize millennia A = t' at *
  generalize u * 1e-12 = t at *
  generalize ((h : ℝ) + 4 * j) = r at *
  generalize (T : ℝ) / 2 ^ 56 = T' at *
  have s1 : |l' - l| ≤ 1.6413e-7 := by
    have := abs_add_le (l' - l - 6283.32 * (t' - τ)) (6283.32 * (t' - τ))
    rw [sub_add_cancel, abs_mul, abs_of_pos (by norm_num : (0 : ℝ) < 6283.32)] at this
    norm_num at this mA lam ⊢
    linarith
  have s2 : |(τ - t) * d1| ≤ 7.119e-8 * 2000 := by
    rw [abs_mul]; exact mul_le_mul du bn1 (abs_nonneg _) (by norm_num)
  have s3 : |τ * d1| ≤ 3 * 2000 := by
    rw [abs_mul]; exact mul_le_mul x3 bn1 (abs_nonneg _) (by norm_num)
  have s4 : |(κ - 48.4813681109536) * (d0 + τ * d1 - 205801.3)| ≤ 1e-12 * 500000 := by
    rw [abs_mul]
    refine mul_le_mul sn ?_ (abs_nonneg _) (by norm_num)
    obtain ⟨m1, m2⟩ := abs_le.1 bn0
    obtain ⟨m3, m4⟩ := abs_le.1 s3
    rw [abs_le]; norm_num; constructor <;> linarith
  have s5 : |κ * (ψ - (d0 + t * d1) - (τ - t) * d1)| ≤ 48.4814 * 450.001 := by
    rw [abs_mul]
    obtain ⟨k1, k2⟩ := abs_le.1 sn
    refine mul_le_mul ?_ ?_ (abs_nonneg _) (by norm_num)
    · rw [abs_le]; norm_num at k1 k2 ⊢; constructor <;> linarith
    · refine (abs_sub _ _).trans ((add_le_add nn s2).trans (by norm_num))
  have key : r * (π / 2) + π - l' = -(l' - l) - (l - (L + π + ν - 205801.3 * κ / 10 ^ 11)) -
      (ν - ψ * κ / 10 ^ 11) -
      (L' + 175347045673 + 628331966747491 * τ + 48.4813681109536 * (d0 + τ * d1 - 205801.3) -
        r * (π / 2) * 10 ^ 11) / 10 ^ 11 - (κ - 48.4813681109536) * (d0 + τ * d1 - 205801.3) / 10 ^ 11 -
      κ * (ψ - (d0 + t * d1) - (τ - t) * d1) / 10 ^ 11 := by
    have : L = (L' + 175347045673 + 628331966747491 * τ) / 10 ^ 11 := by rw [← hd]; ring
    rw [this]
    ring
  rw [key]
  have nl' : |ν - ψ * κ / 10 ^ 11| ≤ 2.1357e-7 := by
    norm_num at du nl ⊢; linarith
  generalize l' - l = v1 at *
  generalize l - (L + π + ν - 205801.3 * κ / 10 ^ 11) = v2 at *
  generalize ν - ψ * κ / 10 ^ 11 = v3 at *
  generalize L' + 175347045673 + 628331966747491 * τ + 48.4813681109536 * (d0 + τ * d1 - 205801.3) -
        r * (π / 2) * 10 ^ 11 = v4 at *
  generalize (κ - 48.4813681109536) * (d0 + τ * d1 - 205801.3) = v5 at *
  generalize κ * (ψ - (d0 + t * d1) - (τ - t) * d1) = v6 at *
  obtain ⟨a1, b1⟩ := abs_le.1 s1
  obtain ⟨a2, b2⟩ := abs_le.1 parts
  obtain ⟨a3, b3⟩ := abs_le.1 nl'
  obtain ⟨a4, b4⟩ := abs_le.1 tot
  obtain ⟨a5, b5⟩ := abs_le.1 s4
  obtain ⟨a6, b6⟩ := abs_le.1 s5
  rw [abs_le]
  norm_num at a1 b1 a2 b2 a3 b3 a5 b5 a6 b6 ⊢
  constructor <;> linarith

end Verif
