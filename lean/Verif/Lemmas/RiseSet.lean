import Verif.Model.RiseSet
import Verif.Spec.RiseSet
import Verif.Props.Interpolation
import Verif.Lemmas.LightTime
import Mathlib.Geometry.Euclidean.Triangle
import Mathlib.Topology.Order.IntermediateValue

/-!
# Lemmas about hour angles, transits and altitudes
-/

namespace Verif
open Real

/-! ### The parabola -/

theorem parabola_eq (u : ℝ × ℝ × ℝ) (n : ℝ) :
    parabola u n = u.2.1 + n / 2 * ((u.2.1 - u.1) + (u.2.2 - u.2.1) +
      n * ((u.2.2 - u.2.1) - (u.2.1 - u.1))) := by
  unfold parabola; ring

theorem parabola_lip {u : ℝ × ℝ × ℝ} {s c r n n' : ℝ} (h : Slow s c u) (hn : |n| ≤ r) (hn' : |n'| ≤ r) :
    |parabola u n - parabola u n'| ≤ (s + r * c) * |n - n'| := by
  obtain ⟨h1, h2, h3⟩ := h
  have e : parabola u n - parabola u n' = (((u.2.1 - u.1) + (u.2.2 - u.2.1)) / 2 +
      (n + n') / 2 * (u.2.2 - 2 * u.2.1 + u.1)) * (n - n') := by
    unfold parabola; ring
  rw [e, abs_mul]
  refine mul_le_mul_of_nonneg_right ?_ (abs_nonneg _)
  refine (abs_add_le _ _).trans (add_le_add ?_ ?_)
  · rw [abs_le] at *; constructor <;> linarith
  · rw [abs_mul]
    refine mul_le_mul ?_ h3 (abs_nonneg _) ((abs_nonneg n).trans hn)
    rw [abs_le] at *; constructor <;> linarith

theorem parabola_near {u : ℝ × ℝ × ℝ} {s c n : ℝ} (h : Slow s c u) (hn : |n| ≤ 1.1) :
    |parabola u n - u.2.1| ≤ 1.1 * s + 1.21 * (c / 2) := by
  obtain ⟨h1, h2, h3⟩ := h
  have e : parabola u n - u.2.1 = n * (((u.2.1 - u.1) + (u.2.2 - u.2.1)) / 2) +
      n ^ 2 * ((u.2.2 - 2 * u.2.1 + u.1) / 2) := by
    unfold parabola; ring
  rw [e]
  refine (abs_add_le _ _).trans (add_le_add ?_ ?_)
  · rw [abs_mul]
    have : |((u.2.1 - u.1) + (u.2.2 - u.2.1)) / 2| ≤ s := by
      rw [abs_le] at *; constructor <;> linarith
    exact mul_le_mul hn this (abs_nonneg _) (by norm_num)
  · rw [abs_mul, abs_pow]
    have : |(u.2.2 - 2 * u.2.1 + u.1) / 2| ≤ c / 2 := by
      rw [abs_le] at *; constructor <;> linarith
    have q : |n| ^ 2 ≤ 1.21 := (pow_le_pow_left₀ (abs_nonneg n) hn 2).trans (by norm_num)
    exact mul_le_mul q this (abs_nonneg _) (by norm_num)

theorem parabola_continuous (u : ℝ × ℝ × ℝ) : Continuous (parabola u) := by
  unfold parabola; fun_prop

/-- What the code interpolates, if the values are reductions of a slow sequence. -/
theorem code_ra {y u : ℝ × ℝ × ℝ} {s c n : ℝ} (hr : Reduced y u) (h : Slow s c u) (hs : s < π) (hc : c < π)
    (hn0 : -1 < n) (hn1 : n < 1) :
    interpolateAngle3 n y.1 y.2.1 y.2.2 = .ok (y.2.1 - u.2.1 + parabola u n) := by
  obtain ⟨⟨a0, b0, c0⟩, ⟨a1, b1, c1⟩, ⟨a2, b2, c2⟩⟩ := hr
  obtain ⟨h1, h2, h3⟩ := h
  rw [abs_le] at h1 h2 h3
  have ea : diffAngle y.1 y.2.1 = u.2.1 - u.1 :=
    diff_angle_unwrap a0 b0 a1 b1 c0 c1 (by linarith) (by linarith)
  have eb : diffAngle y.2.1 y.2.2 = u.2.2 - u.2.1 :=
    diff_angle_unwrap a1 b1 a2 b2 c1 c2 (by linarith) (by linarith)
  have ec : diffAngle (u.2.1 - u.1) (u.2.2 - u.2.1) = (u.2.2 - u.2.1) - (u.2.1 - u.1) := by
    obtain ⟨r1, r2⟩ := diff_angle_range (u.2.1 - u.1) (u.2.2 - u.2.1)
      (by rw [abs_lt]; constructor <;> linarith [pi_pos])
    exact repr_unique (diff_angle_congr _ _) r1 r2 (by linarith) (by linarith)
  unfold interpolateAngle3
  rw [if_neg (by tauto)]
  simp only [ea, eb, ec, parabola_eq]
  congr 1
  ring

theorem code_dec (d : ℝ × ℝ × ℝ) {n : ℝ} (hn0 : -1 < n) (hn1 : n < 1) :
    interpolate3 (fun x => x) n d.1 d.2.1 d.2.2 = .ok (parabola d n) := by
  unfold interpolate3
  rw [if_neg (by tauto)]
  simp only [parabola_eq]

/-! ### Sidereal time -/

theorem rsK1_eq : rsK1 = 2 * π * (1 + 0.985647 / 360) := by
  unfold rsK1 dToR; ring_nf

/-- Within a day sidereal time grows uniformly, up to `1.3e-6` degrees. -/
theorem gmst_uniform {jd m : ℝ} (h : |jd - 2451545| ≤ 1100000) (hm : |m| ≤ 1.2) :
    |gmstDegrees (jd + m) - gmstDegrees jd - 360.985647 * m| ≤ 1.3e-6 := by
  unfold gmstDegrees
  set x := jd - 2451545 with hx
  have e : jd + m - 2451545 = x + m := by rw [hx]; ring
  rw [e]
  have e2 : 280.46061837 + 360.98564736629 * (x + m) + 0.000387933 * ((x + m) / 36525) ^ 2 -
      ((x + m) / 36525) ^ 3 / 38710000 - (280.46061837 + 360.98564736629 * x +
      0.000387933 * (x / 36525) ^ 2 - (x / 36525) ^ 3 / 38710000) - 360.985647 * m =
      m * (0.00000036629 + 0.000387933 / 36525 ^ 2 * (2 * x + m) -
        (3 * x ^ 2 + 3 * x * m + m ^ 2) / (36525 ^ 3 * 38710000)) := by
    norm_num; ring
  rw [e2, abs_mul]
  norm_num at hm
  have h3 : |x ^ 2| ≤ 1100000 ^ 2 := by
    rw [abs_pow]; exact pow_le_pow_left₀ (abs_nonneg _) h 2
  have h4 : |m ^ 2| ≤ (6 / 5) ^ 2 := by
    rw [abs_pow]; exact pow_le_pow_left₀ (abs_nonneg _) hm 2
  have h5 : |x * m| ≤ 1100000 * (6 / 5) := by
    rw [abs_mul]; exact mul_le_mul h hm (abs_nonneg _) (by norm_num)
  have q : |0.00000036629 + 0.000387933 / 36525 ^ 2 * (2 * x + m) -
        (3 * x ^ 2 + 3 * x * m + m ^ 2) / (36525 ^ 3 * 38710000)| ≤ 1.05e-6 := by
    rw [abs_le] at *
    norm_num
    constructor <;> linarith
  have := mul_le_mul hm q (abs_nonneg _) (by norm_num)
  refine this.trans (by norm_num)

/-! ### The hour angle of the code -/

/-- The right ascension interpolated by the code. -/
noncomputable def codeRa (y u : ℝ × ℝ × ℝ) (n : ℝ) : ℝ := y.2.1 - u.2.1 + parabola u n

/-- The hour angle in the vicinity of the first estimate `mu` of the code. -/
noncomputable def localH (y u : ℝ × ℝ × ℝ) (dT mu m : ℝ) : ℝ :=
  rsK1 * m - 2 * π * mu + y.2.1 - codeRa y u (m + dT)

theorem localH_continuous (y u : ℝ × ℝ × ℝ) (dT mu : ℝ) : Continuous (localH y u dT mu) := by
  have := parabola_continuous u
  unfold localH codeRa; fun_prop

theorem rsK1_bounds : 6.3 < rsK1 ∧ rsK1 < 6.301 := by
  rw [rsK1_eq]
  have h1 := Real.pi_gt_d4
  have h2 := Real.pi_lt_d4
  norm_num at h1 h2 ⊢
  constructor <;> linarith

theorem code_hour_angle {lon y1 a th mu m g : ℝ} (hl0 : -π ≤ lon) (hl1 : lon ≤ π) (hy0 : 0 ≤ y1)
    (hy1 : y1 < 2 * π) (ha : |a - y1| ≤ 0.51) (hmu : Congr (2 * π) th (y1 + lon - 2 * π * mu))
    (hg : g = rsK1 * m - 2 * π * mu + y1 - a) (hg1 : |g| ≤ 2) :
    diffAngle 0 (modpi2 (th + rsK1 * m) - lon - a) = g := by
  obtain ⟨m0, m1, mc⟩ := modpi2_spec (th + rsK1 * m)
  have hp := Real.pi_gt_d4
  norm_num at hp ha
  rw [abs_le] at ha hg1
  set X := modpi2 (th + rsK1 * m) - lon - a with hX
  have cX : Congr (2 * π) X g := by
    obtain ⟨k, e⟩ := mc
    obtain ⟨j, e2⟩ := hmu
    exact ⟨k + j, by rw [hX, e, e2, hg]; push_cast; ring⟩
  have bX : |X| ≤ 3 * π := by
    obtain ⟨k, e⟩ := cX
    rw [abs_le]
    by_contra hc
    rw [not_and_or, not_le, not_le] at hc
    rcases hc with hc | hc
    · have k1 : (k : ℝ) < -1 := by
        by_contra h
        rw [not_lt] at h
        nlinarith
      have k2 : (k : ℝ) ≤ -2 := by
        have : k < -1 := by exact_mod_cast k1
        exact_mod_cast (by omega : k ≤ -2)
      nlinarith
    · have k1 : (1 : ℝ) < k := by
        by_contra h
        rw [not_lt] at h
        nlinarith
      have k2 : (2 : ℝ) ≤ k := by
        have : 1 < k := by exact_mod_cast k1
        exact_mod_cast (by omega : 2 ≤ k)
      nlinarith
  have r := (diff_angle_range_iff 0 X).mpr (by simpa using bX)
  have c2 : Congr (2 * π) (diffAngle 0 X) g := by
    have := diff_angle_congr 0 X
    rw [sub_zero] at this
    exact congr_trans this cX
  obtain ⟨k, e⟩ := c2
  have k0 : k = 0 := by
    have k1 : (k : ℝ) < 1 := by nlinarith
    have k2 : (-1 : ℝ) < k := by nlinarith
    have k1' : k < 1 := by exact_mod_cast k1
    have k2' : -1 < k := by exact_mod_cast k2
    omega
  rw [e, k0]; simp

/-- The hour angle grows by more than 5.7 and less than 7 a day. -/
theorem localH_diff {y u : ℝ × ℝ × ℝ} {dT mu m m' : ℝ} (h : Slow 0.4 0.1 u) (hn : |m + dT| ≤ 1.2)
    (hn' : |m' + dT| ≤ 1.2) :
    |localH y u dT mu m - localH y u dT mu m' - rsK1 * (m - m')| ≤ 0.52 * |m - m'| := by
  have := parabola_lip h hn hn'
  have e : localH y u dT mu m - localH y u dT mu m' - rsK1 * (m - m') =
      -(parabola u (m + dT) - parabola u (m' + dT)) := by
    unfold localH codeRa; ring
  rw [e, abs_neg]
  refine this.trans (le_of_eq ?_)
  rw [show m + dT - (m' + dT) = m - m' by ring]
  norm_num

/-- There is a zero within a tenth of a day of the first estimate. -/
theorem localH_root {y u : ℝ × ℝ × ℝ} {dT mu : ℝ} (h : Slow 0.4 0.1 u) (h0 : 0 ≤ mu) (h1 : mu ≤ 1)
    (hn : |mu + dT| ≤ 1.1) : ∃ m, |m - mu| ≤ 0.1 ∧ localH y u dT mu m = 0 := by
  have hk := rsK1_bounds
  have hp := Real.pi_gt_d4
  have hp' := Real.pi_lt_d4
  have g0 : |localH y u dT mu mu| ≤ 0.52 := by
    have := parabola_near h hn
    have e : localH y u dT mu mu = (rsK1 - 2 * π) * mu - (parabola u (mu + dT) - u.2.1) := by
      unfold localH codeRa; ring
    rw [e, abs_le]
    rw [abs_le] at this
    norm_num at this hk hp hp' ⊢
    have q0 : 0 ≤ (rsK1 - 2 * π) * mu := mul_nonneg (by linarith) h0
    have q1 : (rsK1 - 2 * π) * mu ≤ (rsK1 - 2 * π) * 1 := mul_le_mul_of_nonneg_left h1 (by linarith)
    constructor <;> linarith
  rw [abs_le] at hn
  norm_num at hn
  have up := localH_diff (y := y) (mu := mu) (m := mu + 0.1) (m' := mu) (dT := dT) h
    (by rw [abs_le]; norm_num; constructor <;> linarith)
    (by rw [abs_le]; norm_num; constructor <;> linarith)
  have dn := localH_diff (y := y) (mu := mu) (m := mu - 0.1) (m' := mu) (dT := dT) h
    (by rw [abs_le]; norm_num; constructor <;> linarith)
    (by rw [abs_le]; norm_num; constructor <;> linarith)
  rw [show mu + 0.1 - mu = 0.1 by ring] at up
  rw [show mu - 0.1 - mu = -0.1 by ring] at dn
  rw [abs_le] at up dn g0
  norm_num at up dn g0 hk
  norm_num [abs_of_pos] at up dn
  obtain ⟨m, hm, e⟩ := intermediate_value_Icc (a := mu - 0.1) (b := mu + 0.1) (by norm_num; linarith)
    (localH_continuous y u dT mu).continuousOn
    (show (0 : ℝ) ∈ Set.Icc _ _ by
      constructor <;> norm_num <;> linarith)
  refine ⟨m, ?_, e⟩
  rw [abs_le]
  exact ⟨by linarith [hm.1], by linarith [hm.2]⟩

/-- One pass brings the estimate at least eleven times closer. -/
theorem transit_contracts {y u : ℝ × ℝ × ℝ} {dT mu m z : ℝ} (h : Slow 0.4 0.1 u) (hn : |m + dT| ≤ 1.2)
    (hz : |z + dT| ≤ 1.2) (e : localH y u dT mu z = 0) :
    |m + -localH y u dT mu m / pi2 - z| ≤ 0.086 * |m - z| := by
  have hd := localH_diff (y := y) (mu := mu) h hn hz
  rw [e, sub_zero] at hd
  have hp := Real.pi_gt_d4
  have hpi := pi_pos
  have ee : m + -localH y u dT mu m / pi2 - z = -((localH y u dT mu m - rsK1 * (m - z)) / (2 * π)) -
      0.985647 / 360 * (m - z) := by
    unfold pi2; rw [rsK1_eq]; field_simp; ring
  rw [ee]
  have q1 : |(localH y u dT mu m - rsK1 * (m - z)) / (2 * π)| ≤ 0.083 * |m - z| := by
    rw [abs_div, abs_of_pos (by positivity : (0 : ℝ) < 2 * π), div_le_iff₀ (by positivity)]
    refine hd.trans ?_
    have : (0.52 : ℝ) ≤ 0.083 * (2 * π) := by norm_num at hp ⊢; linarith
    calc (0.52 : ℝ) * |m - z| ≤ 0.083 * (2 * π) * |m - z| := mul_le_mul_of_nonneg_right this (abs_nonneg _)
      _ = _ := by ring
  have q2 : |0.985647 / 360 * (m - z)| ≤ 0.00274 * |m - z| := by
    rw [abs_mul]
    refine mul_le_mul_of_nonneg_right ?_ (abs_nonneg _)
    rw [abs_of_pos] <;> norm_num
  have := abs_sub (-((localH y u dT mu m - rsK1 * (m - z)) / (2 * π))) (0.985647 / 360 * (m - z))
  rw [abs_neg] at this
  norm_num at q1 q2 this ⊢
  linarith [abs_nonneg (m - z)]

/-! ### The loop of `transit` -/

/-- What the loop needs to know: the reduced right ascensions, the longitude, sidereal time and the
first estimate fit together, and `z` is a zero of the hour angle near it. -/
structure TransitState (y u : ℝ × ℝ × ℝ) (lon th dT mu z : ℝ) : Prop where
  red : Reduced y u
  slow : Slow 0.4 0.1 u
  lon0 : -π ≤ lon
  lon1 : lon ≤ π
  theta : Congr (2 * π) th (y.2.1 + lon - 2 * π * mu)
  near : |z - mu| ≤ 0.1
  mu0 : 0 ≤ mu
  mu1 : mu ≤ 1
  zero : localH y u dT mu z = 0
  fac : |z + dT| ≤ 1.2

theorem TransitState.pass {y u : ℝ × ℝ × ℝ} {lon th dT mu z : ℝ} (S : TransitState y u lon th dT mu z)
    (jd : ℚ) (delta : ℝ) (k : ℕ) {m : ℝ} (hm : |m - z| ≤ 0.1) (hn0 : -1 < m + dT) (hn1 : m + dT < 1) :
    transitLoop jd th dT y delta lon (k + 1) m =
      let m' := m + -localH y u dT mu m / pi2
      if |m' - m| < delta then .ok (some (jd + m')) else transitLoop jd th dT y delta lon k m' := by
  have hk := rsK1_bounds
  have hz := S.near
  have hs := S.slow
  have hp := Real.pi_gt_d4
  norm_num at hk hp
  have ra := code_ra S.red hs (by norm_num; linarith) (by norm_num; linarith) hn0 hn1
  have hH : diffAngle 0 (modpi2 (th + rsK1 * m) - lon - (y.2.1 - u.2.1 + parabola u (m + dT))) =
      localH y u dT mu m := by
    refine code_hour_angle (y1 := y.2.1) (mu := mu) S.lon0 S.lon1 S.red.2.1.1 S.red.2.1.2.1 ?_ S.theta rfl ?_
    · have := parabola_near hs (n := m + dT) (by rw [abs_le]; norm_num; constructor <;> linarith)
      rw [show y.2.1 - u.2.1 + parabola u (m + dT) - y.2.1 = parabola u (m + dT) - u.2.1 by ring]
      refine this.trans (by norm_num)
    · have hd := localH_diff (y := y) (mu := mu) (m := m) (m' := z) (dT := dT) hs
        (by rw [abs_le]; norm_num; constructor <;> linarith) (S.fac)
      rw [S.zero, sub_zero, abs_le] at hd
      norm_num at hm hd
      have h1 : -(7 / 10) ≤ rsK1 * (m - z) ∧ rsK1 * (m - z) ≤ 7 / 10 := by
        rw [← abs_le, abs_mul, abs_of_pos (by linarith)]
        nlinarith [abs_nonneg (m - z)]
      rw [abs_le]
      constructor <;> linarith
  conv_lhs => unfold transitLoop
  simp only [bind, Except.bind]
  rw [if_neg (by tauto), ra]
  simp only [hH]

/-- Result of the loop if the precision is not beyond its reach. -/
theorem TransitState.loop {y u : ℝ × ℝ × ℝ} {lon th dT mu z : ℝ} (S : TransitState y u lon th dT mu z)
    (jd : ℚ) (delta : ℝ) : ∀ (k : ℕ) (m e : ℝ), |m - z| ≤ e → e ≤ 0.1 → 1.1 * 0.086 ^ k * e < delta →
      (transitLoop jd th dT y delta lon (k + 1) m = .ok none ∧ 0.9 ≤ |z + dT|) ∨
      ∃ t, transitLoop jd th dT y delta lon (k + 1) m = .ok (some t) ∧ |t - (jd + z)| ≤ 0.1 * delta := by
  intro k
  induction k with
  | zero =>
    intro m e he h1 hd
    by_cases hn : -1 < m + dT ∧ m + dT < 1
    · right
      rw [S.pass jd delta 0 (he.trans h1) hn.1 hn.2]
      have hc := transit_contracts (mu := mu) (m := m) (y := y) S.slow
        (abs_le.mpr ⟨by norm_num; linarith [hn.1], by norm_num; linarith [hn.2]⟩)
        (S.fac) S.zero
      set m' := m + -localH y u dT mu m / pi2 with hm'
      have a1 : |m' - m| ≤ |m' - z| + |m - z| := by
        have := abs_sub_le m' z m
        rwa [abs_sub_comm z m] at this
      have a0 : |m - z| ≤ |m' - m| + |m' - z| := by
        have := abs_sub_le m m' z
        rwa [abs_sub_comm m m'] at this
      norm_num at hc hd
      have lt : |m' - m| < delta := by linarith [abs_nonneg (m - z)]
      refine ⟨jd + m', if_pos lt, ?_⟩
      rw [show (jd : ℝ) + m' - (jd + z) = m' - z by ring]
      norm_num
      linarith [abs_nonneg (m - z)]
    · left
      refine ⟨?_, ?_⟩
      · unfold transitLoop
        simp only [bind, Except.bind]
        rw [if_pos (by tauto)]
      · have hmz := he.trans h1
        rw [abs_le] at hmz
        norm_num at hmz ⊢
        rw [not_and_or, not_lt, not_lt] at hn
        rw [le_abs]
        rcases hn with hn | hn
        · right; linarith [hmz.2]
        · left; linarith [hmz.1]
  | succ k ih =>
    intro m e he h1 hd
    by_cases hn : -1 < m + dT ∧ m + dT < 1
    · rw [S.pass jd delta (k + 1) (he.trans h1) hn.1 hn.2]
      have hc := transit_contracts (mu := mu) (m := m) (y := y) S.slow
        (abs_le.mpr ⟨by norm_num; linarith [hn.1], by norm_num; linarith [hn.2]⟩)
        (S.fac) S.zero
      simp only []
      set m' := m + -localH y u dT mu m / pi2 with hm'
      have a0 : |m - z| ≤ |m' - m| + |m' - z| := by
        have := abs_sub_le m m' z
        rwa [abs_sub_comm m m'] at this
      by_cases lt : |m' - m| < delta
      · right
        refine ⟨jd + m', if_pos lt, ?_⟩
        rw [show (jd : ℝ) + m' - (jd + z) = m' - z by ring]
        norm_num at hc ⊢
        linarith [abs_nonneg (m - z)]
      · rw [if_neg lt]
        refine ih m' (0.086 * e) (hc.trans (by norm_num; linarith)) ?_ ?_
        · norm_num at h1 ⊢; linarith [abs_nonneg (m - z)]
        · rw [pow_succ] at hd
          refine lt_of_eq_of_lt ?_ hd
          ring
    · left
      refine ⟨?_, ?_⟩
      · unfold transitLoop
        simp only [bind, Except.bind]
        rw [if_pos (by tauto)]
      · have hmz := he.trans h1
        rw [abs_le] at hmz
        norm_num at hmz ⊢
        rw [not_and_or, not_lt, not_lt] at hn
        rw [le_abs]
        rcases hn with hn | hn
        · right; linarith [hmz.2]
        · left; linarith [hmz.1]

/-! ### True hour angle -/

theorem hourAngle_continuous (jd lon dT : ℝ) (u : ℝ × ℝ × ℝ) : Continuous (hourAngle jd lon dT u) := by
  have := parabola_continuous u
  unfold hourAngle gmstDegrees; fun_prop

/-- Up to whole turns the hour angle of the code is the true one, within `2.3e-8`. -/
theorem hourAngle_localH {jd lon th dT mu : ℝ} {y u : ℝ × ℝ × ℝ} (hj : |jd - 2451545| ≤ 1100000)
    (hr : Reduced y u) (ht : Congr (2 * π) th (gmstDegrees jd * (π / 180)))
    (hm : Congr (2 * π) th (y.2.1 + lon - 2 * π * mu)) :
    ∃ K : ℤ, ∀ m, |m| ≤ 1.2 →
      |hourAngle jd lon dT u m - localH y u dT mu m - K * (2 * π)| ≤ 2.3e-8 := by
  obtain ⟨a, ea⟩ := ht
  obtain ⟨b, eb⟩ := hm
  obtain ⟨c, ec⟩ := hr.2.1.2.2
  refine ⟨b - a + c, fun m hm => ?_⟩
  have g := gmst_uniform hj hm
  have e : hourAngle jd lon dT u m - localH y u dT mu m - ((b - a + c : ℤ) : ℝ) * (2 * π) =
      (gmstDegrees (jd + m) - gmstDegrees jd - 360.985647 * m) * (π / 180) := by
    unfold hourAngle localH codeRa rsK1 dToR
    push_cast
    norm_num
    linear_combination eb - ea + ec
  rw [e, abs_mul, abs_of_pos (by positivity : (0 : ℝ) < π / 180)]
  have hp := Real.pi_lt_d4
  have := mul_le_mul g (show π / 180 ≤ 3.1416 / 180 by linarith) (by positivity) (by norm_num)
  refine this.trans (by norm_num)

/-- A zero for the code is within `1e-8` day of a true one. -/
theorem true_near {jd lon dT dT' mu z : ℝ} {y u : ℝ × ℝ × ℝ} {K : ℤ} (hs : Slow 0.4 0.1 u)
    (hK : ∀ m, |m| ≤ 1.2 → |hourAngle jd lon dT' u m - localH y u dT mu m - K * (2 * π)| ≤ 5e-8)
    (hz : |z| ≤ 1.1) (hf : |z + dT| ≤ 1.199) (e : localH y u dT mu z = 0) :
    ∃ w, |w - z| ≤ 1e-8 ∧ hourAngle jd lon dT' u w = K * (2 * π) := by
  have hk := rsK1_bounds
  rw [abs_le] at hz hf
  norm_num at hz hf hk
  have f0 : |z + dT| ≤ 1.2 := by rw [abs_le]; norm_num; constructor <;> linarith
  have up := localH_diff (y := y) (mu := mu) (m := z + 1e-8) (m' := z) (dT := dT) hs
    (by rw [abs_le]; norm_num; constructor <;> linarith) f0
  have dn := localH_diff (y := y) (mu := mu) (m := z - 1e-8) (m' := z) (dT := dT) hs
    (by rw [abs_le]; norm_num; constructor <;> linarith) f0
  have k1 := hK (z + 1e-8) (by rw [abs_le]; norm_num; constructor <;> linarith)
  have k2 := hK (z - 1e-8) (by rw [abs_le]; norm_num; constructor <;> linarith)
  rw [show z + 1e-8 - z = 1e-8 by ring] at up
  rw [show z - 1e-8 - z = -1e-8 by ring] at dn
  rw [e] at up dn
  rw [abs_neg] at dn
  rw [abs_of_pos (by norm_num : (0 : ℝ) < 1e-8)] at up dn
  rw [abs_le] at up dn k1 k2
  norm_num at up dn k1 k2
  obtain ⟨w, hw, ew⟩ := intermediate_value_Icc (a := z - 1e-8) (b := z + 1e-8) (by norm_num; linarith)
    (hourAngle_continuous jd lon dT' u).continuousOn
    (show (K * (2 * π) : ℝ) ∈ Set.Icc _ _ by
      constructor <;> norm_num <;> linarith)
  refine ⟨w, ?_, ew⟩
  rw [abs_le]
  exact ⟨by linarith [hw.1], by linarith [hw.2]⟩

/-- A true zero near the first estimate is within `1e-8` day of one for the code. -/
theorem code_near {jd lon dT dT' mu w : ℝ} {y u : ℝ × ℝ × ℝ} {K : ℤ} (hs : Slow 0.4 0.1 u)
    (hK : ∀ m, |m| ≤ 1.2 → |hourAngle jd lon dT' u m - localH y u dT mu m - K * (2 * π)| ≤ 5e-8)
    (hz : |w| ≤ 1.1) (hf : |w + dT| ≤ 1.1) (e : hourAngle jd lon dT' u w = K * (2 * π)) :
    ∃ z, |z - w| ≤ 1e-8 ∧ localH y u dT mu z = 0 := by
  have hk := rsK1_bounds
  rw [abs_le] at hz hf
  norm_num at hz hf hk
  have f0 : |w + dT| ≤ 1.2 := by rw [abs_le]; norm_num; constructor <;> linarith
  have up := localH_diff (y := y) (mu := mu) (m := w + 1e-8) (m' := w) (dT := dT) hs
    (by rw [abs_le]; norm_num; constructor <;> linarith) f0
  have dn := localH_diff (y := y) (mu := mu) (m := w - 1e-8) (m' := w) (dT := dT) hs
    (by rw [abs_le]; norm_num; constructor <;> linarith) f0
  have k1 := hK w (by rw [abs_le]; norm_num; constructor <;> linarith)
  rw [show w + 1e-8 - w = 1e-8 by ring] at up
  rw [show w - 1e-8 - w = -1e-8 by ring] at dn
  rw [abs_neg] at dn
  rw [abs_of_pos (by norm_num : (0 : ℝ) < 1e-8)] at up dn
  rw [e, show (K * (2 * π) : ℝ) - localH y u dT mu w - K * (2 * π) = -localH y u dT mu w by ring,
    abs_neg] at k1
  rw [abs_le] at up dn k1
  norm_num at up dn k1
  obtain ⟨z, hw, ew⟩ := intermediate_value_Icc (a := w - 1e-8) (b := w + 1e-8) (by norm_num; linarith)
    (localH_continuous y u dT mu).continuousOn
    (show (0 : ℝ) ∈ Set.Icc _ _ by
      constructor <;> norm_num <;> linarith)
  refine ⟨z, ?_, ew⟩
  rw [abs_le]
  exact ⟨by linarith [hw.1], by linarith [hw.2]⟩

/-! ### The first estimate -/

theorem rsReduce_ok {x m : ℝ} (h : rsReduce x = .ok m) : 0 ≤ m ∧ m ≤ 1 ∧ ∃ j : ℤ, m = x + j := by
  unfold rsReduce at h
  simp only at h
  split_ifs at h with a b c d e
  · cases h; exact ⟨b.1, b.2, 1, by simp⟩
  · cases h; exact ⟨d.1, d.2, -1, by push_cast; ring⟩
  · cases h; exact ⟨e.1, e.2, 0, by simp⟩

theorem rsReduce_cases (x : ℝ) :
    (rsReduce x = .error (.Error "riseset" "m is out of range") ∧ (x < -1 ∨ 2 < x)) ∨
    ((∃ m, rsReduce x = .ok m) ∧ -1 ≤ x ∧ x ≤ 2) := by
  unfold rsReduce
  simp only
  split_ifs with a b c d e
  · exact .inr ⟨⟨_, rfl⟩, by linarith [b.1], by linarith⟩
  · refine .inl ⟨rfl, .inl ?_⟩
    by_contra hc
    exact b ⟨by linarith, by linarith⟩
  · exact .inr ⟨⟨_, rfl⟩, by linarith, by linarith [d.2]⟩
  · refine .inl ⟨rfl, .inr ?_⟩
    by_contra hc
    exact d ⟨by linarith, by linarith⟩
  · exact .inr ⟨⟨_, rfl⟩, by linarith, by linarith⟩
  · exact absurd ⟨by linarith, by linarith⟩ e

end Verif
